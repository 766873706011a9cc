import Verif.Props.SystemsProps
import Verif.Props.DimProps

/-!
# Arithmetic on the shipped dimensions: C66
-/

namespace Verif

open Systems

set_option Elab.async false

namespace Systems

/-- An expression on dimensions: what happens to the dimensions in an expression on quantities. -/
inductive DExpr where
  | dim (d : Dim)
  | mul (a b : DExpr)
  | div (a b : DExpr)
  | inv (a : DExpr)
  | pow (a : DExpr) (n : Int)

/-- The dimension of an expression, src/core/include/units/bits/dimension_op.h:79-198. -/
def DExpr.eval (Γ : DimReg) : DExpr → C Dim
  | .dim d => .ok d
  | .mul a b => do
    let x ← a.eval Γ
    let y ← b.eval Γ
    dimMultiply Γ x y
  | .div a b => do
    let x ← a.eval Γ
    let y ← b.eval Γ
    dimDivide Γ x y
  | .inv a => do
    let x ← a.eval Γ
    dimInvert Γ x
  | .pow a n => do
    let x ← a.eval Γ
    dimPow Γ x n 1

/-- Specification: the exponent of a base dimension in an expression. -/
def DExpr.exp (b : BaseDim) : DExpr → ℚ
  | .dim d => d.exp b
  | .mul x y => x.exp b + y.exp b
  | .div x y => x.exp b - y.exp b
  | .inv x => - x.exp b
  | .pow x n => n * x.exp b

/-- The dimensions an expression is built of satisfy `P`. -/
def DExpr.All (P : Dim → Prop) : DExpr → Prop
  | .dim d => P d
  | .mul x y => x.All P ∧ y.All P
  | .div x y => x.All P ∧ y.All P
  | .inv x => x.All P
  | .pow x _ => x.All P

/-- Powers are positive and no power of ten gets lost in them (`PowExact`, C15). -/
def DExpr.Powers (Γ : DimReg) : DExpr → Prop
  | .dim _ => True
  | .mul x y => x.Powers Γ ∧ y.Powers Γ
  | .div x y => x.Powers Γ ∧ y.Powers Γ
  | .inv x => x.Powers Γ
  | .pow x n => x.Powers Γ ∧ 0 < n ∧ ∀ d, x.eval Γ = .ok d → (∀ b, d ≠ .base b) → PowExact d n 1

/-- A dimension that is declared in a translation unit that includes the headers `I`. -/
def Visible (S : Sys) (I : Nat → Prop) (d : DEnt) : Prop :=
  ∃ e ∈ S.log, e.ent = .dim d ∧ ∃ i, I i ∧ Reach shipped i e.header

/-- What the downcasting facility knows in that translation unit (src/core/include/units/bits/external/downcasting.h:45-68): exactly the derived
dimensions declared there. -/
structure IsRegistry (S : Sys) (I : Nat → Prop) (Γ : DimReg) : Prop where
  sound : ∀ es n, Γ es = some n → n.exps = es ∧ ∃ d, Visible S I d ∧ d.dim = .named n
  complete : ∀ d n, Visible S I d → d.dim = .named n → Γ n.exps ≠ none

/-- No two declared dimensions have the same exponents: the pairs listed in C60 are not declared together.  (Otherwise the translation unit is ill-formed.) -/
def NoTwins (S : Sys) (I : Nat → Prop) : Prop := ∀ d d', Visible S I d → Visible S I d' → (d.name, d'.name) ∉ dimTwins

/-- The key of the exponents of a dimension. -/
def DRow.key (r : DRow) : Nat :=
  match r.dim with
  | .named n => Nat.add 1 (dimKey (r.full, n.exps.map fun e => (e.dim.name, e.num, e.den)))
  | _ => 0

/-- Dimensions with the same exponents are listed twins, up to the name. -/
def checkDimKeys (l : List DRow) : Bool :=
  functional DRow.key (fun r => canonical dimTwins r.full) .leaf (l.filter fun r => !Nat.beq r.key 0) &&
  functional (fun r => encode r.full) (fun r => r.dim) .leaf l

/-- The exponents of all dimensions are in canonical form and no dimension repeats a base dimension. -/
def checkCanon (l : List DRow) : Bool :=
  l.all fun r =>
    match r.dim with
    | .named n => (n.exps.all fun e => decide (0 < e.den) && decide (Int.gcd e.num e.den = 1) && decide (e.num ≠ 0)) &&
        decide (n.exps.Pairwise fun a b => a.dim.symbol < b.dim.symbol) &&
        (match n.exps with
          | [e] => !(decide (e.num = 1) && decide (e.den = 1))
          | _ => true)
    | .base _ => true
    | .unknown _ => false

/-- The base dimensions of a dimension. -/
def _root_.Verif.Dim.bases (d : Dim) : List BaseDim :=
  match d.exps with
  | .ok es => es.map (·.dim)
  | .error _ => []

/-- In each namespace the base dimensions (also those of derived dimensions) differ in symbol. -/
def checkSeparated (l : List DRow) : Bool :=
  l.all fun a => l.all fun b => !Nat.beq a.scope.code b.scope.code ||
    a.dim.bases.all fun x => b.dim.bases.all fun y => !decide (x.symbol = y.symbol) || decide (x = y)

theorem checkDimKeys_ok : checkDimKeys dimTable = true := by decide +kernel
theorem checkCanon_ok : checkCanon dimTable = true := by decide +kernel
theorem checkSeparated_ok : checkSeparated dimTable = true := by decide +kernel

theorem checkCanon_sound {r : DRow} (h : r ∈ dimTable) :
    (∃ b, r.dim = .base b) ∨ ∃ n, r.dim = .named n ∧ Canon n.exps ∧ ∀ b, n.exps ≠ [⟨b, 1, 1⟩] := by
  have hc := checkCanon_ok
  unfold checkCanon at hc
  rw [List.all_eq_true] at hc
  have hc := hc r h
  cases hd : r.dim with
  | base b => exact Or.inl ⟨b, rfl⟩
  | unknown es => rw [hd] at hc; cases hc
  | named n =>
    rw [hd] at hc
    simp only [Bool.and_eq_true, List.all_eq_true, decide_eq_true_eq] at hc
    refine Or.inr ⟨n, rfl, ⟨fun e he => ?_, hc.1.2⟩, fun b hb => ?_⟩
    · obtain ⟨⟨h1, h2⟩, h3⟩ := hc.1.1 e he
      exact ⟨h1, h2, h3⟩
    · have := hc.2
      rw [hb] at this
      simp at this

section
variable {S : Sys} (hS : everything = .ok S) {I : Nat → Prop} {Γ : DimReg}
include hS

theorem Visible.row {d : DEnt} (h : Visible S I d) : ∃ r ∈ dimTable, r.full = d.name ∧ r.dim = d.dim := by
  obtain ⟨e, he, hd, -⟩ := h
  exact ⟨_, dim_row hS he hd, rfl, rfl⟩

theorem visible_unique (ht : NoTwins S I) {d d' : DEnt} {n n' : NamedDim} (h : Visible S I d) (h' : Visible S I d')
    (hd : d.dim = .named n) (hd' : d'.dim = .named n') (he : n.exps = n'.exps) : n = n' := by
  obtain ⟨r, hr, f, k⟩ := h.row hS
  obtain ⟨r', hr', f', k'⟩ := h'.row hS
  have hc := checkDimKeys_ok
  unfold checkDimKeys at hc
  rw [Bool.and_eq_true] at hc
  have key : r.key = r'.key := by simp only [DRow.key, k, k', hd, hd', he, dimKey]
  have nz : ∀ {x : DRow} {m : NamedDim}, x.dim = .named m → (!Nat.beq x.key 0) = true := by
    intro x m hx
    simp only [DRow.key, hx]
    rw [natBeq_ne (by show 1 + _ ≠ 0; omega)]
    rfl
  have h1 := functional_sound hc.1 r (List.mem_filter.mpr ⟨hr, nz (k.trans hd)⟩) r' (List.mem_filter.mpr ⟨hr', nz (k'.trans hd')⟩) key
  rcases canonical_eq (by decide +kernel) h1 with h1 | h1 | h1
  · have h2 := functional_sound hc.2 r hr r' hr' (by rw [h1])
    rw [k, k', hd, hd', Dim.named.injEq] at h2
    exact h2
  · rw [f, f'] at h1; exact absurd h1 (ht d d' h h')
  · rw [f, f'] at h1; exact absurd h1 (ht d' d h' h)

omit hS in
theorem IsRegistry.ok (hΓ : IsRegistry S I Γ) : Γ.OK := fun es n h => (hΓ.sound es n h).1

theorem IsRegistry.known (hΓ : IsRegistry S I Γ) (ht : NoTwins S I) {d : DEnt} {n : NamedDim} (h : Visible S I d)
    (hd : d.dim = .named n) : Γ n.exps = some n := by
  cases hg : Γ n.exps with
  | none => exact absurd hg (hΓ.complete d n h hd)
  | some m =>
    obtain ⟨h1, d', h', hd'⟩ := hΓ.sound _ _ hg
    rw [visible_unique hS ht h h' hd hd' h1.symm]

theorem Visible.normal (hΓ : IsRegistry S I Γ) (ht : NoTwins S I) {P : BaseDim → Prop} {d : DEnt} (h : Visible S I d)
    (hp : ∀ b, d.dim.exp b ≠ 0 → P b) : d.dim.Normal Γ P := by
  obtain ⟨r, hr, -, k⟩ := h.row hS
  rcases checkCanon_sound hr with ⟨b, hb⟩ | ⟨n, hn, hc, hne⟩
  · rw [k] at hb
    rw [hb] at hp ⊢
    exact base_normal _ (hp b (by simp [Dim.exp]))
  · rw [k] at hn
    rw [hn] at hp ⊢
    refine named_normal (hΓ.known hS ht h hn) hc (fun e he => hp _ ?_) hne
    rw [show (Dim.named n).exp e.dim = expOf n.exps e.dim from (Dim.exps_exp rfl _).symm, hc.expOf_mem he]
    exact (hc.reduced e he).q_ne

end

/-- A base dimension that occurs in the dimensions declared in a namespace. -/
def InNamespace (S : Sys) (s : Nm) (b : BaseDim) : Prop :=
  ∃ e ∈ S.log, e.scope = s ∧ ∃ d, e.ent = .dim d ∧ b ∈ d.dim.bases

theorem mem_bases {d : Dim} {b : BaseDim} (h : d.exp b ≠ 0) (hd : ∃ es, d.exps = .ok es) : b ∈ d.bases := by
  obtain ⟨es, he⟩ := hd
  rw [← Dim.exps_exp he] at h
  unfold Dim.bases
  rw [he]
  by_contra hn
  refine h ?_
  unfold expOf
  have : es.filter (fun e => decide (e.dim = b)) = [] := by
    rw [List.filter_eq_nil_iff]
    intro e hm hb
    rw [decide_eq_true_eq] at hb
    exact hn (List.mem_map.mpr ⟨e, hm, hb⟩)
  rw [this]; rfl

end Systems

/-! ### C66 -/

/-- The base dimensions used in one namespace differ in symbol: the condition of C13–C15. -/
theorem C66_namespaces_separated (S : Sys) (hS : everything = .ok S) (s : Nm) : Separated (InNamespace S s) := by
  rintro x y ⟨e, he, hs, d, hd, hx⟩ ⟨e', he', hs', d', hd', hy⟩ hxy
  have hc := checkSeparated_ok
  unfold checkSeparated at hc
  rw [List.all_eq_true] at hc
  have hc := hc _ (dim_row hS he hd)
  rw [List.all_eq_true] at hc
  have hc := hc _ (dim_row hS he' hd')
  simp only [Bool.or_eq_true, Bool.not_eq_true', List.all_eq_true, decide_eq_true_eq, decide_eq_false_iff_not] at hc
  rcases hc with hc | hc
  · rw [hs, hs', Nat.beq_refl] at hc
    cases hc
  · exact (hc x hx y hy).resolve_left (not_not.mpr hxy)

/-- C66: in a translation unit that includes any shipped headers, the dimension of an expression on the dimensions of one namespace is
the declared dimension with the same exponents, if there is one; and it never is a declared derived dimension with other exponents.  Partial: powers
of ten must not get lost (`C15_pow_ten_lost`), dimensions of different namespaces do not mix
(`C66_mass_and_storage_capacity`), and the dimensions that C60 lists as twins must not be included together. -/
theorem C66_arithmetic_partial (S : Sys) (hS : everything = .ok S) (I : Nat → Prop) (Γ : DimReg) (hΓ : IsRegistry S I Γ) (ht : NoTwins S I)
    (s : Nm) (e : DExpr) (hd : e.All fun d => ∃ x, Visible S I x ∧ x.dim = d ∧ ∀ b ∈ d.bases, InNamespace S s b) (hp : e.Powers Γ)
    (R : Dim) (h : e.eval Γ = .ok R) :
    (∀ b, R.exp b = e.exp b) ∧ (∀ x, Visible S I x → (∀ b, x.dim.exp b = e.exp b) → R = x.dim) ∧
    ∀ n, R = .named n → ∃ x, Visible S I x ∧ x.dim = R ∧ ∀ b, x.dim.exp b = e.exp b := by
  have hsep := C66_namespaces_separated S hS s
  have key : R.Normal Γ (InNamespace S s) ∧ ∀ b, R.exp b = e.exp b := by
    induction e generalizing R with
    | dim d =>
      simp only [DExpr.eval, Except.ok.injEq] at h
      subst h
      obtain ⟨x, hx, rfl, hb⟩ := hd
      refine ⟨hx.normal hS hΓ ht fun b hb' => hb b (mem_bases hb' ?_), fun b => rfl⟩
      obtain ⟨r, hr, -, k⟩ := hx.row hS
      obtain ⟨es, he, -⟩ := (checkDims_sound hr).1.exps
      exact ⟨es, k ▸ he⟩
    | mul x y ihx ihy =>
      simp only [DExpr.eval, bind_ok] at h
      obtain ⟨X, hX, Y, hY, h⟩ := h
      obtain ⟨n1, e1⟩ := ihx hd.1 hp.1 X hX
      obtain ⟨n2, e2⟩ := ihy hd.2 hp.2 Y hY
      exact ⟨dimMultiply_normal hΓ.ok hsep n1 n2 h, fun b => by rw [dimMultiply_exp hΓ.ok h, e1, e2]; rfl⟩
    | div x y ihx ihy =>
      simp only [DExpr.eval, bind_ok] at h
      obtain ⟨X, hX, Y, hY, h⟩ := h
      obtain ⟨n1, e1⟩ := ihx hd.1 hp.1 X hX
      obtain ⟨n2, e2⟩ := ihy hd.2 hp.2 Y hY
      exact ⟨C14_results_normal_partial Γ hΓ.ok _ hsep X Y R n1 n2 (Or.inr h), fun b => by rw [dimDivide_exp hΓ.ok h, e1, e2]; rfl⟩
    | inv x ihx =>
      simp only [DExpr.eval, bind_ok] at h
      obtain ⟨X, hX, h⟩ := h
      obtain ⟨n1, e1⟩ := ihx hd hp X hX
      exact ⟨dimInvert_normal hΓ.ok n1 h, fun b => by rw [dimInvert_exp hΓ.ok h, e1]; rfl⟩
    | pow x n ihx =>
      simp only [DExpr.eval, bind_ok] at h
      obtain ⟨X, hX, h⟩ := h
      obtain ⟨n1, e1⟩ := ihx hd hp.1 X hX
      refine ⟨dimPow_normal hΓ.ok n1 h (hp.2.2 X hX) hp.2.1 (by decide) (by simp), fun b => ?_⟩
      rw [dimPow_exp hΓ.ok h (hp.2.2 X hX), e1]
      simp [DExpr.exp]
  refine ⟨key.2, fun x hx he => ?_, fun n hn => ?_⟩
  · have n2 : x.dim.Normal Γ (fun _ => True) := hx.normal hS hΓ ht fun _ _ => trivial
    exact Dim.Normal.ext hΓ.ok key.1 n2 fun b => by rw [key.2, he]
  · obtain ⟨es, hc, -, hR⟩ := key.1
    rcases toDimension_cases Γ es with ⟨b, -, hb⟩ | ⟨-, hb⟩
    · rw [hR, hb] at hn; cases hn
    · rw [hb, downcastDim] at hR
      split at hR
      · rename_i m hm
        obtain ⟨-, x, hx, hxd⟩ := hΓ.sound _ _ hm
        exact ⟨x, hx, by rw [hxd, hR], fun b => by rw [hxd, ← hR, key.2]⟩
      · rw [hR] at hn; cases hn

namespace Systems

/-- A header includes another one. -/
def includes (i j : Nat) : Bool :=
  match shipped[i]? with
  | some h => h.includes.any fun n =>
    match findHeader shipped n.code 0 with
    | some p => decide (p.2 = j)
    | none => false
  | none => false

theorem reach_of_includes {i j : Nat} (h : includes i j = true) : Reach shipped i j := by
  unfold includes at h
  split at h
  · rename_i hd hh
    obtain ⟨n, hn, h⟩ := List.any_eq_true.mp h
    split at h
    · rename_i p hp
      obtain ⟨g, k⟩ := p
      simp only [decide_eq_true_eq] at h
      subst h
      exact .step hh hn hp (.self _)
    · cases h
  · cases h

/-- Every translation unit has a registry. -/
theorem exists_registry (S : Sys) (I : Nat → Prop) : ∃ Γ, IsRegistry S I Γ := by
  classical
  refine ⟨fun es => if h : ∃ n : NamedDim, n.exps = es ∧ ∃ d, Visible S I d ∧ d.dim = .named n then some h.choose else none, ?_, ?_⟩
  · intro es n h
    split at h
    · rename_i hx
      simp only [Option.some.injEq] at h
      subst h
      exact hx.choose_spec
    · cases h
  · intro d n hd hn
    rw [dif_pos ⟨n, rfl, d, hd, hn⟩]
    simp

/-- A single header never has twins. -/
theorem noTwins_header {S : Sys} (hS : everything = .ok S) {i : Nat} {h : Header} (hi : shipped[i]? = some h) :
    NoTwins S (fun j => j = i) := by
  rintro d d' ⟨e, he, hd, j, rfl, hr⟩ ⟨e', he', hd', j', rfl, hr'⟩ ht
  exact C60_no_header_has_dimension_twins S hS e e' he he' d d' hd hd' ht j' h hi ⟨hr, hr'⟩

def exSiLength : BaseDim :=
  ⟨"units::isq::si::dim_length", "L", ⟨.named "units::isq::si::metre", ⟨1, 1, 0⟩, "units::isq::si::metre",
      [.scaled ⟨1, 1, 0⟩ "units::isq::si::metre"], true, "m", some "units::isq::si::prefix"⟩⟩

def exSiTime : BaseDim :=
  ⟨"units::isq::si::dim_time", "T", ⟨.named "units::isq::si::second", ⟨1, 1, 0⟩, "units::isq::si::second",
      [.scaled ⟨1, 1, 0⟩ "units::isq::si::second"], true, "s", some "units::isq::si::prefix"⟩⟩

def exSiMass : BaseDim :=
  ⟨"units::isq::si::dim_mass", "M", ⟨.named "units::isq::si::kilogram", ⟨1, 1, 3⟩, "units::isq::si::gram",
      [.scaled ⟨1, 1, 3⟩ "units::isq::si::gram"], true, "kg", none⟩⟩

def exStorage : BaseDim :=
  ⟨"units::isq::iec80000::dim_storage_capacity", "M", ⟨.named "units::isq::iec80000::byte", ⟨8, 1, 0⟩, "units::isq::iec80000::bit",
      [.scaled ⟨8, 1, 0⟩ "units::isq::iec80000::bit"], true, "B", some "units::isq::si::prefix"⟩⟩

end Systems

/-- The hypotheses of C66 hold, for example, for length over time after `#include <units/isq/si/speed.h>` (header 68), and the result is the declared
dimension of speed. -/
example (S : Sys) (hS : everything = .ok S) : ∃ Γ, IsRegistry S (fun j => j = 68) Γ ∧ NoTwins S (fun j => j = 68) ∧
    (DExpr.div (.dim (.base exSiLength)) (.dim (.base exSiTime))).All
      (fun d => ∃ x, Visible S (fun j => j = 68) x ∧ x.dim = d ∧ ∀ b ∈ d.bases, InNamespace S n!"units::isq::si" b) ∧
    ∃ x, Visible S (fun j => j = 68) x ∧ x.name = "units::isq::si::dim_speed" ∧
      (DExpr.div (.dim (.base exSiLength)) (.dim (.base exSiTime))).eval Γ = .ok x.dim := by
  obtain ⟨Γ, hΓ⟩ := exists_registry S (fun j => j = 68)
  have hT : NoTwins S (fun j => j = 68) := by
    cases hi : shipped[68]? with
    | none => exact absurd hi (by decide +kernel)
    | some h => exact noTwins_header hS hi
  have hall : (DExpr.div (.dim (.base exSiLength)) (.dim (.base exSiTime))).All
      (fun d => ∃ x, Visible S (fun j => j = 68) x ∧ x.dim = d ∧ ∀ b ∈ d.bases, InNamespace S n!"units::isq::si" b) := by
    obtain ⟨e, he, d, hd, h⟩ := exists_dim hS (P := fun r => decide (r.header = 67) && decide (r.scope = n!"units::isq::si") &&
      decide (r.dim = .base exSiLength)) (by decide +kernel)
    obtain ⟨e', he', d', hd', h'⟩ := exists_dim hS (P := fun r => decide (r.header = 49) && decide (r.scope = n!"units::isq::si") &&
      decide (r.dim = .base exSiTime)) (by decide +kernel)
    simp only [Bool.and_eq_true, decide_eq_true_eq] at h h'
    refine ⟨⟨d, ⟨e, he, hd, 68, rfl, ?_⟩, h.2, fun b hb => ⟨e, he, h.1.2, d, hd, h.2 ▸ hb⟩⟩,
      ⟨d', ⟨e', he', hd', 68, rfl, ?_⟩, h'.2, fun b hb => ⟨e', he', h'.1.2, d', hd', h'.2 ▸ hb⟩⟩⟩
    · rw [h.1.1]; exact reach_of_includes (by decide +kernel)
    · rw [h'.1.1]; exact reach_of_includes (by decide +kernel)
  obtain ⟨e, he, x, hx, h⟩ := exists_dim hS (P := fun r => decide (r.header = 68) && decide (r.full = "units::isq::si::dim_speed") &&
      decide (r.dim.exps = .ok [⟨exSiLength, 1, 1⟩, ⟨exSiTime, -1, 1⟩])) (by decide +kernel)
  simp only [Bool.and_eq_true, decide_eq_true_eq] at h
  have hv : Visible S (fun j => j = 68) x := ⟨e, he, hx, 68, rfl, h.1.1 ▸ .self _⟩
  have hi : Γ [⟨exSiTime, -1, 1⟩] = none ∨ ∃ n, Γ [⟨exSiTime, -1, 1⟩] = some n ∧ n.exps = [⟨exSiTime, -1, 1⟩] := by
    cases hg : Γ [⟨exSiTime, -1, 1⟩] with
    | none => exact .inl rfl
    | some n => exact .inr ⟨n, rfl, (hΓ.sound _ _ hg).1⟩
  have hm : consolidate (TypeList.mergeSorted expLess [⟨exSiLength, 1, 1⟩] [⟨exSiTime, -1, 1⟩]) = .ok [⟨exSiLength, 1, 1⟩, ⟨exSiTime, -1, 1⟩] := by
    decide +kernel
  have hn : normalizeExps [⟨exSiTime, -1, 1⟩] = .ok [⟨exSiTime, -1, 1⟩] := by decide +kernel
  have hev : ∃ R, (DExpr.div (.dim (.base exSiLength)) (.dim (.base exSiTime))).eval Γ = .ok R := by
    refine ⟨toDimension Γ [⟨exSiLength, 1, 1⟩, ⟨exSiTime, -1, 1⟩], ?_⟩
    rcases hi with hi | ⟨n, hi, hne⟩
    · simp only [DExpr.eval, ok_bind, dimDivide, dimInvert, downcastDim, hi, dimMultiply, Dim.exps, hn, mergeDim, hm]
    · simp only [DExpr.eval, ok_bind, dimDivide, dimInvert, downcastDim, hi, dimMultiply, Dim.exps, hne, mergeDim, hm]
  obtain ⟨R, hR⟩ := hev
  refine ⟨Γ, hΓ, hT, hall, x, hv, h.1.2, ?_⟩
  rw [hR, (C66_arithmetic_partial S hS _ Γ hΓ hT _ _ hall ⟨trivial, trivial⟩ R hR).2.1 x hv fun b => ?_]
  rw [← Dim.exps_exp h.2]
  simp only [DExpr.exp, Dim.exp, expOf_cons, expOf_nil, Exp.q]
  split <;> split <;> simp

/-- Length and time are both used in `units::isq::si`, and so are told apart. -/
example (S : Sys) (hS : everything = .ok S) : InNamespace S n!"units::isq::si" exSiLength ∧ InNamespace S n!"units::isq::si" exSiTime ∧
    exSiLength ≠ exSiTime := by
  obtain ⟨e, he, d, hd, h⟩ := exists_dim hS (P := fun r => decide (r.scope = n!"units::isq::si") && decide (r.dim = .base exSiLength)) (by decide +kernel)
  obtain ⟨e', he', d', hd', h'⟩ := exists_dim hS (P := fun r => decide (r.scope = n!"units::isq::si") && decide (r.dim = .base exSiTime)) (by decide +kernel)
  simp only [Bool.and_eq_true, decide_eq_true_eq] at h h'
  exact ⟨⟨e, he, h.1, d, hd, h.2 ▸ List.mem_singleton.mpr rfl⟩, ⟨e', he', h'.1, d', hd', h'.2 ▸ List.mem_singleton.mpr rfl⟩, by decide⟩

/-- C66 does not hold across namespaces: mass and storage capacity both have the symbol `M`.  The product of the two, divided by storage capacity, has the exponents
of mass, but it is neither the dimension of mass nor equivalent to it; and the two products are not equivalent. -/
theorem C66_mass_and_storage_capacity (S : Sys) (hS : everything = .ok S) (I : Nat → Prop) (Γ : DimReg) (hΓ : IsRegistry S I Γ) :
    (∃ e ∈ S.log, ∃ d, e.ent = .dim d ∧ d.dim = .base exSiMass) ∧ (∃ e ∈ S.log, ∃ d, e.ent = .dim d ∧ d.dim = .base exStorage) ∧
    ∃ x y z, dimMultiply Γ (.base exSiMass) (.base exStorage) = .ok x ∧ dimMultiply Γ (.base exStorage) (.base exSiMass) = .ok y ∧
      dimDivide Γ x (.base exStorage) = .ok z ∧ dimEquivalent x y = .ok false ∧ (∀ b, x.exp b = y.exp b) ∧
      (∀ b, z.exp b = (Dim.base exSiMass).exp b) ∧ z ≠ .base exSiMass ∧ dimEquivalent z (.base exSiMass) = .ok false := by
  refine ⟨?_, ?_, ?_⟩
  · obtain ⟨e, he, d, hd, h⟩ := exists_dim hS (P := fun r => decide (r.dim = .base exSiMass)) (by decide +kernel)
    exact ⟨e, he, d, hd, by simpa using h⟩
  · obtain ⟨e, he, d, hd, h⟩ := exists_dim hS (P := fun r => decide (r.dim = .base exStorage)) (by decide +kernel)
    exact ⟨e, he, d, hd, by simpa using h⟩
  have key : ∀ l ∈ [[⟨exSiMass, 1, 1⟩, ⟨exStorage, 1, 1⟩], [⟨exStorage, 1, 1⟩, ⟨exSiMass, 1, 1⟩],
      [⟨exStorage, -1, 1⟩, ⟨exSiMass, 1, 1⟩, ⟨exStorage, 1, 1⟩], [⟨exStorage, -1, 1⟩]], Γ l = none := by
    intro l hl
    cases hg : Γ l with
    | none => rfl
    | some n =>
      exfalso
      obtain ⟨h1, d, hd, hn⟩ := hΓ.sound _ _ hg
      obtain ⟨r, hr, -, hrd⟩ := hd.row hS
      have hrn : r.dim = .named n := hrd.trans hn
      have hc : (dimTable.all fun r => match r.dim with
        | .named n => !decide (n.exps ∈ [[⟨exSiMass, 1, 1⟩, ⟨exStorage, 1, 1⟩], [⟨exStorage, 1, 1⟩, ⟨exSiMass, 1, 1⟩],
            [⟨exStorage, -1, 1⟩, ⟨exSiMass, 1, 1⟩, ⟨exStorage, 1, 1⟩], [⟨exStorage, -1, 1⟩]])
        | _ => true) = true := by decide +kernel
      rw [List.all_eq_true] at hc
      have hc := hc r hr
      rw [hrn] at hc
      simp only [h1, hl, decide_true] at hc
      cases hc
  have k1 : Γ [⟨exStorage, 1, 1⟩, ⟨exSiMass, 1, 1⟩] = none := key _ (by simp)
  have k2 : Γ [⟨exSiMass, 1, 1⟩, ⟨exStorage, 1, 1⟩] = none := key _ (by simp)
  have k3 : Γ [⟨exStorage, -1, 1⟩, ⟨exSiMass, 1, 1⟩, ⟨exStorage, 1, 1⟩] = none := key _ (by simp)
  have k4 : Γ [⟨exStorage, -1, 1⟩] = none := key _ (by simp)
  have m1 : consolidate (TypeList.mergeSorted expLess [⟨exSiMass, 1, 1⟩] [⟨exStorage, 1, 1⟩]) = .ok [⟨exStorage, 1, 1⟩, ⟨exSiMass, 1, 1⟩] := by
    decide +kernel
  have m2 : consolidate (TypeList.mergeSorted expLess [⟨exStorage, 1, 1⟩] [⟨exSiMass, 1, 1⟩]) = .ok [⟨exSiMass, 1, 1⟩, ⟨exStorage, 1, 1⟩] := by
    decide +kernel
  have n1 : normalizeExps [⟨exStorage, 1, 1⟩, ⟨exSiMass, 1, 1⟩] = .ok [⟨exSiMass, 1, 1⟩, ⟨exStorage, 1, 1⟩] := by decide +kernel
  have n4 : normalizeExps [⟨exStorage, -1, 1⟩] = .ok [⟨exStorage, -1, 1⟩] := by decide +kernel
  have m3 : consolidate (TypeList.mergeSorted expLess [⟨exSiMass, 1, 1⟩, ⟨exStorage, 1, 1⟩] [⟨exStorage, -1, 1⟩]) =
      .ok [⟨exStorage, -1, 1⟩, ⟨exSiMass, 1, 1⟩, ⟨exStorage, 1, 1⟩] := by decide +kernel
  refine ⟨.unknown [⟨exStorage, 1, 1⟩, ⟨exSiMass, 1, 1⟩], .unknown [⟨exSiMass, 1, 1⟩, ⟨exStorage, 1, 1⟩],
    .unknown [⟨exStorage, -1, 1⟩, ⟨exSiMass, 1, 1⟩, ⟨exStorage, 1, 1⟩], ?_, ?_, ?_, by decide +kernel, ?_, ?_, by simp, by decide +kernel⟩
  · simp only [dimMultiply, mergeDim, m1, ok_bind, toDimension, downcastDim, k1]
  · simp only [dimMultiply, mergeDim, m2, ok_bind, toDimension, downcastDim, k2]
  · simp only [dimDivide, dimInvert, downcastDim, k4, dimMultiply, Dim.exps, n1, n4, mergeDim, m3, ok_bind, toDimension, k3]
  · intro b
    simp only [Dim.exp, expOf_cons, expOf_nil]
    ring
  · intro b
    simp only [Dim.exp, expOf_cons, expOf_nil, Exp.q]
    split <;> split <;> simp

/-- Every choice of included headers has a registry. -/
example (S : Sys) : ∃ Γ, IsRegistry S (fun _ => True) Γ := exists_registry S _

end Verif
