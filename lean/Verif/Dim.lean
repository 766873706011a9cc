import Verif.TypeList
import Verif.Unit
import Mathlib.Data.String.Basic

/-!
# Dimensions

`units/base_dimension.h`, `units/exponent.h`, `units/derived_dimension.h`, `units/bits/dim_unpack.h`,
`units/bits/dim_consolidate.h`, `units/bits/derived_dimension_base.h`, `units/bits/dimension_op.h`.

A base dimension type is represented by its identity (the struct), its symbol and its base unit.  A
`derived_dimension_base<Es...>` is the list of its exponents.
-/

namespace Verif

/-- A type derived from `base_dimension<Symbol, U>`, src/core/include/units/base_dimension.h:53-58. -/
structure BaseDim where
  name : String
  symbol : String
  unit : MUnit
deriving DecidableEq, Repr

/-- `exponent<Dim, Num, Den>` of a base dimension, src/core/include/units/exponent.h:37-42. -/
structure Exp where
  dim : BaseDim
  num : Int
  den : Int
deriving DecidableEq, Repr

/-- `base_dimension_less`, src/core/include/units/base_dimension.h:60-65.  Both operands of the second
comparison are `D1`, as in the source. -/
def baseDimLess (d1 d2 : BaseDim) : Bool :=
  decide (d1.symbol < d2.symbol) || (decide (d1.symbol = d2.symbol) && decide (d1.unit.symbol < d1.unit.symbol))

/-- `exponent_less`, src/core/include/units/exponent.h:52-55. -/
def expLess (e1 e2 : Exp) : Bool := baseDimLess e1.dim e2.dim

/-- `exponent_invert`, src/core/include/units/exponent.h:57-66. -/
def expInvert (e : Exp) : C Exp := do
  let n ← neg64 e.num
  .ok ⟨e.dim, n, e.den⟩

/-- `exponent_multiply`, src/core/include/units/exponent.h:68-80.  As in the source, the power of ten
`r.exp` of the normalised product is not used. -/
def expMultiply (e : Exp) (num den : Int) : C Exp := do
  let r1 ← Ratio.make e.num e.den 0
  let r2 ← Ratio.make num den 0
  let r ← Ratio.mul r1 r2
  .ok ⟨e.dim, r.num, r.den⟩

/-- `std::ratio_add` as used in src/core/include/units/bits/dim_consolidate.h:57-59: the reduced sum,
ill-formed when not representable or when a denominator is zero. -/
def stdRatioAdd (n1 d1 n2 d2 : Int) : C (Int × Int) :=
  if d1 = 0 ∨ d2 = 0 then .error .rejected
  else
    let n := n1 * d2 + n2 * d1
    let d := d1 * d2
    let g : Int := Int.gcd n d
    let num := (if d < 0 then -n else n) / g
    let den := |d| / g
    if |num| ≤ intMax ∧ den ≤ intMax then .ok (num, den) else .error .rejected

/-- `dim_consolidate`, src/core/include/units/bits/dim_consolidate.h:39-63.  Simplification: of the two
types in the `conditional` only the selected one is evaluated. -/
def consolidate : List Exp → C (List Exp)
  | [] => .ok []
  | [e] => .ok [e]
  | e1 :: e2 :: rest =>
    if e1.dim = e2.dim then do
      let (n, d) ← stdRatioAdd e1.num e1.den e2.num e2.den
      if n = 0 then consolidate rest
      else consolidate (⟨e1.dim, n, d⟩ :: rest)
    else do
      let tl ← consolidate (e2 :: rest)
      .ok (TypeList.pushFront tl [e1])
termination_by l => l.length

/-- Sorting and consolidating exponents of base dimensions: the part of `make_dimension` after unpacking,
src/core/include/units/derived_dimension.h:51-52. -/
def normalizeExps (es : List Exp) : C (List Exp) := consolidate (TypeList.sort expLess es)

/-- A user-defined derived dimension: a struct deriving from `derived_dimension<Child, U, Es...>`,
src/core/include/units/derived_dimension.h:83-88: its identity, its
`downcast_base_type` (the list of exponents) and its coherent unit. -/
structure NamedDim where
  name : String
  exps : List Exp
  coherent : MUnit
deriving DecidableEq, Repr

/-- A dimension type: a base dimension, a user-defined derived dimension, or
`unknown_dimension<Es...>` (src/core/include/units/bits/dimension_op.h:44-45). -/
inductive Dim where
  | base (b : BaseDim)
  | named (n : NamedDim)
  | unknown (es : List Exp)
deriving DecidableEq, Repr

/-- `downcast_base_t<D>` for derived dimensions (for an unknown dimension computed again from its
arguments by `derived_dimension`); for a base dimension the list
`exponent<D, 1>` used in its place, src/core/include/units/bits/dimension_op.h:139-152. -/
def Dim.exps : Dim → C (List Exp)
  | .base b => .ok [⟨b, 1, 1⟩]
  | .named n => .ok n.exps
  | .unknown es => normalizeExps es

/-- `dimension_unit<D>`, src/core/include/units/bits/basic_concepts.h:165-184. -/
def Dim.unit : Dim → MUnit
  | .base b => b.unit
  | .named n => n.coherent
  | .unknown _ => unknownCoherentUnit

/-- Element-wise evaluation of a pack expansion `f<Es>...`; not library code. -/
def mapC {α β : Type} (f : α → C β) : List α → C (List β)
  | [] => .ok []
  | a :: as => do
    let b ← f a
    let bs ← mapC f as
    .ok (b :: bs)

/-- One element `exponent<Dim, Num, Den>` of a recipe, src/core/include/units/exponent.h:37-42 with an
arbitrary dimension. -/
structure RecipeItem where
  dim : Dim
  num : Int
  den : Int
deriving DecidableEq, Repr

/-- `dim_unpack`, src/core/include/units/bits/dim_unpack.h:36-57. -/
def dimUnpack : List RecipeItem → C (List Exp)
  | [] => .ok []
  | ⟨.base b, n, d⟩ :: rest => do
    let tl ← dimUnpack rest
    .ok (TypeList.pushFront tl [⟨b, n, d⟩])
  | ⟨dim, n, d⟩ :: rest => do
    let es ← dim.exps
    let ms ← mapC (fun e => expMultiply e n d) es
    let tl ← dimUnpack rest
    .ok (TypeList.pushFront tl ms)

/-- `make_dimension`, src/core/include/units/derived_dimension.h:39-54. -/
def makeDimension (recipe : List RecipeItem) : C (List Exp) := do
  let es ← dimUnpack recipe
  normalizeExps es

/-- `struct name : derived_dimension<name, coherent, recipe...>`,
src/core/include/units/derived_dimension.h:83-88. -/
def defineDim (name : String) (coherent : MUnit) (recipe : List RecipeItem) : C NamedDim := do
  let es ← makeDimension recipe
  .ok ⟨name, es, coherent⟩

/-- What the downcasting facility knows about derived dimensions
(`Verif.Downcast.downcast` with the exponent lists as base types). -/
abbrev DimReg := List Exp → Option NamedDim

/-- The registry only returns children of the asked base type (a consequence of how definitions
register, see `regOf_ok`). -/
def DimReg.OK (Γ : DimReg) : Prop := ∀ es n, Γ es = some n → n.exps = es

/-- `downcast_dimension<derived_dimension_base<Es...>>`,
src/core/include/units/bits/dimension_op.h:47-76. -/
def downcastDim (Γ : DimReg) (es : List Exp) : Dim :=
  match Γ es with
  | some n => .named n
  | none => .unknown es

/-- `downcast_dimension<typename to_dimension<exponent_list<Es...>>::type>`,
src/core/include/units/bits/dimension_op.h:111-122 and 60-76. -/
def toDimension (Γ : DimReg) : List Exp → Dim
  | [⟨b, 1, 1⟩] => .base b
  | es => downcastDim Γ es

/-- `dim_invert`, src/core/include/units/bits/dimension_op.h:79-106. -/
def dimInvert (Γ : DimReg) : Dim → C Dim
  | .base b => .ok (downcastDim Γ [⟨b, -1, 1⟩])
  | d => do
    let es ← d.exps
    match es with
    | [⟨b, -1, 1⟩] => .ok (.base b)
    | es => do
      let inv ← mapC expInvert es
      .ok (downcastDim Γ inv)

/-- `downcast_dimension<merge_dimension<D1, D2>>`,
src/core/include/units/bits/dimension_op.h:124-134. -/
def mergeDim (Γ : DimReg) (es1 es2 : List Exp) : C Dim := do
  let es ← consolidate (TypeList.mergeSorted expLess es1 es2)
  .ok (toDimension Γ es)

/-- `dimension_multiply`, src/core/include/units/bits/dimension_op.h:136-162. -/
def dimMultiply (Γ : DimReg) (d1 d2 : Dim) : C Dim :=
  match d1, d2 with
  | .base b1, .base b2 => mergeDim Γ [⟨b1, 1, 1⟩] [⟨b2, 1, 1⟩]
  | .base b1, d2 => do
    let es2 ← d2.exps
    mergeDim Γ [⟨b1, 1, 1⟩] es2
  | d1, .base b2 => do
    let es1 ← d1.exps
    mergeDim Γ [⟨b2, 1, 1⟩] es1
  | d1, d2 => do
    let es1 ← d1.exps
    let es2 ← d2.exps
    mergeDim Γ es1 es2

/-- `dimension_divide`, src/core/include/units/bits/dimension_op.h:164-165. -/
def dimDivide (Γ : DimReg) (d1 d2 : Dim) : C Dim := do
  let i ← dimInvert Γ d2
  dimMultiply Γ d1 i

/-- `dimension_pow`, src/core/include/units/bits/dimension_op.h:167-198. -/
def dimPow (Γ : DimReg) (d : Dim) (num den : Int) : C Dim :=
  match d with
  | .base b => if num = 1 ∧ den = 1 then .ok (.base b) else .ok (downcastDim Γ [⟨b, num, den⟩])
  | d => do
    let es ← d.exps
    match es with
    | [⟨b, n, m⟩] =>
      if n = den ∧ m = num then .ok (.base b)
      else do
        let es' ← mapC (fun e => expMultiply e num den) [⟨b, n, m⟩]
        .ok (downcastDim Γ es')
    | es => do
      let es' ← mapC (fun e => expMultiply e num den) es
      .ok (downcastDim Γ es')

/-! ### Specification vocabulary -/

/-- The rational number an exponent stands for. -/
def Exp.q (e : Exp) : ℚ := (e.num : ℚ) / e.den

/-- The total exponent of the base dimension `b` in a list. -/
def expOf (es : List Exp) (b : BaseDim) : ℚ := ((es.filter fun e => e.dim = b).map Exp.q).sum

/-- An exponent written in lowest terms and not zero. -/
structure Exp.Reduced (e : Exp) : Prop where
  den_pos : 0 < e.den
  coprime : Int.gcd e.num e.den = 1
  num_ne : e.num ≠ 0

/-- A rational whose numerator and denominator are not multiples of ten (in particular not zero). -/
def NoTen (x : ℚ) : Prop := ¬ (10 : Int) ∣ x.num ∧ ¬ (10 : Int) ∣ (x.den : Int)

/-! ### Helper lemmas: exponent lists -/

theorem mapC_eq_ok {α β : Type} {f : α → C β} {l : List α} {l' : List β} :
    mapC f l = .ok l' ↔ List.Forall₂ (fun a b => f a = .ok b) l l' := by
  induction l generalizing l' with
  | nil => cases l' <;> simp [mapC]
  | cons a l ih =>
    simp only [mapC, bind_ok, Except.ok.injEq]
    constructor
    · rintro ⟨b, hb, bs, hbs, rfl⟩
      exact List.Forall₂.cons hb (ih.mp hbs)
    · intro h
      cases h with
      | cons h1 h2 => exact ⟨_, h1, _, ih.mpr h2, rfl⟩

theorem expOf_nil (b : BaseDim) : expOf [] b = 0 := by simp [expOf]

theorem expOf_cons (e : Exp) (es : List Exp) (b : BaseDim) :
    expOf (e :: es) b = (if e.dim = b then e.q else 0) + expOf es b := by
  unfold expOf
  by_cases h : e.dim = b <;> simp [h]

theorem expOf_append (l r : List Exp) (b : BaseDim) : expOf (l ++ r) b = expOf l b + expOf r b := by
  simp [expOf]

theorem expOf_perm {l r : List Exp} (h : l.Perm r) (b : BaseDim) : expOf l b = expOf r b := by
  unfold expOf
  exact ((h.filter _).map _).sum_eq

theorem stdRatioAdd_eq_ok {n1 d1 n2 d2 n d : Int} (h : stdRatioAdd n1 d1 n2 d2 = .ok (n, d)) :
    0 < d ∧ Int.gcd n d = 1 ∧ (n : ℚ) / d = (n1 : ℚ) / d1 + (n2 : ℚ) / d2 ∧ d1 ≠ 0 ∧ d2 ≠ 0 ∧
      |n| ≤ intMax ∧ d ≤ intMax := by
  unfold stdRatioAdd at h
  split at h
  · cases h
  · rename_i hd
    push Not at hd
    obtain ⟨h1, h2⟩ := hd
    dsimp only at h
    rw [ite_eq_iff] at h
    rcases h with ⟨hb, h⟩ | ⟨-, h⟩
    · simp only [Except.ok.injEq, Prod.mk.injEq] at h
      obtain ⟨rfl, rfl⟩ := h
      have hdd : d1 * d2 ≠ 0 := mul_ne_zero h1 h2
      set N := n1 * d2 + n2 * d1 with hN
      set D := d1 * d2 with hD
      have gpos : (0 : Int) < Int.gcd N D := gcd_pos_right hdd
      set g : Int := (Int.gcd N D : Int) with hg
      have gN : g ∣ N := Int.gcd_dvd_left ..
      have gD : g ∣ D := Int.gcd_dvd_right ..
      have gN' : g ∣ (if D < 0 then -N else N) := by split; exact (dvd_neg).mpr gN; exact gN
      have gD' : g ∣ |D| := (dvd_abs g D).mpr gD
      have cN := Int.ediv_mul_cancel gN'
      have cD := Int.ediv_mul_cancel gD'
      have hDpos : 0 < |D| := abs_pos.mpr hdd
      have hdpos : 0 < |D| / g := by
        rw [← cD] at hDpos; exact (mul_pos_iff_of_pos_right gpos).mp hDpos
      refine ⟨hdpos, ?_, ?_, h1, h2, hb.1, hb.2⟩
      · have hgc : Int.gcd (if D < 0 then -N else N) |D| = Int.gcd N D := by
          split <;> simp [Int.gcd, Int.natAbs_abs]
        have := Int.gcd_ediv_gcd_ediv_gcd (i := if D < 0 then -N else N) (j := |D|)
          (by rw [hgc]; have := gpos; rw [hg] at this; exact_mod_cast this)
        rwa [hgc] at this
      · have gq : (g : ℚ) ≠ 0 := by exact_mod_cast gpos.ne'
        have q1 : (d1 : ℚ) ≠ 0 := by exact_mod_cast h1
        have q2 : (d2 : ℚ) ≠ 0 := by exact_mod_cast h2
        have e1 : (((if D < 0 then -N else N) / g : ℤ) : ℚ) * g = ((if D < 0 then -N else N : ℤ) : ℚ) := by
          exact_mod_cast cN
        have e2 : ((|D| / g : ℤ) : ℚ) * g = ((|D| : ℤ) : ℚ) := by exact_mod_cast cD
        rw [← mul_div_mul_right _ _ gq, e1, e2]
        have e3 : ((if D < 0 then -N else N : ℤ) : ℚ) / ((|D| : ℤ) : ℚ) = (N : ℚ) / D := by
          split
          · rename_i hneg
            rw [abs_of_neg hneg]; push_cast; rw [neg_div_neg_eq]
          · rename_i hneg
            rw [abs_of_nonneg (by omega)]
        rw [e3, hN, hD]
        push_cast
        field_simp
    · cases h

/-- Consolidation keeps the total exponent of every base dimension. -/
theorem consolidate_expOf {es es' : List Exp} (h : consolidate es = .ok es') (b : BaseDim) :
    expOf es' b = expOf es b := by
  induction hn : es.length using Nat.strong_induction_on generalizing es es' with
  | _ n ih =>
    match es, hn with
    | [], _ =>
      rw [consolidate] at h; simp only [Except.ok.injEq] at h; rw [← h]
    | [e], _ =>
      rw [consolidate] at h; simp only [Except.ok.injEq] at h; rw [← h]
    | e1 :: e2 :: rest, hn =>
      rw [consolidate] at h
      simp only [List.length_cons] at hn
      split at h
      · rename_i hd
        simp only [bind_ok] at h
        obtain ⟨⟨n', d'⟩, hr, h⟩ := h
        obtain ⟨-, -, hv, -⟩ := stdRatioAdd_eq_ok hr
        dsimp only at h
        have hsum : (if e1.dim = b then e1.q else 0) + ((if e2.dim = b then e2.q else 0) + expOf rest b)
            = (if e1.dim = b then (n' : ℚ) / d' else 0) + expOf rest b := by
          rw [← hd]
          split
          · rw [hv]; unfold Exp.q; ring
          · ring
        rw [expOf_cons, expOf_cons, hsum]
        split at h
        · rename_i h0
          rw [ih rest.length (by omega) h rfl, h0]; simp
        · rw [ih (rest.length + 1) (by omega) h rfl, expOf_cons]; rfl
      · simp only [bind_ok, Except.ok.injEq] at h
        obtain ⟨tl, htl, rfl⟩ := h
        simp only [TypeList.pushFront, List.singleton_append]
        rw [expOf_cons, ih (rest.length + 1) (by omega) htl rfl, expOf_cons e1]

theorem normalizeExps_expOf {es es' : List Exp} (h : normalizeExps es = .ok es') (b : BaseDim) :
    expOf es' b = expOf es b := by
  rw [consolidate_expOf h b]
  exact expOf_perm (TypeList.sort_perm _ _) b

theorem mergeDim_eq_ok {Γ : DimReg} {es1 es2 : List Exp} {d : Dim} :
    mergeDim Γ es1 es2 = .ok d ↔
      ∃ es, consolidate (TypeList.mergeSorted expLess es1 es2) = .ok es ∧ toDimension Γ es = d := by
  unfold mergeDim; simp [bind_ok]

theorem downcastDim_expOf {Γ : DimReg} (hΓ : Γ.OK) {es es' : List Exp}
    (h : (downcastDim Γ es).exps = .ok es') (b : BaseDim) : expOf es' b = expOf es b := by
  unfold downcastDim at h
  split at h
  · rename_i n hn
    simp only [Dim.exps, Except.ok.injEq] at h
    rw [← h, hΓ es n hn]
  · exact normalizeExps_expOf h b

theorem toDimension_cases (Γ : DimReg) (es : List Exp) :
    (∃ b, es = [⟨b, 1, 1⟩] ∧ toDimension Γ es = .base b) ∨
      ((∀ b, es ≠ [⟨b, 1, 1⟩]) ∧ toDimension Γ es = downcastDim Γ es) := by
  unfold toDimension
  split
  · exact Or.inl ⟨_, rfl, rfl⟩
  · rename_i h
    refine Or.inr ⟨fun b hb => h b (by rw [hb]), rfl⟩

theorem toDimension_expOf {Γ : DimReg} (hΓ : Γ.OK) {es es' : List Exp}
    (h : (toDimension Γ es).exps = .ok es') (b : BaseDim) : expOf es' b = expOf es b := by
  rcases toDimension_cases Γ es with ⟨c, rfl, hc⟩ | ⟨-, hc⟩
  · rw [hc] at h
    simp only [Dim.exps, Except.ok.injEq] at h
    rw [← h]
  · rw [hc] at h
    exact downcastDim_expOf hΓ h b

theorem mergeDim_expOf {Γ : DimReg} (hΓ : Γ.OK) {es1 es2 es : List Exp} {d : Dim}
    (h : mergeDim Γ es1 es2 = .ok d) (hd : d.exps = .ok es) (b : BaseDim) :
    expOf es b = expOf es1 b + expOf es2 b := by
  obtain ⟨m, hm, rfl⟩ := mergeDim_eq_ok.mp h
  rw [toDimension_expOf hΓ hd b, consolidate_expOf hm b, ← expOf_append]
  exact expOf_perm (TypeList.mergeSorted_perm ..) b

/-- Up to the order of the arguments (irrelevant for what follows) multiplication merges the exponents
of the operands. -/
theorem dimMultiply_eq_ok {Γ : DimReg} {d1 d2 d : Dim} (h : dimMultiply Γ d1 d2 = .ok d) :
    ∃ es1 es2, d1.exps = .ok es1 ∧ d2.exps = .ok es2 ∧
      (mergeDim Γ es1 es2 = .ok d ∨ mergeDim Γ es2 es1 = .ok d) := by
  unfold dimMultiply at h
  split at h
  · exact ⟨_, _, rfl, rfl, Or.inl h⟩
  · simp only [bind_ok] at h
    obtain ⟨es2, h2, h⟩ := h
    exact ⟨_, _, rfl, h2, Or.inl h⟩
  · simp only [bind_ok] at h
    obtain ⟨es1, h1, h⟩ := h
    exact ⟨_, _, h1, rfl, Or.inr h⟩
  · simp only [bind_ok] at h
    obtain ⟨es1, h1, es2, h2, h⟩ := h
    exact ⟨_, _, h1, h2, Or.inl h⟩

theorem dimMultiply_expOf {Γ : DimReg} (hΓ : Γ.OK) {d1 d2 d : Dim} {es1 es2 es : List Exp}
    (h : dimMultiply Γ d1 d2 = .ok d) (h1 : d1.exps = .ok es1) (h2 : d2.exps = .ok es2)
    (hd : d.exps = .ok es) (b : BaseDim) : expOf es b = expOf es1 b + expOf es2 b := by
  obtain ⟨f1, f2, g1, g2, hm⟩ := dimMultiply_eq_ok h
  rw [h1] at g1; rw [h2] at g2
  simp only [Except.ok.injEq] at g1 g2
  subst g1; subst g2
  rcases hm with hm | hm
  · exact mergeDim_expOf hΓ hm hd b
  · rw [mergeDim_expOf hΓ hm hd b, add_comm]

theorem expInvert_eq_ok {e e' : Exp} :
    expInvert e = .ok e' ↔ I64 (-e.num) ∧ e' = ⟨e.dim, -e.num, e.den⟩ := by
  unfold expInvert
  simp only [bind_ok, neg64_eq_ok, Except.ok.injEq]
  constructor
  · rintro ⟨n, ⟨h, rfl⟩, rfl⟩; exact ⟨h, rfl⟩
  · rintro ⟨h, rfl⟩; exact ⟨_, ⟨h, rfl⟩, rfl⟩

theorem mapC_expOf_smul {f : Exp → C Exp} {k : ℚ} {es es' : List Exp} (h : mapC f es = .ok es')
    (hf : ∀ e ∈ es, ∀ e', f e = .ok e' → e'.dim = e.dim ∧ e'.q = k * e.q) (b : BaseDim) :
    expOf es' b = k * expOf es b := by
  rw [mapC_eq_ok] at h
  induction h with
  | nil => simp [expOf]
  | cons h1 _ ih =>
    rename_i a c l l' hl
    obtain ⟨hd, hq⟩ := hf a (by simp) c h1
    rw [expOf_cons, expOf_cons, ih (fun e he => hf e (by simp [he])), hd, hq]
    split <;> ring

theorem invert_expOf {es es' : List Exp} (h : mapC expInvert es = .ok es') (b : BaseDim) :
    expOf es' b = - expOf es b := by
  rw [mapC_expOf_smul (k := -1) h ?_ b]
  · ring
  · intro e _ e' he
    obtain ⟨-, rfl⟩ := expInvert_eq_ok.mp he
    refine ⟨rfl, ?_⟩
    simp only [Exp.q]; push_cast; ring

theorem dimInvert_eq_ok {Γ : DimReg} {d d' : Dim} (h : dimInvert Γ d = .ok d') :
    ∃ es inv, d.exps = .ok es ∧ mapC expInvert es = .ok inv ∧
      ((∃ b, es = [⟨b, -1, 1⟩] ∧ d' = .base b) ∨ ((∀ b, es ≠ [⟨b, -1, 1⟩]) ∧ d' = downcastDim Γ inv)) := by
  have key : (do
    let es ← d.exps
    match es with
    | [⟨b, -1, 1⟩] => .ok (.base b)
    | es => do
      let inv ← mapC expInvert es
      .ok (downcastDim Γ inv)) = (Except.ok d' : C Dim) →
    ∃ es inv, d.exps = .ok es ∧ mapC expInvert es = .ok inv ∧
      ((∃ b, es = [⟨b, -1, 1⟩] ∧ d' = .base b) ∨ ((∀ b, es ≠ [⟨b, -1, 1⟩]) ∧ d' = downcastDim Γ inv)) := by
    intro h
    simp only [bind_ok] at h
    obtain ⟨es, hes, h⟩ := h
    split at h
    · rename_i b
      simp only [Except.ok.injEq] at h
      exact ⟨_, [⟨b, 1, 1⟩], hes, rfl, Or.inl ⟨b, rfl, h.symm⟩⟩
    · rename_i hne
      simp only [bind_ok, Except.ok.injEq] at h
      obtain ⟨inv, hi, h⟩ := h
      exact ⟨es, inv, hes, hi, Or.inr ⟨fun b hb => hne b hb, h.symm⟩⟩
  unfold dimInvert at h
  split at h
  · rename_i b
    simp only [Except.ok.injEq] at h
    exact ⟨[⟨b, 1, 1⟩], [⟨b, -1, 1⟩], rfl, rfl, Or.inr ⟨by simp, h.symm⟩⟩
  · exact key h

theorem dimInvert_expOf {Γ : DimReg} (hΓ : Γ.OK) {d d' : Dim} {es es' : List Exp}
    (h : dimInvert Γ d = .ok d') (h1 : d.exps = .ok es) (h2 : d'.exps = .ok es') (b : BaseDim) :
    expOf es' b = - expOf es b := by
  obtain ⟨f, inv, g1, hinv, hc⟩ := dimInvert_eq_ok h
  rw [h1] at g1
  simp only [Except.ok.injEq] at g1
  subst g1
  rw [← invert_expOf hinv b]
  rcases hc with ⟨c, rfl, rfl⟩ | ⟨-, rfl⟩
  · simp only [mapC, expInvert, neg64] at hinv
    have : inv = [⟨c, 1, 1⟩] := by
      have h3 : chk (- -1) = .ok 1 := by decide
      rw [h3] at hinv
      simpa [ok_bind] using hinv.symm
    simp only [Dim.exps, Except.ok.injEq] at h2
    rw [this, ← h2]
  · exact downcastDim_expOf hΓ h2 b

end Verif
