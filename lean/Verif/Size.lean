import Verif.Equivalent
import Verif.CommonRatio
import Verif.Root
import Mathlib.Analysis.SpecialFunctions.Pow.Real

/-!
# Sizes of units

`units/bits/base_units_ratio.h`, the ratios of `units/quantity_cast.h`, `units/bits/derived_unit.h`,
`downcast_unit` of `units/unit.h` and the unit of `units/bits/common_quantity.h`; then the specification
of the physical size of a unit and the relation between the two.
-/

namespace Verif

open Ratio

/-- `detail::exp_ratio<E>`, src/core/include/units/bits/base_units_ratio.h:31-40, up to and including
`pow<N>(positive_ratio)`. -/
def expPow (est : RootEstimate) (e : Exp) : C Ratio :=
  if e.den = 1 ∨ e.den = 2 then do
    let base := e.dim.unit.ratio
    let s ← mul64 e.num e.den
    let pr ← (if s < 0 then do
        let x ← neg64 base.exp
        make base.den base.num x
      else .ok base)
    let n ← (if s < 0 then neg64 e.num else .ok e.num)
    powR est n 1 pr
  else .error .rejected

/-- `detail::exp_ratio<E>`, src/core/include/units/bits/base_units_ratio.h:31-40.  Simplification: the
unused branch of the conditional operator at line 39 is not evaluated. -/
def expRatio (est : RootEstimate) (e : Exp) : C Ratio := do
  let p ← expPow est e
  if e.den = 2 then sqrtR est p else .ok p

/-- `detail::base_units_ratio`, src/core/include/units/bits/base_units_ratio.h:45-49 (a right fold). -/
def baseUnitsRatio (est : RootEstimate) : List Exp → C Ratio
  | [] => .ok Ratio.one
  | e :: es => do
    let r ← expRatio est e
    let t ← baseUnitsRatio est es
    Ratio.mul r t

/-- `derived_dimension::base_units_ratio`, src/core/include/units/derived_dimension.h:87; base
dimensions have no such member. -/
def Dim.baseUnitsRatio (est : RootEstimate) : Dim → C Ratio
  | .base _ => .error .rejected
  | d => do
    let es ← d.exps
    Verif.baseUnitsRatio est es

/-- `detail::quantity_ratio<quantity<D, U, Rep>>`, src/core/include/units/quantity_cast.h:56-65. -/
def quantityRatio (est : RootEstimate) (d : Dim) (u : MUnit) : C Ratio :=
  match d with
  | .base _ => .ok u.ratio
  | d => do
    let b ← d.baseUnitsRatio est
    let x ← Ratio.mul b u.ratio
    Ratio.div x d.unit.ratio

/-- `detail::cast_ratio<QFrom, QTo>`, src/core/include/units/quantity_cast.h:67-78. -/
def castRatio (est : RootEstimate) (d1 : Dim) (u1 : MUnit) (d2 : Dim) (u2 : MUnit) : C Ratio :=
  if sameUnitReference u1 u2 then Ratio.div u1.ratio u2.ratio
  else do
    let r1 ← quantityRatio est d1 u1
    let r2 ← quantityRatio est d2 u2
    Ratio.div r1 r2

/-- What the downcasting facility knows about units: the child registered for `scaled_unit<R, U>`. -/
abbrev UnitReg := Ratio → String → Option MUnit

/-- The registry only returns children of the asked base type. -/
def UnitReg.OK (Υ : UnitReg) : Prop := ∀ r ref u, Υ r ref = some u → u.ratio = r ∧ u.ref = ref

/-- `downcast_unit<D, R>`, src/core/include/units/unit.h:60-63. -/
def downcastUnit (Υ : UnitReg) (d : Dim) (r : Ratio) : C MUnit := do
  let s ← scaledUnit r d.unit.ref
  match Υ r d.unit.ref with
  | some u => .ok u
  | none => .ok s

/-- Dimension and unit of `common_quantity`, src/core/include/units/bits/common_quantity.h:48-74. -/
def commonUnit (est : RootEstimate) (Υ : UnitReg) (d1 : Dim) (u1 : MUnit) (d2 : Dim) (u2 : MUnit) :
    C (Dim × MUnit) :=
  if d1 = d2 ∧ u1 = u2 then .ok (d1, u1)
  else if d1 = d2 ∨ sameUnitReference d1.unit d2.unit then do
    let r ← Ratio.common u1.ratio u2.ratio
    let u ← downcastUnit Υ d1 r
    .ok (d1, u)
  else do
    let d := match d1 with
      | .unknown _ => d2
      | d1 => d1
    let b1 ← d1.baseUnitsRatio est
    let r1 ← Ratio.mul b1 u1.ratio
    let b2 ← d2.baseUnitsRatio est
    let r2 ← Ratio.mul b2 u2.ratio
    let cr ← Ratio.common r1 r2
    let b ← d.baseUnitsRatio est
    let x ← Ratio.div cr b
    let u ← downcastUnit Υ d x
    .ok (d, u)

/-! ### Specification: the physical size of a unit

`β` gives the physical size of every reference unit of a base dimension, in whatever absolute scale.
Everything else follows from the definition of coherence: the coherent unit of a derived dimension is the
product of powers of the base units of its base dimensions. -/

/-- The physical size of the base unit of a base dimension. -/
noncomputable def baseSize (β : String → ℝ) (b : BaseDim) : ℝ := (b.unit.ratio.val : ℝ) * β b.unit.ref

/-- The physical size of the coherent unit of a dimension with these exponents. -/
noncomputable def dimSize (β : String → ℝ) (es : List Exp) : ℝ :=
  (es.map fun e => baseSize β e.dim ^ ((e.q : ℚ) : ℝ)).prod

/-- The physical size of unit `u` in a dimension with unit `c` and exponents `es`. -/
noncomputable def unitSize (β : String → ℝ) (es : List Exp) (c u : MUnit) : ℝ :=
  (u.ratio.val : ℝ) / (c.ratio.val : ℝ) * dimSize β es

/-- The physical size of unit `u` in dimension `d`. -/
noncomputable def Dim.size (β : String → ℝ) (d : Dim) (u : MUnit) : ℝ :=
  match d.exps with
  | .ok es => unitSize β es d.unit u
  | .error _ => 0

/-- The units a dimension is built on are accepted unit types and the exponent list exists. -/
structure Dim.Good (d : Dim) : Prop where
  exps : ∃ es, d.exps = .ok es ∧ ∀ e ∈ es, e.dim.unit.WF
  unit : d.unit.WF

/-- Whether the dimension is a base dimension. -/
def isBaseDim : Dim → Bool
  | .base _ => true
  | _ => false

/-- Physical sizes are positive. -/
def Sizes (β : String → ℝ) : Prop := ∀ r, 0 < β r

/-! ### Helper lemmas: sizes -/

theorem baseSize_pos {β : String → ℝ} (hβ : Sizes β) {b : BaseDim} (h : b.unit.WF) : 0 < baseSize β b :=
  mul_pos (by exact_mod_cast h.val_pos) (hβ _)

theorem dimSize_pos {β : String → ℝ} (hβ : Sizes β) {es : List Exp} (h : ∀ e ∈ es, e.dim.unit.WF) :
    0 < dimSize β es := by
  unfold dimSize
  induction es with
  | nil => simp
  | cons a l ih =>
    rw [List.map_cons, List.prod_cons]
    exact mul_pos (Real.rpow_pos_of_pos (baseSize_pos hβ (h a (by simp))) _)
      (ih fun e he => h e (by simp [he]))

theorem Dim.size_eq {β : String → ℝ} {d : Dim} {es : List Exp} (h : d.exps = .ok es) (u : MUnit) :
    d.size β u = (u.ratio.val : ℝ) / (d.unit.ratio.val : ℝ) * dimSize β es := by
  unfold Dim.size; rw [h]; rfl

theorem Dim.size_base {β : String → ℝ} {b : BaseDim} (h : b.unit.WF) (u : MUnit) :
    (Dim.base b).size β u = (u.ratio.val : ℝ) * β b.unit.ref := by
  have hne : (b.unit.ratio.val : ℝ) ≠ 0 := by exact_mod_cast h.val_pos.ne'
  simp only [Dim.size, Dim.exps, unitSize, dimSize, Dim.unit, List.map_cons, List.map_nil, List.prod_cons,
    List.prod_nil, Exp.q, baseSize]
  norm_num
  field_simp

theorem Dim.size_pos {β : String → ℝ} (hβ : Sizes β) {d : Dim} (hd : d.Good) {u : MUnit} (hu : u.WF) :
    0 < d.size β u := by
  obtain ⟨es, he, hw⟩ := hd.exps
  rw [Dim.size_eq he]
  have h1 : (0 : ℝ) < u.ratio.val := by exact_mod_cast hu.val_pos
  have h2 : (0 : ℝ) < d.unit.ratio.val := by exact_mod_cast hd.unit.val_pos
  exact mul_pos (div_pos h1 h2) (dimSize_pos hβ hw)

/-- A weighted sum over an exponent list is determined by the total exponents. -/
theorem weight_eq (f : BaseDim → ℝ) (es : List Exp) (S : Finset BaseDim) (hS : ∀ e ∈ es, e.dim ∈ S) :
    (es.map fun e => ((e.q : ℚ) : ℝ) * f e.dim).sum = ∑ b ∈ S, ((expOf es b : ℚ) : ℝ) * f b := by
  induction es with
  | nil => simp [expOf]
  | cons a l ih =>
    rw [List.map_cons, List.sum_cons, ih fun e he => hS e (by simp [he])]
    have : ∀ b ∈ S, ((expOf (a :: l) b : ℚ) : ℝ) * f b =
        (if a.dim = b then ((a.q : ℚ) : ℝ) * f b else 0) + ((expOf l b : ℚ) : ℝ) * f b := by
      intro b _
      rw [expOf_cons]
      split <;> push_cast <;> ring
    rw [Finset.sum_congr rfl this, Finset.sum_add_distrib, Finset.sum_ite_eq, if_pos (hS a (by simp))]

theorem dimSize_log {β : String → ℝ} (hβ : Sizes β) {es : List Exp} (h : ∀ e ∈ es, e.dim.unit.WF) :
    Real.log (dimSize β es) = (es.map fun e => ((e.q : ℚ) : ℝ) * Real.log (baseSize β e.dim)).sum := by
  induction es with
  | nil => simp [dimSize]
  | cons a l ih =>
    have ha := baseSize_pos hβ (h a (by simp))
    have hl := dimSize_pos hβ (es := l) fun e he => h e (by simp [he])
    have : dimSize β (a :: l) = baseSize β a.dim ^ ((a.q : ℚ) : ℝ) * dimSize β l := by
      simp [dimSize]
    rw [this, Real.log_mul (Real.rpow_pos_of_pos ha _).ne' hl.ne', Real.log_rpow ha,
      ih fun e he => h e (by simp [he])]
    simp

/-- If the exponents of `es` are a linear combination of those of `es1` and `es2`, so are the logarithms
of the sizes. -/
theorem dimSize_combine {β : String → ℝ} (hβ : Sizes β) {es es1 es2 : List Exp} {k1 k2 : ℚ}
    (h : ∀ e ∈ es, e.dim.unit.WF) (h1 : ∀ e ∈ es1, e.dim.unit.WF) (h2 : ∀ e ∈ es2, e.dim.unit.WF)
    (hx : ∀ b, expOf es b = k1 * expOf es1 b + k2 * expOf es2 b) :
    dimSize β es = dimSize β es1 ^ (k1 : ℝ) * dimSize β es2 ^ (k2 : ℝ) := by
  have p := dimSize_pos hβ h
  have p1 := dimSize_pos hβ h1
  have p2 := dimSize_pos hβ h2
  apply Real.log_injOn_pos (Set.mem_Ioi.mpr p)
    (Set.mem_Ioi.mpr (mul_pos (Real.rpow_pos_of_pos p1 _) (Real.rpow_pos_of_pos p2 _)))
  rw [Real.log_mul (Real.rpow_pos_of_pos p1 _).ne' (Real.rpow_pos_of_pos p2 _).ne', Real.log_rpow p1,
    Real.log_rpow p2, dimSize_log hβ h, dimSize_log hβ h1, dimSize_log hβ h2]
  set S : Finset BaseDim := ((es ++ es1 ++ es2).map Exp.dim).toFinset with hSdef
  have hS : ∀ l : List Exp, (l ⊆ es ++ es1 ++ es2) → ∀ e ∈ l, e.dim ∈ S := by
    intro l hl e he
    rw [hSdef, List.mem_toFinset]
    exact List.mem_map_of_mem (hl he)
  rw [weight_eq (fun b => Real.log (baseSize β b)) es S (hS es (by intro x hx; simp [hx])), weight_eq (fun b => Real.log (baseSize β b)) es1 S (hS es1 (by intro x hx; simp [hx])),
    weight_eq (fun b => Real.log (baseSize β b)) es2 S (hS es2 (by intro x hx; simp [hx])), Finset.mul_sum, Finset.mul_sum,
    ← Finset.sum_add_distrib]
  refine Finset.sum_congr rfl fun b _ => ?_
  rw [hx b]; push_cast; ring

/-- The part of the size of a dimension given by the ratios of the base units. -/
noncomputable def ratioSize (es : List Exp) : ℝ := (es.map fun e => (e.dim.unit.ratio.val : ℝ) ^ ((e.q : ℚ) : ℝ)).prod

/-- The part of the size of a dimension given by the reference units. -/
noncomputable def refSize (β : String → ℝ) (es : List Exp) : ℝ := (es.map fun e => β e.dim.unit.ref ^ ((e.q : ℚ) : ℝ)).prod

theorem dimSize_split {β : String → ℝ} (hβ : Sizes β) {es : List Exp} (h : ∀ e ∈ es, e.dim.unit.WF) :
    dimSize β es = ratioSize es * refSize β es := by
  induction es with
  | nil => simp [dimSize, ratioSize, refSize]
  | cons a l ih =>
    have ih := ih fun e he => h e (by simp [he])
    simp only [dimSize, ratioSize, refSize, List.map_cons, List.prod_cons] at ih ⊢
    rw [ih]
    unfold baseSize
    have h1 : (0 : ℝ) ≤ a.dim.unit.ratio.val := by exact_mod_cast (h a (by simp)).val_pos.le
    rw [Real.mul_rpow h1 (hβ _).le]
    ring

theorem refSize_congr (β : String → ℝ) {l1 l2 : List Exp} (h : expsEquivalent l1 l2 = true) :
    refSize β l1 = refSize β l2 := by
  rw [expsEquivalent_iff] at h
  have key : ∀ l : List Exp, refSize β l =
      ((l.map fun e => (e.dim.symbol, e.dim.unit.ref, e.num, e.den)).map
        fun t => β t.2.1 ^ (((t.2.2.1 : ℚ) / t.2.2.2 : ℚ) : ℝ)).prod := by
    intro l
    unfold refSize
    rw [List.map_map]; rfl
  rw [key, key, h]

theorem refSize_pos {β : String → ℝ} (hβ : Sizes β) (es : List Exp) : 0 < refSize β es := by
  induction es with
  | nil => simp [refSize]
  | cons a l ih =>
    simp only [refSize, List.map_cons, List.prod_cons] at ih ⊢
    exact mul_pos (Real.rpow_pos_of_pos (hβ _) _) ih

theorem ratioSize_pos {es : List Exp} (h : ∀ e ∈ es, e.dim.unit.WF) : 0 < ratioSize es := by
  induction es with
  | nil => simp [ratioSize]
  | cons a l ih =>
    simp only [ratioSize, List.map_cons, List.prod_cons] at ih ⊢
    exact mul_pos (Real.rpow_pos_of_pos (by exact_mod_cast (h a (by simp)).val_pos) _)
      (ih fun e he => h e (by simp [he]))

/-! ### Helper lemmas: the ratios -/

/-- The square root that `exp_ratio` takes for denominator two is exact (see C09). -/
def RootExact (est : RootEstimate) (e : Exp) : Prop :=
  e.den = 2 → ∀ p x, expPow est e = .ok p → sqrtR est p = .ok x → x.WF ∧ 0 < x.val ∧ x.val ^ 2 = p.val

theorem powR_one_sound {est : RootEstimate} {n : Int} {r y : Ratio} (hr : r.WF)
    (h : powR est n 1 r = .ok y) : y.val = r.val ^ n ∧ y.WF := by
  unfold powR at h
  rw [if_neg one_ne_zero] at h
  split at h
  · rename_i h0
    simp only [Except.ok.injEq] at h
    rw [h0, ← h]; exact ⟨by simp [one_val], one_wf⟩
  · split at h
    · rename_i h1
      simp only [Except.ok.injEq] at h
      rw [h1, ← h]; exact ⟨by simp, hr⟩
    · simp only [bind_ok, sgcd_eq_ok, div64_eq_ok, mul64_eq_ok] at h
      obtain ⟨g, ⟨-, -, rfl⟩, a, ⟨-, hI, rfl⟩, n', hn', d, ⟨-, hId, rfl⟩, d', hd', p', hp', res, hres, s,
        ⟨hIs, rfl⟩, h⟩ := h
      rw [Int.gcd_one] at *
      simp only [Nat.cast_one, Int.tdiv_one, mul_one] at *
      obtain ⟨-, rfl⟩ := (abs64_eq_ok hI).mp hn'
      obtain ⟨-, rfl⟩ := (abs64_eq_ok hId).mp hd'
      obtain ⟨pw, pv⟩ := powImpl_sound _ hr hp'
      have hres' : res = p' := by
        unfold rootR at hres; rw [if_pos (by simp)] at hres
        simp only [Except.ok.injEq] at hres; exact hres.symm
      subst hres'
      split at h
      · rename_i hneg
        obtain ⟨iw, iv, -⟩ := inverse_sound pw h
        refine ⟨?_, iw⟩
        rw [iv, pv, abs_of_neg hneg]
        obtain ⟨k, rfl⟩ : ∃ k : Nat, n = -(k : Int) := ⟨n.natAbs, by omega⟩
        simp
      · rename_i hneg
        simp only [Except.ok.injEq] at h
        subst h
        refine ⟨?_, pw⟩
        rw [pv, abs_of_nonneg (by omega)]
        obtain ⟨k, rfl⟩ : ∃ k : Nat, n = (k : Int) := ⟨n.natAbs, by omega⟩
        simp

theorem expPow_sound {est : RootEstimate} {e : Exp} {p : Ratio} (hw : e.dim.unit.WF)
    (h : expPow est e = .ok p) :
    p.WF ∧ p.val = e.dim.unit.ratio.val ^ e.num ∧ (e.den = 1 ∨ e.den = 2) := by
  unfold expPow at h
  split at h
  · rename_i hden
    dsimp only at h
    simp only [bind_ok, mul64_eq_ok] at h
    obtain ⟨s, ⟨-, rfl⟩, pr, hpr, n, hn, h⟩ := h
    have hs : e.num * e.den < 0 ↔ e.num < 0 := by
      rcases hden with h | h <;> rw [h] <;> constructor <;> intro <;> omega
    by_cases hneg : e.num < 0
    · rw [if_pos (hs.mpr hneg)] at hpr hn
      simp only [bind_ok] at hpr
      have hi : Ratio.inverse e.dim.unit.ratio = .ok pr := by
        unfold Ratio.inverse; simpa only [bind_ok] using hpr
      obtain ⟨iw, iv, -⟩ := inverse_sound hw.ratio hi
      obtain ⟨-, rfl⟩ := neg64_eq_ok.mp hn
      obtain ⟨yv, yw⟩ := powR_one_sound iw h
      refine ⟨yw, ?_, hden⟩
      rw [yv, iv]
      simp
    · rw [if_neg (fun h => hneg (hs.mp h))] at hpr hn
      simp only [Except.ok.injEq] at hpr hn
      subst hpr; subst hn
      obtain ⟨yv, yw⟩ := powR_one_sound hw.ratio h
      exact ⟨yw, yv, hden⟩
  · cases h

theorem expRatio_sound {est : RootEstimate} {e : Exp} {x : Ratio} (hw : e.dim.unit.WF)
    (hroot : RootExact est e) (h : expRatio est e = .ok x) :
    x.WF ∧ 0 < x.val ∧ (x.val : ℝ) = (e.dim.unit.ratio.val : ℝ) ^ ((e.q : ℚ) : ℝ) := by
  unfold expRatio at h
  simp only [bind_ok] at h
  obtain ⟨p, hp, h⟩ := h
  obtain ⟨pw, pv, hden⟩ := expPow_sound hw hp
  have hpos : (0 : ℝ) < e.dim.unit.ratio.val := by exact_mod_cast hw.val_pos
  split at h
  · rename_i h2
    obtain ⟨xw, xp, xv⟩ := hroot h2 p x hp h
    refine ⟨xw, xp, ?_⟩
    have hx : (0 : ℝ) ≤ x.val := by exact_mod_cast xp.le
    have hsq : ((x.val : ℝ)) ^ 2 = (e.dim.unit.ratio.val : ℝ) ^ e.num := by
      have : x.val ^ 2 = e.dim.unit.ratio.val ^ e.num := by rw [xv, pv]
      exact_mod_cast congrArg (fun q : ℚ => (q : ℝ)) this
    rw [← Real.sqrt_sq hx, hsq, Real.sqrt_eq_rpow, ← Real.rpow_intCast, ← Real.rpow_mul hpos.le]
    congr 1
    unfold Exp.q; rw [h2]; push_cast; ring
  · rename_i h2
    simp only [Except.ok.injEq] at h
    subst h
    have h1 : e.den = 1 := by tauto
    refine ⟨pw, by rw [pv]; exact zpow_pos hw.val_pos _, ?_⟩
    rw [pv]
    unfold Exp.q; rw [h1]
    push_cast
    rw [div_one, Real.rpow_intCast]

theorem baseUnitsRatio_sound {est : RootEstimate} {es : List Exp} {x : Ratio}
    (hw : ∀ e ∈ es, e.dim.unit.WF) (hroot : ∀ e ∈ es, RootExact est e) (h : baseUnitsRatio est es = .ok x) :
    x.WF ∧ 0 < x.val ∧ (x.val : ℝ) = ratioSize es := by
  induction es generalizing x with
  | nil =>
    simp only [baseUnitsRatio, Except.ok.injEq] at h
    subst h
    refine ⟨one_wf, by simp [one_val], ?_⟩
    simp [one_val, ratioSize]
  | cons a l ih =>
    simp only [baseUnitsRatio, bind_ok] at h
    obtain ⟨r, hr, t, ht, h⟩ := h
    obtain ⟨rw1, rp, rv⟩ := expRatio_sound (hw a (by simp)) (hroot a (by simp)) hr
    obtain ⟨tw, tp, tv⟩ := ih (fun e he => hw e (by simp [he])) (fun e he => hroot e (by simp [he])) ht
    obtain ⟨xw, xv⟩ := mul_sound rw1 tw h
    refine ⟨xw, by rw [xv]; positivity, ?_⟩
    rw [xv]; push_cast
    rw [rv, tv]
    simp [ratioSize]

/-- Every square root taken in the base units ratio of the dimension is exact (no root is taken when the
exponents are integers). -/
def Dim.Rooted (est : RootEstimate) (d : Dim) : Prop :=
  ∀ es, d.exps = .ok es → ∀ e ∈ es, RootExact est e

/-- Two dimensions whose coherent units share a reference give the units of that reference the same
size. -/
def Coherent (β : String → ℝ) (d1 d2 : Dim) : Prop :=
  d1.unit.ref = d2.unit.ref → ∀ u, d1.size β u = d2.size β u

theorem Coherent.refl (β : String → ℝ) (d : Dim) : Coherent β d d := fun _ _ => rfl

theorem Coherent.base {β : String → ℝ} {b1 b2 : BaseDim} (h1 : b1.unit.WF) (h2 : b2.unit.WF) :
    Coherent β (.base b1) (.base b2) := by
  intro h u
  simp only [Dim.unit] at h
  rw [Dim.size_base h1, Dim.size_base h2, h]

theorem dim_cases (d : Dim) : (∃ b, d = .base b) ∨ isBaseDim d = false := by
  cases d with
  | base b => exact Or.inl ⟨b, rfl⟩
  | named _ => exact Or.inr rfl
  | unknown _ => exact Or.inr rfl

theorem Dim.baseUnitsRatio_eq_ok {est : RootEstimate} {d : Dim} {x : Ratio}
    (h : d.baseUnitsRatio est = .ok x) :
    isBaseDim d = false ∧ ∃ es, d.exps = .ok es ∧ Verif.baseUnitsRatio est es = .ok x := by
  cases d with
  | base b => simp [Dim.baseUnitsRatio] at h
  | named n => simp only [Dim.baseUnitsRatio, bind_ok] at h; exact ⟨rfl, h⟩
  | unknown es => simp only [Dim.baseUnitsRatio, bind_ok] at h; exact ⟨rfl, h⟩

theorem quantityRatio_eq_ok {est : RootEstimate} {d : Dim} {u : MUnit} {x : Ratio}
    (h : quantityRatio est d u = .ok x) :
    (∃ b, d = .base b ∧ x = u.ratio) ∨ (isBaseDim d = false ∧ ∃ b y, d.baseUnitsRatio est = .ok b ∧
      Ratio.mul b u.ratio = .ok y ∧ Ratio.div y d.unit.ratio = .ok x) := by
  cases d with
  | base b => simp only [quantityRatio, Except.ok.injEq] at h; exact Or.inl ⟨b, rfl, h.symm⟩
  | named n =>
    simp only [quantityRatio, bind_ok] at h
    obtain ⟨b, hb, y, hy, h⟩ := h
    exact Or.inr ⟨rfl, b, y, hb, hy, h⟩
  | unknown es =>
    simp only [quantityRatio, bind_ok] at h
    obtain ⟨b, hb, y, hy, h⟩ := h
    exact Or.inr ⟨rfl, b, y, hb, hy, h⟩

/-- The quantity ratio is the size of the unit divided by what the reference units of the base dimensions
contribute. -/
theorem quantityRatio_sound {est : RootEstimate} {β : String → ℝ} (hβ : Sizes β) {d : Dim} {u : MUnit}
    {x : Ratio} {es : List Exp} (hd : d.Good) (hr : d.Rooted est) (hu : u.WF) (he : d.exps = .ok es)
    (h : quantityRatio est d u = .ok x) :
    x.WF ∧ 0 < x.val ∧ d.size β u = (x.val : ℝ) * refSize β es := by
  obtain ⟨es', he', hw⟩ := hd.exps
  rw [he] at he'; simp only [Except.ok.injEq] at he'; subst he'
  rcases quantityRatio_eq_ok h with ⟨b, rfl, rfl⟩ | ⟨-, b, y, hb, hy, hx⟩
  · refine ⟨hu.ratio, hu.val_pos, ?_⟩
    have := hd.unit
    rw [Dim.size_base this]
    simp only [Dim.exps, Except.ok.injEq] at he
    subst he
    simp [refSize, Exp.q]
  · obtain ⟨-, es', he', hb⟩ := Dim.baseUnitsRatio_eq_ok hb
    rw [he] at he'; simp only [Except.ok.injEq] at he'; subst he'
    obtain ⟨bw, bp, bv⟩ := baseUnitsRatio_sound hw (hr es he) hb
    obtain ⟨yw, yv⟩ := mul_sound bw hu.ratio hy
    obtain ⟨xw, xv, -⟩ := div_sound yw hd.unit.ratio hx
    have hup := hu.val_pos
    have hcp := hd.unit.val_pos
    refine ⟨xw, by rw [xv, yv]; positivity, ?_⟩
    rw [Dim.size_eq he, dimSize_split hβ hw, xv, yv]
    push_cast
    rw [bv]
    ring

/-- The cast ratio is the quotient of the sizes of the two units. -/
theorem castRatio_sound {est : RootEstimate} {β : String → ℝ} (hβ : Sizes β) {d1 d2 : Dim}
    {u1 u2 : MUnit} {x : Ratio} (g1 : d1.Good) (g2 : d2.Good) (r1 : d1.Rooted est) (r2 : d2.Rooted est)
    (w1 : u1.WF) (w2 : u2.WF) (f1 : u1.ref = d1.unit.ref) (f2 : u2.ref = d2.unit.ref)
    (heq : dimEquivalent d1 d2 = .ok true) (hc : Coherent β d1 d2)
    (h : castRatio est d1 u1 d2 u2 = .ok x) :
    x.WF ∧ 0 < x.val ∧ (x.val : ℝ) = d1.size β u1 / d2.size β u2 := by
  obtain ⟨es1, e1, hw1⟩ := g1.exps
  obtain ⟨es2, e2, hw2⟩ := g2.exps
  have p2 := Dim.size_pos hβ g2 w2
  unfold castRatio at h
  split at h
  · rename_i href
    unfold sameUnitReference at href
    rw [beq_iff_eq, f1, f2] at href
    obtain ⟨xw, xv, -⟩ := div_sound w1.ratio w2.ratio h
    have q1 := w1.val_pos
    have q2 := w2.val_pos
    refine ⟨xw, by rw [xv]; positivity, ?_⟩
    rw [hc href u1, eq_div_iff p2.ne', Dim.size_eq e2, Dim.size_eq e2, xv]
    have : ((u2.ratio.val : ℚ) : ℝ) ≠ 0 := by exact_mod_cast q2.ne'
    push_cast
    field_simp
  · simp only [bind_ok] at h
    obtain ⟨a, ha, b, hb, h⟩ := h
    obtain ⟨aw, ap, av⟩ := quantityRatio_sound hβ g1 r1 w1 e1 ha
    obtain ⟨bw, bp, bv⟩ := quantityRatio_sound hβ g2 r2 w2 e2 hb
    obtain ⟨xw, xv, -⟩ := div_sound aw bw h
    refine ⟨xw, by rw [xv]; positivity, ?_⟩
    have hR : refSize β es1 = refSize β es2 := refSize_congr β (dimEquivalent_eq_ok e1 e2 heq)
    have hRp := refSize_pos hβ es2
    have hb' : ((b.val : ℚ) : ℝ) ≠ 0 := by exact_mod_cast bp.ne'
    rw [av, bv, hR, xv]
    push_cast
    field_simp

theorem downcastUnit_eq_ok {Υ : UnitReg} (hΥ : Υ.OK) {d : Dim} {r : Ratio} {u : MUnit}
    (h : downcastUnit Υ d r = .ok u) : u.ratio = r ∧ u.ref = d.unit.ref ∧ 0 < r.num := by
  unfold downcastUnit at h
  simp only [bind_ok] at h
  obtain ⟨s, hs, h⟩ := h
  obtain ⟨⟨hp, -⟩, rfl⟩ := scaledUnit_eq_ok.mp hs
  split at h
  · rename_i u' hu'
    simp only [Except.ok.injEq] at h
    subst h
    exact ⟨(hΥ _ _ _ hu').1, (hΥ _ _ _ hu').2, hp⟩
  · simp only [Except.ok.injEq] at h
    subst h
    exact ⟨rfl, rfl, hp⟩

theorem downcastUnit_wf {Υ : UnitReg} (hΥ : Υ.OK) {d : Dim} {r : Ratio} {u : MUnit} (hr : r.WF)
    (h : downcastUnit Υ d r = .ok u) : u.WF := by
  obtain ⟨h1, -, h3⟩ := downcastUnit_eq_ok hΥ h
  exact ⟨by rw [h1]; exact hr, by rw [h1]; exact h3⟩

/-- `g` is the coarsest size of which both `x` and `y` are integral multiples. -/
structure IsCommonSize (x y g : ℝ) : Prop where
  left : ∃ a : ℤ, x = a * g
  right : ∃ b : ℤ, y = b * g
  greatest : ∀ z : ℝ, (∃ a : ℤ, x = a * z) → (∃ b : ℤ, y = b * z) → ∃ k : ℤ, g = k * z

theorem IsCommonSize.of_ratio {x y g : ℚ} {κ : ℝ} (h : IsCommonUnit x y g) (hx : 0 < x) (hκ : 0 < κ) :
    IsCommonSize (x * κ) (y * κ) (g * κ) where
  left := by
    obtain ⟨a, ha⟩ := h.left
    exact ⟨a, by rw [ha]; push_cast; ring⟩
  right := by
    obtain ⟨a, ha⟩ := h.right
    exact ⟨a, by rw [ha]; push_cast; ring⟩
  greatest := by
    rintro z ⟨a, ha⟩ ⟨b, hb⟩
    have hxr : (0 : ℝ) < x := by exact_mod_cast hx
    have ha0 : (a : ℝ) ≠ 0 := by
      intro h0; rw [h0, zero_mul] at ha; exact (mul_pos hxr hκ).ne' ha
    have haq : (a : ℚ) ≠ 0 := by exact_mod_cast ha0
    have hz : z = ((x / a : ℚ) : ℝ) * κ := by
      push_cast; field_simp; linarith
    obtain ⟨k, hk⟩ := h.greatest (x / a) ⟨a, by field_simp⟩ ⟨b, by
      have : (y : ℝ) * κ = b * (((x / a : ℚ) : ℝ) * κ) := by rw [hb, hz]
      have h2 : (y : ℝ) = b * ((x / a : ℚ) : ℝ) := by
        apply mul_right_cancel₀ hκ.ne'; rw [this]; ring
      exact_mod_cast h2⟩
    refine ⟨k, ?_⟩
    rw [hz, hk]; push_cast; ring

theorem IsCommonSize.refl (x : ℝ) : IsCommonSize x x x :=
  ⟨⟨1, by simp⟩, ⟨1, by simp⟩, fun _ h _ => h⟩

/-- The common unit is the coarsest unit of which both units are multiples. -/
theorem commonUnit_sound {est : RootEstimate} {Υ : UnitReg} (hΥ : Υ.OK) {β : String → ℝ} (hβ : Sizes β)
    {d1 d2 d : Dim} {u1 u2 u : MUnit} (g1 : d1.Good) (g2 : d2.Good) (r1 : d1.Rooted est)
    (r2 : d2.Rooted est) (w1 : u1.WF) (w2 : u2.WF) (f1 : u1.ref = d1.unit.ref)
    (heq : dimEquivalent d1 d2 = .ok true) (hc : Coherent β d1 d2)
    (hone : d1.unit.ref ≠ d2.unit.ref → d1.unit.ratio.val = 1 ∧ d2.unit.ratio.val = 1)
    (h : commonUnit est Υ d1 u1 d2 u2 = .ok (d, u)) :
    u.WF ∧ u.ref = d.unit.ref ∧ (d = d1 ∨ d = d2) ∧
      IsCommonSize (d1.size β u1) (d2.size β u2) (d.size β u) := by
  obtain ⟨es1, e1, hw1⟩ := g1.exps
  obtain ⟨es2, e2, hw2⟩ := g2.exps
  unfold commonUnit at h
  split at h
  · rename_i hsame
    obtain ⟨rfl, rfl⟩ := hsame
    simp only [Except.ok.injEq, Prod.mk.injEq] at h
    obtain ⟨rfl, rfl⟩ := h
    exact ⟨w1, f1, Or.inl rfl, IsCommonSize.refl _⟩
  · split at h
    · rename_i hsame
      simp only [bind_ok, Except.ok.injEq, Prod.mk.injEq] at h
      obtain ⟨r, hr, u', hu', rfl, rfl⟩ := h
      obtain ⟨rw, rp, rc⟩ := common_sound w1.ratio w2.ratio w1.pos w2.pos hr
      obtain ⟨h1, h2, -⟩ := downcastUnit_eq_ok hΥ hu'
      refine ⟨downcastUnit_wf hΥ rw hu', h2, Or.inl rfl, ?_⟩
      have hs2 : d2.size β u2 = d1.size β u2 := by
        rcases hsame with rfl | hs
        · rfl
        · unfold sameUnitReference at hs
          rw [beq_iff_eq] at hs
          exact (hc hs u2).symm
      have hk : 0 < dimSize β es1 / (d1.unit.ratio.val : ℝ) :=
        div_pos (dimSize_pos hβ hw1) (by exact_mod_cast g1.unit.val_pos)
      have := IsCommonSize.of_ratio rc w1.val_pos hk
      rw [hs2, Dim.size_eq e1, Dim.size_eq e1, Dim.size_eq e1, h1]
      have hx : ∀ q : ℚ, (q : ℝ) / (d1.unit.ratio.val : ℝ) * dimSize β es1
          = q * (dimSize β es1 / (d1.unit.ratio.val : ℝ)) := fun q => by ring
      rw [hx, hx, hx]; exact this
    · rename_i hsame
      push Not at hsame
      have href : d1.unit.ref ≠ d2.unit.ref := by
        intro hh; apply hsame.2; unfold sameUnitReference; simp [hh]
      obtain ⟨o1, o2⟩ := hone href
      simp only [bind_ok, Except.ok.injEq, Prod.mk.injEq] at h
      obtain ⟨b1, hb1, q1, hq1, b2, hb2, q2, hq2, cr, hcr, b, hb, x, hx, u', hu', rfl, rfl⟩ := h
      obtain ⟨-, es1', e1', hb1⟩ := Dim.baseUnitsRatio_eq_ok hb1
      rw [e1] at e1'; simp only [Except.ok.injEq] at e1'; subst e1'
      obtain ⟨-, es2', e2', hb2⟩ := Dim.baseUnitsRatio_eq_ok hb2
      rw [e2] at e2'; simp only [Except.ok.injEq] at e2'; subst e2'
      obtain ⟨bw1, bp1, bv1⟩ := baseUnitsRatio_sound hw1 (r1 _ e1) hb1
      obtain ⟨bw2, bp2, bv2⟩ := baseUnitsRatio_sound hw2 (r2 _ e2) hb2
      obtain ⟨qw1, qv1⟩ := mul_sound bw1 w1.ratio hq1
      obtain ⟨qw2, qv2⟩ := mul_sound bw2 w2.ratio hq2
      have up1 := w1.val_pos
      have up2 := w2.val_pos
      have qp1 : 0 < q1.val := by rw [qv1]; positivity
      have qp2 : 0 < q2.val := by rw [qv2]; positivity
      obtain ⟨cw, cp, cc⟩ := common_sound qw1 qw2 (qw1.val_pos.mp qp1) (qw2.val_pos.mp qp2) hcr
      have hR : refSize β es1 = refSize β es2 := refSize_congr β (dimEquivalent_eq_ok e1 e2 heq)
      have hs := IsCommonSize.of_ratio cc qp1 (refSize_pos hβ es1)
      have s1 : d1.size β u1 = (q1.val : ℝ) * refSize β es1 := by
        rw [Dim.size_eq e1, o1, dimSize_split hβ hw1, qv1]; push_cast; rw [bv1]; ring
      have s2 : d2.size β u2 = (q2.val : ℝ) * refSize β es1 := by
        rw [Dim.size_eq e2, o2, dimSize_split hβ hw2, qv2, hR]; push_cast; rw [bv2]; ring
      rw [s1, s2]
      -- whichever dimension is chosen
      have key : ∀ (d : Dim) (es : List Exp), d.exps = .ok es → (∀ e ∈ es, e.dim.unit.WF) → d.Rooted est →
          d.unit.ratio.val = 1 → refSize β es = refSize β es1 → d.baseUnitsRatio est = .ok b →
          Ratio.div cr b = .ok x → downcastUnit Υ d x = .ok u' →
          u'.WF ∧ u'.ref = d.unit.ref ∧
            IsCommonSize ((q1.val : ℝ) * refSize β es1) ((q2.val : ℝ) * refSize β es1) (d.size β u') := by
        intro d es he hw hroot hone href hb hx hu
        obtain ⟨-, es', he', hb⟩ := Dim.baseUnitsRatio_eq_ok hb
        rw [he] at he'; simp only [Except.ok.injEq] at he'; subst he'
        obtain ⟨bw, bp, bv⟩ := baseUnitsRatio_sound hw (hroot _ he) hb
        obtain ⟨xw, xv, -⟩ := div_sound cw bw hx
        obtain ⟨h1, h2, -⟩ := downcastUnit_eq_ok hΥ hu
        refine ⟨downcastUnit_wf hΥ xw hu, h2, ?_⟩
        have : d.size β u' = (cr.val : ℝ) * refSize β es1 := by
          have hb0 : ((b.val : ℚ) : ℝ) ≠ 0 := by exact_mod_cast bp.ne'
          rw [Dim.size_eq he, hone, dimSize_split hβ hw, h1, xv, href, ← bv]
          push_cast
          field_simp
        rw [this]; exact hs
      cases d1 with
      | base b => exact ⟨(key _ es1 e1 hw1 r1 o1 rfl hb hx hu').1, (key _ es1 e1 hw1 r1 o1 rfl hb hx hu').2.1,
          Or.inl rfl, (key _ es1 e1 hw1 r1 o1 rfl hb hx hu').2.2⟩
      | named n => exact ⟨(key _ es1 e1 hw1 r1 o1 rfl hb hx hu').1, (key _ es1 e1 hw1 r1 o1 rfl hb hx hu').2.1,
          Or.inl rfl, (key _ es1 e1 hw1 r1 o1 rfl hb hx hu').2.2⟩
      | unknown _ => exact ⟨(key _ es2 e2 hw2 r2 o2 hR.symm hb hx hu').1, (key _ es2 e2 hw2 r2 o2 hR.symm hb hx hu').2.1,
          Or.inr rfl, (key _ es2 e2 hw2 r2 o2 hR.symm hb hx hu').2.2⟩

/-! ### Unnamed derived units -/

/-- `detail::inverse_if_negative<E>`, src/core/include/units/bits/derived_unit.h:38-45. -/
def inverseIfNegative (e : RecipeItem) (r : Ratio) : C Ratio := do
  let s ← mul64 e.num e.den
  if s > 0 then .ok r else Ratio.inverse r

/-- One factor of `detail::derived_ratio`, src/core/include/units/bits/derived_unit.h:50. -/
def derivedFactor (est : RootEstimate) (e : RecipeItem) (u : MUnit) : C Ratio := do
  let n ← abs64 e.num
  let p ← powR est n 1 u.ratio
  let q ← Ratio.div p e.dim.unit.ratio
  inverseIfNegative e q

/-- The left fold of `detail::derived_ratio`, src/core/include/units/bits/derived_unit.h:50, after its
first factor; recipe and units must have the same length. -/
def derivedRatioGo (est : RootEstimate) (acc : Ratio) : List RecipeItem → List MUnit → C Ratio
  | [], [] => .ok acc
  | e :: es, u :: us => do
    let f ← derivedFactor est e u
    let acc' ← Ratio.mul acc f
    derivedRatioGo est acc' es us
  | _, _ => .error .rejected

/-- `detail::derived_ratio<Us...>`, src/core/include/units/bits/derived_unit.h:47-51.  A unary fold over
an empty pack is ill-formed for `*`. -/
def derivedRatio (est : RootEstimate) : List RecipeItem → List MUnit → C Ratio
  | e :: es, u :: us => do
    let f ← derivedFactor est e u
    derivedRatioGo est f es us
  | _, _ => .error .rejected

/-- `detail::derived_unit<D, Us...>` with the constraint `same_scaled_units`,
src/core/include/units/bits/derived_unit.h:29-34, 53-54 and src/core/include/units/unit.h:155-185. -/
def derivedUnit (est : RootEstimate) (recipe : List RecipeItem) (coherent : MUnit) (us : List MUnit) :
    C MUnit :=
  if recipe.length = us.length ∧ ∀ p ∈ recipe.zip us, p.2.ref = p.1.dim.unit.ref then do
    let r ← derivedRatio est recipe us
    scaledUnit r coherent.ref
  else .error .rejected

end Verif
