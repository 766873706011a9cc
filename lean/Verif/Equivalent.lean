import Verif.DimLemmas

/-!
# `units/bits/equivalent.h`: equivalence of units and dimensions
-/

namespace Verif

/-- `std::is_base_of<U1, U2>` on unit types: the same type or a proper base class; used in
src/core/include/units/bits/equivalent.h:44. -/
def unitIsBaseOf (u1 u2 : MUnit) : Bool := decide (u1.id = u2.id) || decide (u1.id ∈ u2.bases)

/-- `equivalent_impl<U1, U2>` for units, src/core/include/units/bits/equivalent.h:43-44. -/
def unitEquivalent (u1 u2 : MUnit) : Bool := unitIsBaseOf u1 u2 || unitIsBaseOf u2 u1

/-- `equivalent_impl<D1, D2>` for base dimensions, src/core/include/units/bits/equivalent.h:36-38 and
49-52. -/
def baseEquivalent (d1 d2 : BaseDim) : Bool :=
  decide (d1 = d2) || (decide (d1.symbol = d2.symbol) && sameUnitReference d1.unit d2.unit)

/-- `equivalent_exp<E1, E2>`, src/core/include/units/bits/equivalent.h:54-60. -/
def expEquivalent (e1 e2 : Exp) : Bool :=
  decide (e1.num = e2.num) && decide (e1.den = e2.den) && baseEquivalent e1.dim e2.dim

/-- `equivalent_derived_dim` on two exponent lists, src/core/include/units/bits/equivalent.h:62-70. -/
def expsEquivalent : List Exp → List Exp → Bool
  | [], [] => true
  | e1 :: l1, e2 :: l2 => expEquivalent e1 e2 && expsEquivalent l1 l2
  | _, _ => false

/-- `equivalent_impl<D1, D2>` for dimensions, src/core/include/units/bits/equivalent.h:32-38, 49-52,
72-76.  A base and a derived dimension are never equivalent.  Simplification: the only
derived dimensions in a base class relation are equal ones (no dimension of the library derives from another
one; it would have the same exponent list). -/
def dimEquivalent : Dim → Dim → C Bool
  | .base b1, .base b2 => .ok (baseEquivalent b1 b2)
  | .base _, _ => .ok false
  | _, .base _ => .ok false
  | d1, d2 =>
    if d1 = d2 then .ok true
    else do
      let es1 ← d1.exps
      let es2 ← d2.exps
      .ok (expsEquivalent es1 es2)

/-- `equivalent_unit`, src/core/include/units/bits/equivalent.h:79-82.  The comparison is a template argument, so it is
evaluated even if the units are equivalent. -/
def equivalentUnit (u1 : MUnit) (d1 : Dim) (u2 : MUnit) (d2 : Dim) : C Bool := do
  let r1 ← Ratio.div u1.ratio d1.unit.ratio
  let r2 ← Ratio.div u2.ratio d2.unit.ratio
  .ok (unitEquivalent u1 u2 || decide (r1 = r2))

/-! ### Helper lemmas -/

theorem baseEquivalent_iff {a b : BaseDim} :
    baseEquivalent a b = true ↔ a = b ∨ (a.symbol = b.symbol ∧ a.unit.ref = b.unit.ref) := by
  unfold baseEquivalent sameUnitReference; simp

theorem baseEquivalent_iff' {a b : BaseDim} :
    baseEquivalent a b = true ↔ a.symbol = b.symbol ∧ a.unit.ref = b.unit.ref := by
  rw [baseEquivalent_iff]
  constructor
  · rintro (rfl | h)
    · exact ⟨rfl, rfl⟩
    · exact h
  · exact Or.inr

theorem expsEquivalent_iff {l1 l2 : List Exp} :
    expsEquivalent l1 l2 = true ↔
      l1.map (fun e => (e.dim.symbol, e.dim.unit.ref, e.num, e.den)) =
        l2.map (fun e => (e.dim.symbol, e.dim.unit.ref, e.num, e.den)) := by
  induction l1 generalizing l2 with
  | nil => cases l2 <;> simp [expsEquivalent]
  | cons a l1 ih =>
    cases l2 with
    | nil => simp [expsEquivalent]
    | cons b l2 =>
      simp only [expsEquivalent, Bool.and_eq_true, ih, List.map_cons, List.cons.injEq, Prod.mk.injEq,
        expEquivalent, decide_eq_true_eq, baseEquivalent_iff']
      constructor
      · rintro ⟨⟨⟨h1, h2⟩, h3, h4⟩, h5⟩; exact ⟨⟨h3, h4, h1, h2⟩, h5⟩
      · rintro ⟨⟨h3, h4, h1, h2⟩, h5⟩; exact ⟨⟨⟨h1, h2⟩, h3, h4⟩, h5⟩

/-- Equivalence in terms of the exponent lists. -/
theorem dimEquivalent_eq_ok {d1 d2 : Dim} {es1 es2 : List Exp} (h1 : d1.exps = .ok es1)
    (h2 : d2.exps = .ok es2) (h : dimEquivalent d1 d2 = .ok true) : expsEquivalent es1 es2 = true := by
  have key : d1 = d2 ∨ expsEquivalent es1 es2 = true → expsEquivalent es1 es2 = true := by
    rintro (rfl | h)
    · rw [h1] at h2; simp only [Except.ok.injEq] at h2; subst h2
      exact expsEquivalent_iff.mpr rfl
    · exact h
  unfold dimEquivalent at h
  split at h
  · simp only [Dim.exps, Except.ok.injEq] at h1 h2 h
    subst h1; subst h2
    rw [baseEquivalent_iff'] at h
    rw [expsEquivalent_iff]; simp [h]
  · simp at h
  · simp at h
  · split at h
    · rename_i hd; exact key (Or.inl hd)
    · rw [h1, h2] at h
      simp only [ok_bind, Except.ok.injEq] at h
      exact h

end Verif
