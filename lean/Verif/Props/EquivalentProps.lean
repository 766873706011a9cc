import Verif.Equivalent
import Verif.Props.DimProps

/-! # Property C17: equivalence of dimensions -/

namespace Verif

/-- Specification: the total exponent, in a dimension, of the base dimensions with a given symbol whose
units have a given reference. -/
def symExp (es : List Exp) (symbol ref : String) : ℚ :=
  ((es.filter fun e => e.dim.symbol = symbol ∧ e.dim.unit.ref = ref).map fun e => (e.num : ℚ) / e.den).sum

/-- C17: every dimension is equivalent to itself. -/
theorem C17_reflexive (d : Dim) : dimEquivalent d d = .ok true := by
  cases d <;> simp [dimEquivalent, baseEquivalent]

/-- C17: equivalence is symmetric. -/
theorem C17_symmetric (d1 d2 : Dim) (h : dimEquivalent d1 d2 = .ok true) :
    dimEquivalent d2 d1 = .ok true := by
  by_cases he : d1 = d2
  · rw [he]; exact C17_reflexive d2
  · have he' : d2 ≠ d1 := fun h => he h.symm
    cases d1 <;> cases d2 <;> simp only [dimEquivalent, Except.ok.injEq, Bool.false_eq_true, if_neg he] at h
    · simp only [baseEquivalent_iff'] at h
      simp only [dimEquivalent, Except.ok.injEq, baseEquivalent_iff']
      exact ⟨h.1.symm, h.2.symm⟩
    all_goals
      simp only [dimEquivalent, if_neg he']
      simp only [bind_ok, Except.ok.injEq] at h ⊢
      obtain ⟨es1, h1, es2, h2, h⟩ := h
      exact ⟨es2, h2, es1, h1, expsEquivalent_iff.mpr (expsEquivalent_iff.mp h).symm⟩

/-- The dimension as the relation sees it. -/
def isBase : Dim → Bool
  | .base _ => true
  | _ => false

theorem dimEquivalent_iff {d1 d2 : Dim} {es1 es2 : List Exp} (h1 : d1.exps = .ok es1)
    (h2 : d2.exps = .ok es2) :
    dimEquivalent d1 d2 = .ok true ↔ isBase d1 = isBase d2 ∧ expsEquivalent es1 es2 = true := by
  constructor
  · intro h
    refine ⟨?_, dimEquivalent_eq_ok h1 h2 h⟩
    cases d1 <;> cases d2 <;> simp_all [dimEquivalent, isBase]
  · rintro ⟨hb, h⟩
    by_cases hd : d1 = d2
    · rw [hd]; exact C17_reflexive d2
    · cases d1 <;> cases d2 <;> simp only [isBase, reduceCtorEq, Bool.false_eq_true] at hb
      · simp only [Dim.exps, Except.ok.injEq] at h1 h2
        subst h1; subst h2
        simp only [dimEquivalent, Except.ok.injEq, baseEquivalent_iff']
        rw [expsEquivalent_iff] at h
        simpa using h
      all_goals
        unfold dimEquivalent
        simp only
        rw [if_neg hd, h1, h2]
        simp [h]

/-- C17: equivalence is transitive. -/
theorem C17_transitive (d1 d2 d3 : Dim) (es1 es2 es3 : List Exp) (e1 : d1.exps = .ok es1)
    (e2 : d2.exps = .ok es2) (e3 : d3.exps = .ok es3)
    (h12 : dimEquivalent d1 d2 = .ok true) (h23 : dimEquivalent d2 d3 = .ok true) :
    dimEquivalent d1 d3 = .ok true := by
  rw [dimEquivalent_iff e1 e2] at h12
  rw [dimEquivalent_iff e2 e3] at h23
  rw [dimEquivalent_iff e1 e3]
  exact ⟨h12.1.trans h23.1, expsEquivalent_iff.mpr
    ((expsEquivalent_iff.mp h12.2).trans (expsEquivalent_iff.mp h23.2))⟩

theorem symExp_congr {l1 l2 : List Exp} (h : expsEquivalent l1 l2 = true) (s r : String) :
    symExp l1 s r = symExp l2 s r := by
  rw [expsEquivalent_iff] at h
  have key : ∀ l : List Exp, symExp l s r =
      (((l.map fun e => (e.dim.symbol, e.dim.unit.ref, e.num, e.den)).filter
        fun t => t.1 = s ∧ t.2.1 = r).map fun t => (t.2.2.1 : ℚ) / t.2.2.2).sum := by
    intro l
    induction l with
    | nil => rfl
    | cons a l ih =>
      unfold symExp at ih ⊢
      simp only [List.map_cons, List.filter_cons]
      by_cases hc : a.dim.symbol = s ∧ a.dim.unit.ref = r
      · rw [if_pos (by simpa using hc), if_pos (by simpa using hc), List.map_cons, List.map_cons,
          List.sum_cons, List.sum_cons, ih]
      · rw [if_neg (by simpa using hc), if_neg (by simpa using hc), ih]
  rw [key, key, h]

/-- C17: equivalent dimensions have, for every symbol and reference unit, the same exponent; dimensions
with different exponents are never equivalent. -/
theorem C17_same_exponents (d1 d2 : Dim) (es1 es2 : List Exp) (e1 : d1.exps = .ok es1)
    (e2 : d2.exps = .ok es2) (h : dimEquivalent d1 d2 = .ok true) (s r : String) :
    symExp es1 s r = symExp es2 s r :=
  symExp_congr (dimEquivalent_eq_ok e1 e2 h) s r

/-- Example: speed of another system. -/
def exSpeedCgs : NamedDim := ⟨"cgs::dim_speed", [⟨exLcgs, 1, 1⟩, ⟨exT, -1, 1⟩], unknownCoherentUnit⟩

example : (Dim.named exSpeed) ≠ .named exSpeedCgs ∧
    dimEquivalent (.named exSpeed) (.named exSpeedCgs) = .ok true ∧
    dimEquivalent (.named exSpeedCgs) (.unknown [⟨exT, -1, 1⟩, ⟨exLcgs, 1, 1⟩]) = .ok true ∧
    dimEquivalent (.named exSpeed) (.named exAccel) = .ok false := by decide +kernel

/-- C17, converse: derived dimensions in canonical form with the same exponent for every symbol and
reference unit are equivalent. -/
theorem C17_complete (d1 d2 : Dim) (es1 es2 : List Exp) (e1 : d1.exps = .ok es1)
    (e2 : d2.exps = .ok es2) (b1 : isBase d1 = isBase d2) (c1 : Canon es1) (c2 : Canon es2)
    (h : ∀ s r, symExp es1 s r = symExp es2 s r) : dimEquivalent d1 d2 = .ok true := by
  rw [dimEquivalent_iff e1 e2]
  refine ⟨b1, expsEquivalent_iff.mpr ?_⟩
  have cons_ne : ∀ (e : Exp) (l : List Exp) (s r : String), symExp (e :: l) s r =
      (if e.dim.symbol = s ∧ e.dim.unit.ref = r then e.q else 0) + symExp l s r := by
    intro e l s r
    unfold symExp Exp.q
    by_cases hc : e.dim.symbol = s ∧ e.dim.unit.ref = r <;> simp [hc]
  have zero_of : ∀ (l : List Exp) (s r : String), (∀ e ∈ l, e.dim.symbol ≠ s) → symExp l s r = 0 := by
    intro l s r hl
    induction l with
    | nil => rfl
    | cons a l ih =>
      rw [cons_ne, ih fun e he => hl e (by simp [he]), if_neg (fun hc => hl a (by simp) hc.1)]; simp
  clear e1 e2 b1
  induction es1 generalizing es2 with
  | nil =>
    cases es2 with
    | nil => rfl
    | cons b l =>
      exfalso
      have := h b.dim.symbol b.dim.unit.ref
      rw [cons_ne, if_pos ⟨rfl, rfl⟩, zero_of l _ _ fun e he => ((List.pairwise_cons.mp c2.strict).1 e he).ne',
        add_zero] at this
      exact (c2.reduced b (by simp)).q_ne this.symm
  | cons a l1 ih =>
    cases es2 with
    | nil =>
      exfalso
      have := h a.dim.symbol a.dim.unit.ref
      rw [cons_ne, if_pos ⟨rfl, rfl⟩, zero_of l1 _ _ fun e he => ((List.pairwise_cons.mp c1.strict).1 e he).ne',
        add_zero] at this
      exact (c1.reduced a (by simp)).q_ne this
    | cons b l2 =>
      have a1 := (List.pairwise_cons.mp c1.strict).1
      have b1 := (List.pairwise_cons.mp c2.strict).1
      have hsa : symExp (a :: l1) a.dim.symbol a.dim.unit.ref = a.q := by
        rw [cons_ne, if_pos ⟨rfl, rfl⟩, zero_of l1 _ _ fun e he => (a1 e he).ne', add_zero]
      have hsb : symExp (b :: l2) b.dim.symbol b.dim.unit.ref = b.q := by
        rw [cons_ne, if_pos ⟨rfl, rfl⟩, zero_of l2 _ _ fun e he => (b1 e he).ne', add_zero]
      have qa := (c1.reduced a (by simp)).q_ne
      have qb := (c2.reduced b (by simp)).q_ne
      -- the first symbols agree
      have hs : a.dim.symbol = b.dim.symbol := by
        rcases lt_trichotomy a.dim.symbol b.dim.symbol with hlt | heq | hlt
        · exfalso
          have h1 := h a.dim.symbol a.dim.unit.ref
          rw [hsa, zero_of] at h1
          · exact qa h1
          · intro e he
            rcases List.mem_cons.mp he with rfl | he
            · exact hlt.ne'
            · exact (hlt.trans (b1 e he)).ne'
        · exact heq
        · exfalso
          have h1 := h b.dim.symbol b.dim.unit.ref
          rw [hsb, zero_of] at h1
          · exact qb h1.symm
          · intro e he
            rcases List.mem_cons.mp he with rfl | he
            · exact hlt.ne'
            · exact (hlt.trans (a1 e he)).ne'
      have hr : a.dim.unit.ref = b.dim.unit.ref := by
        by_contra hne
        have h1 := h a.dim.symbol a.dim.unit.ref
        rw [hsa, cons_ne, if_neg (fun hc => hne hc.2.symm), zero_add, zero_of l2 _ _
          (fun e he => by rw [hs]; exact (b1 e he).ne')] at h1
        exact qa h1
      have hq : a.q = b.q := by
        have h1 := h a.dim.symbol a.dim.unit.ref
        rw [hsa, hs, hr, hsb] at h1
        exact h1
      have hab : a.num = b.num ∧ a.den = b.den := by
        have := Exp.Reduced.ext (a := ⟨b.dim, a.num, a.den⟩) (b := b)
          ⟨(c1.reduced a (by simp)).den_pos, (c1.reduced a (by simp)).coprime, (c1.reduced a (by simp)).num_ne⟩
          (c2.reduced b (by simp)) rfl hq
        rw [← this]; exact ⟨rfl, rfl⟩
      have htl : ∀ s r, symExp l1 s r = symExp l2 s r := by
        intro s r
        have := h s r
        rw [cons_ne, cons_ne, hs, hr, hq] at this
        exact add_left_cancel this
      rw [List.map_cons, List.map_cons, ih l2 c1.tail c2.tail htl, hs, hr, hab.1, hab.2]

example : Canon exSpeed.exps ∧ Canon exSpeedCgs.exps := by
  constructor <;> refine ⟨?_, by decide +kernel⟩ <;> intro e he <;>
  simp only [exSpeed, exSpeedCgs, List.mem_cons, List.not_mem_nil, or_false] at he <;>
  rcases he with rfl | rfl <;> exact ⟨by decide, by decide, by decide⟩

/-- The relation on units is not transitive: two aliases of one unit are each equivalent to it but not to
each other.  (Equivalence of quantity types inherits this for units of different ratio
representation.) -/
theorem C17_units_not_transitive :
    ∃ u a b : MUnit, UnitDef.eval (.named "megagram" "Mg" none) = .ok u ∧
      UnitDef.eval (.aliasOf "tonne" "t" none (.named "megagram" "Mg" none)) = .ok a ∧
      UnitDef.eval (.aliasOf "metric_ton" "mt" none (.named "megagram" "Mg" none)) = .ok b ∧
      unitEquivalent a u = true ∧ unitEquivalent u b = true ∧ unitEquivalent a b = false :=
  ⟨_, _, _, rfl, rfl, rfl, by decide, by decide, by decide⟩

end Verif
