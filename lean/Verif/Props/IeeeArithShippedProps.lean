import Verif.Props.IeeeArithProps
import Verif.Props.IeeeShippedProps

/-!
# Sums and comparisons of shipped units in `double` (C70)
-/

namespace Verif

open Systems Standards

set_option Elab.async false

namespace Systems

/-- All named amounts are quotients of numbers within this limit. -/
def checkTerms (l : List URow) : Bool :=
  l.all fun r => match meaning r.scope.code r.name.code with
    | some a => decide (a.factor.num ≤ 10 ^ 72) && decide (a.factor.den ≤ 10 ^ 72)
    | none => true

theorem checkTerms_ok : checkTerms unitTable = true := by decide +kernel

theorem Uses.terms {S : Sys} (hS : everything = .ok S) {t : QTy} {d : DEnt} {x : Entry} {a : Amount} (h : Uses S t d x a) :
    a.factor.num ≤ 10 ^ 72 ∧ a.factor.den ≤ 10 ^ 72 := by
  obtain ⟨u, hu, -⟩ := h.unit
  have hc := checkTerms_ok
  unfold checkTerms at hc
  rw [List.all_eq_true] at hc
  have hc := hc _ (unit_row hS h.mem hu)
  simp only [h.meaning, Bool.and_eq_true, decide_eq_true_eq] at hc
  exact hc

end Systems

/-- The ratio to a common unit is a whole number, and not a large one. -/
theorem common_exp {x y : ℚ} {T : ℝ} (hx : 0 < x) (hT : 0 < T) (hc : IsCommonSize (x : ℝ) (y : ℝ) T) (nx : x.num ≤ 10 ^ 72) (dy : y.den ≤ 10 ^ 72)
    {c : Ratio} (w : c.WF) (p : 0 < c.num) (e : (c.val : ℝ) = x / T) : c.exp.natAbs ≤ 162 := by
  have xr : (0 : ℝ) < x := by exact_mod_cast hx
  refine exp_of_val (k := 144) w p ?_ ?_
  · obtain ⟨k, hk⟩ := hc.left
    have e' : (c.val : ℝ) = k := by rw [e, hk]; field_simp
    have e' : c.val = k := by exact_mod_cast e'
    have k0 : (0 : ℝ) < k := by
      by_contra h
      rw [hk] at xr
      nlinarith
    have k1 : (1 : ℤ) ≤ k := by have : (0 : ℤ) < k := by exact_mod_cast k0
                                omega
    rw [e']
    calc ((10 : ℚ) ^ 144)⁻¹ ≤ 1 := by norm_num
      _ ≤ k := by exact_mod_cast k1
  · have dx0 : (0 : ℝ) < x.den := by exact_mod_cast x.den_pos
    have dy0 : (0 : ℝ) < y.den := by exact_mod_cast y.den_pos
    have xe : (x : ℝ) = x.num / x.den := by exact_mod_cast (Rat.num_div_den x).symm
    have ye : (y : ℝ) = y.num / y.den := by exact_mod_cast (Rat.num_div_den y).symm
    obtain ⟨k, hk⟩ := hc.greatest (1 / (x.den * y.den)) ⟨x.num * y.den, by rw [xe]; push_cast; field_simp⟩
      ⟨y.num * x.den, by rw [ye]; push_cast; field_simp⟩
    have z0 : (0 : ℝ) < 1 / (x.den * y.den) := by positivity
    have k0 : (0 : ℝ) < k := by
      by_contra h
      rw [hk] at hT
      nlinarith
    have k1 : (1 : ℤ) ≤ k := by have : (0 : ℤ) < k := by exact_mod_cast k0
                                omega
    have k1 : (1 : ℝ) ≤ k := by exact_mod_cast k1
    have Tz : 1 / (x.den * y.den) ≤ T := by rw [hk]; nlinarith
    have n1 : (x.num : ℝ) ≤ 10 ^ 72 := by exact_mod_cast nx
    have d1 : (y.den : ℝ) ≤ 10 ^ 72 := by exact_mod_cast dy
    have : (c.val : ℝ) ≤ 10 ^ 144 := by
      rw [e, div_le_iff₀ hT]
      calc (x : ℝ) = (x.num * y.den) * (1 / (x.den * y.den)) := by rw [xe]; field_simp
        _ ≤ (10 ^ 72 * 10 ^ 72) * (1 / (x.den * y.den)) := by gcongr
        _ = 10 ^ 144 * (1 / (x.den * y.den)) := by norm_num
        _ ≤ 10 ^ 144 * T := by gcongr
    exact_mod_cast this

/-- Conversions of shipped units to their common unit. -/
theorem shipped_common {S : Sys} (hS : everything = .ok S) {E : Env} (hE : E.OK) (hest : E.est = est) {s s' t : QTy} {d d' : DEnt} {x x' : Entry}
    {a a' : Amount} (h : Uses S s d x a) (h' : Uses S s' d' x' a') (hn : ¬ areaClash d d') {r : Rep} (ht : commonQty E s s' r = .ok t) :
    Related refSizes s s' ∧ IsCommonSize (a.factor : ℝ) (a'.factor : ℝ) (t.size refSizes) ∧ 0 < t.size refSizes ∧ ExpLe E.est t s 162 ∧
      ExpLe E.est t s' 162 := by
  have he : dimEquivalent s.dim s'.dim = .ok true := by
    have ht := ht
    unfold commonQty at ht
    simp only [bind_ok] at ht
    obtain ⟨b, hb, ht⟩ := ht
    cases b with
    | false => cases ht
    | true => exact C17_symmetric _ _ hb
  have hr := h.related hS h' hn he
  obtain ⟨gt, -, hd, hcs, ca, cb⟩ := commonQty_sound hE refSizes_pos (h.good hS hest) (h'.good hS hest) hr ht
  have T0 := gt.size_pos refSizes_pos
  rw [h.size hS, h'.size hS] at hcs
  have e1 : dimEquivalent s.dim t.dim = .ok true := by
    rcases hd with e | e <;> rw [e]
    · exact C17_reflexive _
    · exact he
  have e2 : dimEquivalent s'.dim t.dim = .ok true := by
    rcases hd with e | e <;> rw [e]
    · exact C17_symmetric _ _ he
    · exact C17_reflexive _
  refine ⟨hr, hcs, T0, fun c hc => ?_, fun c hc => ?_⟩
  · obtain ⟨w, p, e⟩ := castRatio_size refSizes_pos (h.good hS hest) gt e1 ca hc
    rw [h.size hS] at e
    exact common_exp (h.pos hS) T0 hcs (h.terms hS).1 (h'.terms hS).2 w p e
  · obtain ⟨w, p, e⟩ := castRatio_size refSizes_pos (h'.good hS hest) gt e2 cb hc
    rw [h'.size hS] at e
    exact common_exp (h'.pos hS) T0 ⟨hcs.right, hcs.left, fun z i j => hcs.greatest z j i⟩ (h'.terms hS).1 (h.terms hS).2 w p e

theorem gammaErr_double {n : ℕ} (h : n ≤ 169) : gammaErr .f64 n ≤ 2 / 10 ^ 14 := by
  refine (gammaErr_mono h).trans ?_
  unfold gammaErr FltTy.u FltTy.prec
  norm_num

theorem double_max : (2 : ℝ) ^ (FltTy.f64.emax - 2) = 2 ^ 1022 := by
  rw [show FltTy.f64.emax - 2 = ((1022 : ℕ) : Int) from rfl, zpow_natCast]

section
variable {S : Sys} (hS : everything = .ok S) {E : Env} (hE : E.OK) (hest : E.est = est) {d d' : DEnt} {x y : Entry} {a b : Amount}
include hS hE hest

/-- C70 for the units the library ships, in `double`: a sum or difference of quantities of any two of them has the amount the names mean with an
error of at most `2 * 10^-14` of the magnitudes (plus at most three times the least positive `double`, in the common unit).  Partial: `misdefined` and
`rounded` units are left out (`Uses`), as are areas in both cm² and ft² (`areaClash`). -/
theorem C70_shipped_sum_partial (sub : Bool) (p q r : QtyI) (up : Uses S p.ty d x a) (uq : Uses S q.ty d' y b) (hn : ¬ areaClash d d')
    (tp : p.num.Typed p.ty.rep) (tq : q.num.Typed q.ty.rep) (fp : p.num.Finite) (fq : q.num.Finite) (hf : p.ty.rep.arith q.ty.rep = .flt .f64)
    (h : addSubI E sub p q = .ok r) (hb : ((|p.num.q * a.factor| + |q.num.q * b.factor| : ℚ) : ℝ) ≤ 2 ^ 1022 * r.ty.size refSizes) :
    IsCommonSize (a.factor : ℝ) (b.factor : ℝ) (r.ty.size refSizes) ∧ r.num.Typed (.flt .f64) ∧ r.num.Finite ∧
      |r.amount refSizes - ((if sub then p.num.q * a.factor - q.num.q * b.factor else p.num.q * a.factor + q.num.q * b.factor : ℚ) : ℝ)| ≤
        2 / 10 ^ 14 * ((|p.num.q * a.factor| + |q.num.q * b.factor| : ℚ) : ℝ) + 3 * 2 ^ (-1074 : Int) * r.ty.size refSizes := by
  have ap : p.amount refSizes = ((p.num.q * a.factor : ℚ) : ℝ) := by unfold QtyI.amount; rw [up.size hS]; push_cast; rfl
  have aq : q.amount refSizes = ((q.num.q * b.factor : ℚ) : ℝ) := by unfold QtyI.amount; rw [uq.size hS]; push_cast; rfl
  have ht : ∃ t, commonQty E p.ty q.ty (p.ty.rep.arith q.ty.rep) = .ok t ∧ r.ty = t := by
    have h := h
    unfold addSubI at h
    simp only [bind_ok, Except.ok.injEq] at h
    obtain ⟨t, ht, -, -, -, -, -, -, rfl⟩ := h
    exact ⟨t, ht, rfl⟩
  obtain ⟨t, ht, rfl⟩ := ht
  obtain ⟨hr, hcs, T0, n1, n2⟩ := shipped_common hS hE hest up uq hn ht
  have := C70_sum_partial E hE refSizes refSizes_pos sub p q r .f64 162 (up.good hS hest) (uq.good hS hest) hr tp tq fp fq hf (by decide) h n1 n2
  rw [up.size hS, uq.size hS, ap, aq] at this
  obtain ⟨k1, k2, k3, k4⟩ := this (by
    rw [← Rat.cast_abs, ← Rat.cast_abs, ← Rat.cast_add, double_max]
    exact hb)
  refine ⟨k1, k2, k3, ?_⟩
  rw [show ((if sub then p.num.q * a.factor - q.num.q * b.factor else p.num.q * a.factor + q.num.q * b.factor : ℚ) : ℝ) =
    if sub then ((p.num.q * a.factor : ℚ) : ℝ) - ((q.num.q * b.factor : ℚ) : ℝ) else ((p.num.q * a.factor : ℚ) : ℝ) + ((q.num.q * b.factor : ℚ) : ℝ) by
      split_ifs <;> push_cast <;> ring]
  refine k4.trans (add_le_add ?_ (le_of_eq ?_))
  · rw [← Rat.cast_abs, ← Rat.cast_abs, ← Rat.cast_add]
    refine mul_le_mul_of_nonneg_right ?_ (by positivity)
    have := Rat.cast_le (K := ℝ).mpr (gammaErr_double (n := 162 + 7) (by omega))
    push_cast at this ⊢
    exact this
  · have : ((FltTy.f64.tiny : ℚ) : ℝ) = 2 ^ (-1074 : Int) := by unfold FltTy.tiny; push_cast; rfl
    rw [this]

/-- C70 for the units the library ships, in `double`: if two amounts, as the names mean them, differ by more than `2 * 10^-14` of their magnitudes
(and twice the least positive `double`), the comparison finds which is less, and finite quantities are always ordered. -/
theorem C70_shipped_compare_partial (p q : QtyI) (t : QTy) (o : Option Ordering) (up : Uses S p.ty d x a) (uq : Uses S q.ty d' y b)
    (hn : ¬ areaClash d d') (tp : p.num.Typed p.ty.rep) (tq : q.num.Typed q.ty.rep) (fp : p.num.Finite) (fq : q.num.Finite)
    (hf : p.ty.rep.common q.ty.rep = .flt .f64) (ht : commonQty E p.ty q.ty (p.ty.rep.common q.ty.rep) = .ok t) (h : compareQtyI E p q = .ok o)
    (bp : ((|p.num.q * a.factor| : ℚ) : ℝ) ≤ 2 ^ 1022 * t.size refSizes) (bq : ((|q.num.q * b.factor| : ℚ) : ℝ) ≤ 2 ^ 1022 * t.size refSizes)
    (sep : 2 / 10 ^ 14 * ((|p.num.q * a.factor| + |q.num.q * b.factor| : ℚ) : ℝ) + 2 * 2 ^ (-1074 : Int) * t.size refSizes <
      ((|p.num.q * a.factor - q.num.q * b.factor| : ℚ) : ℝ)) :
    o = some (compare (p.num.q * a.factor) (q.num.q * b.factor)) := by
  have ap : p.amount refSizes = ((p.num.q * a.factor : ℚ) : ℝ) := by unfold QtyI.amount; rw [up.size hS]; push_cast; rfl
  have aq : q.amount refSizes = ((q.num.q * b.factor : ℚ) : ℝ) := by unfold QtyI.amount; rw [uq.size hS]; push_cast; rfl
  obtain ⟨hr, hcs, T0, n1, n2⟩ := shipped_common hS hE hest up uq hn ht
  have := C70_separated_partial E hE refSizes refSizes_pos p q t .f64 162 o (up.good hS hest) (uq.good hS hest) hr tp tq fp fq ht hf (by decide) n1 n2
  rw [ap, aq, ← Rat.cast_abs, ← Rat.cast_abs, double_max] at this
  obtain ⟨k1, k2, -⟩ := this bp bq h
  have ge : ((gammaErr .f64 (162 + 6) : ℚ) : ℝ) * ((|p.num.q * a.factor| : ℚ) + (|q.num.q * b.factor| : ℚ)) ≤
      2 / 10 ^ 14 * ((|p.num.q * a.factor| + |q.num.q * b.factor| : ℚ) : ℝ) := by
    rw [← Rat.cast_add]
    refine mul_le_mul_of_nonneg_right ?_ (by positivity)
    have := Rat.cast_le (K := ℝ).mpr (gammaErr_double (n := 162 + 6) (by omega))
    push_cast at this ⊢
    exact this
  have te : ((FltTy.f64.tiny : ℚ) : ℝ) = 2 ^ (-1074 : Int) := by unfold FltTy.tiny; push_cast; rfl
  rw [te] at k1 k2
  set A := p.num.q * a.factor
  set B := q.num.q * b.factor
  rcases lt_trichotomy A B with hAB | hAB | hAB
  · rw [compare_lt_iff_lt.mpr hAB]
    refine k1 ?_
    rw [abs_of_neg (sub_neg.mpr hAB)] at sep
    push_cast at sep ge ⊢
    linarith
  · exfalso
    rw [hAB, sub_self, abs_zero, Rat.cast_zero] at sep
    have : (0 : ℝ) ≤ 2 / 10 ^ 14 * ((|B| + |B| : ℚ) : ℝ) := by positivity
    have : (0 : ℝ) ≤ 2 * 2 ^ (-1074 : Int) * t.size refSizes := by positivity
    linarith
  · rw [compare_gt_iff_gt.mpr hAB]
    refine k2 ?_
    rw [abs_of_pos (sub_pos.mpr hAB)] at sep
    push_cast at sep ge ⊢
    linarith

end

/-! ### Examples and counterexamples -/

/-- The common unit of miles and kilometres per hour. -/
def exCommonSpeed : QTy := ⟨exSpeedDim, ⟨.scaled ⟨1, 5625, -1⟩ "units::isq::si::metre_per_second", ⟨1, 5625, -1⟩, "units::isq::si::metre_per_second", [],
  false, "", none⟩, .flt .f64⟩

/-- One mile per hour and one tenth (as a `double`) of a kilometre per hour, in the common unit; and one mile per hour is more than 1.5 km/h. -/
theorem exCommonSpeed_sum : addSubI shEnv false ⟨exMph (.flt .f64), .f (.fin false 1)⟩ ⟨exKmh (.flt .f64), .f (.fin false (3602879701896397 / 2 ^ 55))⟩ =
      .ok ⟨exCommonSpeed, .f (.fin false (53417 / 2))⟩ ∧
    commonQty shEnv (exMph (.flt .f64)) (exKmh (.flt .f64)) (.flt .f64) = .ok exCommonSpeed ∧
    compareQtyI shEnv ⟨exMph (.flt .f64), .f (.fin false 1)⟩ ⟨exKmh (.flt .f64), .f (.fin false (3 / 2))⟩ = .ok (some .gt) := by decide +kernel

theorem exCommonSpeed_size {S : Sys} (hS : everything = .ok S) : (1 : ℝ) / 10 ^ 20 ≤ exCommonSpeed.size refSizes ∧ exCommonSpeed.size refSizes ≤ 1 := by
  obtain ⟨d, x, nd, h⟩ := exMph_uses hS (.flt .f64)
  obtain ⟨d', x', nd', h'⟩ := exKmh_uses hS (.flt .f64)
  have hn : ¬ areaClash d d' := by unfold areaClash; rw [nd, nd']; decide
  obtain ⟨-, ⟨⟨k, hk⟩, -, hg⟩, T0, -⟩ := shipped_common hS shEnv_ok rfl h h' hn exCommonSpeed_sum.2.1
  constructor
  · obtain ⟨m, hm⟩ := hg (1 / 56250) ⟨25146, by push_cast; norm_num⟩ ⟨15625, by push_cast; norm_num⟩
    have m0 : (0 : ℝ) < m := by
      rw [hm] at T0
      by_contra h0
      linarith
    have m1 : (1 : ℤ) ≤ m := by have : (0 : ℤ) < m := by exact_mod_cast m0
                                omega
    have m1 : (1 : ℝ) ≤ m := by exact_mod_cast m1
    rw [hm]
    linarith
  · have k0 : (0 : ℝ) < k := by
      by_contra h0
      push_cast at hk
      nlinarith
    have k1 : (1 : ℤ) ≤ k := by have : (0 : ℤ) < k := by exact_mod_cast k0
                                omega
    have k1 : (1 : ℝ) ≤ k := by exact_mod_cast k1
    push_cast at hk
    nlinarith

/-- The two theorems apply to these. -/
example (S : Sys) (hS : everything = .ok S) :
    |(⟨exCommonSpeed, .f (.fin false (53417 / 2))⟩ : QtyI).amount refSizes - ((1 * (1397 / 3125) + 3602879701896397 / 2 ^ 55 * (5 / 18) : ℚ) : ℝ)| ≤
        2 / 10 ^ 14 * ((|1 * (1397 / 3125)| + |3602879701896397 / 2 ^ 55 * (5 / 18)| : ℚ) : ℝ) + 3 * 2 ^ (-1074 : Int) * exCommonSpeed.size refSizes ∧
      compareQtyI shEnv ⟨exMph (.flt .f64), .f (.fin false 1)⟩ ⟨exKmh (.flt .f64), .f (.fin false (3 / 2))⟩ =
        .ok (some (compare (1 * (1397 / 3125) : ℚ) (3 / 2 * (5 / 18)))) := by
  obtain ⟨d, x, nd, h⟩ := exMph_uses hS (.flt .f64)
  obtain ⟨d', x', nd', h'⟩ := exKmh_uses hS (.flt .f64)
  have hn : ¬ areaClash d d' := by unfold areaClash; rw [nd, nd']; decide
  obtain ⟨l, r⟩ := exCommonSpeed_size hS
  have big : (2 : ℝ) ^ 100 ≤ 2 ^ 1022 := pow_le_pow_right₀ (by norm_num) (by norm_num)
  have l' := mul_le_mul big l (by positivity) (by positivity)
  constructor
  · refine (C70_shipped_sum_partial hS shEnv_ok rfl false ⟨exMph (.flt .f64), .f (.fin false 1)⟩
      ⟨exKmh (.flt .f64), .f (.fin false (3602879701896397 / 2 ^ 55))⟩ _ h h' hn ⟨.f64, rfl, by norm_num, by decide +kernel⟩
      ⟨.f64, rfl, by norm_num, by decide +kernel⟩ trivial trivial rfl exCommonSpeed_sum.1 (le_trans ?_ l')).2.2.2
    simp only [FNum.q, FVal.q]
    have : (|1 * (1397 / 3125)| + |3602879701896397 / 2 ^ 55 * (5 / 18)| : ℚ) ≤ 2 ^ 100 * (1 / 10 ^ 20) := by decide +kernel
    have := Rat.cast_le (K := ℝ).mpr this
    push_cast at this ⊢
    exact this
  · rw [exCommonSpeed_sum.2.2]
    refine congrArg Except.ok (C70_shipped_compare_partial hS shEnv_ok rfl ⟨exMph (.flt .f64), .f (.fin false 1)⟩
      ⟨exKmh (.flt .f64), .f (.fin false (3 / 2))⟩ exCommonSpeed _ h h' hn ⟨.f64, rfl, by norm_num, by decide +kernel⟩
      ⟨.f64, rfl, by norm_num, by decide +kernel⟩ trivial trivial rfl exCommonSpeed_sum.2.1 exCommonSpeed_sum.2.2 (le_trans ?_ l') (le_trans ?_ l') ?_)
    · have : (|1 * (1397 / 3125)| : ℚ) ≤ 2 ^ 100 * (1 / 10 ^ 20) := by decide +kernel
      have := Rat.cast_le (K := ℝ).mpr this
      simp only [FNum.q, FVal.q]
      push_cast at this ⊢
      exact this
    · have : (|3 / 2 * (5 / 18)| : ℚ) ≤ 2 ^ 100 * (1 / 10 ^ 20) := by decide +kernel
      have := Rat.cast_le (K := ℝ).mpr this
      simp only [FNum.q, FVal.q]
      push_cast at this ⊢
      exact this
    · have k : 2 * (2 : ℝ) ^ (-1074 : Int) * exCommonSpeed.size refSizes ≤ 2 * 2 ^ (-20 : Int) * 1 := by
        gcongr
        · norm_num
        · norm_num
      have : (2 / 10 ^ 14 * (|1 * (1397 / 3125)| + |3 / 2 * (5 / 18)|) + 2 * 2 ^ (-20 : Int) * 1 : ℚ) < |1 * (1397 / 3125) - 3 / 2 * (5 / 18)| := by
        decide +kernel
      have := Rat.cast_lt (K := ℝ).mpr this
      simp only [FNum.q, FVal.q]
      push_cast at this k ⊢
      exact lt_of_le_of_lt (add_le_add le_rfl k) this

/-- C70 is violated in `float` where the conversion factor leaves the range of the type: no yottametres do not equal no yoctometres, and the two are
not even ordered. -/
theorem C70_zero_unequal (S : Sys) (hS : everything = .ok S) :
    (∃ d x, Uses S (exYotta (.flt .f32)) d x ⟨10 ^ 24, [1, 0, 0, 0, 0, 0, 0, 0, 0, 0, 0]⟩) ∧
    (∃ d x, Uses S (exYocto (.flt .f32)) d x ⟨1 / 10 ^ 24, [1, 0, 0, 0, 0, 0, 0, 0, 0, 0, 0]⟩) ∧
    eqQtyI shEnv ⟨exYotta (.flt .f32), .f (.fin false 0)⟩ ⟨exYocto (.flt .f32), .f (.fin false 0)⟩ = .ok false ∧
    compareQtyI shEnv ⟨exYotta (.flt .f32), .f (.fin false 0)⟩ ⟨exYocto (.flt .f32), .f (.fin false 0)⟩ = .ok none ∧
    compareQtyI shEnv ⟨exYotta (.flt .f64), .f (.fin false 0)⟩ ⟨exYocto (.flt .f64), .f (.fin false 0)⟩ = .ok (some .eq) := by
  obtain ⟨d, x, -, h⟩ := exYotta_uses hS (.flt .f32)
  obtain ⟨d', x', -, h'⟩ := exYocto_uses hS (.flt .f32)
  exact ⟨⟨d, x, h⟩, ⟨d', x', h'⟩, by decide +kernel, by decide +kernel, by decide +kernel⟩

/-- Metres, src/systems/si/include/units/isq/si/length.h:37. -/
def exMetreI (rep : Rep) : QTy := ⟨exLengthDim, exLengthDim.unit, rep⟩

/-- `==` is not transitive across integral and floating point representations: two different numbers of metres equal a third one. -/
theorem C70_not_transitive :
    eqQtyI shEnv ⟨exMetreI (.int .i64), .i (2 ^ 53)⟩ ⟨exMetreI (.flt .f64), .f (.fin false (2 ^ 53))⟩ = .ok true ∧
    eqQtyI shEnv ⟨exMetreI (.flt .f64), .f (.fin false (2 ^ 53))⟩ ⟨exMetreI (.int .i64), .i (2 ^ 53 + 1)⟩ = .ok true ∧
    eqQtyI shEnv ⟨exMetreI (.int .i64), .i (2 ^ 53)⟩ ⟨exMetreI (.int .i64), .i (2 ^ 53 + 1)⟩ = .ok false := by decide +kernel

end Verif
