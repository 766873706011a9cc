import Verif.IeeeCapacitor
import Verif.Props.IeeeEnergyProps
import Verif.Props.ProgramsProps
import Verif.Props.IeeeMathProps

/-!
# C97: the discharge of a capacitor in IEEE floating point

The voltages computed and printed by example/references/capacitor_time_curve.cpp against `v₀ · exp(-t / (R · C))` over the real numbers.
-/

namespace Verif

open FltTy

set_option maxRecDepth 100000

/-! ### Specification -/

/-- `std::exp` has relative error at most `δ` for arguments up to 250 in magnitude. -/
def LibmI.ExpNear (L : LibmI) (δ : ℝ) : Prop :=
  ∀ x : FVal, x.Finite → x.In .f64 → |x.q| ≤ 250 → RelErr δ .f64 (Real.exp x.q) (L.exp .f64 x)

/-- The voltage after `i` milliseconds, with the resistance in kiloohms and the capacitance in microfarads. -/
noncomputable def discharge (v0 r c : ℝ) (i : ℤ) : ℝ := v0 * Real.exp (-i / (r * c))

/-- A row of the table for the time `i`: the exact voltage, in one of the five units, up to rounding; the number is at least one unless the unit is the
smallest, and at most 1000 unless the unit is the largest. -/
structure CapRow (δ : ℝ) (v0 r c : FVal) (i : ℤ) (row : QtyI × QtyI) : Prop where
  time : row.1 = ⟨msITy, .i i⟩
  value : ∃ u k y, row.2 = ⟨volt64Ty u, .f y⟩ ∧ voltScale u = some k ∧ y.Finite ∧
    |(y.q : ℝ) - discharge v0.q r.q c.q i * k| ≤ δ * (8 + 18 * |(i : ℝ) / (r.q * c.q)|) * |discharge v0.q r.q c.q i * k| ∧
    (u = siPicovolt ∨ 1 ≤ y.q) ∧ (u = siVoltage.coherent ∨ y.q ≤ 1000)

/-! ### Conversions by exact factors -/

/-- The factor of a conversion, src/core/include/units/quantity_cast.h:123-126. -/
def castFactorI (c : Ratio) : FVal :=
  FVal.div .f64 (FVal.mul .f64 (FVal.ofInt .f64 c.num) (fpow10I .f64 c.exp)) (FVal.ofInt .f64 c.den)

theorem castNumI_factor {c : Ratio} {F : ℚ} (h : castFactorI c = .fin false F) (x : FVal) :
    castNumI (.flt .f64) (.flt .f64) c (.f x) = .ok (.f (x.mul .f64 (.fin false F))) := by
  rw [← h]; rfl

/-- Powers of ten are exact. -/
theorem got_exact {δ : ℝ} (hu : ((FltTy.f64.u : ℚ) : ℝ) ≤ δ) (hδ : δ ≤ 1 / 400) {F : ℚ} {j : ℕ} (h0 : 0 ≤ F) (h1 : FltTy.f64.rndMag F = some F)
    (hb : Bd j (F : ℝ)) : Got δ 0 j (F : ℝ) (.fin false F) :=
  ⟨trivial, ⟨h0, h1⟩, Rel.refl (got_pos hu hδ).le (by linarith) _ _, .inr hb⟩

/-! ### What is printed -/

theorem cmp_volt {u : MUnit} {v z : FVal} (hc : commonQty pE (volt64Ty siVoltage.coherent) (voltOneI u).ty ((Rep.flt .f64).common (.int .i32)) = .ok (volt64Ty u))
    (hv : convertQtyI pE (volt64Ty u) ⟨volt64Ty siVoltage.coherent, .f v⟩ = .ok ⟨volt64Ty u, .f z⟩)
    (h1 : convertQtyI pE (volt64Ty u) (voltOneI u) = .ok ⟨volt64Ty u, .f (.fin false 1)⟩) (hz : z.Finite) :
    compareQtyI pE ⟨volt64Ty siVoltage.coherent, .f v⟩ (voltOneI u) = .ok (some (if z.q < 1 then .lt else if z.q = 1 then .eq else .gt)) := by
  obtain ⟨s, m, rfl⟩ := hz.eq
  unfold compareQtyI
  show (if (Rep.flt FltTy.f64).threeWay (.int .i32) = true then _ else _) = _
  rw [if_pos (by decide)]
  show (commonQty pE (volt64Ty siVoltage.coherent) (voltOneI u).ty ((Rep.flt .f64).common (.int .i32)) >>= _) = _
  rw [hc, ok_bind, hv, ok_bind, h1, ok_bind]
  show Except.ok (FVal.cmp (.fin s m) (.fin false 1)) = _
  simp only [FVal.cmp]
  have : (FVal.fin false 1).q = 1 := rfl
  rw [this]
  split_ifs <;> rfl

section
variable {δ : ℝ} (hu : ((FltTy.f64.u : ℚ) : ℝ) ≤ δ) (hδ : δ ≤ 1 / 400)
include hu hδ

/-- C97: what is printed for a voltage that is not too large or small: the same voltage up to one more rounding, in volts, millivolts, microvolts, nanovolts or picovolts;
the number is at least one or in picovolts, and at most 1000 or in volts. -/
theorem C97_printed {n : ℕ} {V : ℝ} {v : FVal} (hv : Got δ n 600 V v) (hn : n ≤ 100) :
    ∃ u k y, capPrintedI progEnv capRanges ⟨volt64Ty siVoltage.coherent, .f v⟩ = .ok ⟨volt64Ty u, .f y⟩ ∧ voltScale u = some k ∧ Got δ (n + 1) 700 (V * k) y ∧
      (u = siPicovolt ∨ 1 ≤ y.q) ∧ (u = siVoltage.coherent ∨ y.q ≤ 1000) := by
  change ∃ u k y, capPrintedI pE _ _ = _ ∧ _
  have bd : ∀ {F : ℚ}, 1 ≤ F → F ≤ 2 ^ 100 → Bd 100 (F : ℝ) := fun {F} h1 h2 => by
    have h1' : (1 : ℝ) ≤ F := by exact_mod_cast h1
    have h2' : (F : ℝ) ≤ 2 ^ 100 := by exact_mod_cast h2
    unfold Bd
    rw [abs_of_pos (by linarith)]
    exact ⟨le_trans (by norm_num) h1', h2'⟩
  have G : ∀ F : ℚ, 1 ≤ F → F ≤ 2 ^ 100 → FltTy.f64.rndMag F = some F → Got δ (n + 1) 700 (V * F) (v.mul .f64 (.fin false F)) := fun F h1 h2 h3 =>
    hv.mul hu hδ (got_exact hu hδ (by linarith) h3 (bd h1 h2)) (by omega) (by norm_num)
  have g3 := G (10 ^ 3) (by norm_num) (by norm_num) (by decide +kernel)
  have g6 := G (10 ^ 6) (by norm_num) (by norm_num) (by decide +kernel)
  have g9 := G (10 ^ 9) (by norm_num) (by norm_num) (by decide +kernel)
  have g12 := G (10 ^ 12) (by norm_num) (by norm_num) (by decide +kernel)
  have rk : ∀ F : ℚ, 0 ≤ F → FltTy.f64.rndMag F = some F → (v.mul .f64 (.fin false F)).Finite → (v.mul .f64 (.fin false F)).q = roundKey .f64 (v.q * F) := fun F h0 h1 h2 => by
    have := (key_mul (f := .f64) hv.within (y := .fin false F) ⟨h0, h1⟩ hv.finite trivial).1
    rw [FVal.key_fin h2] at this
    exact this
  have r3 := rk (10 ^ 3) (by norm_num) (by decide +kernel) g3.finite
  have r6 := rk (10 ^ 6) (by norm_num) (by decide +kernel) g6.finite
  have r9 := rk (10 ^ 9) (by norm_num) (by decide +kernel) g9.finite
  have r12 := rk (10 ^ 12) (by norm_num) (by decide +kernel) g12.finite
  have one : roundKey .f64 1 = 1 := roundKey_in (f := .f64) (y := .fin false 1) trivial ⟨by norm_num, by decide +kernel⟩
  have thousand : roundKey .f64 1000 = 1000 := roundKey_in (f := .f64) (y := .fin false 1000) trivial ⟨by norm_num, by decide +kernel⟩
  have below : ∀ {x : ℚ}, roundKey .f64 x < 1 → roundKey .f64 (x * 1000) ≤ 1000 := fun {x} h => by
    have : x < 1 := by
      by_contra h'
      have := roundKey_mono (f := .f64) (not_lt.mp h')
      rw [one] at this
      linarith
    have := roundKey_mono (f := .f64) (show x * 1000 ≤ 1000 by linarith)
    rwa [thousand] at this
  have k1 := cmp_volt (u := siVoltage.coherent) (v := v) (z := v) (by decide +kernel) (convertQtyI_self pE ⟨volt64Ty siVoltage.coherent, .f v⟩) (by decide +kernel) hv.finite
  have k3 := cmp_volt (u := siMillivolt) (by decide +kernel) (convPI (c := ⟨1, 1, 3⟩) (by decide) rfl rfl (by decide +kernel) (by decide +kernel)
    (castNumI_factor (F := 10 ^ 3) (by decide +kernel) v)) (by decide +kernel) g3.finite
  have k6 := cmp_volt (u := siMicrovolt) (by decide +kernel) (convPI (c := ⟨1, 1, 6⟩) (by decide) rfl rfl (by decide +kernel) (by decide +kernel)
    (castNumI_factor (F := 10 ^ 6) (by decide +kernel) v)) (by decide +kernel) g6.finite
  have k9 := cmp_volt (u := siNanovolt) (by decide +kernel) (convPI (c := ⟨1, 1, 9⟩) (by decide) rfl rfl (by decide +kernel) (by decide +kernel)
    (castNumI_factor (F := 10 ^ 9) (by decide +kernel) v)) (by decide +kernel) g9.finite
  have c3 := castPI (t := volt64Ty siVoltage.coherent) (t' := volt64Ty siMillivolt) (c := ⟨1, 1, 3⟩) rfl rfl (by decide +kernel) (by decide +kernel) (castNumI_factor (F := 10 ^ 3) (by decide +kernel) v)
  have c6 := castPI (t := volt64Ty siVoltage.coherent) (t' := volt64Ty siMicrovolt) (c := ⟨1, 1, 6⟩) rfl rfl (by decide +kernel) (by decide +kernel) (castNumI_factor (F := 10 ^ 6) (by decide +kernel) v)
  have c9 := castPI (t := volt64Ty siVoltage.coherent) (t' := volt64Ty siNanovolt) (c := ⟨1, 1, 9⟩) rfl rfl (by decide +kernel) (by decide +kernel) (castNumI_factor (F := 10 ^ 9) (by decide +kernel) v)
  have c12 := castPI (t := volt64Ty siVoltage.coherent) (t' := volt64Ty siPicovolt) (c := ⟨1, 1, 12⟩) rfl rfl (by decide +kernel) (by decide +kernel) (castNumI_factor (F := 10 ^ 12) (by decide +kernel) v)
  have ge : ∀ x : ℚ, ¬ x < 1 → (some (if x < 1 then Ordering.lt else if x = 1 then .eq else .gt) = some .gt ∨
      some (if x < 1 then Ordering.lt else if x = 1 then .eq else .gt) = some .eq) := fun x h => by
    rw [if_neg h]; split_ifs <;> simp
  have lt : ∀ x : ℚ, x < 1 → ¬ (some (if x < 1 then Ordering.lt else if x = 1 then .eq else .gt) = some .gt ∨
      some (if x < 1 then Ordering.lt else if x = 1 then .eq else .gt) = some .eq) := fun x h => by
    rw [if_pos h]; simp
  simp only [capRanges, capPrintedI, k1, k3, k6, k9, ok_bind]
  by_cases a1 : v.q < 1
  swap
  · rw [if_pos (ge _ a1), if_pos trivial]
    refine ⟨_, 1, v, rfl, by decide, ?_, .inr (not_lt.mp a1), .inl rfl⟩
    rw [Rat.cast_one, mul_one]
    exact hv.weaken hu hδ (by omega) (hv.size.imp_right fun h => h.up (by norm_num))
  rw [if_neg (lt _ a1)]
  by_cases a2 : (v.mul .f64 (.fin false (10 ^ 3))).q < 1
  swap
  · rw [if_pos (ge _ a2), if_neg (by decide)]
    refine ⟨_, _, _, c3, by decide, g3, .inr (not_lt.mp a2), .inr ?_⟩
    rw [r3, show v.q * 10 ^ 3 = v.q * 1000 by norm_num]
    exact below (by rwa [roundKey_in hv.finite hv.within])
  rw [if_neg (lt _ a2)]
  by_cases a3 : (v.mul .f64 (.fin false (10 ^ 6))).q < 1
  swap
  · rw [if_pos (ge _ a3), if_neg (by decide)]
    refine ⟨_, _, _, c6, by decide, g6, .inr (not_lt.mp a3), .inr ?_⟩
    rw [r6, show v.q * 10 ^ 6 = v.q * 10 ^ 3 * 1000 by ring]
    exact below (by rwa [← r3])
  rw [if_neg (lt _ a3)]
  by_cases a4 : (v.mul .f64 (.fin false (10 ^ 9))).q < 1
  swap
  · rw [if_pos (ge _ a4), if_neg (by decide)]
    refine ⟨_, _, _, c9, by decide, g9, .inr (not_lt.mp a4), .inr ?_⟩
    rw [r9, show v.q * 10 ^ 9 = v.q * 10 ^ 6 * 1000 by ring]
    exact below (by rwa [← r6])
  rw [if_neg (lt _ a4)]
  refine ⟨_, _, _, c12, by decide, g12, .inl rfl, .inr ?_⟩
  rw [r12, show v.q * 10 ^ 12 = v.q * 10 ^ 9 * 1000 by ring]
  exact below (by rwa [← r9])

/-! ### The voltage -/

/-- Dimensionless numbers. -/
def one64Ty : QTy := ⟨.named dimOne, unitOne, .flt .f64⟩
/-- Milliseconds. -/
def ms64Ty : QTy := ⟨.base siTime, siMillisecond, .flt .f64⟩

omit hu hδ in
theorem k_neg {i : ℤ} (h0 : 0 ≤ i) (h1 : i < 2 ^ 31) : negQtyI ⟨msITy, .i i⟩ = .ok ⟨msITy, .i (-i)⟩ := by
  have : IntTy.i32.promote.arith (-i) = .ok (-i) := by
    show IntTy.i32.arith (-i) = _
    unfold IntTy.arith
    rw [if_pos (show IntTy.i32.signed = true from rfl), if_pos]
    constructor
    · show -(2 ^ 31) ≤ -i; omega
    · show -i ≤ 2 ^ 31 - 1; omega
  show (IntTy.i32.promote.arith (-i) >>= _) = _
  rw [this]; rfl

omit hu hδ in
theorem k_div (z : ℤ) (w : FVal) : divQtyI pE ⟨msITy, .i z⟩ ⟨ms64Ty, .f w⟩ = .ok ⟨one64Ty, .f ((FVal.ofInt .f64 z).div .f64 w)⟩ := by
  have : refDivide pE msITy.dim msITy.unit ms64Ty.dim ms64Ty.unit = .ok (one64Ty.dim, one64Ty.unit) := by decide +kernel
  unfold divQtyI
  rw [this]; rfl

omit hu hδ in
theorem k_exp (L : LibmI) (x : FVal) : expQtyI pE L ⟨one64Ty, .f x⟩ = .ok ⟨one64Ty, .f ((L.exp .f64 (x.mul .f64 (.fin false 1))).mul .f64 (.fin false 1))⟩ := by
  have c : ∀ y, quantityCastI pE.est one64Ty ⟨one64Ty, .f y⟩ = .ok ⟨one64Ty, .f (y.mul .f64 (.fin false 1))⟩ := fun y =>
    castPI (c := ⟨1, 1, 0⟩) rfl rfl (by decide +kernel) (by decide +kernel) (castNumI_factor (F := 1) (by decide +kernel) y)
  unfold expQtyI
  rw [if_pos (show one64Ty.dim = .named dimOne from rfl)]
  show (quantityCastI pE.est one64Ty ⟨one64Ty, .f x⟩ >>= _) = _
  rw [c, ok_bind]
  exact c _

omit hu hδ in
theorem exp_bd {x : ℝ} {n : ℕ} (h : |x| ≤ n) : Bd (2 * n) (Real.exp x) := by
  have e : Real.exp n ≤ 2 ^ (2 * n) := by
    rw [show (n : ℝ) = n * 1 by ring, Real.exp_nat_mul, pow_mul]
    exact pow_le_pow_left₀ (Real.exp_pos _).le (Real.exp_one_lt_d9.le.trans (by norm_num)) _
  obtain ⟨l, u⟩ := abs_le.mp h
  unfold Bd
  rw [abs_of_pos (Real.exp_pos _)]
  refine ⟨?_, (Real.exp_le_exp.mpr u).trans e⟩
  refine le_trans (one_div_le_one_div_of_le (Real.exp_pos _) e) ?_
  rw [one_div, ← Real.exp_neg]
  exact Real.exp_le_exp.mpr l

theorem k_int {z : ℤ} (h : |z| ≤ 2 ^ 31) : Got δ 0 31 (z : ℝ) (FVal.ofInt .f64 z) := by
  have h53 : |z| ≤ 2 ^ FltTy.f64.prec.toNat := h.trans (by decide)
  rw [ofInt_whole h53]
  refine ⟨trivial, ⟨abs_nonneg _, rndMag_whole h53⟩, ?_, ?_⟩
  · rw [signed_abs]
    push_cast
    exact Rel.refl (got_pos hu hδ).le (by linarith) _ _
  · rcases eq_or_ne z 0 with rfl | h0
    · left; norm_num
    · right
      have a : (1 : ℝ) ≤ |(z : ℝ)| := by exact_mod_cast Int.one_le_abs h0
      have b : |(z : ℝ)| ≤ 2 ^ 31 := by exact_mod_cast h
      exact ⟨le_trans (by norm_num) a, b⟩

/-- The voltage with its exact value, up to the rounding of the argument of the exponential function. -/
theorem voltage_got (hδ' : δ ≤ 1 / 2 ^ 20) {L : LibmI} (hL : L.ExpNear δ) {v0 r c : FVal} (hv : MidZero v0) (hr : Mid r) (hc : Mid c) {i : ℤ} (h0 : 0 ≤ i) (h1 : i < 2 ^ 31)
    (hX : |(i : ℝ) / (r.q * c.q)| ≤ 240) :
    ∃ (v : FVal) (x : ℝ), capVoltageI pE L ⟨volt64Ty siVoltage.coherent, .f v0⟩ ⟨ohm64Ty, .f r⟩ ⟨farad64Ty, .f c⟩ ⟨msITy, .i i⟩ = .ok ⟨volt64Ty siVoltage.coherent, .f v⟩ ∧
      Got δ 3 600 (v0.q * Real.exp x) v ∧ |x - -i / (r.q * c.q)| ≤ 6 * δ * |(i : ℝ) / (r.q * c.q)| := by
  have p := got_pos hu hδ
  have gr : Got δ 0 100 (r.q : ℝ) r := MidZero.got hu hδ ⟨hr.finite, hr.within, .inr ⟨hr.lower, hr.upper⟩⟩
  have gc : Got δ 0 100 (c.q : ℝ) c := MidZero.got hu hδ ⟨hc.finite, hc.within, .inr ⟨hc.lower, hc.upper⟩⟩
  have grc := gr.mul hu hδ gc (by norm_num) (by norm_num)
  have n0 : (r.q : ℝ) * c.q ≠ 0 := by
    have := (hr.bd.mul hc.bd).1
    intro e
    rw [e, abs_zero] at this
    norm_num at this
  have gi := k_int hu hδ (z := -i) (by rw [abs_neg, abs_of_nonneg h0]; omega)
  have gx := gi.div hu hδ grc n0 (by norm_num) (by norm_num)
  have g1 : Got δ 0 0 ((1 : ℚ) : ℝ) (.fin false 1) := got_exact hu hδ (by norm_num) (by decide +kernel) (by unfold Bd; norm_num)
  have gx1 := gx.mul hu hδ g1 (by norm_num) (by norm_num)
  rw [Rat.cast_one, mul_one] at gx1
  have err := gx1.err hu hδ (by norm_num)
  push_cast at err
  set y := ((FVal.ofInt .f64 (-i)).div .f64 (r.mul .f64 c)).mul .f64 (.fin false 1) with hy
  have eX : |-(i : ℝ) / (r.q * c.q)| = |(i : ℝ) / (r.q * c.q)| := by rw [neg_div, abs_neg]
  rw [eX] at err
  have yb : |(y.q : ℝ)| ≤ 250 := by
    have := abs_add_le ((y.q : ℝ) - -(i : ℝ) / (r.q * c.q)) (-(i : ℝ) / (r.q * c.q))
    rw [sub_add_cancel, eX] at this
    nlinarith
  obtain ⟨ef, ei, ee⟩ := hL y gx1.finite gx1.within (by
    have : ((|y.q| : ℚ) : ℝ) ≤ ((250 : ℚ) : ℝ) := by push_cast; exact yb
    exact Rat.cast_le.mp this)
  have ge : Got δ 1 500 (Real.exp y.q) (L.exp .f64 y) := ⟨ef, ei, Rel.of_err hu hδ ee, .inr (exp_bd (n := 250) (by push_cast; exact yb))⟩
  have ge1 := ge.mul hu hδ g1 (by norm_num) (by norm_num)
  rw [Rat.cast_one, mul_one] at ge1
  refine ⟨_, y.q, ?_, (hv.got hu hδ).mul hu hδ ge1 (by norm_num) (by norm_num), err.trans (by linarith)⟩
  simp only [capVoltageI, k_neg h0 h1, ok_bind, mulPI (t1 := ohm64Ty) (t2 := farad64Ty) (t := ms64Ty) rfl rfl rfl (by decide +kernel), k_div, k_exp]
  exact mulPI (t1 := volt64Ty siVoltage.coherent) (t2 := one64Ty) (t := volt64Ty siVoltage.coherent) rfl rfl rfl (by decide +kernel) _ _

/-- From the rounding of the argument and of the result to the rounding of the whole. -/
theorem discharge_err (hδ' : δ ≤ 1 / 2 ^ 20) {k : ℝ} (k0 : 0 ≤ k) (k8 : k ≤ 8) {A x X w y : ℝ} (hw : w ≤ 6 * δ * 240) (hx : |x - X| ≤ w)
    (h : |y - A * Real.exp x| ≤ k * δ * |A * Real.exp x|) : |y - A * Real.exp X| ≤ (k * δ + 3 * w) * |A * Real.exp X| := by
  have p := got_pos hu hδ
  have w0 : 0 ≤ w := (abs_nonneg _).trans hx
  have w1 : w ≤ 1 := hw.trans (by nlinarith)
  have e1 := (Real.abs_exp_sub_one_le (x := x - X) (hx.trans w1)).trans (by linarith : 2 * |x - X| ≤ 2 * w)
  have eq : A * Real.exp x - A * Real.exp X = A * Real.exp X * (Real.exp (x - X) - 1) := by
    rw [Real.exp_sub]; field_simp
  have d : |A * Real.exp x - A * Real.exp X| ≤ 2 * w * |A * Real.exp X| := by
    rw [eq, abs_mul, mul_comm]
    exact mul_le_mul_of_nonneg_right e1 (abs_nonneg _)
  have b : |A * Real.exp x| ≤ (1 + 2 * w) * |A * Real.exp X| := by
    have := abs_add_le (A * Real.exp x - A * Real.exp X) (A * Real.exp X)
    rw [sub_add_cancel] at this
    linarith
  have t := abs_add_le (y - A * Real.exp x) (A * Real.exp x - A * Real.exp X)
  rw [sub_add_sub_cancel] at t
  have B := abs_nonneg (A * Real.exp X)
  generalize |A * Real.exp X| = Z at *
  have s1 : k * δ * |A * Real.exp x| ≤ k * δ * ((1 + 2 * w) * Z) := mul_le_mul_of_nonneg_left b (by positivity)
  have kd : k * δ ≤ 1 / 100 := by nlinarith
  have s2 : k * δ * (w * Z) ≤ 1 / 100 * (w * Z) := mul_le_mul_of_nonneg_right kd (by positivity)
  have : 0 ≤ w * Z := by positivity
  nlinarith

/-- C97: the voltage after `i` milliseconds is `v₀ · exp(-i / (R · C))` up to a relative error of `6 + 18 · i / (R · C)` times that of one operation. -/
theorem C97_voltage (hδ' : δ ≤ 1 / 2 ^ 20) {L : LibmI} (hL : L.ExpNear δ) {v0 r c : FVal} (hv : MidZero v0) (hr : Mid r) (hc : Mid c) {i : ℤ} (h0 : 0 ≤ i) (h1 : i < 2 ^ 31)
    (hX : |(i : ℝ) / (r.q * c.q)| ≤ 240) :
    ∃ v : FVal, capVoltageI progEnv L ⟨volt64Ty siVoltage.coherent, .f v0⟩ ⟨ohm64Ty, .f r⟩ ⟨farad64Ty, .f c⟩ ⟨msITy, .i i⟩ = .ok ⟨volt64Ty siVoltage.coherent, .f v⟩ ∧
      v.Finite ∧ v.In .f64 ∧ |(v.q : ℝ) - discharge v0.q r.q c.q i| ≤ δ * (6 + 18 * |(i : ℝ) / (r.q * c.q)|) * |discharge v0.q r.q c.q i| := by
  have p := got_pos hu hδ
  obtain ⟨v, x, e, g, hx⟩ := voltage_got hu hδ hδ' hL hv hr hc h0 h1 hX
  refine ⟨v, e, g.finite, g.within, ?_⟩
  have ge := g.err hu hδ (by norm_num)
  refine (discharge_err hu hδ hδ' (k := 6) (by norm_num) (by norm_num) (mul_le_mul_of_nonneg_left hX (by positivity)) hx (ge.trans (le_of_eq (by push_cast; ring)))).trans
    (le_of_eq ?_)
  unfold discharge
  ring

/-- One row of the table. -/
theorem row_got (hδ' : δ ≤ 1 / 2 ^ 20) {L : LibmI} (hL : L.ExpNear δ) {v0 r c : FVal} (hv : MidZero v0) (hr : Mid r) (hc : Mid c) {i : ℤ} (h0 : 0 ≤ i) (h1 : i < 2 ^ 31)
    (hX : |(i : ℝ) / (r.q * c.q)| ≤ 240) :
    ∃ v q, capVoltageI pE L ⟨volt64Ty siVoltage.coherent, .f v0⟩ ⟨ohm64Ty, .f r⟩ ⟨farad64Ty, .f c⟩ ⟨msITy, .i i⟩ = .ok v ∧ capPrintedI pE capRanges v = .ok q ∧
      CapRow δ v0 r c i (⟨msITy, .i i⟩, q) := by
  have p := got_pos hu hδ
  obtain ⟨v, x, e, g, hx⟩ := voltage_got hu hδ hδ' hL hv hr hc h0 h1 hX
  obtain ⟨u, k, y, e', hk, g', lo, hi⟩ := C97_printed hu hδ g (by norm_num)
  refine ⟨_, _, e, e', rfl, u, k, y, rfl, hk, g'.finite, ?_, lo, hi⟩
  have ge := g'.err hu hδ (by norm_num)
  have s : ∀ z : ℝ, (v0.q : ℝ) * Real.exp z * k = v0.q * k * Real.exp z := fun z => by ring
  rw [s] at ge
  have := discharge_err hu hδ hδ' (k := 8) (by norm_num) (by norm_num) (mul_le_mul_of_nonneg_left hX (by positivity)) hx (ge.trans (le_of_eq (by push_cast; ring)))
  unfold discharge
  rw [s]
  exact this.trans (le_of_eq (by ring))

omit hu hδ in
theorem k_le (i n : ℤ) : compareQtyI pE ⟨msITy, .i i⟩ ⟨msITy, .i n⟩ = .ok (some (if i < n then .lt else if i = n then .eq else .gt)) := by
  unfold compareQtyI
  rw [if_pos (show msITy.rep.threeWay msITy.rep = true by decide)]
  show (commonQty pE msITy msITy (msITy.rep.common msITy.rep) >>= _) = _
  rw [show commonQty pE msITy msITy (msITy.rep.common msITy.rep) = .ok msITy by decide +kernel, ok_bind, convertQtyI_self pE ⟨msITy, .i i⟩, ok_bind,
    convertQtyI_self pE ⟨msITy, .i n⟩, ok_bind]
  simp only [FNum.cmp]

omit hu hδ in
theorem k_inc {i : ℤ} (h0 : 0 ≤ i) (h1 : i + 1 < 2 ^ 31) : incDecI .add ⟨msITy, .i i⟩ = .ok ⟨msITy, .i (i + 1)⟩ := by
  have : IntTy.i32.arith (i + 1) = .ok (i + 1) := by
    unfold IntTy.arith
    rw [if_pos (show IntTy.i32.signed = true from rfl), if_pos]
    constructor
    · show -(2 ^ 31) ≤ i + 1; omega
    · show i + 1 ≤ 2 ^ 31 - 1; omega
  have e : numOpI .add (.int .i32) (.int .i32) (.i i) (.i 1) = .ok (.i (i + 1)) := by
    simp only [numOpI, show (Rep.int .i32).arith (.int .i32) = .int .i32 by decide, convI, if_true, ok_bind, sameOpI, intOp, this]
  simp only [incDecI, msITy, compoundI, e, ok_bind, show (Rep.int .i32).arith (.int .i32) = .int .i32 by decide, convI, if_true]

/-- C97: the loop prints one row for each millisecond from zero to the last one, in order, each with the right voltage, and stops. -/
theorem C97_rows (hδ' : δ ≤ 1 / 2 ^ 20) {L : LibmI} (hL : L.ExpNear δ) {v0 r c : FVal} (hv : MidZero v0) (hr : Mid r) (hc : Mid c) {last : ℕ} (h1 : (last : ℤ) + 1 < 2 ^ 31)
    (hX : (last : ℝ) ≤ 240 * |(r.q : ℝ) * c.q|) :
    ∃ rows, capMainI progEnv L v0 r c last (last + 2) = .ok (some rows) ∧ rows.length = last + 1 ∧
      ∀ i : ℕ, i ≤ last → ∃ row, rows[i]? = some row ∧ CapRow δ v0 r c i row := by
  have n0 : 0 < |(r.q : ℝ) * c.q| := lt_of_lt_of_le (by positivity) (hr.bd.mul hc.bd).1
  have row := fun (i : ℕ) (hi : i ≤ last) => row_got hu hδ hδ' hL hv hr hc (i := i) (by omega) (by omega) (by
    rw [abs_div, div_le_iff₀ n0, Int.cast_natCast, abs_of_nonneg (Nat.cast_nonneg i)]
    exact le_trans (by exact_mod_cast hi) hX)
  have main : ∀ k i : ℕ, i + k = last + 1 → ∃ rows, capLoopI pE L ⟨volt64Ty siVoltage.coherent, .f v0⟩ ⟨ohm64Ty, .f r⟩ ⟨farad64Ty, .f c⟩ ⟨msITy, .i last⟩ (k + 1) ⟨msITy, .i i⟩ =
      .ok (some rows) ∧ rows.length = k ∧ ∀ j : ℕ, j < k → ∃ row, rows[j]? = some row ∧ CapRow δ v0 r c ((i + j : ℕ) : ℤ) row := by
    intro k
    induction k with
    | zero =>
      intro i hi
      refine ⟨[], ?_, rfl, fun j hj => absurd hj (by omega)⟩
      simp only [capLoopI, k_le, ok_bind]
      rw [if_neg (show ¬ (i : ℤ) < last by omega), if_neg (show ¬ (i : ℤ) = last by omega), if_neg (by decide)]
    | succ k ih =>
      intro i hi
      obtain ⟨rows, e, hlen, hr⟩ := ih (i + 1) (by omega)
      obtain ⟨v, q, e1, e2, e3⟩ := row i (by omega)
      refine ⟨(⟨msITy, .i i⟩, q) :: rows, ?_, by simp [hlen], ?_⟩
      · rw [capLoopI, k_le, ok_bind, if_pos (by split_ifs <;> [left; right; omega] <;> rfl), e1, ok_bind, e2, ok_bind, k_inc (by omega) (by omega), ok_bind]
        push_cast at e
        rw [e, ok_bind]
      · intro j hj
        cases j with
        | zero => exact ⟨_, rfl, e3⟩
        | succ j =>
          rw [List.getElem?_cons_succ]
          obtain ⟨w, a, b⟩ := hr j (by omega)
          refine ⟨w, a, ?_⟩
          rwa [show i + (j + 1) = i + 1 + j by omega]
  obtain ⟨rows, e, hlen, hr⟩ := main (last + 1) 0 (by omega)
  refine ⟨rows, e, hlen, fun i hi => ?_⟩
  have := hr i (by omega)
  rwa [Nat.zero_add] at this
end

/-! ### Cases -/

/-- `std::exp` with the nearest number. -/
theorem libm_near : ∃ L : LibmI, L.ExpNear ((FltTy.f64.u : ℚ) : ℝ) := by
  obtain ⟨L, -, -, h⟩ := libm_exists
  refine ⟨⟨L.pow, L.cbrt, fun _ x => L.exp .f64 x⟩, fun x hf hx hb => ?_⟩
  have n : L.ExpSpec fun f => RelErr f.u f := fun f x hx hf hn => (h f x hx hf hn).within hn
  have b : Bd 500 (Real.exp x.q) := exp_bd (n := 250) (by
    have := (Rat.cast_le (K := ℝ)).mpr hb
    push_cast at this ⊢
    exact this)
  refine n .f64 x hx hf ⟨?_, ?_⟩
  · refine le_trans ?_ b.1
    show (2 : ℝ) ^ (-1022 : ℤ) ≤ _
    rw [zpow_neg, ← one_div]
    exact one_div_le_one_div_of_le (by positivity) (by rw [← zpow_natCast]; exact zpow_le_zpow_right₀ (by norm_num) (by norm_num))
  · refine le_trans b.2 ?_
    show _ ≤ (2 : ℝ) ^ (1023 : ℤ)
    rw [← zpow_natCast]
    exact zpow_le_zpow_right₀ (by norm_num) (by norm_num)

/-- The number 4.7 of the program. -/
def cap47 : FVal := .fin false (5291729562160333 / 2 ^ 50)
/-- The number 0.47 of the program. -/
def cap047 : FVal := .fin false (2116691824864133 / 2 ^ 52)

theorem cap47_mid : Mid cap47 := ⟨trivial, ⟨by norm_num, by decide +kernel⟩, by norm_num [cap47, FVal.q], by norm_num [cap47, FVal.q]⟩
theorem cap047_mid : Mid cap047 := ⟨trivial, ⟨by norm_num, by decide +kernel⟩, by norm_num [cap047, FVal.q], by norm_num [cap047, FVal.q]⟩

/-- They are the nearest to the decimal numbers. -/
example : FVal.round .f64 false (47 / 10) = cap47 ∧ FVal.round .f64 false (47 / 100) = cap047 := by decide +kernel

/-- The fifty-one rows of the program, with the nearest number for `std::exp`; the last row is right to within 420 units of rounding. -/
example : ∃ L rows row, capMainI progEnv L (.fin false 5) cap47 cap047 (50 : ℕ) 52 = .ok (some rows) ∧ rows.length = 51 ∧ rows[50]? = some row ∧
    CapRow (1 / 2 ^ 53) (.fin false 5) cap47 cap047 50 row ∧ |((50 : ℤ) : ℝ) / (cap47.q * cap047.q)| ≤ 22.7 := by
  obtain ⟨L, hL⟩ := libm_near
  rw [u53] at hL
  obtain ⟨rows, h, hl, hr⟩ := C97_rows (δ := 1 / 2 ^ 53) (by rw [u53]) (by norm_num) (by norm_num) (by exact_mod_cast hL) (v0 := .fin false 5)
    ⟨trivial, ⟨by norm_num, by decide +kernel⟩, .inr (by norm_num [FVal.q])⟩ cap47_mid cap047_mid (last := 50) (by norm_num) (by norm_num [cap47, cap047, FVal.q])
  obtain ⟨row, h1, h2⟩ := hr 50 le_rfl
  refine ⟨L, rows, row, h, hl, h1, h2, ?_⟩
  norm_num [cap47, cap047, FVal.q]

/-- Voltages between one thousandth and one are printed in millivolts. -/
example : capPrintedI progEnv capRanges ⟨volt64Ty siVoltage.coherent, .f (.fin false (1 / 4))⟩ = .ok ⟨volt64Ty siMillivolt, .f (.fin false 250)⟩ := by decide +kernel

/-- C97: the chain of comparisons is meant for positive voltages: with the capacitor charged the other way round, -5 V is printed as -5000000000000 pV, and
a NaN as a NaN in picovolts. -/
theorem C97_negative_wrong :
    capPrintedI progEnv capRanges ⟨volt64Ty siVoltage.coherent, .f (.fin true 5)⟩ = .ok ⟨volt64Ty siPicovolt, .f (.fin true (5 * 10 ^ 12))⟩ ∧
    capPrintedI progEnv capRanges ⟨volt64Ty siVoltage.coherent, .f .nan⟩ = .ok ⟨volt64Ty siPicovolt, .f .nan⟩ := by
  decide +kernel

end Verif
