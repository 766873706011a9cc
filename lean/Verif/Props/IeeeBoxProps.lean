import Verif.IeeeBox
import Verif.Props.IeeeCapacitorProps

/-!
# C98: the filling of a box in IEEE floating point

The numbers printed by example/references/box_example.cpp against the formulas over the real numbers.
-/

namespace Verif

open FltTy

set_option maxRecDepth 100000

/-! ### Differences -/

/-- A number near a real number that is a difference of others of size up to `S`. -/
structure App (δ c S X : ℝ) (z : FVal) : Prop where
  finite : z.Finite
  within : z.In .f64
  err : |(z.q : ℝ) - X| ≤ c * δ * S
  dom : |X| ≤ S

theorem tiny_f64 : ((FltTy.f64.tiny : ℚ) : ℝ) ≤ 1 / 2 ^ 1000 := by
  have : FltTy.f64.tiny ≤ (1 / 2 ^ 1000 : ℚ) := by decide +kernel
  have := (Rat.cast_le (K := ℝ)).mpr this
  push_cast at this
  exact this

theorem big_le {x : ℝ} (h : x ≤ 4 * 2 ^ 900) : x ≤ 2 ^ 1000 := by
  refine h.trans ?_
  rw [show (4 : ℝ) = 2 ^ 2 by norm_num, ← pow_add]
  exact pow_le_pow_right₀ (by norm_num) (by norm_num)

section
set_option linter.unusedSectionVars false
variable {δ : ℝ} (hu : ((FltTy.f64.u : ℚ) : ℝ) ≤ δ) (hδ : δ ≤ 1 / 400)
include hu hδ

theorem tiny_le {j : ℕ} (hj : j ≤ 900) {S : ℝ} (hS : Bd j S) : ((FltTy.f64.tiny : ℚ) : ℝ) ≤ δ * |S| := by
  have a : (1 : ℝ) / 2 ^ 900 ≤ |S| := le_trans (one_div_le_one_div_of_le (by positivity) (pow_le_pow_right₀ (by norm_num) hj)) hS.1
  have d : (1 : ℝ) / 2 ^ 53 ≤ δ := by
    have h := hu
    rw [u53] at h
    exact h
  have m := mul_le_mul d a (by positivity) ((by positivity : (0 : ℝ) ≤ 1 / 2 ^ 53).trans d)
  refine tiny_f64.trans (le_trans ?_ m)
  rw [one_div_mul_one_div, ← pow_add]
  exact one_div_le_one_div_of_le (by positivity) (pow_le_pow_right₀ (by norm_num) (by norm_num))

/-- Rounding of a number of moderate size. -/
theorem app_round {w : ℚ} {y : FVal} (h : y.key .f64 = roundKey .f64 w ∧ y.In .f64 ∧ y ≠ .nan) (hw : |(w : ℝ)| ≤ 2 ^ 1000) :
    y.Finite ∧ y.In .f64 ∧ |(y.q : ℝ) - w| ≤ δ * |(w : ℝ)| + ((FltTy.f64.tiny : ℚ) : ℝ) / 2 := by
  have b : |w| ≤ 2 ^ (FltTy.f64.emax - 1) := by
    refine le_two_zpow ?_
    push_cast
    refine hw.trans ?_
    rw [show FltTy.f64.emax - 1 = ((1023 : ℕ) : Int) by decide, zpow_natCast]
    exact pow_le_pow_right₀ (by norm_num) (by omega)
  have i := finite_round h b
  refine ⟨i.finite, i.within, ?_⟩
  rw [i.eq]
  have e := (Rat.cast_le (K := ℝ)).mpr (roundKey_err b).1
  push_cast at e
  refine e.trans ?_
  have := mul_le_mul_of_nonneg_right hu (abs_nonneg (w : ℝ))
  linarith

theorem Got.sub {k j : ℕ} {X Y : ℝ} {x y : FVal} (hδ' : δ ≤ 1 / 2 ^ 20) (hx : Got δ k j X x) (hy : Got δ k j Y y) (h0 : X ≠ 0) (hk : k ≤ 100) (hj : j ≤ 900) :
    App δ (2 * k + 2) (|X| + |Y|) (X - Y) (x.sub .f64 y) := by
  have p := got_pos hu hδ
  have k100 : (k : ℝ) ≤ 100 := by exact_mod_cast hk
  have kd : 2 * (k : ℝ) * δ ≤ 1 / 1000 := by nlinarith
  have ex := hx.err hu hδ (by omega)
  have ey := hy.err hu hδ (by omega)
  have X0 := abs_nonneg X
  have Y0 := abs_nonneg Y
  have kx : 2 * (k : ℝ) * δ * |X| ≤ 1 / 1000 * |X| := mul_le_mul_of_nonneg_right kd X0
  have ky : 2 * (k : ℝ) * δ * |Y| ≤ 1 / 1000 * |Y| := mul_le_mul_of_nonneg_right kd Y0
  have bX := hx.size.resolve_left h0
  have big : (2 : ℝ) ^ j ≤ 2 ^ 900 := pow_le_pow_right₀ (by norm_num) hj
  have uX : |X| ≤ 2 ^ 900 := bX.2.trans big
  have uY : |Y| ≤ 2 ^ 900 := by
    rcases hy.size with h | h
    · rw [h, abs_zero]; positivity
    · exact h.2.trans big
  have t := tiny_le hu hδ hj bX
  have n : |((x.q - y.q : ℚ) : ℝ)| ≤ 2 * (|X| + |Y|) := by
    push_cast
    rw [abs_le] at ex ey ⊢
    have := abs_le.mp (le_refl |X|)
    have := abs_le.mp (le_refl |Y|)
    constructor <;> linarith
  have key : (x.sub .f64 y).key .f64 = roundKey .f64 (x.q - y.q) ∧ (x.sub .f64 y).In .f64 ∧ x.sub .f64 y ≠ .nan := by
    have := key_add (f := .f64) hx.finite (y := y.neg) hy.finite.neg
    rw [FVal.neg_q, ← sub_eq_add_neg] at this
    exact this
  obtain ⟨f, i, e⟩ := app_round hu hδ key (n.trans (big_le (by
    generalize (2 : ℝ) ^ 900 = A at *
    clear hu
    linarith)))
  refine ⟨f, i, ?_, (abs_sub X Y)⟩
  have n' : |((x.q - y.q : ℚ) : ℝ)| ≤ 1.001 * (|X| + |Y|) := by
    push_cast
    rw [abs_le] at ex ey ⊢
    have := abs_le.mp (le_refl |X|)
    have := abs_le.mp (le_refl |Y|)
    constructor <;> linarith
  have e' : |((x.sub .f64 y).q : ℝ) - ((x.q - y.q : ℚ) : ℝ)| ≤ 2 * δ * (|X| + |Y|) := by
    have := mul_le_mul_of_nonneg_left n' p.le
    have : 0 ≤ δ * |Y| := by positivity
    have : 0 ≤ δ * |X| := by positivity
    nlinarith
  push_cast at e'
  have tri : ((x.sub .f64 y).q : ℝ) - (X - Y) = (((x.sub .f64 y).q : ℝ) - (x.q - y.q)) + (x.q - X) - (y.q - Y) := by ring
  rw [tri]
  rw [abs_le] at e' ex ey ⊢
  constructor <;> linarith

theorem App.mul {c S X Y : ℝ} {k j j' : ℕ} {x y : FVal} (hδ' : δ ≤ 1 / 2 ^ 20) (hx : App δ c S X x) (hy : Got δ k j' Y y) (hS : Bd j S) (h0 : Y ≠ 0) (c0 : 0 ≤ c) (hc : c ≤ 400)
    (hk : k ≤ 100) (hj : j + j' ≤ 900) : App δ (c + 2 * k + 2) (S * |Y|) (X * Y) (x.mul .f64 y) := by
  have p := got_pos hu hδ
  have k100 : (k : ℝ) ≤ 100 := by exact_mod_cast hk
  have kd : 2 * (k : ℝ) * δ ≤ 1 / 1000 := by nlinarith
  have cd : c * δ ≤ 1 / 1000 := by nlinarith
  have ey := hy.err hu hδ (by omega)
  have ex := hx.err
  have S0 : 0 ≤ S := (abs_nonneg _).trans hx.dom
  have Y0 := abs_nonneg Y
  have bY := hy.size.resolve_left h0
  have bS := hS.mul bY
  have t := tiny_le hu hδ hj bS
  rw [abs_mul, abs_of_nonneg S0] at t
  have SY : 0 ≤ S * |Y| := by positivity
  have up : S * |Y| ≤ 2 ^ 900 := by
    have := bS.2
    rw [abs_mul, abs_of_nonneg S0] at this
    exact this.trans (pow_le_pow_right₀ (by norm_num) hj)
  have ky : 2 * (k : ℝ) * δ * |Y| ≤ 1 / 1000 * |Y| := mul_le_mul_of_nonneg_right kd Y0
  have cs : c * δ * S ≤ 1 / 1000 * S := mul_le_mul_of_nonneg_right cd S0
  have ay : |(y.q : ℝ)| ≤ 1.001 * |Y| := by
    have := abs_add_le ((y.q : ℝ) - Y) Y
    rw [sub_add_cancel] at this
    linarith
  have ax : |(x.q : ℝ)| ≤ 1.001 * S := by
    have := abs_add_le ((x.q : ℝ) - X) X
    rw [sub_add_cancel] at this
    linarith [hx.dom]
  have n : |((x.q * y.q : ℚ) : ℝ)| ≤ 1.01 * (S * |Y|) := by
    push_cast
    rw [abs_mul]
    have := mul_le_mul ax ay (abs_nonneg _) (by positivity)
    nlinarith
  obtain ⟨f, i, e⟩ := app_round hu hδ (key_mul hx.within hy.within hx.finite hy.finite) (n.trans (big_le (by
    generalize (2 : ℝ) ^ 900 = A at *
    clear hu
    linarith)))
  refine ⟨f, i, ?_, by rw [abs_mul]; exact mul_le_mul_of_nonneg_right hx.dom Y0⟩
  have d0 : 0 ≤ δ * (S * |Y|) := by positivity
  have e1 : |((x.mul .f64 y).q : ℝ) - ((x.q * y.q : ℚ) : ℝ)| ≤ 1.51 * (δ * (S * |Y|)) := by
    have := mul_le_mul_of_nonneg_left n p.le
    nlinarith
  push_cast at e1
  have e2 : |((x.q : ℝ) - X) * y.q| ≤ c * (δ * (S * |Y|)) + 0.4 * (δ * (S * |Y|)) := by
    rw [abs_mul]
    have := mul_le_mul ex ay (abs_nonneg _) (by positivity)
    have : c * (δ * (S * |Y|)) ≤ 400 * (δ * (S * |Y|)) := mul_le_mul_of_nonneg_right hc d0
    nlinarith
  have e3 : |X * ((y.q : ℝ) - Y)| ≤ 2 * k * (δ * (S * |Y|)) := by
    rw [abs_mul]
    have := mul_le_mul hx.dom ey (abs_nonneg _) S0
    nlinarith
  have tri : ((x.mul .f64 y).q : ℝ) - X * Y = (((x.mul .f64 y).q : ℝ) - x.q * y.q) + (x.q - X) * y.q + X * (y.q - Y) := by ring
  rw [tri, show (c + 2 * k + 2) * δ * (S * |Y|) = c * (δ * (S * |Y|)) + 2 * k * (δ * (S * |Y|)) + 2 * (δ * (S * |Y|)) by ring]
  refine (abs_add_three _ _ _).trans ?_
  linarith
end

/-! ### Types -/

/-- Millimetres. -/
def mm64Ty : QTy := ⟨.base siLength, siMillimetre, .flt .f64⟩
/-- Seconds. -/
def sec64Ty : QTy := ⟨.base siTime, siSecond, .flt .f64⟩
/-- Kilograms by seconds: a dimension without a name. -/
def flow64Ty : QTy := divTyP boxMass sec64Ty
/-- Metres per second. -/
def rise64Ty : QTy := ⟨.named siSpeed, siMps, .flt .f64⟩
/-- The acceleration of gravity as a `double`. -/
def g64 : FVal := .fin false (5520653160719109 / 2 ^ 49)
/-- The density of air as a `double`. -/
def air64 : FVal := .fin false (2758454771764429 / 2 ^ 51)
/-- The number by which lengths in millimetres are multiplied. -/
def milli64 : FVal := .fin false (1152921504606847 / 2 ^ 60)

theorem b_g : boxGI = ⟨⟨.named siAcceleration, siAcceleration.coherent, .flt .f64⟩, .f g64⟩ := by decide +kernel
theorem b_air : airDensityI = ⟨boxDens, .f air64⟩ := by decide +kernel
theorem b_cast (x : FVal) : quantityCastI pE.est boxLen ⟨mm64Ty, .f x⟩ = .ok ⟨boxLen, .f (x.mul .f64 milli64)⟩ :=
  castPI (c := ⟨1, 1, -3⟩) rfl rfl (by decide +kernel) (by decide +kernel) (castNumI_factor (by decide +kernel) x)
theorem b_conv (x : FVal) : convertQtyI pE boxLen ⟨mm64Ty, .f x⟩ = .ok ⟨boxLen, .f (x.mul .f64 milli64)⟩ :=
  convPI (c := ⟨1, 1, -3⟩) (by decide) rfl rfl (by decide +kernel) (by decide +kernel) (castNumI_factor (by decide +kernel) x)
theorem b_ll (x y : FVal) : mulQtyI pE ⟨boxLen, .f x⟩ ⟨boxLen, .f y⟩ = .ok ⟨boxArea, .f (x.mul .f64 y)⟩ := mulPI rfl rfl rfl (by decide +kernel) x y
theorem b_al (x y : FVal) : mulQtyI pE ⟨boxArea, .f x⟩ ⟨boxLen, .f y⟩ = .ok ⟨boxVol, .f (x.mul .f64 y)⟩ := mulPI rfl rfl rfl (by decide +kernel) x y
theorem b_la (x y : FVal) : mulQtyI pE ⟨boxLen, .f x⟩ ⟨boxArea, .f y⟩ = .ok ⟨boxVol, .f (x.mul .f64 y)⟩ := mulPI rfl rfl rfl (by decide +kernel) x y
theorem b_dv (x y : FVal) : mulQtyI pE ⟨boxDens, .f x⟩ ⟨boxVol, .f y⟩ = .ok ⟨boxMass, .f (x.mul .f64 y)⟩ := mulPI rfl rfl rfl (by decide +kernel) x y
theorem b_mg (x : FVal) : mulQtyI pE ⟨boxMass, .f x⟩ boxGI = .ok ⟨boxForce, .f (x.mul .f64 g64)⟩ := by
  rw [b_g]; exact mulPI rfl rfl rfl (by decide +kernel) x g64
theorem b_lm (x y : FVal) : mulQtyI pE ⟨boxLen, .f x⟩ ⟨boxMass, .f y⟩ = .ok ⟨lmTy, .f (x.mul .f64 y)⟩ := mulPI rfl rfl (by decide +kernel) (by decide +kernel) x y
theorem b_lmg (x : FVal) : mulQtyI pE ⟨lmTy, .f x⟩ boxGI = .ok ⟨jouleTy, .f (x.mul .f64 g64)⟩ := by
  rw [b_g]; exact mulPI (by decide +kernel) rfl rfl (by decide +kernel) x g64
theorem b_level (x y : FVal) : divQtyI pE ⟨jouleTy, .f x⟩ ⟨boxForce, .f y⟩ = .ok ⟨boxLen, .f (x.div .f64 y)⟩ := divPI rfl rfl rfl (by decide +kernel) x y
theorem b_sub (x y : FVal) : addSubI pE true ⟨boxLen, .f x⟩ ⟨boxLen, .f y⟩ = .ok ⟨boxLen, .f (x.sub .f64 y)⟩ := by
  have : commonQty pE boxLen boxLen (.flt .f64) = .ok boxLen := by decide +kernel
  show (commonQty pE boxLen boxLen (.flt .f64) >>= _) = _
  rw [this]; rfl
theorem b_part (x y : FVal) : divQtyI pE ⟨boxLen, .f x⟩ ⟨boxLen, .f y⟩ = .ok ⟨oneTy, .f (x.div .f64 y)⟩ := divPI rfl rfl rfl (by decide +kernel) x y
theorem b_percent (x : FVal) : quantityCastI pE.est ⟨oneTy.dim, unitPercent, oneTy.rep⟩ ⟨oneTy, .f x⟩ = .ok ⟨percentTy, .f (x.mul .f64 (.fin false 100))⟩ :=
  castPI (t' := percentTy) (c := ⟨1, 1, 2⟩) rfl rfl (by decide +kernel) (by decide +kernel) (castNumI_factor (by decide +kernel) x)
theorem b_flow (x y : FVal) : divQtyI pE ⟨boxMass, .f x⟩ ⟨sec64Ty, .f y⟩ = .ok ⟨flow64Ty, .f (x.div .f64 y)⟩ :=
  divPI rfl rfl (by decide +kernel) (by decide +kernel) x y
theorem b_rise (x y : FVal) : divQtyI pE ⟨boxLen, .f x⟩ ⟨sec64Ty, .f y⟩ = .ok ⟨rise64Ty, .f (x.div .f64 y)⟩ := divPI rfl rfl rfl (by decide +kernel) x y
theorem b_more (x : FVal) : subNumI ⟨oneTy, .f x⟩ (.int .i32) (.i 1) = .ok ⟨oneTy, .f (x.sub .f64 (.fin false 1))⟩ := by
  have : FVal.ofInt .f64 1 = .fin false 1 := by decide +kernel
  rw [← this]; rfl
theorem b_left (x y : FVal) : mulQtyI pE ⟨oneTy, .f x⟩ ⟨sec64Ty, .f y⟩ = .ok ⟨sec64Ty, .f (x.mul .f64 y)⟩ := mulPI rfl rfl rfl (by decide +kernel) x y

theorem b_cmp {x : FVal} (hx : x.Finite) : compareQtyI pE ⟨boxDens, .f x⟩ airDensityI =
    .ok (some (if x.q < air64.q then .lt else if x.q = air64.q then .eq else .gt)) := by
  obtain ⟨s, m, rfl⟩ := hx.eq
  have c : commonQty pE boxDens boxDens ((Rep.flt .f64).common (.flt .f64)) = .ok boxDens := by decide +kernel
  rw [b_air]
  unfold compareQtyI
  show (if (Rep.flt FltTy.f64).threeWay (.flt .f64) = true then _ else _) = _
  rw [if_pos (by decide)]
  show (commonQty pE boxDens boxDens ((Rep.flt .f64).common (.flt .f64)) >>= _) = _
  rw [c, ok_bind]
  show Except.ok (FVal.cmp (.fin s m) air64) = _
  simp only [FVal.cmp, air64]
  split_ifs <;> simp_all

/-! ### Specification -/

/-- The printed number in the given type: the real number `X`, with an error of at most `k` units of `2 ^ -53` of `S`. -/
def Printed98 (t : QTy) (k : ℕ) (S X : ℝ) (r : QtyI) : Prop :=
  ∃ y : FVal, r = ⟨t, .f y⟩ ∧ y.Finite ∧ |(y.q : ℝ) - X| ≤ k / 2 ^ 53 * S

/-- What is to be printed: sides `l`, `w`, `h` in metres, density `ρ`, mass `m`, time `t`. -/
structure BoxSpec (l w h ρ m t : ℝ) (r : BoxReportI) : Prop where
  level : Printed98 boxLen 30 |m / (ρ * l * w)| (m / (ρ * l * w)) r.level
  percent : Printed98 percentTy 38 |100 * (m / (ρ * l * w * h))| (100 * (m / (ρ * l * w * h))) r.percent
  spare : Printed98 boxVol 44 (|l * w * h| + |m / ρ|) (l * w * h - m / ρ) r.spare
  flow : Printed98 flow64Ty 2 |m / t| (m / t) r.flow
  rise : Printed98 rise64Ty 32 |m / (ρ * l * w * t)| (m / (ρ * l * w * t)) r.rise
  left : Printed98 sec64Ty 40 (|t * (ρ * l * w * h / m)| + |t|) (t * (ρ * l * w * h / m) - t) r.left

/-! ### Proof -/

theorem u_le : ((FltTy.f64.u : ℚ) : ℝ) ≤ 1 / 2 ^ 53 := by rw [u53]

theorem Mid.got98 {x : FVal} (h : Mid x) : Got (1 / 2 ^ 53) 0 100 (x.q : ℝ) x :=
  MidZero.got u_le (by norm_num) ⟨h.finite, h.within, .inr ⟨h.lower, h.upper⟩⟩

theorem Mid.ne {x : FVal} (h : Mid x) : (x.q : ℝ) ≠ 0 := by
  intro e
  have := h.bd.1
  rw [e, abs_zero] at this
  norm_num at this

theorem milli_got : Got (1 / 2 ^ 53) 1 10 (1 / 1000) milli64 := by
  refine ⟨trivial, ⟨by norm_num, by decide +kernel⟩, ?_, .inr ?_⟩
  · refine Rel.of_err u_le (by norm_num) ?_
    show |(((1152921504606847 / 2 ^ 60 : ℚ)) : ℝ) - _| ≤ _
    push_cast
    norm_num [abs_le]
  · unfold Bd; norm_num [abs_of_pos]

theorem g_got : Got (1 / 2 ^ 53) 0 4 (g64.q : ℝ) g64 := by
  have e : (g64.q : ℝ) = ((5520653160719109 / 2 ^ 49 : ℚ) : ℝ) := rfl
  rw [e]
  refine got_exact u_le (by norm_num) (by norm_num) (by decide +kernel) ?_
  unfold Bd
  push_cast
  norm_num [abs_of_pos]

theorem num_got {F : ℚ} (h1 : 1 ≤ F) (h2 : F ≤ 2 ^ 7) (h3 : FltTy.f64.rndMag F = some F) : Got (1 / 2 ^ 53) 0 7 (F : ℝ) (.fin false F) := by
  refine got_exact u_le (by norm_num) (by linarith) h3 ?_
  have h1' : (1 : ℝ) ≤ F := by exact_mod_cast h1
  have h2' : (F : ℝ) ≤ 2 ^ 7 := by exact_mod_cast h2
  unfold Bd
  rw [abs_of_pos (by linarith)]
  exact ⟨le_trans (by norm_num) h1', h2'⟩

theorem Bd.ne {j : ℕ} {X : ℝ} (h : Bd j X) : X ≠ 0 := by
  rintro rfl
  have := h.1
  rw [abs_zero] at this
  exact absurd this (not_le.mpr (by positivity))

theorem Bd.sum {j : ℕ} {X Y : ℝ} (h : Bd j X) (h' : Bd j Y) : Bd (j + 1) (|X| + |Y|) := by
  have X0 := abs_nonneg X
  have Y0 := abs_nonneg Y
  unfold Bd
  rw [abs_of_nonneg (by positivity), pow_succ]
  have q : (0 : ℝ) < 2 ^ j := by positivity
  refine ⟨le_trans (one_div_le_one_div_of_le q (by linarith)) (h.1.trans (by linarith)), by linarith [h.2, h'.2]⟩

theorem Got.printed {k j : ℕ} {X Y : ℝ} {y : FVal} {t : QTy} (h : Got (1 / 2 ^ 53) k j X y) (hk : k ≤ 200) (e : X = Y) : Printed98 t (2 * k) |Y| Y ⟨t, .f y⟩ := by
  subst e
  refine ⟨y, rfl, h.finite, (h.err u_le (by norm_num) hk).trans (le_of_eq ?_)⟩
  push_cast
  ring

theorem abs_add_mul (a b c : ℝ) : (|a| + |b|) * |c| = |a * c| + |b * c| := by rw [abs_mul, abs_mul, add_mul]

/-- The level of the contents, in metres. -/
def level98 (l w h ρ m : FVal) : FVal :=
  (((h.mul .f64 milli64).mul .f64 m).mul .f64 g64).div .f64 ((ρ.mul .f64 (((l.mul .f64 milli64).mul .f64 (w.mul .f64 milli64)).mul .f64 (h.mul .f64 milli64))).mul .f64 g64)

/-- The operations of the program. -/
theorem box_run {l w h ρ m t : FVal} (hρ : ρ.Finite) (hd : air64.q < ρ.q) :
    boxMainI pE ⟨mm64Ty, .f l⟩ ⟨mm64Ty, .f w⟩ ⟨mm64Ty, .f h⟩ ⟨boxDens, .f ρ⟩ ⟨boxMass, .f m⟩ ⟨sec64Ty, .f t⟩ = .ok
      ⟨⟨boxLen, .f (level98 l w h ρ m)⟩,
       ⟨percentTy, .f (((level98 l w h ρ m).div .f64 (h.mul .f64 milli64)).mul .f64 (.fin false 100))⟩,
       ⟨boxVol, .f (((h.mul .f64 milli64).sub .f64 (level98 l w h ρ m)).mul .f64 ((l.mul .f64 milli64).mul .f64 (w.mul .f64 milli64)))⟩,
       ⟨flow64Ty, .f (m.div .f64 t)⟩,
       ⟨rise64Ty, .f ((level98 l w h ρ m).div .f64 t)⟩,
       ⟨sec64Ty, .f ((((h.mul .f64 milli64).div .f64 (level98 l w h ρ m)).sub .f64 (.fin false 1)).mul .f64 t)⟩⟩ := by
  have self : ∀ (t : QTy) (x : FVal), convertQtyI pE t ⟨t, .f x⟩ = .ok ⟨t, .f x⟩ := fun t x => convertQtyI_self pE ⟨t, .f x⟩
  have hcast := b_cast h
  have hper : ∀ x : FVal, quantityCastI (compileEst rnd53) ⟨oneTy.dim, unitPercent, oneTy.rep⟩ ⟨oneTy, .f x⟩ = .ok ⟨percentTy, .f (x.mul .f64 (.fin false 100))⟩ := b_percent
  have hcmp := b_cmp hρ
  rw [if_neg (not_lt.mpr hd.le), if_neg (ne_of_gt hd)] at hcmp
  unfold boxMainI
  show (quantityCastI pE.est boxLen ⟨mm64Ty, .f h⟩ >>= _) = _
  simp only [hcast, mkBoxI, BoxI.setContentsDensity, BoxI.fillLevel, BoxI.filledWeight, BoxI.spareCapacity, ok_bind, b_conv, self, b_ll, hcmp, if_true, b_lm, b_lmg, b_al, b_dv,
    b_mg, b_level, b_part, hper, b_sub, b_la, b_flow, b_rise, b_more, b_left, level98]

/-- C98: what is printed for a box of `l` by `w` by `h` millimetres, the density of the contents above that of air: the formulas over the real numbers, within the stated
multiples of `2 ^ -53`; in the two differences, the multiples are of the sum of the magnitudes. -/
theorem C98_box {l w h ρ m t : FVal} (hl : Mid l) (hw : Mid w) (hh : Mid h) (hρ : Mid ρ) (hm : Mid m) (ht : Mid t) (hd : air64.q < ρ.q) :
    ∃ r, boxMainI progEnv ⟨mm64Ty, .f l⟩ ⟨mm64Ty, .f w⟩ ⟨mm64Ty, .f h⟩ ⟨boxDens, .f ρ⟩ ⟨boxMass, .f m⟩ ⟨sec64Ty, .f t⟩ = .ok r ∧
      BoxSpec (l.q / 1000) (w.q / 1000) (h.q / 1000) ρ.q m.q t.q r := by
  have hu := u_le
  have hδ : (1 / 2 ^ 53 : ℝ) ≤ 1 / 400 := by norm_num
  have hδ' : (1 / 2 ^ 53 : ℝ) ≤ 1 / 2 ^ 20 := by norm_num
  have gl := hl.got98.mul hu hδ milli_got (by norm_num) (by norm_num)
  have gw := hw.got98.mul hu hδ milli_got (by norm_num) (by norm_num)
  have gh := hh.got98.mul hu hδ milli_got (by norm_num) (by norm_num)
  have ml : Bd 10 (1 / 1000 : ℝ) := by unfold Bd; norm_num [abs_of_pos]
  have bl := hl.bd.mul ml
  have bw := hw.bd.mul ml
  have bh := hh.bd.mul ml
  have bg : Bd 4 (g64.q : ℝ) := by rcases g_got.size with e | e
                                   · exact absurd e (by show ((5520653160719109 / 2 ^ 49 : ℚ) : ℝ) ≠ 0; push_cast; norm_num)
                                   · exact e
  have l0 := hl.ne
  have w0 := hw.ne
  have h0 := hh.ne
  have ρ0 := hρ.ne
  have m0 := hm.ne
  have t0 := ht.ne
  have g0 : (g64.q : ℝ) ≠ 0 := bg.ne
  have gbase := gl.mul hu hδ gw (by norm_num) (by norm_num)
  have gvol := gbase.mul hu hδ gh (by norm_num) (by norm_num)
  have gmass := hρ.got98.mul hu hδ gvol (by norm_num) (by norm_num)
  have gweight := gmass.mul hu hδ g_got (by norm_num) (by norm_num)
  have bbase := bl.mul bw
  have bweight := (hρ.bd.mul (bbase.mul bh)).mul bg
  have glm := gh.mul hu hδ hm.got98 (by norm_num) (by norm_num)
  have glmg := glm.mul hu hδ g_got (by norm_num) (by norm_num)
  have glevel := glmg.div hu hδ gweight bweight.ne (by norm_num) (by norm_num)
  have blevel := ((bh.mul hm.bd).mul bg).div bweight
  have level0 := blevel.ne
  have gpart := glevel.div hu hδ gh (bh.ne) (by norm_num) (by norm_num)
  have gpercent := gpart.mul hu hδ (num_got (F := 100) (by norm_num) (by norm_num) (by decide +kernel)) (by norm_num) (by norm_num)
  have gflow := hm.got98.div hu hδ ht.got98 t0 (by norm_num) (by norm_num)
  have grise := glevel.div hu hδ ht.got98 t0 (by norm_num) (by norm_num)
  have gwhole := gh.div hu hδ glevel level0 (by norm_num) (by norm_num)
  have bwhole := bh.div blevel
  have h758 := gwhole.size.resolve_left (bwhole.ne)
  have b1 : Bd 758 (1 : ℝ) := by
    unfold Bd
    rw [abs_one]
    exact ⟨(one_div_le_one_div_of_le one_pos (one_le_pow₀ (by norm_num))).trans (by norm_num), one_le_pow₀ (by norm_num)⟩
  have g1 := (num_got (F := 1) (by norm_num) (by norm_num) (by decide +kernel)).weaken hu hδ (k' := 18) (by norm_num) (.inr (by rw [Rat.cast_one]; exact b1))
  rw [Rat.cast_one] at g1
  have smore := gwhole.sub hu hδ hδ' g1 (bwhole.ne) (by norm_num) (by norm_num)
  have sleft := smore.mul hu hδ hδ' ht.got98 (bwhole.sum b1) t0 (by norm_num) (by norm_num) (by norm_num) (by norm_num)
  have bh' := bh.up (show 100 + 10 ≤ 648 by norm_num)
  have sdiff := (gh.weaken hu hδ (k' := 15) (by norm_num) (.inr bh')).sub hu hδ hδ' glevel (bh.ne) (by norm_num) (by norm_num)
  have sspare := sdiff.mul hu hδ hδ' gbase (bh'.sum blevel) (bbase.ne) (by norm_num) (by norm_num) (by norm_num) (by norm_num)
  refine ⟨_, box_run hρ.finite hd, ?_⟩
  · refine ⟨glevel.printed (by norm_num) ?_, gpercent.printed (by norm_num) ?_, ⟨_, rfl, sspare.finite, ?_⟩, gflow.printed (by norm_num) rfl, grise.printed (by norm_num) ?_,
      ⟨_, rfl, sleft.finite, ?_⟩⟩
    · field_simp
    · push_cast; field_simp
    · have e := sspare.err
      rw [sub_mul, abs_add_mul] at e
      have e1 : (h.q : ℝ) * (1 / 1000) * (l.q * (1 / 1000) * (w.q * (1 / 1000))) = l.q / 1000 * (w.q / 1000) * (h.q / 1000) := by ring
      have e2 : (h.q : ℝ) * (1 / 1000) * m.q * g64.q / (ρ.q * (l.q * (1 / 1000) * (w.q * (1 / 1000)) * (h.q * (1 / 1000))) * g64.q) * (l.q * (1 / 1000) * (w.q * (1 / 1000))) = m.q / ρ.q := by
        field_simp
      rw [e1, e2] at e
      refine e.trans (le_of_eq ?_)
      push_cast
      ring
    · field_simp
    · have e := sleft.err
      rw [sub_mul, abs_add_mul, one_mul] at e
      have e1 : (h.q : ℝ) * (1 / 1000) / ((h.q : ℝ) * (1 / 1000) * m.q * g64.q / (ρ.q * (l.q * (1 / 1000) * (w.q * (1 / 1000)) * (h.q * (1 / 1000))) * g64.q)) * t.q
          = t.q * (ρ.q * (l.q / 1000) * (w.q / 1000) * (h.q / 1000) / m.q) := by
        field_simp
      rw [e1] at e
      refine e.trans (le_of_eq ?_)
      push_cast
      ring

/-- C98: a density that is not above that of air is refused. -/
theorem C98_density {l w h ρ m t : FVal} (hρ : ρ.Finite) (hd : ρ.q ≤ air64.q) :
    boxMainI progEnv ⟨mm64Ty, .f l⟩ ⟨mm64Ty, .f w⟩ ⟨mm64Ty, .f h⟩ ⟨boxDens, .f ρ⟩ ⟨boxMass, .f m⟩ ⟨sec64Ty, .f t⟩ = .error .assertion := by
  change boxMainI pE _ _ _ _ _ _ = _
  have self : ∀ (t : QTy) (x : FVal), convertQtyI pE t ⟨t, .f x⟩ = .ok ⟨t, .f x⟩ := fun t x => convertQtyI_self pE ⟨t, .f x⟩
  have hcast := b_cast h
  have hcmp := b_cmp hρ
  have hne : ¬ some (if ρ.q < air64.q then Ordering.lt else if ρ.q = air64.q then .eq else .gt) = some .gt := by
    rcases lt_or_eq_of_le hd with h | h
    · rw [if_pos h]; decide
    · rw [if_neg (by rw [h]; exact lt_irrefl _), if_pos h]; decide
  unfold boxMainI
  show (quantityCastI pE.est boxLen ⟨mm64Ty, .f h⟩ >>= _) = _
  simp only [hcast, mkBoxI, BoxI.setContentsDensity, ok_bind, b_conv, self, b_ll, hcmp, if_neg hne, error_bind]

/-- The inputs of the program: 1000 mm by 500 mm by 200 mm, 1000 kg/m³, 20 kg, 200 s. -/
example : ∃ r, boxMainI progEnv ⟨mm64Ty, .f (.fin false 1000)⟩ ⟨mm64Ty, .f (.fin false 500)⟩ ⟨mm64Ty, .f (.fin false 200)⟩ ⟨boxDens, .f (.fin false 1000)⟩
    ⟨boxMass, .f (.fin false 20)⟩ ⟨sec64Ty, .f (.fin false 200)⟩ = .ok r ∧ BoxSpec (1000 / 1000) (500 / 1000) (200 / 1000) 1000 20 200 r := by
  have mid : ∀ {x : ℚ}, 1 ≤ x → x ≤ 2 ^ 100 → FltTy.f64.rndMag x = some x → Mid (.fin false x) := fun h1 h2 h3 => Mid.of h1 h2 h3
  have := C98_box (mid (x := 1000) (by norm_num) (by norm_num) (by decide +kernel)) (mid (x := 500) (by norm_num) (by norm_num) (by decide +kernel))
    (mid (x := 200) (by norm_num) (by norm_num) (by decide +kernel)) (mid (x := 1000) (by norm_num) (by norm_num) (by decide +kernel))
    (mid (x := 20) (by norm_num) (by norm_num) (by decide +kernel)) (mid (x := 200) (by norm_num) (by norm_num) (by decide +kernel)) (by decide +kernel)
  simpa [FVal.q] using this

/-- Contents of 0.125 kg/m³. -/
example : boxMainI progEnv ⟨mm64Ty, .f (.fin false 1000)⟩ ⟨mm64Ty, .f (.fin false 500)⟩ ⟨mm64Ty, .f (.fin false 200)⟩ ⟨boxDens, .f (.fin false (1 / 8))⟩
    ⟨boxMass, .f (.fin false 20)⟩ ⟨sec64Ty, .f (.fin false 200)⟩ = .error .assertion := C98_density trivial (by decide +kernel)

/-- C98: the box of the program, of 0.1 m³, with 100 kg of water: it is full, and the program finds a volume and a time left and less than 100 %. -/
theorem C98_full_wrong : ∃ level flow rise, boxMainI progEnv ⟨mm64Ty, .f (.fin false 1000)⟩ ⟨mm64Ty, .f (.fin false 500)⟩ ⟨mm64Ty, .f (.fin false 200)⟩
    ⟨boxDens, .f (.fin false 1000)⟩ ⟨boxMass, .f (.fin false 100)⟩ ⟨sec64Ty, .f (.fin false 200)⟩ = .ok
      ⟨level, ⟨percentTy, .f (.fin false (7036874417766399 / 2 ^ 46))⟩, ⟨boxVol, .f (.fin false (1 / 2 ^ 56))⟩, flow, rise, ⟨sec64Ty, .f (.fin false (25 / 2 ^ 49))⟩⟩ := by
  have r := box_run (l := .fin false 1000) (w := .fin false 500) (h := .fin false 200) (ρ := .fin false 1000) (m := .fin false 100) (t := .fin false 200) trivial (by decide +kernel)
  have e1 : ((level98 (.fin false 1000) (.fin false 500) (.fin false 200) (.fin false 1000) (.fin false 100)).div .f64 ((FVal.fin false 200).mul .f64 milli64)).mul .f64 (.fin false 100)
    = .fin false (7036874417766399 / 2 ^ 46) := by decide +kernel
  have e2 : (((FVal.fin false 200).mul .f64 milli64).sub .f64 (level98 (.fin false 1000) (.fin false 500) (.fin false 200) (.fin false 1000) (.fin false 100))).mul .f64
    (((FVal.fin false 1000).mul .f64 milli64).mul .f64 ((FVal.fin false 500).mul .f64 milli64)) = .fin false (1 / 2 ^ 56) := by decide +kernel
  have e3 : ((((FVal.fin false 200).mul .f64 milli64).div .f64 (level98 (.fin false 1000) (.fin false 500) (.fin false 200) (.fin false 1000) (.fin false 100))).sub .f64 (.fin false 1)).mul .f64
    (.fin false 200) = .fin false (25 / 2 ^ 49) := by decide +kernel
  rw [e1, e2, e3] at r
  exact ⟨_, _, _, r⟩

end Verif
