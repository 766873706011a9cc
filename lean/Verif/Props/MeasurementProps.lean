import Verif.Measurement
import Verif.Props.IeeeOpsProps
import Verif.Props.RepOpsProps
import Verif.Props.RepStepProps
import Mathlib.Analysis.Calculus.Deriv.Mul
import Mathlib.Analysis.Calculus.Deriv.Inv
import Mathlib.Analysis.SpecialFunctions.Sqrt

/-!
# C78: quantities of measurements with an uncertainty
-/

set_option linter.unusedTactic false
set_option maxRecDepth 100000

namespace Verif

open FltTy

/-! ### Exact numbers: the uncertainties follow the rule of first order -/

/-- Real numbers. -/
noncomputable def realArith : Arith ℝ where
  add x y := x + y
  sub x y := x - y
  mul x y := x * y
  div x y := x / y
  hypot x y := √(x ^ 2 + y ^ 2)
  neg x := -x
  abs x := |x|

/-- The rule for independent errors: the value is the function of the values, the uncertainty is the root of the sum of the squares of the
uncertainties, each multiplied by the partial derivative. -/
def FirstOrder (f : ℝ → ℝ → ℝ) (a b m : Meas ℝ) : Prop :=
  m.value = f a.value b.value ∧
  m.unc = √((deriv (fun x => f x b.value) a.value * a.unc) ^ 2 + (deriv (fun y => f a.value y) b.value * b.unc) ^ 2)

/-- A number that is known exactly. -/
def exactly (v : ℝ) : Meas ℝ := ⟨v, 0⟩

theorem hypot_scaled {k x y : ℝ} : |k * √(x ^ 2 + y ^ 2)| = √((k * x) ^ 2 + (k * y) ^ 2) := by
  rw [abs_mul, abs_of_nonneg (Real.sqrt_nonneg _), ← Real.sqrt_sq_eq_abs, ← Real.sqrt_mul (sq_nonneg k)]
  congr 1; ring

theorem deriv_mul_right (b x : ℝ) : deriv (fun x => x * b) x = b := by simp
theorem deriv_mul_left (a y : ℝ) : deriv (fun y => a * y) y = a := by simp
theorem deriv_div_left (b x : ℝ) : deriv (fun x => x / b) x = 1 / b := by simp
theorem deriv_div_right (a y : ℝ) : deriv (fun y => a / y) y = -a / y ^ 2 := by
  simp only [div_eq_mul_inv, deriv_const_mul_field, deriv_inv]; ring

/-- C78: over exact numbers the operators of `measurement` follow the rule for independent errors; products and quotients need values other than zero. -/
theorem C78_first_order (a b : Meas ℝ) (k : ℝ) :
    FirstOrder (· + ·) a b (a.add realArith b) ∧ FirstOrder (· - ·) a b (a.sub realArith b) ∧
    (a.value ≠ 0 → b.value ≠ 0 → FirstOrder (· * ·) a b (a.mul realArith b) ∧ FirstOrder (· / ·) a b (a.div realArith b)) ∧
    (a.value ≠ 0 → FirstOrder (· * ·) a (exactly k) (a.scale realArith k) ∧ FirstOrder (· * ·) (exactly k) a (Meas.scaleLeft realArith k a) ∧
      FirstOrder (· / ·) a (exactly k) (a.divNum realArith k) ∧ FirstOrder (· / ·) (exactly k) a (Meas.recip realArith k a)) := by
  obtain ⟨a, s⟩ := a
  obtain ⟨b, t⟩ := b
  refine ⟨⟨rfl, ?_⟩, ⟨rfl, ?_⟩, fun ha hb => ⟨⟨rfl, ?_⟩, ⟨rfl, ?_⟩⟩, fun ha => ⟨⟨rfl, ?_⟩, ⟨mul_comm a k, ?_⟩, ⟨rfl, ?_⟩, ⟨rfl, ?_⟩⟩⟩
  · simp [Meas.add, Meas.make, realArith]
  · simp [Meas.sub, Meas.make, realArith]
  · simp only [Meas.mul, Meas.make, realArith, Meas.rel, deriv_mul_right, deriv_mul_left, hypot_scaled] at ha hb ⊢
    congr 1; field_simp
  · simp only [Meas.div, Meas.make, realArith, Meas.rel, deriv_div_right, deriv_div_left, hypot_scaled] at ha hb ⊢
    congr 1; field_simp
  · simp only [Meas.scale, Meas.make, realArith, Meas.rel, exactly, deriv_mul_right, deriv_mul_left] at ha ⊢
    rw [mul_zero, zero_pow two_ne_zero, add_zero, Real.sqrt_sq_eq_abs]
    congr 1; field_simp
  · simp only [Meas.scaleLeft, Meas.make, realArith, Meas.rel, exactly, deriv_mul_right, deriv_mul_left] at ha ⊢
    rw [mul_zero, zero_pow two_ne_zero, zero_add, Real.sqrt_sq_eq_abs]
    congr 1; field_simp
  · simp only [Meas.divNum, Meas.make, realArith, Meas.rel, exactly, deriv_div_right, deriv_div_left] at ha ⊢
    rw [mul_zero, zero_pow two_ne_zero, add_zero, Real.sqrt_sq_eq_abs]
    congr 1; field_simp
  · simp only [Meas.recip, Meas.make, realArith, Meas.rel, exactly, deriv_div_right, deriv_div_left] at ha ⊢
    rw [mul_zero, zero_pow two_ne_zero, zero_add, Real.sqrt_sq_eq_abs, ← abs_neg]
    congr 1; field_simp

/-- The laws of the operators. -/
theorem C78_laws (a b c : Meas ℝ) :
    a.add realArith b = b.add realArith a ∧ a.mul realArith b = b.mul realArith a ∧
    (a.add realArith b).add realArith c = a.add realArith (b.add realArith c) ∧
    (a.value ≠ 0 → b.value ≠ 0 → c.value ≠ 0 → (a.mul realArith b).mul realArith c = a.mul realArith (b.mul realArith c)) ∧
    a.sub realArith b = a.add realArith (b.neg realArith) := by
  obtain ⟨a, s⟩ := a
  obtain ⟨b, t⟩ := b
  obtain ⟨c, r⟩ := c
  have key : ∀ x y : ℝ, √(x ^ 2 + y ^ 2) ^ 2 = x ^ 2 + y ^ 2 := fun x y => Real.sq_sqrt (by positivity)
  refine ⟨?_, ?_, ?_, fun ha hb hc => ?_, ?_⟩
  · simp only [Meas.add, Meas.make, realArith, add_comm]
  · simp only [Meas.mul, Meas.make, realArith, Meas.rel, mul_comm a b, add_comm]
  · simp only [Meas.add, Meas.make, realArith, add_assoc, sq_abs, key]
  · simp only at ha hb hc
    simp only [Meas.mul, Meas.make, realArith, Meas.rel, Meas.mk.injEq]
    have e1 : ∀ k x y : ℝ, (|k * √(x ^ 2 + y ^ 2)| / k) ^ 2 = if k = 0 then 0 else x ^ 2 + y ^ 2 := by
      intro k x y
      split
      · simp [*]
      · rename_i hk; rw [div_pow, sq_abs, mul_pow, key]; field_simp
    have hab : a * b ≠ 0 := mul_ne_zero ha hb
    have hbc : b * c ≠ 0 := mul_ne_zero hb hc
    rw [e1, e1, if_neg hab, if_neg hbc, add_assoc, mul_assoc]
    exact ⟨rfl, rfl⟩
  · simp only [Meas.add, Meas.sub, Meas.neg, Meas.make, realArith, sq_abs, sub_eq_add_neg]

/-- 9.8 ± 0.1 times 1.2 ± 0.1, and 10 times 123 ± 1 (example/measurement.cpp:131-145). -/
example : ((⟨9.8, 0.1⟩ : Meas ℝ).mul realArith ⟨1.2, 0.1⟩).value = 11.76 ∧ ((⟨9.8, 0.1⟩ : Meas ℝ).mul realArith ⟨1.2, 0.1⟩).unc ^ 2 = 0.9748 ∧
    Meas.scaleLeft realArith 10 ⟨123, 1⟩ = ⟨1230, 10⟩ := by
  have h := ((C78_first_order ⟨9.8, 0.1⟩ ⟨1.2, 0.1⟩ 0).2.2.1 (by norm_num) (by norm_num)).1.2
  simp only [deriv_mul_right, deriv_mul_left] at h
  refine ⟨by norm_num [Meas.mul, Meas.make, realArith], ?_, ?_⟩
  · rw [h, Real.sq_sqrt (by positivity)]; norm_num
  · norm_num [Meas.scaleLeft, Meas.make, realArith, Meas.rel]

/-- The operands count as independent even if they are the same object: the uncertainty of `a - a` is not zero, that of `a * a` is too small. -/
theorem C78_same_object (a : Meas ℝ) (hs : 0 < a.unc) (ha : a.value ≠ 0) :
    (a.sub realArith a).value = 0 ∧ (a.sub realArith a).unc = √2 * a.unc ∧
    (a.mul realArith a).unc = √2 * |a.value| * a.unc ∧ (a.mul realArith a).unc < |deriv (fun x => x * x) a.value| * a.unc := by
  obtain ⟨a, s⟩ := a
  simp only at hs ha
  have e2 : √(s ^ 2 + s ^ 2) = √2 * s := by
    rw [← two_mul, Real.sqrt_mul (by norm_num), Real.sqrt_sq hs.le]
  have hm : ((⟨a, s⟩ : Meas ℝ).mul realArith ⟨a, s⟩).unc = √2 * |a| * s := by
    have h := ((C78_first_order ⟨a, s⟩ ⟨a, s⟩ 0).2.2.1 ha ha).1.2
    simp only [deriv_mul_right, deriv_mul_left] at h
    rw [h, mul_pow, ← mul_add, Real.sqrt_mul (sq_nonneg a), e2, Real.sqrt_sq_eq_abs]; ring
  refine ⟨?_, ?_, hm, ?_⟩
  · simp [Meas.sub, Meas.make, realArith]
  · simp only [Meas.sub, Meas.make, realArith, e2, abs_of_pos (mul_pos (Real.sqrt_pos.2 two_pos) hs)]
  · rw [hm]
    have : deriv (fun x : ℝ => x * x) a = 2 * a := by
      have : (fun x : ℝ => x * x) = fun x => x ^ 2 := by funext x; ring
      rw [this]; simp
    rw [this, abs_mul, abs_two]
    have h2 : √2 < 2 := by rw [Real.sqrt_lt' two_pos]; norm_num
    exact mul_lt_mul_of_pos_right (mul_lt_mul_of_pos_right h2 (abs_pos.2 ha)) hs

/-- C78: every operator gives an uncertainty that is not negative, so the value lies between `lower_bound` and `upper_bound`. -/
theorem C78_bounds (a b : Meas ℝ) (k : ℝ) (m : Meas ℝ)
    (hm : m = a.add realArith b ∨ m = a.sub realArith b ∨ m = a.mul realArith b ∨ m = a.div realArith b ∨ m = a.scale realArith k ∨
      m = Meas.scaleLeft realArith k a ∨ m = a.divNum realArith k ∨ m = Meas.recip realArith k a ∨ m = a.neg realArith) :
    0 ≤ m.unc ∧ m.lower realArith ≤ m.value ∧ m.value ≤ m.upper realArith := by
  have h : 0 ≤ m.unc := by
    rcases hm with rfl | rfl | rfl | rfl | rfl | rfl | rfl | rfl | rfl <;> exact abs_nonneg _
  refine ⟨h, ?_, ?_⟩
  · simp only [Meas.lower, realArith]; linarith
  · simp only [Meas.upper, realArith]; linarith

/-! ### `double`: what becomes of the representation -/

section
variable {hyp : FVal → FVal → FVal}

/-- The factor of a conversion of `double`s. -/
def factor64 (c : Ratio) : FVal := FVal.div .f64 (FVal.mul .f64 (FVal.ofInt .f64 c.num) (fpow10I .f64 c.exp)) (FVal.ofInt .f64 c.den)

/-- C78: `measurement<double>` is a representation type (the assertion of example/measurement.cpp:125); numbers of the ratio are `double`s. -/
theorem C78_representation (A : Arith FVal) : (measOps A).toTypeSys.representation none = true ∧
    (measOps A).toTypeSys.castTraits none none = some (some (.flt .f64), none) ∧ (measOps A).toTypeSys.treatFloating none = true ∧
    (measOps A).toTypeSys.castAccepts none none = true :=
  ⟨rfl, rfl, rfl, rfl⟩

theorem meas_times (A : Arith FVal) (x y : FVal) :
    (measOps A).toTypeSys.times (some (.flt .f64), .num (.f x)) (some (.flt .f64), .num (.f y)) = .ok (some (.flt .f64), .num (.f (x.mul .f64 y))) := rfl

theorem meas_over (A : Arith FVal) (x y : FVal) :
    (measOps A).toTypeSys.over (some (.flt .f64), .num (.f x)) (some (.flt .f64), .num (.f y)) = .ok (some (.flt .f64), .num (.f (x.div .f64 y))) := rfl

theorem meas_as (A : Arith FVal) (x : FVal) :
    (measOps A).toTypeSys.as (some (.flt .f64)) (some (.flt .f64), .num (.f x)) = .ok (some (.flt .f64), .num (.f x)) := rfl

theorem meas_loop_mul (A : Arith FVal) (k : ℕ) (x : FVal) :
    (measOps A).toTypeSys.fpow10LoopG (measOps A).toTypeSys.times (some (.flt .f64)) k (some (.flt .f64), .num (.f x)) =
      .ok (some (.flt .f64), .num (.f (fpow10LoopI (FVal.mul .f64) (FVal.ofInt .f64 10) k x))) := by
  induction k generalizing x with
  | zero => rfl
  | succ k ih => exact ih _

theorem meas_loop_div (A : Arith FVal) (k : ℕ) (x : FVal) :
    (measOps A).toTypeSys.fpow10LoopG (measOps A).toTypeSys.over (some (.flt .f64)) k (some (.flt .f64), .num (.f x)) =
      .ok (some (.flt .f64), .num (.f (fpow10LoopI (FVal.div .f64) (FVal.ofInt .f64 10) k x))) := by
  induction k generalizing x with
  | zero => rfl
  | succ k ih => exact ih _

theorem meas_fpow10 (A : Arith FVal) (e : Int) :
    (measOps A).toTypeSys.fpow10G (some (.flt .f64)) e = .ok (some (.flt .f64), .num (.f (fpow10I .f64 e))) := by
  unfold TypeSys.fpow10G fpow10I
  show (if e = 0 then _ else if e < 0 then _ else _) = _
  split_ifs
  · rfl
  · exact meas_loop_div A _ _
  · exact meas_loop_mul A _ _

theorem meas_cast (A : Arith FVal) (c : Ratio) (m : Meas FVal) :
    (measOps A).toTypeSys.castG none none c (.meas m) = .ok (.meas (m.scale A (factor64 c))) := by
  rw [castG_flt (C78_representation A).2.2.2 (C78_representation A).2.1 (C78_representation A).2.2.1]
  exact ⟨(none, .meas m), rfl, (some (.flt .f64), .num (.f (FVal.ofInt .f64 c.num))), rfl, _, meas_fpow10 A c.exp, _, meas_times A _ _,
    (some (.flt .f64), .num (.f (FVal.ofInt .f64 c.den))), rfl, _, meas_over A _ _, (none, .meas (m.scale A (factor64 c))), rfl, _, rfl, rfl⟩

/-- C78: a conversion of measurements multiplies by the same number as a conversion of `double`s, with the operator of the class. -/
theorem C78_cast (A : Arith FVal) (c : Ratio) : ∃ k : FVal,
    (∀ x, castNumI (.flt .f64) (.flt .f64) c (.f x) = .ok (.f (x.mul .f64 k))) ∧
    ∀ m, (measOps A).toTypeSys.castG none none c (.meas m) = .ok (.meas (m.scale A k)) :=
  ⟨factor64 c, fun _ => rfl, meas_cast A c⟩

/-- C78: the value of the result of a conversion is the result of the conversion of the value. -/
theorem C78_cast_value (E : Env) (hyp : FVal → FVal → FVal) (d d' : Dim) (u u' : MUnit) (m : Meas FVal) (r : QtyG (measOps (ieeeArith hyp)))
    (h : quantityCastG (S := measOps (ieeeArith hyp)) E ⟨d', u', none⟩ ⟨⟨d, u, none⟩, MVal.meas m⟩ = .ok r) :
    ∃ m', r = ⟨⟨d', u', none⟩, MVal.meas m'⟩ ∧
      quantityCastI E.est ⟨d', u', .flt .f64⟩ ⟨⟨d, u, .flt .f64⟩, .f m.value⟩ = .ok ⟨⟨d', u', .flt .f64⟩, .f m'.value⟩ := by
  unfold quantityCastG at h
  simp only [bind_ok] at h
  obtain ⟨eqv, h1, h⟩ := h
  split at h
  swap
  · cases h
  rename_i he
  simp only [bind_ok, Except.ok.injEq] at h
  obtain ⟨c, h2, x, h3, rfl⟩ := h
  obtain ⟨k, hk1, hk2⟩ := C78_cast (ieeeArith hyp) c
  have e : (MVal.meas (m.scale (ieeeArith hyp) k)) = x := Except.ok.inj ((hk2 m).symm.trans h3)
  subst e
  refine ⟨_, rfl, ?_⟩
  unfold quantityCastI
  simp only [bind_ok]
  refine ⟨eqv, h1, ?_⟩
  rw [if_pos he]
  simp only [bind_ok]
  exact ⟨c, h2, _, hk1 _, rfl⟩

/-- C78: the operators of quantities of measurements use those of the class, and the unit of a product or quotient is the product or quotient of the units;
there is no compound assignment. -/
theorem C78_operators (A : Arith FVal) (E : Env) (hE : E.OK) (β : String → ℝ) (hβ : Sizes β) (a b r : QtyG (measOps A)) (x y : Meas FVal)
    (ha : a.ty.rep = none) (hb : b.ty.rep = none) (hx : a.num = MVal.meas x) (hy : b.num = MVal.meas y) (ga : a.ty.Good E) (gb : b.ty.Good E) :
    (mulG E a b = .ok r → r.ty.dim.Good → r.ty.rep = none ∧ r.num = MVal.meas (x.mul A y) ∧ r.ty.size β = a.ty.size β * b.ty.size β) ∧
    (divG E a b = .ok r → r.ty.dim.Good → r.ty.rep = none ∧ r.num = MVal.meas (x.div A y) ∧ r.ty.size β = a.ty.size β / b.ty.size β) ∧
    negG a = .ok ⟨a.ty, MVal.meas (x.neg A)⟩ ∧
    (∀ (v : Rep) (n : FNum) (k : FVal), toDouble v n = .ok k →
      scaleG .mul a (some v, MVal.num n) = .ok ⟨a.ty, MVal.meas (x.scale A k)⟩ ∧ scaleG .div a (some v, MVal.num n) = .ok ⟨a.ty, MVal.meas (x.divNum A k)⟩ ∧
      scaleLeftG (some v, MVal.num n) a = .ok ⟨a.ty, MVal.meas (Meas.scaleLeft A k x)⟩ ∧
      (recipG E (some v, MVal.num n) a = .ok r → r.ty.dim.Good → a.ty.dim.unit.ratio.val * r.ty.dim.unit.ratio.val = 1 →
        r.ty.rep = none ∧ r.num = MVal.meas (Meas.recip A k x) ∧ r.ty.size β = (a.ty.size β)⁻¹)) ∧
    (∀ o, assignG E o a b ≠ .ok r) ∧ ∀ o v, assignNumG o a v = .error .rejected := by
  obtain ⟨⟨da, ua, ra⟩, na⟩ := a
  obtain ⟨⟨db, ub, rb⟩, nb⟩ := b
  simp only at ha hb hx hy
  subst ha hb hx hy
  refine ⟨fun h gr => ?_, fun h gr => ?_, rfl, fun v n k hk => ⟨?_, ?_, ?_, fun h gr hone => ?_⟩, fun o h => ?_, fun o v => ?_⟩
  · obtain ⟨⟨d, u⟩, hd, h⟩ := bind_ok.1 (show (refMultiply E da ua db ub >>= _) = _ from h)
    cases h
    exact ⟨rfl, rfl, (refMultiply_sound hE hβ ga.dim gb.dim gr ga.unit gb.unit hd).2.2⟩
  · obtain ⟨⟨d, u⟩, hd, h⟩ := bind_ok.1 (show (refDivide E da ua db ub >>= _) = _ from h)
    cases h
    exact ⟨rfl, rfl, (refDivide_sound hE hβ ga.dim gb.dim gr ga.unit gb.unit hd).2.2⟩
  · show (do let z ← (do let w ← toDouble v n; Except.ok (MVal.meas (x.scale A w))); Except.ok _) = _
    rw [hk]; rfl
  · show (do let z ← (do let w ← toDouble v n; Except.ok (MVal.meas (x.divNum A w))); Except.ok _) = _
    rw [hk]; rfl
  · show (do let z ← (do let w ← toDouble v n; Except.ok (MVal.meas (Meas.scaleLeft A w x))); Except.ok _) = _
    rw [hk]; rfl
  · obtain ⟨d, hd, h⟩ := bind_ok.1 (show (dimInvert E.dims da >>= _) = _ from h)
    obtain ⟨i, hi, h⟩ := bind_ok.1 h
    obtain ⟨u, hu, h⟩ := bind_ok.1 h
    obtain ⟨z, hz, h⟩ := bind_ok.1 h
    cases h
    have hz' : (do let w ← toDouble v n; Except.ok (MVal.meas (Meas.recip A w x))) = Except.ok z := hz
    rw [hk] at hz'
    cases hz'
    exact ⟨rfl, rfl, recip_size hE hβ (t := QTyG.under (S := measOps A) ⟨da, ua, none⟩) ga gr hd hi hu hone⟩
  · unfold assignG at h
    obtain ⟨r', -, h⟩ := bind_ok.1 h
    rw [if_pos] at h
    · cases h
    · cases o <;> simp
  · unfold assignNumG
    rw [if_pos]
    cases o <;> simp

/-- What the C standard says of `hypot` (F.10.4.3): the result of an infinity or a NaN is an infinity or a NaN. -/
def HypotSpecial (hyp : FVal → FVal → FVal) : Prop := ∀ x y : FVal, ¬x.Finite ∨ ¬y.Finite → ¬(hyp x y).Finite

theorem zero_mul_special {s : Bool} {y : FVal} (h : ¬y.Finite) : FVal.mul .f64 (.fin s 0) y = .nan := by
  cases y with
  | fin t b => exact absurd trivial h
  | inf t => simp [FVal.mul]
  | nan => rfl

theorem zero_mul_fin {s : Bool} {y : FVal} (h : y.Finite) : ∃ t, FVal.mul .f64 (.fin s 0) y = .fin t 0 := by
  cases y with
  | fin t b => exact ⟨s != t, by simp [FVal.mul, FVal.round, rndMag_zero]⟩
  | inf t => cases h
  | nan => cases h

theorem mul_zero_fin {s : Bool} {y : FVal} (h : y.Finite) : ∃ t, FVal.mul .f64 y (.fin s 0) = .fin t 0 := by
  rw [FVal.mul_comm]; exact zero_mul_fin h

theorem zero_div_fin {s : Bool} {y : FVal} (h : y.Finite) (h0 : y.q ≠ 0) : ∃ t, FVal.div .f64 (.fin s 0) y = .fin t 0 := by
  cases y with
  | fin t b =>
    have hb : b ≠ 0 := by rintro rfl; apply h0; cases t <;> simp [FVal.q]
    exact ⟨s != t, by simp [FVal.div, hb, FVal.round, rndMag_zero]⟩
  | inf t => cases h
  | nan => cases h

theorem div_zero_special {s : Bool} (x : FVal) : ¬(FVal.div .f64 x (.fin s 0)).Finite := by
  cases x with
  | fin t b => simp only [FVal.div, if_true]; split <;> simp [FVal.Finite]
  | inf t => simp [FVal.div, FVal.Finite]
  | nan => simp [FVal.div, FVal.Finite]

/-- C78, finding: multiplying or dividing a measurement whose value is zero gives a NaN for the uncertainty, whatever the uncertainty was. -/
theorem C78_zero (hyp : FVal → FVal → FVal) (hh : HypotSpecial hyp) (s : Bool) (e : FVal) (b : Meas FVal) (hb : b.value.Finite) (k : FVal) (hk : k.Finite) :
    let A := ieeeArith hyp
    let m : Meas FVal := ⟨.fin s 0, e⟩
    (m.scale A k).unc = .nan ∧ (Meas.scaleLeft A k m).unc = .nan ∧ (m.mul A b).unc = .nan ∧ (b.mul A m).unc = .nan ∧
    (k.q ≠ 0 → (m.divNum A k).unc = .nan) ∧ (b.value.q ≠ 0 → (m.div A b).unc = .nan) := by
  intro A m
  have hr : ¬(m.rel A).Finite := div_zero_special e
  have h1 : ∀ x : FVal, (∃ t, x = .fin t 0) → ∀ y : FVal, ¬y.Finite → (Meas.make A x (A.mul x y)).unc = .nan := by
    rintro x ⟨t, rfl⟩ y hy
    show FVal.abs (FVal.mul .f64 (.fin t 0) y) = .nan
    rw [zero_mul_special hy]; rfl
  exact ⟨h1 _ (zero_mul_fin hk) _ hr, h1 _ (zero_mul_fin hk) _ hr, h1 _ (zero_mul_fin hb) _ (hh _ _ (.inl hr)), h1 _ (mul_zero_fin hb) _ (hh _ _ (.inr hr)),
    fun h => h1 _ (zero_div_fin hk h) _ hr, fun h => h1 _ (zero_div_fin hb h) _ (hh _ _ (.inl hr))⟩

/-- C78, finding: so does a conversion to another unit, wherever a conversion of the number zero gives zero. -/
theorem C78_zero_cast (hyp : FVal → FVal → FVal) (c : Ratio) (s t : Bool) (e : FVal)
    (hc : castNumI (.flt .f64) (.flt .f64) c (.f (.fin s 0)) = .ok (.f (.fin t 0))) :
    (measOps (ieeeArith hyp)).toTypeSys.castG none none c (.meas ⟨.fin s 0, e⟩) = .ok (.meas ⟨.fin t 0, .nan⟩) := by
  obtain ⟨k, h1, h2⟩ := C78_cast (ieeeArith hyp) c
  rw [h1] at hc
  have hm : FVal.mul .f64 (.fin s 0) k = .fin t 0 := by injection hc with hc; injection hc
  rw [h2]
  have : (⟨.fin s 0, e⟩ : Meas FVal).scale (ieeeArith hyp) k = ⟨.fin t 0, .nan⟩ := by
    show Meas.mk (FVal.mul .f64 (.fin s 0) k) (FVal.abs (FVal.mul .f64 (FVal.mul .f64 (.fin s 0) k) (FVal.div .f64 e (.fin s 0)))) = _
    rw [hm, zero_mul_special (div_zero_special e)]; rfl
  rw [this]

/-- C78: a conversion of a measurement other than zero multiplies the value and the uncertainty by the ratio, up to a few roundings.  Partial: zero is
excluded, see `C78_zero_cast`; the numbers and the relative uncertainty lie within the range of `double`, and the factor is computed there, as for C69. -/
theorem C78_cast_uncertainty_partial (A : FVal → FVal → FVal) (c : Ratio) (hc : c.WF) (hs : SafeRatio .f64 c) (s : Bool) (a b : ℚ) (ha : 0 < a)
    (h1 : InRange .f64 (a * c.val)) (h2 : InRange .f64 (b / a)) (h3 : InRange .f64 (b * c.val)) :
    ∃ a' b', (measOps (ieeeArith A)).toTypeSys.castG none none c (.meas ⟨.fin s a, .fin false b⟩) = .ok (.meas ⟨.fin s a', .fin false b'⟩) ∧
      |a' - a * c.val| ≤ gammaErr .f64 (c.exp.natAbs + 4) * (a * c.val) ∧ |b' - b * c.val| ≤ gammaErr .f64 (c.exp.natAbs + 6) * (b * c.val) := by
  have u0 := FltTy.f64.u_pos.le
  have u1 := FltTy.f64.u_lt_one
  obtain ⟨F, F0, hF, nF⟩ := factor_near hc hs
  have hb := exp_bound hs.pow
  obtain ⟨a', ea, na⟩ := rndMag_near (f := .f64) (by omega) (by omega) h1 ((Near.refl' (u := FltTy.f64.u) a).mul u0 u1 nF)
  obtain ⟨r, er, nr⟩ := rndMag_near (f := .f64) (k := 0) (j := 0) (by omega) (by omega) h2 (Near.refl' (u := FltTy.f64.u) (b / a))
  have n3 := na.mul u0 u1 nr
  rw [show a * c.val * (b / a) = b * c.val by field_simp] at n3
  obtain ⟨b', eb, nb⟩ := rndMag_near (f := .f64) (by omega) (by omega) h3 n3
  have b0 : (0 : ℚ) ≤ b * c.val := (two_zpow_pos _).le.trans h3.1
  have a0 : (0 : ℚ) ≤ a * c.val := (two_zpow_pos _).le.trans h1.1
  refine ⟨a', b', ?_, ?_, ?_⟩
  · rw [meas_cast, show factor64 c = .fin false F from hF]
    have hv : FVal.mul .f64 (.fin s a) (.fin false F) = .fin s a' := by
      show FVal.round .f64 (s != false) (a * F) = _
      unfold FVal.round; rw [ea]; simp
    have hrel : FVal.div .f64 (.fin false b) (.fin s a) = .fin s r := by
      show (if a = 0 then _ else FVal.round .f64 (false != s) (b / a)) = _
      rw [if_neg ha.ne']; unfold FVal.round; rw [er]; cases s <;> rfl
    have hu : FVal.mul .f64 (.fin s a') (.fin s r) = .fin false b' := by
      show FVal.round .f64 (s != s) (a' * r) = _
      unfold FVal.round; rw [eb]; cases s <;> rfl
    show Except.ok (MVal.meas ⟨FVal.mul .f64 (.fin s a) (.fin false F),
      FVal.abs (FVal.mul .f64 (FVal.mul .f64 (.fin s a) (.fin false F)) (FVal.div .f64 (.fin false b) (.fin s a)))⟩) = _
    rw [hv, hrel, hu]; rfl
  · exact Near.err (by omega) a0 (na.weaken u0 u1 (by omega) (by omega))
  · exact Near.err (by omega) b0 (nb.weaken u0 u1 (by omega) (by omega))

/-- A simple `hypot`, for the examples. -/
def plainHypot (x y : FVal) : FVal := FVal.sqrt .f64 (FVal.add .f64 (FVal.mul .f64 x x) (FVal.mul .f64 y y))

theorem plainHypot_special : HypotSpecial plainHypot := by
  have hm : ∀ x : FVal, ¬x.Finite → ¬(FVal.mul .f64 x x).Finite := by
    intro x hx; cases x <;> simp_all [FVal.mul, FVal.Finite]
  have ha : ∀ x y : FVal, ¬x.Finite ∨ ¬y.Finite → ¬(FVal.add .f64 x y).Finite := by
    intro x y h
    cases x <;> cases y <;> simp_all only [FVal.add, FVal.Finite, not_true_eq_false, or_self, not_false_eq_true]
    split
    · rename_i h; split at h <;> cases h
    · simp
  have hs : ∀ x : FVal, ¬x.Finite → ¬(FVal.sqrt .f64 x).Finite := by
    intro x hx
    cases x <;> simp_all only [FVal.sqrt, FVal.Finite, not_true_eq_false, not_false_eq_true]
    split
    · rename_i h; split at h <;> cases h
    · simp
  intro x y h
  exact hs _ (ha _ _ (h.imp (hm x) (hm y)))

/-- 1.5 ± 0.25 km in centimetres. -/
example : ∃ a' b', (measOps (ieeeArith plainHypot)).toTypeSys.castG none none ⟨1, 1, 5⟩ (.meas ⟨.fin true (3 / 2), .fin false (1 / 4)⟩) =
      .ok (.meas ⟨.fin true a', .fin false b'⟩) ∧ |a' - 150000| ≤ gammaErr .f64 9 * 150000 ∧ |b' - 25000| ≤ gammaErr .f64 11 * 25000 := by
  have hr : ∀ x : ℚ, 1 / 8 ≤ x → x ≤ 1000000 → InRange .f64 x := by
    intro x h1 h2
    have e1 : (2 : ℚ) ^ (FltTy.f64.emin + 1) ≤ 2 ^ (-3 : ℤ) := two_zpow_le (by decide)
    have e2 : (2 : ℚ) ^ (20 : ℤ) ≤ 2 ^ (FltTy.f64.emax - 1) := two_zpow_le (by decide)
    norm_num at e1 e2
    exact ⟨by norm_num; linarith, by norm_num; linarith⟩
  have hv : (⟨1, 1, 5⟩ : Ratio).val = 100000 := by norm_num [Ratio.val]
  have := C78_cast_uncertainty_partial plainHypot ⟨1, 1, 5⟩ ⟨by decide, by decide, by decide, by decide, by decide, by decide, by decide, by decide⟩
    ⟨by decide, hr _ (by norm_num) (by norm_num), hr _ (by norm_num) (by norm_num), by rw [hv]; exact hr _ (by norm_num) (by norm_num)⟩ true (3 / 2) (1 / 4)
    (by norm_num) (by rw [hv]; exact hr _ (by norm_num) (by norm_num)) (hr _ (by norm_num) (by norm_num)) (by rw [hv]; exact hr _ (by norm_num) (by norm_num))
  rw [hv] at this
  norm_num at this ⊢
  exact this

/-- A measurement with a NaN for its uncertainty is not equal to itself. -/
theorem C78_nan_unequal (v : FVal) (b : Meas FVal) : (⟨v, .nan⟩ : Meas FVal).eqv b = false ∧ b.eqv ⟨v, .nan⟩ = false := by
  have h : ∀ x : FVal, x.cmp .nan = none := by intro x; cases x <;> rfl
  have h' : ∀ x : FVal, FVal.cmp .nan x = none := by intro x; cases x <;> rfl
  constructor
  · simp [Meas.eqv, h']
  · simp [Meas.eqv, h]

/-- C78: measurements are compared by their values; only where those are equal, by their uncertainties. -/
theorem C78_order (a b : Meas FVal) : (a.value.cmp b.value ≠ some .eq → a.cmp b = a.value.cmp b.value) ∧
    (a.value.cmp b.value = some .eq → a.cmp b = a.unc.cmp b.unc) ∧ (a.eqv b = true ↔ a.cmp b = some .eq) := by
  unfold Meas.cmp Meas.eqv
  rcases a.value.cmp b.value with _ | _ | _ | _ <;> simp

/-- `measurement<double>` with this `hypot`. -/
abbrev exMeas : OpSys := measOps (ieeeArith plainHypot)

/-- Kilometres and centimetres of measurements. -/
def exKmM : QTyG exMeas := ⟨(exKms (.int .i64)).dim, (exKms (.int .i64)).unit, none⟩
def exCmM : QTyG exMeas := ⟨(exCms (.int .i64)).dim, (exCms (.int .i64)).unit, none⟩

def exMeasOf (x : C (QtyG exMeas)) : Except UB MVal := x.map QtyG.num

/-- 4 ± 3 km times 10; 4 ± 2 km and 5 cm; 4 ± 3 km times 2 cm; 4 ± 3 km less 1 ± 4 km; 8 divided by 4 ± 2 km. -/
example : exMeasOf (scaleLeftG (some (.int .i32), MVal.num (.i 10)) ⟨exKmM, .meas ⟨.fin false 4, .fin false 3⟩⟩) =
      .ok (.meas ⟨.fin false 40, .fin false 30⟩) ∧
    exMeasOf (addSubG exEnv .add ⟨exKmM, .meas ⟨.fin false 4, .fin false 2⟩⟩ ⟨exCmM, .meas ⟨.fin false 5, .fin false 0⟩⟩) =
      .ok (.meas ⟨.fin false 400005, .fin false 200000⟩) ∧
    exMeasOf (mulG exEnv ⟨exKmM, .meas ⟨.fin false 4, .fin false 3⟩⟩ ⟨exCmM, .meas ⟨.fin false 2, .fin false 0⟩⟩) =
      .ok (.meas ⟨.fin false 8, .fin false 6⟩) ∧
    exMeasOf (addSubG exEnv .sub ⟨exKmM, .meas ⟨.fin false 4, .fin false 3⟩⟩ ⟨exKmM, .meas ⟨.fin false 1, .fin false 4⟩⟩) =
      .ok (.meas ⟨.fin false 3, .fin false 5⟩) ∧
    exMeasOf (recipG exEnv (some (.int .i32), MVal.num (.i 8)) ⟨exKmM, .meas ⟨.fin false 4, .fin false 2⟩⟩) =
      .ok (.meas ⟨.fin false 2, .fin false 1⟩) := by decide +kernel

/-- 0 ± 1 km in centimetres: the uncertainty is lost, and the result is equal to nothing, not even to itself. -/
theorem C78_zero_witness : ∃ q r : QtyG exMeas, q.num = .meas ⟨.fin false 0, .fin false 1⟩ ∧ quantityCastG exEnv exCmM q = .ok r ∧
    r.num = .meas ⟨.fin false 0, .nan⟩ ∧ eqG exEnv r r = .ok false ∧ eqG exEnv q r = .ok false := by
  have h : exMeasOf (quantityCastG exEnv exCmM ⟨exKmM, .meas ⟨.fin false 0, .fin false 1⟩⟩) = .ok (.meas ⟨.fin false 0, .nan⟩) := by decide +kernel
  cases e : quantityCastG exEnv exCmM (⟨exKmM, .meas ⟨.fin false 0, .fin false 1⟩⟩ : QtyG exMeas) with
  | error x => rw [e] at h; cases h
  | ok r =>
    obtain ⟨m, rfl, -⟩ := C78_cast_value exEnv plainHypot _ _ _ _ _ _ e
    rw [e] at h
    cases h
    exact ⟨_, _, rfl, e, rfl, by decide +kernel, by decide +kernel⟩

end

end Verif
