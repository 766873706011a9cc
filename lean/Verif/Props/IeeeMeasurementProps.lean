import Verif.IeeeMeasurement
import Verif.Props.IeeeCapacitorProps
import Verif.Props.MeasurementProps

/-!
# C99: measurements with an uncertainty in IEEE floating point

The operators of `measurement<double>` and the program of example/measurement.cpp against the rule for independent errors over the real numbers.
-/

namespace Verif

open FltTy

set_option maxRecDepth 100000
set_option linter.unusedTactic false

/-! ### Specification -/

/-- `std::hypot` has relative error at most `δ`, and is zero for two zeros. -/
def HypotSpec (hyp : FVal → FVal → FVal) (δ : ℝ) : Prop :=
  ∀ x y : FVal, x.Finite → x.In .f64 → y.Finite → y.In .f64 → (x.q = 0 ∨ Bd 450 (x.q : ℝ)) → (y.q = 0 ∨ Bd 450 (y.q : ℝ)) →
    RelErr δ .f64 √((x.q : ℝ) ^ 2 + (y.q : ℝ) ^ 2) (hyp x y)

/-- A measurement with a value of moderate size; the uncertainty may be zero. -/
structure MMid (m : Meas FVal) : Prop where
  value : Mid m.value
  unc : MidZero m.unc

/-- A measurement as a pair of real numbers. -/
def Meas.real (m : Meas FVal) : Meas ℝ := ⟨m.value.q, m.unc.q⟩

/-- The value and the uncertainty are those of `r`, with relative errors of at most `n δ` and `k δ`. -/
def MClose (δ : ℝ) (n k : ℕ) (r : Meas ℝ) (m : Meas FVal) : Prop :=
  m.value.Finite ∧ m.unc.Finite ∧ |(m.value.q : ℝ) - r.value| ≤ n * δ * |r.value| ∧ |(m.unc.q : ℝ) - r.unc| ≤ k * δ * r.unc

/-! ### Proof -/

section
set_option linter.unusedSectionVars false
variable {δ : ℝ} (hu : ((FltTy.f64.u : ℚ) : ℝ) ≤ δ) (hδ : δ ≤ 1 / 400)
include hu hδ

theorem Got.abs {k j : ℕ} {X : ℝ} {x : FVal} (h : Got δ k j X x) : Got δ k j |X| x.abs := by
  have p := got_pos hu hδ
  obtain ⟨t, e, l, r⟩ := h.rel
  have t0 : 0 < t := lt_of_lt_of_le (pow_pos (by linarith) _) l
  have f := h.finite
  have w := h.within
  cases x with
  | inf s => exact f.elim
  | nan => exact f.elim
  | fin s m =>
    have q : (((FVal.fin s m).abs.q : ℚ) : ℝ) = |(((FVal.fin s m).q : ℚ) : ℝ)| := by
      rw [← Rat.cast_abs]
      congr 1
      have m0 : 0 ≤ m := w.1
      cases s
      · exact (abs_of_nonneg m0).symm
      · show m = |-m|
        rw [abs_neg, abs_of_nonneg m0]
    refine ⟨trivial, w, ⟨t, ?_, l, r⟩, h.size.imp (fun h => by rw [h, abs_zero]) fun h => ?_⟩
    · rw [q, e, abs_mul, abs_of_pos t0]
    · unfold Bd at h ⊢; rwa [abs_abs]

theorem Got.hypot {hyp : FVal → FVal → FVal} (hh : HypotSpec hyp δ) {k j : ℕ} {X Y : ℝ} {x y : FVal} (hx : Got δ k j X x) (hy : Got δ k j Y y) (hk : k ≤ 90) (hj : j ≤ 400) :
    Got δ (k + 1) (j + 1) √(X ^ 2 + Y ^ 2) (hyp x y) := by
  have p := got_pos hu hδ
  have n : ∀ {Z : ℝ} {z : FVal}, Got δ k j Z z → z.q = 0 ∨ Bd 450 (z.q : ℝ) := fun h => (h.num hu hδ (by omega)).imp_right fun h => h.up (by omega)
  obtain ⟨f, i, e⟩ := hh x y hx.finite hx.within hy.finite hy.within (n hx) (n hy)
  have sq : ∀ {Z : ℝ} {z : FVal}, Got δ k j Z z → Rel δ (2 * k) (Z ^ 2) ((z.q : ℝ) ^ 2) := fun h => by
    have m := h.rel.mul p.le (by linarith) h.rel
    rwa [← _root_.sq, ← _root_.sq, ← two_mul] at m
  have r := ((sq hx).add p.le (by linarith) (sq hy) (by positivity)).sqrt hu hδ (by positivity)
  refine ⟨f, i, r.trans p.le (by linarith) (Rel.of_err hu hδ e), ?_⟩
  have s0 := Real.sqrt_nonneg (X ^ 2 + Y ^ 2)
  have up : √(X ^ 2 + Y ^ 2) ≤ |X| + |Y| := by
    rw [Real.sqrt_le_left (by positivity)]
    nlinarith [sq_abs X, sq_abs Y, mul_nonneg (abs_nonneg X) (abs_nonneg Y)]
  have lx : |X| ≤ √(X ^ 2 + Y ^ 2) := Real.abs_le_sqrt (by nlinarith [sq_nonneg Y])
  have ly : |Y| ≤ √(X ^ 2 + Y ^ 2) := Real.abs_le_sqrt (by nlinarith [sq_nonneg X])
  have q : (0 : ℝ) < 2 ^ j := by positivity
  have dn : (1 : ℝ) / 2 ^ (j + 1) ≤ 1 / 2 ^ j := one_div_le_one_div_of_le q (by rw [pow_succ]; linarith)
  have dd : (2 : ℝ) ^ (j + 1) = 2 ^ j + 2 ^ j := by rw [pow_succ]; ring
  unfold Bd
  rw [abs_of_nonneg s0]
  have top : ∀ {Z : ℝ}, (Z = 0 ∨ Bd j Z) → |Z| ≤ 2 ^ j := fun h => by
    rcases h with rfl | h
    · rw [abs_zero]; exact q.le
    · exact h.2
  have tx := top hx.size
  have ty := top hy.size
  rcases hx.size with hX | a
  · rcases hy.size with hY | b
    · left; rw [hX, hY]; simp
    · right; exact ⟨dn.trans (b.1.trans ly), by linarith⟩
  · right; exact ⟨dn.trans (a.1.trans lx), by linarith⟩

omit hu hδ in
theorem FirstOrder.unique {f : ℝ → ℝ → ℝ} {a b m m' : Meas ℝ} (h : FirstOrder f a b m) (h' : FirstOrder f a b m') : m = m' := by
  cases m; cases m'
  obtain ⟨h1, h2⟩ := h
  obtain ⟨h3, h4⟩ := h'
  simp only at h1 h2 h3 h4
  rw [h1, h2, h3, h4]

theorem close_of {k n j i : ℕ} {V U : ℝ} {m : Meas FVal} (hv : Got δ k j V m.value) (hs : Got δ n i U m.unc) (hk : k ≤ 200) (hn : n ≤ 200) (U0 : 0 ≤ U) : MClose δ (2 * k) (2 * n) ⟨V, U⟩ m := by
  have e1 := hv.err hu hδ hk
  have e2 := hs.err hu hδ hn
  rw [abs_of_nonneg U0] at e2
  refine ⟨hv.finite, hs.finite, ?_, ?_⟩ <;> push_cast <;> assumption

theorem mid_got {x : FVal} (h : Mid x) : Got δ 0 100 (x.q : ℝ) x := MidZero.got hu hδ ⟨h.finite, h.within, .inr ⟨h.lower, h.upper⟩⟩

omit hu hδ in
theorem mid_ne {x : FVal} (h : Mid x) : (x.q : ℝ) ≠ 0 := by
  intro e
  have := h.bd.1
  rw [e, abs_zero] at this
  norm_num at this

variable {hyp : FVal → FVal → FVal} (hh : HypotSpec hyp δ)
include hh

/-- C99: products and quotients of measurements, with relative errors of at most `2 δ` in the value and `8 δ` in the uncertainty. -/
theorem C99_products {a b : Meas FVal} (ha : MMid a) (hb : MMid b) (r : Meas ℝ) :
    (FirstOrder (· * ·) a.real b.real r → MClose δ 2 8 r (a.mul (ieeeArith hyp) b)) ∧ (FirstOrder (· / ·) a.real b.real r → MClose δ 2 8 r (a.div (ieeeArith hyp) b)) := by
  have av := mid_got hu hδ ha.value
  have bv := mid_got hu hδ hb.value
  have a0 := mid_ne ha.value
  have b0 := mid_ne hb.value
  have ra := (ha.unc.got hu hδ).div hu hδ av a0 (by norm_num) (by norm_num)
  have rb := (hb.unc.got hu hδ).div hu hδ bv b0 (by norm_num) (by norm_num)
  have h := Got.hypot hu hδ hh ra rb (by norm_num) (by norm_num)
  obtain ⟨f1, f2⟩ := (C78_first_order a.real b.real 0).2.2.1 a0 b0
  constructor
  · intro hr
    rw [hr.unique f1]
    have v := av.mul hu hδ bv (by norm_num) (by norm_num)
    exact close_of hu hδ (m := a.mul (ieeeArith hyp) b) v ((v.mul hu hδ h (by norm_num) (by norm_num)).abs hu hδ) (by norm_num) (by norm_num) (abs_nonneg _)
  · intro hr
    rw [hr.unique f2]
    have v := av.div hu hδ bv b0 (by norm_num) (by norm_num)
    exact close_of hu hδ (m := a.div (ieeeArith hyp) b) v ((v.mul hu hδ h (by norm_num) (by norm_num)).abs hu hδ) (by norm_num) (by norm_num) (abs_nonneg _)

omit hh in
/-- C99: products and quotients with a number, with relative errors of at most `2 δ` in the value and `6 δ` in the uncertainty. -/
theorem C99_numbers {a : Meas FVal} {k : FVal} (ha : MMid a) (hk : Mid k) (r : Meas ℝ) :
    (FirstOrder (· * ·) a.real (exactly k.q) r → MClose δ 2 6 r (a.scale (ieeeArith hyp) k)) ∧
    (FirstOrder (· * ·) (exactly k.q) a.real r → MClose δ 2 6 r (Meas.scaleLeft (ieeeArith hyp) k a)) ∧
    (FirstOrder (· / ·) a.real (exactly k.q) r → MClose δ 2 6 r (a.divNum (ieeeArith hyp) k)) ∧
    (FirstOrder (· / ·) (exactly k.q) a.real r → MClose δ 2 6 r (Meas.recip (ieeeArith hyp) k a)) := by
  have av := mid_got hu hδ ha.value
  have kv := mid_got hu hδ hk
  have a0 := mid_ne ha.value
  have k0 := mid_ne hk
  have ra := (ha.unc.got hu hδ).div hu hδ av a0 (by norm_num) (by norm_num)
  obtain ⟨f1, f2, f3, f4⟩ := (C78_first_order a.real a.real k.q).2.2.2 a0
  refine ⟨fun hr => ?_, fun hr => ?_, fun hr => ?_, fun hr => ?_⟩
  · rw [hr.unique f1]
    have v := av.mul hu hδ kv (by norm_num) (by norm_num)
    exact close_of hu hδ (m := a.scale (ieeeArith hyp) k) v ((v.mul hu hδ ra (by norm_num) (by norm_num)).abs hu hδ) (by norm_num) (by norm_num) (abs_nonneg _)
  · rw [hr.unique f2]
    have v := av.mul hu hδ kv (by norm_num) (by norm_num)
    exact close_of hu hδ (m := Meas.scaleLeft (ieeeArith hyp) k a) v ((v.mul hu hδ ra (by norm_num) (by norm_num)).abs hu hδ) (by norm_num) (by norm_num) (abs_nonneg _)
  · rw [hr.unique f3]
    have v := av.div hu hδ kv k0 (by norm_num) (by norm_num)
    exact close_of hu hδ (m := a.divNum (ieeeArith hyp) k) v ((v.mul hu hδ ra (by norm_num) (by norm_num)).abs hu hδ) (by norm_num) (by norm_num) (abs_nonneg _)
  · rw [hr.unique f4]
    have v := kv.div hu hδ av a0 (by norm_num) (by norm_num)
    exact close_of hu hδ (m := Meas.recip (ieeeArith hyp) k a) v ((v.mul hu hδ ra (by norm_num) (by norm_num)).abs hu hδ) (by norm_num) (by norm_num) (abs_nonneg _)

/-- C99: sums and differences, with relative errors of at most `δ` in the value, also where it cancels, and `2 δ` in the uncertainty; the values may be zero. -/
theorem C99_sums {a b : Meas FVal} (ha : MidZero a.value) (hb : MidZero b.value) (sa : MidZero a.unc) (sb : MidZero b.unc) (r : Meas ℝ) :
    (FirstOrder (· + ·) a.real b.real r → MClose δ 1 2 r (a.add (ieeeArith hyp) b)) ∧ (FirstOrder (· - ·) a.real b.real r → MClose δ 1 2 r (a.sub (ieeeArith hyp) b)) := by
  have h := (Got.hypot hu hδ hh (sa.got hu hδ) (sb.got hu hδ) (by norm_num) (by norm_num)).abs hu hδ
  obtain ⟨f1, f2, -⟩ := C78_first_order a.real b.real 0
  have top : ∀ {x : FVal}, MidZero x → |x.q| ≤ 2 ^ 100 := fun {x} h => by
    rcases h.size with e | e
    · rw [e, abs_zero]; positivity
    · exact e.2
  have big : (2 : ℚ) ^ 100 + 2 ^ 100 ≤ 2 ^ (FltTy.f64.emax - 1) := by
    rw [show FltTy.f64.emax - 1 = ((1023 : ℕ) : Int) by decide, zpow_natCast]
    calc (2 : ℚ) ^ 100 + 2 ^ 100 = 2 ^ 101 := by norm_num
      _ ≤ 2 ^ 1023 := pow_le_pow_right₀ (by norm_num) (by norm_num)
  have val : ∀ {y : FVal}, MidZero y → (a.value.add .f64 y).Finite ∧ |((a.value.add .f64 y).q : ℝ) - (a.value.q + y.q)| ≤ δ * |(a.value.q : ℝ) + y.q| := fun {y} hy => by
    obtain ⟨g1, -, g3⟩ := add_rel (f := .f64) ha.within hy.within ha.finite hy.finite ((abs_add_le _ _).trans ((add_le_add (top ha) (top hy)).trans big))
    refine ⟨g1, ?_⟩
    have e := (Rat.cast_le (K := ℝ)).mpr g3
    push_cast at e
    exact e.trans (mul_le_mul_of_nonneg_right hu (abs_nonneg _))
  have un := h.err hu hδ (by norm_num)
  rw [abs_abs, show 2 * ((0 + 1 : ℕ) : ℝ) = (2 : ℕ) by norm_num] at un
  constructor
  · intro hr
    rw [hr.unique f1]
    obtain ⟨v1, v2⟩ := val hb
    refine ⟨v1, h.finite, ?_, un⟩
    rw [Nat.cast_one, one_mul]
    exact v2
  · intro hr
    rw [hr.unique f2]
    have nb : MidZero b.value.neg := ⟨hb.finite.neg, hb.within.neg, by rw [FVal.neg_q, abs_neg, neg_eq_zero]; exact hb.size⟩
    obtain ⟨v1, v2⟩ := val nb
    rw [FVal.neg_q, Rat.cast_neg, ← sub_eq_add_neg] at v2
    refine ⟨v1, h.finite, ?_, un⟩
    rw [Nat.cast_one, one_mul]
    exact v2

/-! ### The program -/

omit hu hδ hh in
theorem kmh_factor : factor64 ⟨36, 1, -1⟩ = .fin false (8106479329266893 / 2 ^ 51) := by decide +kernel

omit hu hδ hh in
theorem meas_run (A : Arith FVal) (a t l : Meas FVal) :
    measMain pE A ⟨measTy A (.named siAcceleration) siAcceleration.coherent, .meas a⟩ ⟨measTy A (.base siTime) siSecond, .meas t⟩ ⟨measTy A (.base siLength) siMetre, .meas l⟩ = .ok
      (⟨measTy A (.named siSpeed) siMps, .meas (a.mul A t)⟩, ⟨measTy A (.named siSpeed) siKmh, .meas ((a.mul A t).scale A (.fin false (8106479329266893 / 2 ^ 51)))⟩,
        ⟨measTy A (.base siLength) siMetre, .meas (Meas.scaleLeft A (.fin false 10) l)⟩) := by
  have h1 : refMultiply pE (.named siAcceleration) siAcceleration.coherent (.base siTime) siSecond = .ok (.named siSpeed, siMps) := by decide +kernel
  have h2 : mulG pE (⟨measTy A (.named siAcceleration) siAcceleration.coherent, .meas a⟩ : QtyG (measOps A)) ⟨measTy A (.base siTime) siSecond, .meas t⟩ =
      .ok ⟨measTy A (.named siSpeed) siMps, .meas (a.mul A t)⟩ := by
    show (refMultiply pE (.named siAcceleration) siAcceleration.coherent (.base siTime) siSecond >>= _) = _
    rw [h1]; rfl
  have h3 : dimEquivalent (.named siSpeed) (.named siSpeed) = .ok true := by decide +kernel
  have h4 : castRatio pE.est (.named siSpeed) siMps (.named siSpeed) siKmh = .ok ⟨36, 1, -1⟩ := by decide +kernel
  have h5 : ∀ m : Meas FVal, quantityCastG pE (measTy A (.named siSpeed) siKmh) ⟨measTy A (.named siSpeed) siMps, MVal.meas m⟩ =
      .ok ⟨measTy A (.named siSpeed) siKmh, .meas (m.scale A (.fin false (8106479329266893 / 2 ^ 51)))⟩ := fun m => by
    show (dimEquivalent (.named siSpeed) (.named siSpeed) >>= _) = _
    rw [h3, ok_bind, if_pos rfl]
    show (castRatio pE.est (.named siSpeed) siMps (.named siSpeed) siKmh >>= _) = _
    rw [h4, ok_bind]
    show ((measOps A).toTypeSys.castG none none ⟨36, 1, -1⟩ (.meas m) >>= _) = _
    rw [meas_cast, kmh_factor]; rfl
  have h6 : FVal.ofInt .f64 10 = .fin false 10 := by decide +kernel
  unfold measMain
  rw [h2, ok_bind]
  show (quantityCastG pE (measTy A (.named siSpeed) siKmh) ⟨measTy A (.named siSpeed) siMps, MVal.meas (a.mul A t)⟩ >>= _) = _
  rw [h5, ok_bind, ← h6]
  rfl

/-- C99: the program, for any acceleration, time and length: the product of the acceleration and the time with relative errors of at most `2 δ` and `8 δ`, the same in
kilometres per hour with `6 δ` and `20 δ`, and ten times the length with `2 δ` and `6 δ`. -/
theorem C99_program {a t l : Meas FVal} (ha : MMid a) (ht : MMid t) (hl : MMid l) (v m : Meas ℝ) (hv : FirstOrder (· * ·) a.real t.real v)
    (hm : FirstOrder (· * ·) (exactly 10) l.real m) :
    ∃ x y z, measMain progEnv (ieeeArith hyp) ⟨measTy _ (.named siAcceleration) siAcceleration.coherent, .meas a⟩ ⟨measTy _ (.base siTime) siSecond, .meas t⟩
        ⟨measTy _ (.base siLength) siMetre, .meas l⟩ = .ok
          (⟨measTy _ (.named siSpeed) siMps, .meas x⟩, ⟨measTy _ (.named siSpeed) siKmh, .meas y⟩, ⟨measTy _ (.base siLength) siMetre, .meas z⟩) ∧
      MClose δ 2 8 v x ∧ MClose δ 6 20 ⟨3.6 * v.value, 3.6 * v.unc⟩ y ∧ MClose δ 2 6 m z := by
  have p := got_pos hu hδ
  refine ⟨_, _, _, meas_run (ieeeArith hyp) a t l, (C99_products hu hδ hh ha ht v).1 hv, ?_, ?_⟩
  · have av := mid_got hu hδ ha.value
    have bv := mid_got hu hδ ht.value
    have a0 := mid_ne ha.value
    have b0 := mid_ne ht.value
    have ra := (ha.unc.got hu hδ).div hu hδ av a0 (by norm_num) (by norm_num)
    have rb := (ht.unc.got hu hδ).div hu hδ bv b0 (by norm_num) (by norm_num)
    have h := Got.hypot hu hδ hh ra rb (by norm_num) (by norm_num)
    have gv := av.mul hu hδ bv (by norm_num) (by norm_num)
    have gs := (gv.mul hu hδ h (by norm_num) (by norm_num)).abs hu hδ
    rw [hv.unique ((C78_first_order a.real t.real 0).2.2.1 a0 b0).1]
    have gk : Got δ 1 2 (3.6 : ℝ) (.fin false (8106479329266893 / 2 ^ 51)) := by
      refine ⟨trivial, ⟨by norm_num, by decide +kernel⟩, Rel.of_err hu hδ ?_, .inr (by unfold Bd; norm_num [abs_of_pos])⟩
      show |((8106479329266893 / 2 ^ 51 : ℚ) : ℝ) - 3.6| ≤ _
      have d : (1 : ℝ) / 2 ^ 53 ≤ δ := by have h := hu; rw [u53] at h; exact h
      refine le_trans ?_ (mul_le_mul_of_nonneg_right d (abs_nonneg _))
      push_cast
      norm_num [abs_le]
    have w := gv.mul hu hδ gk (by norm_num) (by norm_num)
    have ab0 := mul_ne_zero a0 b0
    have rr := gs.div hu hδ gv ab0 (by norm_num) (by norm_num)
    have uu := (w.mul hu hδ rr (by norm_num) (by norm_num)).abs hu hδ
    have c := close_of hu hδ (m := (a.mul (ieeeArith hyp) t).scale (ieeeArith hyp) (.fin false (8106479329266893 / 2 ^ 51))) w uu (by norm_num) (by norm_num) (abs_nonneg _)
    have e1 : (a.value.q : ℝ) * t.value.q * 3.6 = 3.6 * (a.value.q * t.value.q) := by ring
    have e2 : ∀ S : ℝ, |(a.value.q : ℝ) * t.value.q * 3.6 * (|S| / (a.value.q * t.value.q))| = 3.6 * |S| := fun S => by
      rw [show (a.value.q : ℝ) * t.value.q * 3.6 * (|S| / (a.value.q * t.value.q)) = 3.6 * |S| by field_simp]
      exact abs_of_nonneg (by positivity)
    rw [e2, e1] at c
    exact c
  · refine (C99_numbers hu hδ (hyp := hyp) hl (k := .fin false 10) (Mid.of (by norm_num) (by norm_num) (by decide +kernel)) m).2.1 ?_
    have : (((FVal.fin false 10).q : ℚ) : ℝ) = 10 := by norm_num [FVal.q]
    rw [this]
    exact hm
end

/-! ### Cases -/

/-- The root of the rounded sum of the rounded squares is a `hypot` with an error of at most four units of `2 ^ -53`. -/
theorem C99_plain_hypot : HypotSpec plainHypot (4 / 2 ^ 53) := by
  intro x y fx ix fy iy bx b_y
  have hu : ((FltTy.f64.u : ℚ) : ℝ) ≤ 1 / 2 ^ 53 := by rw [u53]
  have hδ : (1 / 2 ^ 53 : ℝ) ≤ 1 / 400 := by norm_num
  have g : ∀ {z : FVal}, z.Finite → z.In .f64 → (z.q = 0 ∨ Bd 450 (z.q : ℝ)) → Got (1 / 2 ^ 53) 0 450 (z.q : ℝ) z := fun f i h =>
    ⟨f, i, Rel.refl (by norm_num) (by norm_num) _ _, h.imp_left fun e => by rw [e, Rat.cast_zero]⟩
  have sx := (g fx ix bx).mul hu hδ (g fx ix bx) (by norm_num) (by norm_num)
  have sy := (g fy iy b_y).mul hu hδ (g fy iy b_y) (by norm_num) (by norm_num)
  have s := (sx.add hu hδ sy (mul_self_nonneg _) (mul_self_nonneg _) (by norm_num) (by norm_num)).sqrt (k := 1) hu hδ (add_nonneg (mul_self_nonneg _) (mul_self_nonneg _))
  refine ⟨s.finite, s.within, ?_⟩
  rw [sq, sq]
  refine (s.err hu hδ (by norm_num)).trans (le_of_eq ?_)
  push_cast
  ring

/-- The double nearest to 9.8, 0.1 and 1.2. -/
def m98 : FVal := FVal.round .f64 false (98 / 10)
def m01 : FVal := FVal.round .f64 false (1 / 10)
def m12 : FVal := FVal.round .f64 false (12 / 10)

theorem m98_eq : m98 = .fin false (2758454771764429 / 2 ^ 48) := by decide +kernel
theorem m01_eq : m01 = .fin false (3602879701896397 / 2 ^ 55) := by decide +kernel
theorem m12_eq : m12 = .fin false (5404319552844595 / 2 ^ 52) := by decide +kernel

/-- The program itself: 9.8 ± 0.1 m/s² during 1.2 ± 0.1 s, and 123 ± 1 m. -/
example (v m : Meas ℝ) (hv : FirstOrder (· * ·) (Meas.real ⟨m98, m01⟩) (Meas.real ⟨m12, m01⟩) v) (hm : FirstOrder (· * ·) (exactly 10) (Meas.real ⟨.fin false 123, .fin false 1⟩) m) :
    ∃ x y z, measMain progEnv (ieeeArith plainHypot) ⟨measTy _ (.named siAcceleration) siAcceleration.coherent, .meas ⟨m98, m01⟩⟩ ⟨measTy _ (.base siTime) siSecond, .meas ⟨m12, m01⟩⟩
        ⟨measTy _ (.base siLength) siMetre, .meas ⟨.fin false 123, .fin false 1⟩⟩ = .ok
          (⟨measTy _ (.named siSpeed) siMps, .meas x⟩, ⟨measTy _ (.named siSpeed) siKmh, .meas y⟩, ⟨measTy _ (.base siLength) siMetre, .meas z⟩) ∧
      MClose (4 / 2 ^ 53) 2 8 v x ∧ MClose (4 / 2 ^ 53) 6 20 ⟨3.6 * v.value, 3.6 * v.unc⟩ y ∧ MClose (4 / 2 ^ 53) 2 6 m z := by
  have hu : ((FltTy.f64.u : ℚ) : ℝ) ≤ 4 / 2 ^ 53 := by rw [u53]; norm_num
  have mid : ∀ x : ℚ, 1 / 2 ^ 100 ≤ x → x ≤ 2 ^ 100 → FltTy.f64.rndMag x = some x → Mid (.fin false x) := fun x h1 h2 h3 => by
    have p : 0 < x := lt_of_lt_of_le (by norm_num) h1
    have e : |(FVal.fin false x).q| = x := abs_of_pos p
    exact ⟨trivial, ⟨p.le, h3⟩, by rw [e]; exact h1, by rw [e]; exact h2⟩
  have mz : ∀ {x : FVal}, Mid x → MidZero x := fun h => ⟨h.finite, h.within, .inr ⟨h.lower, h.upper⟩⟩
  have h98 : Mid m98 := by rw [m98_eq]; exact mid _ (by norm_num) (by norm_num) (by decide +kernel)
  have h01 : Mid m01 := by rw [m01_eq]; exact mid _ (by norm_num) (by norm_num) (by decide +kernel)
  have h12 : Mid m12 := by rw [m12_eq]; exact mid _ (by norm_num) (by norm_num) (by decide +kernel)
  exact C99_program hu (by norm_num) C99_plain_hypot ⟨h98, mz h01⟩ ⟨h12, mz h01⟩ ⟨mid 123 (by norm_num) (by norm_num) (by decide +kernel), mz (mid 1 (by norm_num) (by norm_num) (by decide +kernel))⟩ v m hv hm

/-- 3 ± 4 and 2 ± 0: there are results for these. -/
example (r : Meas ℝ) (h : FirstOrder (· / ·) (Meas.real ⟨.fin true 3, .fin false 4⟩) (Meas.real ⟨.fin false 2, .fin false 0⟩) r) :
    MClose (4 / 2 ^ 53) 2 8 r (Meas.div (ieeeArith plainHypot) ⟨.fin true 3, .fin false 4⟩ ⟨.fin false 2, .fin false 0⟩) := by
  refine (C99_products (by rw [u53]; norm_num) (by norm_num) C99_plain_hypot (a := ⟨.fin true 3, .fin false 4⟩) (b := ⟨.fin false 2, .fin false 0⟩) ⟨⟨trivial, ⟨by norm_num, by decide +kernel⟩, ?_, ?_⟩, ⟨trivial, ⟨by norm_num, by decide +kernel⟩, .inr ⟨?_, ?_⟩⟩⟩
    ⟨⟨trivial, ⟨by norm_num, by decide +kernel⟩, ?_, ?_⟩, ⟨trivial, ⟨le_refl _, by decide +kernel⟩, .inl rfl⟩⟩ r).2 h <;> norm_num [FVal.q, abs_of_pos]

/-- C99: outside that range, the result may have an infinite uncertainty where the exact one is a `double`: `2 ^ -600 ± 2 ^ 600` multiplied by one, for instance by a
conversion between units of the same size. -/
theorem C99_range_wrong (hyp : FVal → FVal → FVal) : Meas.scale (ieeeArith hyp) ⟨.fin false (1 / 2 ^ 600), .fin false (2 ^ 600)⟩ (.fin false 1) = ⟨.fin false (1 / 2 ^ 600), .inf false⟩ ∧
    (FVal.fin false (1 / 2 ^ 600)).In .f64 ∧ (FVal.fin false (2 ^ 600)).In .f64 := by
  have h : FVal.mul .f64 (.fin false (1 / 2 ^ 600)) (.fin false 1) = .fin false (1 / 2 ^ 600) := by decide +kernel
  have h' : (FVal.mul .f64 (.fin false (1 / 2 ^ 600)) (FVal.div .f64 (.fin false (2 ^ 600)) (.fin false (1 / 2 ^ 600)))).abs = .inf false := by decide +kernel
  refine ⟨?_, ⟨by positivity, by decide +kernel⟩, ⟨by positivity, by decide +kernel⟩⟩
  show Meas.mk _ (FVal.abs (FVal.mul .f64 (FVal.mul .f64 (.fin false (1 / 2 ^ 600)) (.fin false 1)) _)) = _
  rw [h]
  exact congrArg₂ Meas.mk h h'

end Verif
