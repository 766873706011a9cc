import Verif.Props.IeeeMixedProps
import Verif.Props.IeeeMathProps

/-!
# C95: the filter with a position, a speed and an acceleration in IEEE floating point

The `state_update` and `state_extrapolation` of three variables of example/kalman_filter/kalman.h in `double`, against exact arithmetic on rational
numbers.
-/

namespace Verif

open FltTy Systems Demos

set_option maxRecDepth 100000

/-! ### Types -/

/-- Metres per second squared, example/kalman_filter/kalman_filter-example_4.cpp:51. -/
def accelTy : QTy := ⟨d_isq_si_dim_acceleration, d_isq_si_dim_acceleration.unit, .flt .f64⟩

/-- The type of `interval * interval`, example/kalman_filter/kalman.h:115: an unknown dimension. -/
def squareTy : QTy := ⟨.unknown [⟨b_isq_si_dim_time, 2, 1⟩], unknownCoherentUnit, .flt .f64⟩

theorem accel_size : accelTy.size refSizes = ((1 : ℚ) : ℝ) := denote_size (b := ⟨1, [1, 0, -2, 0, 0, 0, 0, 0, 0, 0, 0]⟩) (by decide +kernel)
theorem square_size : squareTy.size refSizes = ((1 : ℚ) : ℝ) := denote_size (b := ⟨1, [0, 0, 2, 0, 0, 0, 0, 0, 0, 0, 0]⟩) (by decide +kernel)
theorem accel_good : goodTy accelTy = true := by decide +kernel
theorem square_good : goodTy squareTy = true := by decide +kernel
theorem accelOne : castRatio demoEnv.est accelTy.dim accelTy.unit accelTy.dim accelTy.unit = .ok Ratio.one := by decide +kernel

/-! ### Parts of expressions -/

/-- The sum of two parts in one unit of size one. -/
theorem plus_parts {t : QTy} (ht : t.rep = .flt .f64) (hg : goodTy t = true) (hs : t.size refSizes = ((1 : ℚ) : ℝ))
    (hc : castRatio demoEnv.est t.dim t.unit t.dim t.unit = .ok Ratio.one) {z w : FVal} {a b : ExprI} {n : ℕ}
    (ea : a.eval demoEnv = .ok ⟨t, .f z⟩) (wa : a.Wide demoEnv refSizes .f64) (sa : a.steps demoEnv ≤ n) (ma : a.mag demoEnv refSizes ≤ 2 ^ 900)
    (eb : b.eval demoEnv = .ok ⟨t, .f w⟩) (wb : b.Wide demoEnv refSizes .f64) (sb : b.steps demoEnv ≤ n) (hn : n ≤ 100)
    (mb : b.mag demoEnv refSizes ≤ 2 ^ 900) :
    let e := ExprI.addSub false a b
    e.eval demoEnv = .ok ⟨t, .f (z.add .f64 w)⟩ ∧ e.Wide demoEnv refSizes .f64 ∧ e.steps demoEnv ≤ n + 12 ∧
      e.mag demoEnv refSizes ≤ a.mag demoEnv refSizes + b.mag demoEnv refSizes + 1 / 2 ^ 1020 ∧ e.mag demoEnv refSizes ≤ 2 ^ 901 ∧
      (z.add .f64 w).Finite ∧ (z.add .f64 w).In .f64 ∧
      |((z.add .f64 w).q : ℝ) - (a.exact refSizes + b.exact refSizes)| ≤
        2 * (n + 12) / 2 ^ 53 * (a.mag demoEnv refSizes + b.mag demoEnv refSizes + 1 / 2 ^ 1020) := by
  intro E
  have e : E.eval demoEnv = .ok ⟨t, .f (z.add .f64 w)⟩ := by
    show (do let x ← ExprI.eval demoEnv a; let y ← ExprI.eval demoEnv b; addSubI demoEnv false x y) = _
    rw [ea, eb]; exact addSubI_self demoEnv false t .f64 ht z w
  have fl := floor_one e ht hs
  have m : E.mag demoEnv refSizes = max (a.mag demoEnv refSizes + b.mag demoEnv refSizes) (1 / 2 ^ 1020) := by
    rw [← fl]; rfl
  have ku : ∀ k : ℕ, k ≤ 112 → (k : ℝ) * (FltTy.f64.u : ℚ) ≤ 1 / 2 := fun k h => by
    rw [u53, mul_one_div, div_le_iff₀ (by positivity)]
    have : (k : ℝ) ≤ 112 := by exact_mod_cast h
    exact this.trans (by norm_num)
  have a0 : 0 ≤ a.mag demoEnv refSizes := (a.off demoEnv_ok refSizes_pos _ wa (ku _ (by omega)) ea).2.2.2.nonneg
  have b0 : 0 ≤ b.mag demoEnv refSizes := (b.off demoEnv_ok refSizes_pos _ wb (ku _ (by omega)) eb).2.2.2.nonneg
  have mle : E.mag demoEnv refSizes ≤ 2 ^ 901 := by
    rw [m]
    refine bound_max ?_
    rw [pow_succ _ 900, mul_two]
    exact add_le_add ma mb
  have c : E.mag demoEnv refSizes ≤ a.mag demoEnv refSizes + b.mag demoEnv refSizes + 1 / 2 ^ 1020 := by
    rw [m]
    obtain ⟨n0, -⟩ := eta
    generalize (1 : ℝ) / 2 ^ 1020 = η at n0 ⊢
    exact max_le (by linarith) (by linarith)
  obtain ⟨d, v, r⟩ := t
  dsimp only at ht hc
  subst ht
  obtain ⟨W, S⟩ := sum_wide (s := false) ea eb e hc wa wb
    (ranged_one e hg rfl hs (mle.trans (pow_le_pow_right₀ (by norm_num) (by norm_num))))
  have S' : E.steps demoEnv ≤ n + 12 := by rw [S]; have := max_le sa sb; omega
  obtain ⟨tr, fr, -, er⟩ := C94_expression demoEnv demoEnv_ok refSizes refSizes_pos .f64 _ _ W (ku _ (by omega)) e
  refine ⟨e, W, S', c, mle, fr, ?_, ?_⟩
  · obtain ⟨g, hg', hi⟩ := tr
    cases hg'
    exact hi
  · rw [u53, amount_one hs] at er
    have ex : E.exact refSizes = a.exact refSizes + b.exact refSizes := by simp [E, ExprI.exact]
    rw [ex] at er
    refine er.trans ?_
    have k : (E.steps demoEnv : ℝ) ≤ n + 12 := by exact_mod_cast S'
    rw [mul_one_div]
    refine mul_le_mul (div_le_div_of_nonneg_right (by linarith) (by positivity)) c ?_ (by positivity)
    rw [m]; exact le_max_of_le_left (add_nonneg a0 b0)

/-- The product of two literals in units of size one. -/
theorem times_part {t1 t2 t : QTy} (h1 : t1.rep = .flt .f64) (h2 : t2.rep = .flt .f64) (h3 : t.rep = .flt .f64)
    (h : refMultiply demoEnv t1.dim t1.unit t2.dim t2.unit = .ok (t.dim, t.unit)) (g1 : goodTy t1 = true) (g2 : goodTy t2 = true) (g3 : goodTy t = true)
    (z1 : t1.size refSizes = ((1 : ℚ) : ℝ)) (z2 : t2.size refSizes = ((1 : ℚ) : ℝ)) (z3 : t.size refSizes = ((1 : ℚ) : ℝ)) {j k : ℕ} {x y : FVal}
    (hx : Upto j x) (hy : Upto k y) (hjk : j + k ≤ 900) :
    let e := ExprI.mul (.lit ⟨t1, .f x⟩) (.lit ⟨t2, .f y⟩)
    e.eval demoEnv = .ok ⟨t, .f (x.mul .f64 y)⟩ ∧ e.Wide demoEnv refSizes .f64 ∧ e.steps demoEnv = 5 ∧ e.exact refSizes = x.q * y.q ∧
      e.mag demoEnv refSizes ≤ |(x.q : ℝ)| * |(y.q : ℝ)| + 1 / 2 ^ 1020 ∧ e.mag demoEnv refSizes ≤ 2 ^ 900 := by
  intro e
  have ev : e.eval demoEnv = .ok ⟨t, .f (x.mul .f64 y)⟩ := mulEI h1 h2 h3 h x y
  have fl := floor_one ev h3 z3
  have m : e.mag demoEnv refSizes = max (|(x.q : ℝ)| * |(y.q : ℝ)|) (1 / 2 ^ 1020) := by
    rw [← fl]; simp only [e, ExprI.mag, amount_one z1, amount_one z2]
  have b : e.mag demoEnv refSizes ≤ 2 ^ 900 := by
    rw [m]
    refine bound_max ?_
    have := mul_le_mul hx.cast hy.cast (abs_nonneg _) (by positivity)
    rw [← pow_add] at this
    exact this.trans (pow_le_pow_right₀ (by norm_num) hjk)
  refine ⟨ev, ⟨lit_wide h1 g1 hx, lit_wide h2 g2 hy, ranged_one ev g3 h3 z3 (b.trans (pow_le_pow_right₀ (by norm_num) (by norm_num)))⟩, rfl, ?_, ?_, b⟩
  · simp only [e, ExprI.exact, amount_one z1, amount_one z2]
  · rw [m]
    have p : 0 ≤ |(x.q : ℝ)| * |(y.q : ℝ)| := by positivity
    obtain ⟨n0, -⟩ := eta
    generalize (1 : ℝ) / 2 ^ 1020 = η at n0 ⊢
    exact max_le (by linarith) (by linarith)

theorem half_eval {t : QTy} (h : t.rep = .flt .f64) (x : FVal) : scaleQtyI .div ⟨t, .f x⟩ (.int .i32) (.i 2) = .ok ⟨t, .f (x.div .f64 (FVal.ofInt .f64 2))⟩ := by
  obtain ⟨d, v, r⟩ := t
  dsimp only at h
  subst h
  rfl

/-- Half of a part in a unit of size one. -/
theorem half_part {t : QTy} (h : t.rep = .flt .f64) (g : goodTy t = true) (z : t.size refSizes = ((1 : ℚ) : ℝ)) {e : ExprI} {x : FVal} {n : ℕ}
    (ev : e.eval demoEnv = .ok ⟨t, .f x⟩) (w : e.Wide demoEnv refSizes .f64) (s : e.steps demoEnv = n) (hn : n ≤ 100) (m : e.mag demoEnv refSizes ≤ 2 ^ 900) :
    let e' := ExprI.scale .div e (.int .i32) (.i 2)
    e'.eval demoEnv = .ok ⟨t, .f (x.div .f64 (FVal.ofInt .f64 2))⟩ ∧ e'.Wide demoEnv refSizes .f64 ∧ e'.steps demoEnv = n + 5 ∧
      e'.exact refSizes = e.exact refSizes / 2 ∧ e'.mag demoEnv refSizes ≤ e.mag demoEnv refSizes / 2 + 1 / 2 ^ 1020 ∧ e'.mag demoEnv refSizes ≤ 2 ^ 900 := by
  intro e'
  have ev' : e'.eval demoEnv = .ok ⟨t, .f (x.div .f64 (FVal.ofInt .f64 2))⟩ := by
    show (e.eval demoEnv >>= _) = _
    rw [ev, ok_bind]; exact half_eval h x
  have fl := floor_one ev' h z
  have m0 : 0 ≤ e.mag demoEnv refSizes := by
    refine (e.off demoEnv_ok refSizes_pos _ w ?_ ev).2.2.2.nonneg
    rw [s, u53, mul_one_div, div_le_iff₀ (by positivity)]
    have : (n : ℝ) ≤ 100 := by exact_mod_cast hn
    exact this.trans (by norm_num)
  have m' : e'.mag demoEnv refSizes = max (e.mag demoEnv refSizes / 2) (1 / 2 ^ 1020) := by
    rw [← fl]
    show max (if BinOp.div = BinOp.mul then _ else e.mag demoEnv refSizes / |(((FNum.i 2).q : ℚ) : ℝ)|) _ = _
    rw [if_neg (by decide)]
    norm_num [FNum.q]
    rfl
  have b : e'.mag demoEnv refSizes ≤ 2 ^ 900 := by rw [m']; exact bound_max ((half_le_self m0).trans m)
  refine ⟨ev', ⟨w, ⟨_, rfl, by decide⟩, trivial, ?_, ranged_one ev' g h z (b.trans (pow_le_pow_right₀ (by norm_num) (by norm_num)))⟩, ?_, ?_, ?_, b⟩
  · exact .inr ⟨rfl, by norm_num [FNum.q]⟩
  · show e.steps demoEnv + 5 = _; rw [s]
  · show (if BinOp.div = BinOp.mul then _ else e.exact refSizes / (((FNum.i 2).q : ℚ) : ℝ)) = _
    rw [if_neg (by decide)]; norm_num [FNum.q]
  · rw [m']
    obtain ⟨n0, -⟩ := eta
    generalize (1 : ℝ) / 2 ^ 1020 = η at n0 ⊢
    exact max_le (by linarith) (by linarith)

/-! ### The update of the state -/

/-- The first two variables of the larger filter are updated as in the smaller one. -/
theorem stateUpdate3I_of {E : Env} {R : Rebinds} {s1 s2 s3 m r1 r2 r3 q3 : VarI} {k1 k2 k3 t d x3 tt hh y3 : QtyI}
    (h : stateUpdate2I E R s1 s2 m k1 k2 t = .ok (r1, r2)) (hk3 : k3.ty.dim = .named dimOne) (hd : m.sub E R s1 = .ok d) (h3 : mulQtyI E k3 d = .ok x3)
    (ht : mulQtyI E t t = .ok tt) (hs : scaleQtyI .div tt (.int .i32) (.i 2) = .ok hh) (hy : divQtyI E x3 hh = .ok y3) (hq : s3.add E R y3 = .ok q3)
    (hr : q3.convert E R s3.ty = .ok r3) : stateUpdate3I E R s1 s2 s3 m k1 k2 k3 t = .ok (r1, r2, r3) := by
  unfold stateUpdate2I at h
  simp only [bind_ok] at h
  obtain ⟨e, he, h⟩ := h
  split at h
  · rename_i hc
    simp only [bind_ok, Except.ok.injEq, Prod.mk.injEq] at h
    obtain ⟨d', hd', x1, hx1, q1, hq1, x2, hx2, y2, hy2, q2, hq2, r1', h1, r2', h2, rfl, rfl⟩ := h
    rw [hd] at hd'
    cases hd'
    unfold stateUpdate3I
    rw [he, ok_bind, if_pos ⟨hc.1, hc.2.1, hc.2.2, hk3⟩, hd, ok_bind, hx1, ok_bind, hq1, ok_bind, hx2, ok_bind, hy2, ok_bind, hq2, ok_bind, h3, ok_bind,
      ht, ok_bind, hs, ok_bind, hy, ok_bind, hq, ok_bind, h1, ok_bind, h2, ok_bind, hr, ok_bind]
  · cases h

/-- Half of the square of the interval. -/
theorem halfSquare {t : FVal} (ht : Mid t) :
    let e := ExprI.scale .div (.mul (.lit ⟨timeTy (.flt .f64), .f t⟩) (.lit ⟨timeTy (.flt .f64), .f t⟩)) (.int .i32) (.i 2)
    mulQtyI demoEnv ⟨timeTy (.flt .f64), .f t⟩ ⟨timeTy (.flt .f64), .f t⟩ = .ok ⟨squareTy, .f (t.mul .f64 t)⟩ ∧
      e.eval demoEnv = .ok ⟨squareTy, .f ((t.mul .f64 t).div .f64 (FVal.ofInt .f64 2))⟩ ∧ e.Fine demoEnv refSizes .f64 ∧ e.steps demoEnv = 10 ∧
      e.exact refSizes = (t.q : ℝ) ^ 2 / 2 := by
  intro e
  have h1 : mulQtyI demoEnv ⟨timeTy (.flt .f64), .f t⟩ ⟨timeTy (.flt .f64), .f t⟩ = .ok ⟨squareTy, .f (t.mul .f64 t)⟩ :=
    mulEI rfl rfl rfl (by kernel_rfl) t t
  have e1 : (ExprI.mul (.lit ⟨timeTy (.flt .f64), .f t⟩) (.lit ⟨timeTy (.flt .f64), .f t⟩)).eval demoEnv = .ok ⟨squareTy, .f (t.mul .f64 t)⟩ := h1
  have e2 : e.eval demoEnv = .ok ⟨squareTy, .f ((t.mul .f64 t).div .f64 (FVal.ofInt .f64 2))⟩ := by
    show (ExprI.eval demoEnv (.mul _ _) >>= _) = _
    rw [e1, ok_bind]; exact half_eval rfl _
  have x1 : (ExprI.mul (.lit ⟨timeTy (.flt .f64), .f t⟩) (.lit ⟨timeTy (.flt .f64), .f t⟩)).exact refSizes = (t.q : ℝ) * t.q := by
    simp only [ExprI.exact, amount_one time_size]
  have x2 : e.exact refSizes = (t.q : ℝ) * t.q / 2 := by
    show (if BinOp.div = BinOp.mul then _ else ExprI.exact refSizes (.mul _ _) / (((FNum.i 2).q : ℚ) : ℝ)) = _
    rw [if_neg (by decide), x1]; norm_num [FNum.q]
  have lit : (ExprI.lit ⟨timeTy (.flt .f64), .f t⟩).Fine demoEnv refSizes .f64 := ⟨goodTy_sound (time_good _), ⟨_, rfl, ht.within⟩, ht.finite⟩
  have b1 := ht.bd.mul ht.bd
  have two : Bd 1 (2 : ℝ) := by unfold Bd; norm_num
  have b2 := b1.div two
  have n1 : ((1 : ℚ) / 2 ^ 100 ≤ 1) := by norm_num
  have n2 : ((1 : ℚ) ≤ 2 ^ 100) := by norm_num
  refine ⟨h1, e2, ⟨⟨lit, lit, ?_⟩, ⟨_, rfl, by decide⟩, trivial, .inr ⟨rfl, by norm_num [FNum.q]⟩, ?_⟩, rfl, by rw [x2, sq]⟩
  · exact Bd.normal (k := 200) e1 square_good rfl square_size (by norm_num) n1 n2 (by rw [x1]; exact b1)
  · exact Bd.normal (k := 201) e2 square_good rfl square_size (by norm_num) n1 n2 (by rw [x2]; exact b2)

/-- C95: `state_update` of the filter with a position, a speed and an acceleration in `double`: they become `p + k (m - p)`, `v + k (m - p) / t` and
`a + k (m - p) / (t² / 2)` up to rounding relative to the terms. -/
theorem C95_state_update (R : Rebinds) {p v a k1 k2 k3 mv t : FVal} {m : QtyI} (hp : Upto 100 p) (hv : Upto 100 v) (ha : Upto 100 a) (hk1 : Upto 100 k1)
    (hk2 : Upto 100 k2) (hk3 : Upto 100 k3) (hm : Measured (.qty (lenTy (.flt .f64))) (.qty m) mv) (hmv : Upto 100 mv) (ht : Mid t) :
    ∃ p' v' a', stateUpdate3I demoEnv R (.qty ⟨lenTy (.flt .f64), .f p⟩) (.qty ⟨Demos.speedTy (.flt .f64), .f v⟩) (.qty ⟨accelTy, .f a⟩) (.qty m)
          ⟨gainTy, .f k1⟩ ⟨gainTy, .f k2⟩ ⟨gainTy, .f k3⟩ ⟨timeTy (.flt .f64), .f t⟩ =
        .ok (.qty ⟨lenTy (.flt .f64), .f p'⟩, .qty ⟨Demos.speedTy (.flt .f64), .f v'⟩, .qty ⟨accelTy, .f a'⟩) ∧
      p'.Finite ∧ p'.In .f64 ∧ v'.Finite ∧ v'.In .f64 ∧ a'.Finite ∧ a'.In .f64 ∧
      |p'.q - (p.q + k1.q * (mv.q - p.q))| ≤ 58 / 2 ^ 53 * (|p.q| + |k1.q| * (|mv.q| + |p.q|) + (|k1.q| + 2) * (1 / 2 ^ 1020)) ∧
      |v'.q - (v.q + k2.q * (mv.q - p.q) / t.q)| ≤
        68 / 2 ^ 53 * (|v.q| + |k2.q| * (|mv.q| + |p.q|) / |t.q| + ((|k2.q| + 1) / |t.q| + 2) * (1 / 2 ^ 1020)) ∧
      |a'.q - (a.q + k3.q * (mv.q - p.q) / (t.q ^ 2 / 2))| ≤
        88 / 2 ^ 53 * (|a.q| + |k3.q| * (|mv.q| + |p.q|) / (t.q ^ 2 / 2) + ((|k3.q| + 1) / (t.q ^ 2 / 2) + 2) * (1 / 2 ^ 1020)) := by
  obtain ⟨p', v', h2, fp, ip, fv, iv, r1, r2⟩ := C94_state_update R hp hv hk1 hk2 hm hmv (.inl rfl) ht
  obtain ⟨e2, w2, s2, x2, m2, b2⟩ := gainTimesInnovation hp hk3 hm hmv
  obtain ⟨tt, eh, fh, sh, xh⟩ := halfSquare ht
  obtain ⟨w, hw⟩ : ∃ w, divQtyI demoEnv ⟨lenTy (.flt .f64), .f (k3.mul .f64 (mv.sub .f64 p))⟩ ⟨squareTy, .f ((t.mul .f64 t).div .f64 (FVal.ofInt .f64 2))⟩ =
      .ok ⟨accelTy, .f w⟩ := ⟨_, divEI rfl rfl rfl (by kernel_rfl) _ _⟩
  generalize eN : ExprI.mul (.lit ⟨gainTy, .f k3⟩) (.addSub true (.lit m) (.lit ⟨lenTy (.flt .f64), .f p⟩)) = N at e2 w2 s2 x2 m2 b2
  generalize eD : ExprI.scale .div (.mul (.lit ⟨timeTy (.flt .f64), .f t⟩) (.lit ⟨timeTy (.flt .f64), .f t⟩)) (.int .i32) (.i 2) = D at eh fh sh xh
  have t0 : 0 < |(t.q : ℝ)| := (by positivity : (0 : ℝ) < 1 / 2 ^ 100).trans_le ht.bd.1
  have T0 : 0 < (t.q : ℝ) ^ 2 / 2 := by rw [← sq_abs]; positivity
  have T1 : (1 : ℝ) / 2 ^ 201 ≤ (t.q : ℝ) ^ 2 / 2 := by
    rw [← sq_abs, show (1 : ℝ) / 2 ^ 201 = (1 / 2 ^ 100) ^ 2 / 2 by norm_num]
    have := pow_le_pow_left₀ (by positivity) ht.bd.1 2
    linarith
  have e3 : (ExprI.div N D).eval demoEnv = .ok ⟨accelTy, .f w⟩ := by
    show (N.eval demoEnv >>= fun x => D.eval demoEnv >>= fun y => divQtyI demoEnv x y) = _
    rw [e2, ok_bind, eh, ok_bind, hw]
  have f3 := floor_one e3 rfl accel_size
  have m3 : (ExprI.div N D).mag demoEnv refSizes = max (N.mag demoEnv refSizes / ((t.q : ℝ) ^ 2 / 2)) (1 / 2 ^ 1020) := by
    rw [← f3, ← abs_of_pos T0, ← xh]; rfl
  have b3 : (ExprI.div N D).mag demoEnv refSizes ≤ 2 ^ 402 := by
    rw [m3]
    refine bound_max ?_
    rw [div_le_iff₀ T0]
    refine b2.trans ?_
    have := mul_le_mul_of_nonneg_left T1 (by positivity : (0 : ℝ) ≤ 2 ^ 402)
    refine le_trans (le_of_eq ?_) this
    rw [show 402 = 201 + 201 from rfl, pow_add]
    field_simp
  have w3 : (ExprI.div N D).Wide demoEnv refSizes .f64 :=
    ⟨w2, fh, by rw [xh]; exact T0.ne', ranged_one e3 accel_good rfl accel_size (b3.trans (pow_le_pow_right₀ (by norm_num) (by norm_num)))⟩
  have s3 : (ExprI.div N D).steps demoEnv = 32 := by rw [ExprI.steps, s2, sh]
  obtain ⟨E2, F2, I2, R2⟩ := plus_part rfl accel_good accel_size accelOne ha e3 w3 s3 (by norm_num) (b3.trans (pow_le_pow_right₀ (by norm_num) (by norm_num)))
  refine ⟨p', v', _, stateUpdate3I_of (q3 := .qty ⟨accelTy, .f (a.add .f64 w)⟩) h2 rfl ?_ (mulQtyI_gain lenSteady _ _) tt (half_eval rfl _) hw ?_ ?_, fp, ip, fv, iv, F2, I2, r1, r2, ?_⟩
  · exact measured_sub (E := demoEnv) (R := R) (t := .qty (lenTy (.flt .f64))) lenSteady hm p
  · show (addSubI demoEnv false _ _ >>= fun r => Except.ok (VarI.qty r)) = _
    rw [addSubI_self demoEnv false accelTy .f64 rfl, ok_bind]
    rfl
  · show (convertQtyI demoEnv accelTy ⟨accelTy, _⟩ >>= fun r => Except.ok (VarI.qty r)) = _
    rw [convertQtyI_self demoEnv ⟨accelTy, _⟩, ok_bind]
  · have x3 : (ExprI.div N D).exact refSizes = k3.q * (mv.q - p.q) / ((t.q : ℝ) ^ 2 / 2) := by rw [ExprI.exact, x2, xh]
    refine real_le ?_
    rw [x3, m3] at R2
    push_cast
    refine R2.trans ?_
    rw [show (2 * (((32 : ℕ) : ℝ) + 12) / 2 ^ 53) = 88 / 2 ^ 53 by norm_num]
    refine mul_le_mul_of_nonneg_left ?_ (by positivity)
    obtain ⟨n0, -⟩ := eta
    have M0 := (ExprI.off demoEnv_ok refSizes_pos _ _ w2 (by rw [s2, u53]; norm_num) e2).2.2.2.nonneg
    generalize (1 : ℝ) / 2 ^ 1020 = η at m2 n0 ⊢
    have q := div_le_div_of_nonneg_right m2 T0.le
    rw [add_div, mul_div_right_comm (_ + 1)] at q
    have c : ∀ x : ℝ, 0 ≤ x → max (x / ((t.q : ℝ) ^ 2 / 2)) η ≤ x / ((t.q : ℝ) ^ 2 / 2) + η := fun x x0 =>
      max_le (by linarith) (by linarith [div_nonneg x0 T0.le])
    have := c _ M0
    linarith

/-! ### The extrapolation -/

theorem square_eval {L : LibmI} {t y : FVal} (h : powNumI L 2 1 (.flt .f64) (.f t) = .ok (.f y)) :
    powQtyI demoEnv L 2 1 ⟨timeTy (.flt .f64), .f t⟩ = .ok (.inr ⟨squareTy, .f y⟩) :=
  powQtyI_ok (E := demoEnv) (L := L) (q := ⟨timeTy (.flt .f64), .f t⟩) (d := squareTy.dim) (p := Ratio.one) (u := squareTy.unit) (by decide) (by decide)
    (show dimPow demoEnv.dims (timeTy (.flt .f64)).dim 2 1 = _ by decide +kernel)
    (show powR demoEnv.est 2 1 (timeTy (.flt .f64)).unit.ratio = _ by decide +kernel) (by decide +kernel) h

theorem two_exponent : powExponent 2 1 = .fin false 2 := by decide +kernel

/-- C95: `state_extrapolation` of the same filter, with a `std::pow` of relative error `δ`: the position becomes `p + v t + a t² / 2` and the speed
`v + a t`, up to rounding relative to the terms and the error of `std::pow`; the acceleration is unchanged. -/
theorem C95_extrapolation (R : Rebinds) (L : LibmI) (δ : ℝ) (hδ : δ ≤ 1 / 2) {p v a t : FVal} (hp : Upto 100 p) (hv : Upto 100 v) (ha : Upto 100 a)
    (ht : Mid t) (hL : RelErr δ .f64 ((t.q : ℝ) ^ 2) (L.pow .f64 t (.fin false 2))) :
    ∃ p' v', extrapolate3I demoEnv R L (.qty ⟨lenTy (.flt .f64), .f p⟩) (.qty ⟨Demos.speedTy (.flt .f64), .f v⟩) (.qty ⟨accelTy, .f a⟩)
          ⟨timeTy (.flt .f64), .f t⟩ =
        .ok (.qty ⟨lenTy (.flt .f64), .f p'⟩, .qty ⟨Demos.speedTy (.flt .f64), .f v'⟩, .qty ⟨accelTy, .f a⟩) ∧
      p'.Finite ∧ p'.In .f64 ∧ v'.Finite ∧ v'.In .f64 ∧
      |(p'.q : ℝ) - (p.q + v.q * t.q + a.q * t.q ^ 2 / 2)| ≤
        58 / 2 ^ 53 * (|(p.q : ℝ)| + |(v.q : ℝ) * t.q| + |(a.q : ℝ)| * t.q ^ 2 + 6 * (1 / 2 ^ 1020)) + δ * (|(a.q : ℝ)| * t.q ^ 2 / 2) ∧
      |(v'.q : ℝ) - (v.q + a.q * t.q)| ≤ 34 / 2 ^ 53 * (|(v.q : ℝ)| + |(a.q : ℝ) * t.q| + 2 * (1 / 2 ^ 1020)) := by
  have TU : Upto 100 t := ⟨ht.finite, ht.within, ht.upper⟩
  obtain ⟨fy, iy, ey⟩ := hL
  generalize hyy : L.pow .f64 t (.fin false 2) = y at fy iy ey
  have hy : powNumI L 2 1 (.flt .f64) (.f t) = .ok (.f y) := by rw [← hyy, ← two_exponent]; rfl
  have b := (ht.bd.mul ht.bd).2
  rw [← sq] at b
  rw [abs_of_nonneg (sq_nonneg (t.q : ℝ))] at ey b
  have ya : |(y.q : ℝ)| ≤ 3 / 2 * (t.q : ℝ) ^ 2 := by
    have := abs_add_le ((y.q : ℝ) - t.q ^ 2) (t.q ^ 2)
    rw [sub_add_cancel, abs_of_nonneg (sq_nonneg (t.q : ℝ))] at this
    have := mul_le_mul_of_nonneg_right hδ (sq_nonneg (t.q : ℝ))
    linarith
  have YU : Upto 201 y := ⟨fy, iy, real_le (by
    push_cast
    refine ya.trans ?_
    have b' : (t.q : ℝ) ^ 2 ≤ 2 ^ 200 := b
    rw [show (2 : ℝ) ^ 201 = 2 * 2 ^ 200 by norm_num]
    linarith [sq_nonneg (t.q : ℝ)])⟩
  -- the speed times the interval
  obtain ⟨ev1, w1, s1, x1, m1, b1⟩ := times_part (t1 := Demos.speedTy (.flt .f64)) (t2 := timeTy (.flt .f64)) (t := lenTy (.flt .f64)) rfl rfl rfl (by kernel_rfl)
    speed_good (time_good _) (len_good _) speed_size time_size len_size hv TU (by norm_num)
  -- the acceleration times the square
  obtain ⟨ev2, w2, s2, x2, m2, b2⟩ := times_part (t1 := accelTy) (t2 := squareTy) (t := lenTy (.flt .f64)) rfl rfl rfl (by kernel_rfl)
    accel_good square_good (len_good _) accel_size square_size len_size ha YU (by norm_num)
  obtain ⟨ev3, w3, s3, x3, m3, b3⟩ := half_part rfl (len_good _) len_size ev2 w2 s2 (by norm_num) b2
  -- the acceleration times the interval
  obtain ⟨ev4, w4, s4, x4, m4, b4⟩ := times_part (t1 := accelTy) (t2 := timeTy (.flt .f64)) (t := Demos.speedTy (.flt .f64)) rfl rfl rfl (by kernel_rfl)
    accel_good (time_good _) speed_good accel_size time_size speed_size ha TU (by norm_num)
  have up : ∀ {x : FVal}, Upto 100 x → |(x.q : ℝ)| ≤ 2 ^ 900 := fun h => h.cast.trans (pow_le_pow_right₀ (by norm_num) (by norm_num))
  have mp : (ExprI.lit ⟨lenTy (.flt .f64), .f p⟩).mag demoEnv refSizes = |(p.q : ℝ)| := by simp only [ExprI.mag, amount_one len_size]
  have b1' : (ExprI.mul (.lit ⟨Demos.speedTy (.flt .f64), .f v⟩) (.lit ⟨timeTy (.flt .f64), .f t⟩)).mag demoEnv refSizes ≤ 2 ^ 200 + 1 := by
    refine m1.trans (add_le_add ?_ eta.2)
    have := mul_le_mul hv.cast TU.cast (abs_nonneg _) (by positivity)
    rw [← pow_add] at this; exact this
  obtain ⟨E5, W5, S5, M5, -, F5, I5, -⟩ := plus_parts (n := 5) rfl (len_good _) len_size lenOne (a := .lit ⟨lenTy (.flt .f64), .f p⟩) rfl (lit_wide rfl (len_good _) hp)
    (Nat.zero_le _) (by rw [mp]; exact up hp) ev1 w1 s1.le (by norm_num) b1
  have b5 : (ExprI.addSub false (.lit ⟨lenTy (.flt .f64), .f p⟩) (.mul (.lit ⟨Demos.speedTy (.flt .f64), .f v⟩) (.lit ⟨timeTy (.flt .f64), .f t⟩))).mag demoEnv
      refSizes ≤ 2 ^ 900 := by
    refine M5.trans ?_
    rw [mp]
    have h3 : (2 : ℝ) ^ 201 ≤ 2 ^ 900 := pow_le_pow_right₀ (by norm_num) (by norm_num)
    exact (add_le_add (add_le_add hp.cast b1') eta.2).trans (le_trans (by norm_num) h3)
  obtain ⟨E6, W6, S6, M6, -, F6, I6, R6⟩ := plus_parts (n := 17) rfl (len_good _) len_size lenOne E5 W5 S5 b5 ev3 w3 (by rw [s3]; norm_num) (by norm_num) b3
  obtain ⟨E7, F7, I7, R7⟩ := plus_part rfl speed_good speed_size speedOne hv ev4 w4 s4 (by norm_num) b4
  refine ⟨_, _, ?_, F6, I6, F7, I7, ?_, ?_⟩
  · show (mulQtyI demoEnv _ _ >>= _) = _
    rw [show mulQtyI demoEnv ⟨Demos.speedTy (.flt .f64), .f v⟩ ⟨timeTy (.flt .f64), .f t⟩ = _ from ev1, ok_bind]
    show ((addSubI demoEnv false _ _ >>= fun r => Except.ok (VarI.qty r)) >>= _) = _
    rw [addSubI_self demoEnv false (lenTy (.flt .f64)) .f64 rfl, ok_bind, ok_bind, square_eval hy, ok_bind]
    show (mulQtyI demoEnv _ _ >>= _) = _
    rw [show mulQtyI demoEnv ⟨accelTy, .f a⟩ ⟨squareTy, .f y⟩ = _ from ev2, ok_bind, half_eval rfl, ok_bind]
    show ((addSubI demoEnv false _ _ >>= fun r => Except.ok (VarI.qty r)) >>= _) = _
    rw [addSubI_self demoEnv false (lenTy (.flt .f64)) .f64 rfl, ok_bind, ok_bind,
      show mulQtyI demoEnv ⟨accelTy, .f a⟩ ⟨timeTy (.flt .f64), .f t⟩ = _ from ev4, ok_bind]
    show ((addSubI demoEnv false _ _ >>= fun r => Except.ok (VarI.qty r)) >>= _) = _
    rw [addSubI_self demoEnv false (Demos.speedTy (.flt .f64)) .f64 rfl, ok_bind, ok_bind]
    show ((convertQtyI demoEnv (lenTy (.flt .f64)) ⟨lenTy (.flt .f64), _⟩ >>= fun r => Except.ok (VarI.qty r)) >>= _) = _
    rw [convertQtyI_self demoEnv ⟨lenTy (.flt .f64), _⟩, ok_bind, ok_bind]
    show ((convertQtyI demoEnv (Demos.speedTy (.flt .f64)) ⟨Demos.speedTy (.flt .f64), _⟩ >>= fun r => Except.ok (VarI.qty r)) >>= _) = _
    rw [convertQtyI_self demoEnv ⟨Demos.speedTy (.flt .f64), _⟩]
    rfl
  · have x5 : (ExprI.addSub false (.lit ⟨lenTy (.flt .f64), .f p⟩) (.mul (.lit ⟨Demos.speedTy (.flt .f64), .f v⟩) (.lit ⟨timeTy (.flt .f64), .f t⟩))).exact
        refSizes = p.q + v.q * t.q := by
      show ExprI.exact refSizes (.lit _) + _ = _
      rw [x1]; simp only [ExprI.exact, amount_one len_size]
    rw [x5, x3, x2, show (2 * (((17 : ℕ) : ℝ) + 12) / 2 ^ 53) = 58 / 2 ^ 53 by norm_num] at R6
    have key : |(a.q : ℝ) * y.q / 2 - a.q * t.q ^ 2 / 2| ≤ δ * (|(a.q : ℝ)| * t.q ^ 2 / 2) := by
      rw [show (a.q : ℝ) * y.q / 2 - a.q * t.q ^ 2 / 2 = a.q * (y.q - t.q ^ 2) / 2 by ring, abs_div, abs_mul, abs_two]
      have := mul_le_mul_of_nonneg_left ey (abs_nonneg (a.q : ℝ))
      linarith
    have tri := abs_add_le ((((p.add .f64 (v.mul .f64 t)).add .f64 ((a.mul .f64 y).div .f64 (FVal.ofInt .f64 2))).q : ℝ) -
      (p.q + v.q * t.q + a.q * y.q / 2)) ((a.q : ℝ) * y.q / 2 - a.q * t.q ^ 2 / 2)
    rw [show ∀ z : ℝ, z - (p.q + v.q * t.q + a.q * y.q / 2) + (a.q * y.q / 2 - a.q * t.q ^ 2 / 2) = z - (p.q + v.q * t.q + a.q * t.q ^ 2 / 2) by
      intro z; ring] at tri
    refine tri.trans (add_le_add (R6.trans (mul_le_mul_of_nonneg_left ?_ (by positivity))) key)
    rw [mp] at M5
    rw [abs_mul]
    have ay := mul_le_mul_of_nonneg_left ya (abs_nonneg (a.q : ℝ))
    have at0 : 0 ≤ |(a.q : ℝ)| * (t.q : ℝ) ^ 2 := by positivity
    obtain ⟨n0, -⟩ := eta
    generalize (1 : ℝ) / 2 ^ 1020 = η at m1 m2 m3 M5 n0 ⊢
    linarith
  · rw [x4, show (2 * (((5 : ℕ) : ℝ) + 12) / 2 ^ 53) = 34 / 2 ^ 53 by norm_num] at R7
    refine R7.trans (mul_le_mul_of_nonneg_left ?_ (by positivity))
    rw [abs_mul]
    generalize (1 : ℝ) / 2 ^ 1020 = η at m4 ⊢
    linarith

/-- C95: with a correctly rounded `std::pow` the position is `p + v t + a t² / 2` up to 60 roundings relative to the terms. -/
theorem C95_extrapolation_rounded (R : Rebinds) (L : LibmI) (hL : L.PowSpec Nearest) {p v a t : FVal} (hp : Upto 100 p) (hv : Upto 100 v) (ha : Upto 100 a)
    (ht : Mid t) :
    ∃ p' v', extrapolate3I demoEnv R L (.qty ⟨lenTy (.flt .f64), .f p⟩) (.qty ⟨Demos.speedTy (.flt .f64), .f v⟩) (.qty ⟨accelTy, .f a⟩)
          ⟨timeTy (.flt .f64), .f t⟩ =
        .ok (.qty ⟨lenTy (.flt .f64), .f p'⟩, .qty ⟨Demos.speedTy (.flt .f64), .f v'⟩, .qty ⟨accelTy, .f a⟩) ∧
      p'.Finite ∧ p'.In .f64 ∧ v'.Finite ∧ v'.In .f64 ∧
      |(p'.q : ℝ) - (p.q + v.q * t.q + a.q * t.q ^ 2 / 2)| ≤
        60 / 2 ^ 53 * (|(p.q : ℝ)| + |(v.q : ℝ) * t.q| + |(a.q : ℝ)| * t.q ^ 2 + 6 * (1 / 2 ^ 1020)) ∧
      |(v'.q : ℝ) - (v.q + a.q * t.q)| ≤ 34 / 2 ^ 53 * (|(v.q : ℝ)| + |(a.q : ℝ) * t.q| + 2 * (1 / 2 ^ 1020)) := by
  have t0 : 0 < |(t.q : ℝ)| := (by positivity : (0 : ℝ) < 1 / 2 ^ 100).trans_le ht.bd.1
  have tq0 : t.q ≠ 0 := by intro h; rw [h] at t0; simp at t0
  have hx' : 0 < t.q ∨ (t.q < 0 ∧ (FVal.fin false 2).q.den = 1) := by
    rcases lt_or_gt_of_ne tq0 with h | h
    · exact .inr ⟨h, rfl⟩
    · exact .inl h
  have hpw : realPow t.q (FVal.fin false 2).q = (t.q : ℝ) ^ 2 := by
    rw [show (FVal.fin false 2).q = ((2 : ℤ) : ℚ) from rfl, realPow_int]; norm_cast
  have b := ht.bd.mul ht.bd
  rw [← sq] at b
  have lo : (2 : ℝ) ^ FltTy.f64.emin ≤ |(t.q : ℝ) ^ 2| := by
    refine le_trans ?_ b.1
    rw [show FltTy.f64.emin = -((1022 : ℕ) : Int) by decide, zpow_neg, zpow_natCast, ← one_div]
    exact one_div_le_one_div_of_le (by positivity) (pow_le_pow_right₀ (by norm_num) (by norm_num))
  have hi : |(t.q : ℝ) ^ 2| ≤ 2 ^ (FltTy.f64.emax - 1) := by
    refine b.2.trans ?_
    rw [show FltTy.f64.emax - 1 = ((1023 : ℕ) : Int) by decide, zpow_natCast]
    exact pow_le_pow_right₀ (by norm_num) (by norm_num)
  have r := hL.within .f64 t (.fin false 2) ht.within ⟨by norm_num, by decide +kernel⟩ ht.finite trivial hx' (by rw [hpw]; exact ⟨lo, hi⟩)
  rw [hpw, u53] at r
  obtain ⟨p', v', e, fp, ip, fv, iv, r1, r2⟩ := C95_extrapolation R L (1 / 2 ^ 53) (by norm_num) hp hv ha ht r
  refine ⟨p', v', e, fp, ip, fv, iv, r1.trans ?_, r2⟩
  have at0 : 0 ≤ |(a.q : ℝ)| * (t.q : ℝ) ^ 2 := by positivity
  have n0 := eta.1
  have p0 := abs_nonneg (p.q : ℝ)
  have v0 := abs_nonneg ((v.q : ℝ) * t.q)
  generalize (1 : ℝ) / 2 ^ 1020 = η at n0 ⊢
  linarith

/-! ### Requirements -/

/-- C95: the updates are accepted only for a measurement of an equivalent dimension and dimensionless gains. -/
theorem C95_requirements (E : Env) (R : Rebinds) (s1 s2 s3 m : VarI) (k1 k2 k3 t : QtyI) :
    (∀ r, stateUpdate2I E R s1 s2 m k1 k2 t = .ok r → dimEquivalent s1.under.ty.dim m.under.ty.dim = .ok true ∧ k1.ty.dim = .named dimOne ∧
      k2.ty.dim = .named dimOne) ∧
    (∀ r, stateUpdate3I E R s1 s2 s3 m k1 k2 k3 t = .ok r → dimEquivalent s1.under.ty.dim m.under.ty.dim = .ok true ∧ k1.ty.dim = .named dimOne ∧
      k2.ty.dim = .named dimOne ∧ k3.ty.dim = .named dimOne) := by
  constructor
  · intro r h
    simp only [stateUpdate2I, bind_ok] at h
    obtain ⟨e, he, h⟩ := h
    split at h
    · rename_i hc
      exact ⟨by rw [he, hc.1], hc.2⟩
    · cases h
  · intro r h
    simp only [stateUpdate3I, bind_ok] at h
    obtain ⟨e, he, h⟩ := h
    split at h
    · rename_i hc
      exact ⟨by rw [he, hc.1], hc.2⟩
    · cases h

/-- A measurement in seconds, and a gain in metres in each of the three places, are rejected. -/
example :
    let p : VarI := .qty ⟨lenTy (.flt .f64), .f (.fin false 30250)⟩
    let v : VarI := .qty ⟨Demos.speedTy (.flt .f64), .f (.fin false 50)⟩
    let a : VarI := .qty ⟨accelTy, .f (.fin false 0)⟩
    let t : QtyI := ⟨timeTy (.flt .f64), .f (.fin false 5)⟩
    let k : QtyI := ⟨gainTy, .f (.fin false (1 / 2))⟩
    let k' : QtyI := ⟨lenTy (.flt .f64), .f (.fin false (1 / 2))⟩
    stateUpdate2I demoEnv exNoRebinds p v (.qty t) k k t = .error .rejected ∧ stateUpdate2I demoEnv exNoRebinds p v p k' k t = .error .rejected ∧
      stateUpdate2I demoEnv exNoRebinds p v p k k' t = .error .rejected ∧ stateUpdate3I demoEnv exNoRebinds p v a (.qty t) k k k t = .error .rejected ∧
      stateUpdate3I demoEnv exNoRebinds p v a p k' k k t = .error .rejected ∧ stateUpdate3I demoEnv exNoRebinds p v a p k k' k t = .error .rejected ∧
      stateUpdate3I demoEnv exNoRebinds p v a p k k k' t = .error .rejected := by decide +kernel

/-! ### Cases -/

/-- The gains 0.5, 0.4 and 0.1 of example/kalman_filter/kalman_filter-example_4.cpp:59 as `double`. -/
def exGain05 : FVal := .fin false (1 / 2)
@[inherit_doc exGain05]
def exGain04 : FVal := .fin false (3602879701896397 / 2 ^ 53)

theorem exUpto {n : Bool} {x : ℚ} (h0 : 0 ≤ x) (h1 : FltTy.f64.rndMag x = some x) (h2 : x ≤ 2 ^ 100) : Upto 100 (.fin n x) :=
  ⟨trivial, ⟨h0, h1⟩, by cases n <;> simp [FVal.q, abs_of_nonneg h0, h2]⟩

theorem exMid5 : Mid (.fin false 5) := Mid.of (by norm_num) (by norm_num) (by decide +kernel)

/-- The first update of the program: 30205 m, 42.8 m/s and -0.72 m/s², the last two up to rounding. -/
example (R : Rebinds) : ∃ p' v' a', stateUpdate3I demoEnv R (.qty ⟨lenTy (.flt .f64), .f (.fin false 30250)⟩) (.qty ⟨Demos.speedTy (.flt .f64), .f (.fin false 50)⟩)
      (.qty ⟨accelTy, .f (.fin false 0)⟩) (.qty (exReading 30160)) ⟨gainTy, .f exGain05⟩ ⟨gainTy, .f exGain04⟩ ⟨gainTy, .f exGain01⟩
      ⟨timeTy (.flt .f64), .f (.fin false 5)⟩ =
    .ok (.qty ⟨lenTy (.flt .f64), .f p'⟩, .qty ⟨Demos.speedTy (.flt .f64), .f v'⟩, .qty ⟨accelTy, .f a'⟩) ∧
      |p'.q - 30205| ≤ 1 / 10 ^ 9 ∧ |v'.q - 428 / 10| ≤ 1 / 10 ^ 9 ∧ |a'.q + 72 / 100| ≤ 1 / 10 ^ 9 := by
  obtain ⟨p', v', a', e, -, -, -, -, -, -, r1, r2, r3⟩ := C95_state_update R (p := .fin false 30250) (v := .fin false 50) (a := .fin false 0) (k1 := exGain05)
    (k2 := exGain04) (k3 := exGain01) (mv := .fin false ((30160 : Int) : ℚ)) (exUpto (by norm_num) (by decide +kernel) (by norm_num))
    (exUpto (by norm_num) (by decide +kernel) (by norm_num)) (exUpto (by norm_num) (by decide +kernel) (by norm_num))
    (exUpto (by norm_num) (by decide +kernel) (by norm_num)) (exUpto (by norm_num) (by decide +kernel) (by norm_num))
    (exUpto (by norm_num) (by decide +kernel) (by norm_num)) (exReading_measured (by norm_num) (by norm_num))
    (exUpto (by norm_num) (by decide +kernel) (by norm_num)) exMid5
  refine ⟨p', v', a', e, ?_⟩
  have n0 : (0 : ℚ) ≤ 1 / 2 ^ 1020 := by positivity
  have n1 : (1 : ℚ) / 2 ^ 1020 ≤ 1 := by rw [div_le_one (by positivity)]; exact one_le_pow₀ (by norm_num)
  generalize (1 : ℚ) / 2 ^ 1020 = η at n0 n1 r1 r2 r3
  generalize p'.q = x at r1 ⊢
  generalize v'.q = y at r2 ⊢
  generalize a'.q = z at r3 ⊢
  norm_num [exGain05, exGain04, exGain01, FVal.q, abs_le] at r1 r2 r3
  refine ⟨?_, ?_, ?_⟩ <;> rw [abs_le] <;> constructor <;> linarith

/-- The next extrapolation, from 30205 m, 42 m/s and -0.75 m/s² by 5 s: 30405.625 m and 38.25 m/s. -/
example (R : Rebinds) : ∃ L : LibmI, ∃ p' v', extrapolate3I demoEnv R L (.qty ⟨lenTy (.flt .f64), .f (.fin false 30205)⟩)
      (.qty ⟨Demos.speedTy (.flt .f64), .f (.fin false 42)⟩) (.qty ⟨accelTy, .f (.fin true (3 / 4))⟩) ⟨timeTy (.flt .f64), .f (.fin false 5)⟩ =
    .ok (.qty ⟨lenTy (.flt .f64), .f p'⟩, .qty ⟨Demos.speedTy (.flt .f64), .f v'⟩, .qty ⟨accelTy, .f (.fin true (3 / 4))⟩) ∧
      |(p'.q : ℝ) - 30405625 / 1000| ≤ 1 / 10 ^ 9 ∧ |(v'.q : ℝ) - 3825 / 100| ≤ 1 / 10 ^ 9 := by
  obtain ⟨L, hL, -, -⟩ := libm_exists
  obtain ⟨p', v', e, -, -, -, -, r1, r2⟩ := C95_extrapolation_rounded R L hL (p := .fin false 30205) (v := .fin false 42) (a := .fin true (3 / 4))
    (exUpto (by norm_num) (by decide +kernel) (by norm_num)) (exUpto (by norm_num) (by decide +kernel) (by norm_num))
    (exUpto (by norm_num) (by decide +kernel) (by norm_num)) exMid5
  refine ⟨L, p', v', e, ?_⟩
  have n0 := eta.1
  have n1 := eta.2
  generalize (1 : ℝ) / 2 ^ 1020 = η at n0 n1 r1 r2
  generalize p'.q = x at r1 ⊢
  generalize v'.q = y at r2 ⊢
  norm_num [FVal.q, abs_le] at r1 r2
  refine ⟨?_, ?_⟩ <;> rw [abs_le] <;> constructor <;> linarith

/-- With an integral interval the update of the acceleration is wrong, as in `C79_integral_interval`: `interval * interval / 2` truncates 12.5 s² to
12 s², and the acceleration is -0.75 m/s² rather than -0.72 m/s². -/
theorem C95_integral_interval_wrong : ∃ v', stateUpdate3I demoEnv exNoRebinds (.qty ⟨lenTy (.flt .f64), .f (.fin false 30250)⟩)
      (.qty ⟨Demos.speedTy (.flt .f64), .f (.fin false 50)⟩) (.qty ⟨accelTy, .f (.fin false 0)⟩) (.qty (exReading 30160)) ⟨gainTy, .f exGain05⟩
      ⟨gainTy, .f exGain04⟩ ⟨gainTy, .f exGain01⟩ ⟨timeTy (.int .i64), .i 5⟩ =
    .ok (.qty ⟨lenTy (.flt .f64), .f (.fin false 30205)⟩, .qty ⟨Demos.speedTy (.flt .f64), v'⟩, .qty ⟨accelTy, .f (.fin true (3 / 4))⟩) :=
  ⟨.f (.fin false (6023564501608038 / 2 ^ 47)), by decide +kernel⟩

end Verif
