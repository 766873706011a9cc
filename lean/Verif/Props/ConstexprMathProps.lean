import Verif.ExpApprox
import Verif.Props.RatioProps
import Mathlib.Analysis.SpecialFunctions.Log.Deriv
import Mathlib.Analysis.Complex.ExponentialBounds

/-!
# Property C54: logarithm, exponential and power at compile time — and C09, C10 with the root estimate that is computed there

Specification: the real functions `Real.log`, `Real.exp` and the power `exp (a · log v)`.
-/

namespace Verif

open Finset

/-! ## The logarithm -/

/-- C54, logarithm in exact arithmetic: for every positive argument the result differs from the real logarithm
by at most `3.2e-14 + 1e-15 |log v|`. -/
theorem C54_log_exact {v : ℚ} (hv : 0 < v) :
    ∃ l : ℚ, constexprLog id v = .ok l ∧ |(l : ℝ) - Real.log v| ≤ 32 / 10 ^ 15 + 1 / 10 ^ 15 * |Real.log v| :=
  constexprLog_within flOK_id hv ⟨v, rfl⟩

/-- C54, logarithm in double precision: the same bound holds with every operation rounded as by IEEE doubles. -/
theorem C54_log_double {w : ℚ} (hv : 0 < rnd53 w) :
    ∃ l : ℚ, constexprLog rnd53 (rnd53 w) = .ok l ∧
      |(l : ℝ) - Real.log (rnd53 w)| ≤ 32 / 10 ^ 15 + 1 / 10 ^ 15 * |Real.log (rnd53 w)| :=
  constexprLog_within flOK_rnd53 hv ⟨w, rfl⟩

example : constexprLog rnd53 1 = .ok 0 ∧ constexprLog rnd53 0 = .error .expects ∧
    (∃ l, constexprLog rnd53 123456789 = .ok l ∧ 18631401766168 / 10 ^ 12 < l ∧ l < 18631401766169 / 10 ^ 12) := by
  refine ⟨by decide +kernel, by decide +kernel, ?_⟩
  have h : ∀ l, constexprLog rnd53 123456789 = .ok l → 18631401766168 / 10 ^ 12 < l ∧ l < 18631401766169 / 10 ^ 12 := by
    have hd : (match constexprLog rnd53 123456789 with
      | .ok l => decide (18631401766168 / 10 ^ 12 < l ∧ l < 18631401766169 / 10 ^ 12)
      | .error _ => false) = true := by decide +kernel
    intro l hl
    rw [hl] at hd
    simpa using hd
  cases hc : constexprLog rnd53 123456789 with
  | ok l => exact ⟨l, rfl, h l hc⟩
  | error e =>
    have hd : (match constexprLog rnd53 123456789 with
      | .ok _ => true
      | .error _ => false) = true := by decide +kernel
    rw [hc] at hd; exact absurd hd (by simp)

/-! ## The exponential -/

/-- C54, exponential in exact arithmetic: for every order up to twenty, every positive factor and every argument the relative
error is at most `(1 + δ)^Factor - 1`, where `δ = e^(2|x|) |x|^(N+1) / (N+1)!` with `x = v / Factor` bounds the rest of the Taylor series. -/
theorem C54_exp_exact {N F : Nat} (hN0 : 0 < N) (hN : N ≤ 20) (hF : 0 < F) (v : ℚ) :
    ∃ r : ℚ, constexprExp id N F v = .ok r ∧
      |(r : ℝ) - Real.exp v| ≤
        Real.exp v * ((1 + Real.exp (2 * |(v : ℝ) / F|) * (|(v : ℝ) / F| ^ (N + 1) / (N + 1).factorial)) ^ F - 1) := by
  have hFR : (0 : ℝ) < F := by exact_mod_cast hF
  have hpow : ∀ (n : Nat) (w : ℚ), powImplQ id n w = w ^ n := by
    intro n
    induction n using Nat.strong_induction_on with
    | _ n ih =>
      intro w
      rw [powImplQ.eq_def]
      split_ifs with h0 h1 h2
      · subst h0; simp
      · subst h1; simp
      · rw [ih _ (by omega)]
        simp only [id]
        rw [← pow_two, ← pow_mul]; congr 1; omega
      · rw [ih _ (by omega)]
        simp only [id]
        rw [← pow_two, ← pow_mul, ← pow_succ']; congr 1; omega
  refine ⟨(1 + ∑ k ∈ range N, (v / F) ^ (k + 1) / (k + 1).factorial) ^ F, ?_, ?_⟩
  · unfold constexprExp
    rw [if_neg (by omega), if_neg (by omega)]
    simp only [id]
    rw [expLoop_exact _ _ _ hN, ok_bind, hpow]
    simp
  · set x : ℝ := (v : ℝ) / F with hxdef
    have e : (((1 + ∑ k ∈ range N, (v / F) ^ (k + 1) / (k + 1).factorial) ^ F : ℚ) : ℝ) =
        (∑ m ∈ range (N + 1), x ^ m / m.factorial) ^ F := by
      rw [← exp_poly]; push_cast; rfl
    rw [e]
    set W := ∑ m ∈ range (N + 1), x ^ m / (m.factorial : ℝ)
    have hb := exp_rest x (N + 1)
    set δ0 : ℝ := |x| ^ (N + 1) / (N + 1).factorial with hδ0
    have hδ0n : 0 ≤ δ0 := by positivity
    rw [abs_sub_comm] at hb
    have hE : Real.exp (v : ℝ) = Real.exp x ^ F := by
      rw [← Real.exp_nat_mul, hxdef]; congr 1; field_simp
    have hpos := Real.exp_pos x
    -- the relative error of one factor
    set q : ℝ := W / Real.exp x with hq
    have hqr : |q - 1| ≤ Real.exp (2 * |x|) * δ0 := by
      have e1 : q - 1 = (W - Real.exp x) * Real.exp (-x) := by
        rw [hq, Real.exp_neg]; field_simp
      rw [e1, abs_mul, abs_of_pos (Real.exp_pos _)]
      have h1 : Real.exp (-x) ≤ Real.exp |x| := Real.exp_le_exp.mpr (neg_le_abs x)
      refine le_trans (mul_le_mul hb h1 (Real.exp_pos _).le (by positivity)) (le_of_eq ?_)
      rw [two_mul, Real.exp_add]; ring
    have hW : W = q * Real.exp x := by rw [hq]; field_simp
    have e2 : W ^ F - Real.exp v = Real.exp v * (q ^ F - 1) := by
      rw [hE, hW, mul_pow]; ring
    rw [e2, abs_mul, abs_of_pos (Real.exp_pos _)]
    refine mul_le_mul_of_nonneg_left ?_ (Real.exp_pos _).le
    -- |q^F - 1| ≤ (1 + |q - 1|)^F - 1
    have h3 : ∀ n : Nat, |q ^ n - 1| ≤ (1 + |q - 1|) ^ n - 1 := by
      intro n
      induction n with
      | zero => simp
      | succ n ih =>
        have e3 : q ^ (n + 1) - 1 = (q ^ n - 1) * (1 + (q - 1)) + (q - 1) := by ring
        rw [e3]
        have h4 : |1 + (q - 1)| ≤ 1 + |q - 1| := le_trans (abs_add_le _ _) (by rw [abs_one])
        have h5 := abs_nonneg (q - 1)
        calc |(q ^ n - 1) * (1 + (q - 1)) + (q - 1)| ≤ |q ^ n - 1| * |1 + (q - 1)| + |q - 1| := by
              rw [← abs_mul]; exact abs_add_le _ _
          _ ≤ ((1 + |q - 1|) ^ n - 1) * (1 + |q - 1|) + |q - 1| := by
              have := mul_le_mul ih h4 (abs_nonneg _) (le_trans (abs_nonneg _) ih)
              linarith
          _ = (1 + |q - 1|) ^ (n + 1) - 1 := by ring
    refine le_trans (h3 F) (sub_le_sub_right (pow_le_pow_left₀ (by positivity) (by linarith) F) 1)

example : constexprExp id 4 2 1 = .ok ((1 + (1 / 2 + 1 / 8 + 1 / 48 + 1 / 384)) ^ 2) := by decide +kernel

theorem exp_of_log_near {p : ℚ} {b d : ℝ} (hp : 0 < p) (h : Within (Real.log p) b d) (hd : d ≤ 1) :
    |(p : ℝ) - Real.exp b| ≤ Real.exp b * (2 * d) := by
  have hp' : (0 : ℝ) < p := by exact_mod_cast hp
  have e : (p : ℝ) - Real.exp b = Real.exp b * (Real.exp (Real.log p - b) - 1) := by
    rw [mul_sub, ← Real.exp_add, mul_one]
    congr 1
    rw [show b + (Real.log p - b) = Real.log p by ring, Real.exp_log hp']
  rw [e, abs_mul, abs_of_pos (Real.exp_pos _)]
  refine mul_le_mul_of_nonneg_left ?_ (Real.exp_pos _).le
  unfold Within at h
  refine le_trans (Real.abs_exp_sub_one_le (le_trans h hd)) ?_
  linarith

/-- C54, exponential as used by `constexpr_pow` in `iroot_compile` (order 12, factor 64), in exact arithmetic and in double precision: the
relative error is at most `4e-13`. -/
theorem C54_exp_12_64 {y : ℚ} (hy : |(y : ℝ)| ≤ 223 / 10) :
    (∃ p : ℚ, constexprExp id 12 64 y = .ok p ∧ |(p : ℝ) - Real.exp y| ≤ Real.exp y * (4 / 10 ^ 13)) ∧
    (∃ p : ℚ, constexprExp rnd53 12 64 y = .ok p ∧ |(p : ℝ) - Real.exp y| ≤ Real.exp y * (4 / 10 ^ 13)) := by
  obtain ⟨p, h1, h2, h3⟩ := constexprExp_near flOK_id hy
  obtain ⟨p', h1', h2', h3'⟩ := constexprExp_near flOK_rnd53 hy
  have a := exp_of_log_near h2 h3 (by norm_num)
  have b := exp_of_log_near h2' h3' (by norm_num)
  refine ⟨⟨p, h1, le_trans a (le_of_eq (by ring))⟩, ⟨p', h1', le_trans b (le_of_eq (by ring))⟩⟩

/-- C54, the coefficients are wrong from order 21 on: the factorial is computed modulo `2^64`. -/
theorem C54_exp_wraps : factMod 21 ≠ Nat.factorial 21 ∧
    expCoeff id 20 = .ok (1 / 14197454024290336768) ∧ (1 : ℚ) / 14197454024290336768 > 3 * (1 / Nat.factorial 21) := by
  refine ⟨by decide +kernel, by decide +kernel, by decide +kernel⟩

theorem factMod_zero {k : Nat} (h : 66 ≤ k) : factMod k = 0 := by
  induction k with
  | zero => omega
  | succ k ih =>
    by_cases h1 : 66 ≤ k
    · rw [factMod, ih h1]; simp
    · have : k = 65 := by omega
      subst this; decide +kernel

/-- C54, orders from 66 on are not constant expressions, whatever the argument: the factorial becomes zero and is divided by. -/
theorem C54_exp_order_66 (fl : ℚ → ℚ) {N : Nat} (F : Nat) (hF : 0 < F) (v : ℚ) (hN : 66 ≤ N) :
    constexprExp fl N F v = .error .divZero := by
  unfold constexprExp
  rw [if_neg (by omega), if_neg (by omega)]
  obtain ⟨i, rfl⟩ : ∃ i, N = i + 1 := ⟨N - 1, by omega⟩
  simp only
  rw [expLoop]
  unfold expCoeff
  rw [factMod_zero hN, if_pos rfl]
  rfl

/-! ## The power -/

/-- C54, power in exact arithmetic: the composition of the exponential, with its error, and of the logarithm, with its error, for every
base and exponent. -/
theorem C54_pow_all {N F : Nat} (hN0 : 0 < N) (hN : N ≤ 20) (hF : 0 < F) {v : ℚ} (hv : 0 < v) (a : ℚ) :
    ∃ p l : ℚ, constexprPow id N F v a = .ok p ∧ |(l : ℝ) - Real.log v| ≤ 32 / 10 ^ 15 + 1 / 10 ^ 15 * |Real.log v| ∧
      |(p : ℝ) - Real.exp (a * l)| ≤
        Real.exp (a * l) * ((1 + Real.exp (2 * |(a * l : ℝ) / F|) * (|(a * l : ℝ) / F| ^ (N + 1) / (N + 1).factorial)) ^ F - 1) := by
  obtain ⟨l, h1, h2⟩ := C54_log_exact hv
  obtain ⟨p, h3, h4⟩ := C54_exp_exact hN0 hN hF (a * l)
  push_cast at h4
  refine ⟨p, l, ?_, h2, h4⟩
  unfold constexprPow
  rw [h1, ok_bind]
  exact h3

/-- C54, power in exact arithmetic, as used by `iroot_compile`: the relative error is below `4.8e-13 + 6.4e-14 |a|`. -/
theorem C54_pow_exact {v a : ℚ} (hv : 0 < v)
    (ha : |(a : ℝ)| ≤ 10 ^ 12) (hav : |(a : ℝ) * Real.log v| ≤ 22) :
    ∃ p : ℚ, constexprPow id 12 64 v a = .ok p ∧
      |(p : ℝ) - (v : ℝ) ^ (a : ℝ)| ≤ (v : ℝ) ^ (a : ℝ) * (48 / 10 ^ 14 + 64 / 10 ^ 15 * |(a : ℝ)|) := by
  obtain ⟨p, h1, h2, h3⟩ := constexprPow_near flOK_id hv ⟨v, rfl⟩ ha hav
  refine ⟨p, h1, ?_⟩
  rw [Real.rpow_def_of_pos (by exact_mod_cast hv), mul_comm (Real.log _)]
  exact le_trans (exp_of_log_near h2 h3 (by linarith)) (le_of_eq (by ring))

/-- C54, power in double precision. -/
theorem C54_pow_double {w a : ℚ} (hv : 0 < rnd53 w)
    (ha : |(a : ℝ)| ≤ 10 ^ 12) (hav : |(a : ℝ) * Real.log (rnd53 w)| ≤ 22) :
    ∃ p : ℚ, constexprPow rnd53 12 64 (rnd53 w) a = .ok p ∧
      |(p : ℝ) - (rnd53 w : ℝ) ^ (a : ℝ)| ≤ (rnd53 w : ℝ) ^ (a : ℝ) * (48 / 10 ^ 14 + 64 / 10 ^ 15 * |(a : ℝ)|) := by
  obtain ⟨p, h1, h2, h3⟩ := constexprPow_near flOK_rnd53 hv ⟨w, rfl⟩ ha hav
  refine ⟨p, h1, ?_⟩
  rw [Real.rpow_def_of_pos (by exact_mod_cast hv), mul_comm (Real.log _)]
  exact le_trans (exp_of_log_near h2 h3 (by linarith)) (le_of_eq (by ring))

/-! ## The root estimate -/

/-- The arguments of the power function: converted to double, the power is still near the root. -/
theorem rootArgs_near {f : ℚ → ℚ} {ε : ℝ} (F : FlOK f ε) {n : Nat} (hn : 2 ≤ n) {v : Int} (hv1 : 1 ≤ v) (hv2 : v ≤ intMax) :
    1 ≤ f v ∧ |((f (1 / n) : ℚ) : ℝ)| ≤ 501 / 1000 ∧ |((f (1 / n) : ℚ) : ℝ) * Real.log (f v : ℚ)| ≤ 22 ∧
      Within (((f (1 / n) : ℚ) : ℝ) * Real.log (f v : ℚ)) (Real.log v / n) (3 / 10 ^ 15) := by
  have hε := F.small
  have hε0 := F.nonneg
  have hnR : (2 : ℝ) ≤ n := by exact_mod_cast hn
  have hnQ : (2 : ℚ) ≤ n := by exact_mod_cast hn
  have hvQ : (1 : ℚ) ≤ v := by exact_mod_cast hv1
  have hvR : (1 : ℝ) ≤ v := by exact_mod_cast hv1
  have hfv : 1 ≤ f v := F.one _ hvQ
  have hvm : (v : ℝ) ≤ 2 ^ 63 := by
    have : v ≤ 2 ^ 63 := by unfold intMax at hv2; omega
    exact_mod_cast this
  have hl0 : 0 ≤ Real.log v := Real.log_nonneg hvR
  have hl1 : Real.log v ≤ 437 / 10 := by
    refine le_trans (Real.log_le_log (by linarith) hvm) ?_
    rw [Real.log_pow]; push_cast
    linarith [Real.log_two_lt_d9]
  have hlf := log_fl F (x := (v : ℚ)) (by linarith)
  push_cast at hlf
  have hlf' := abs_le.mp hlf
  -- the exponent
  have ha := F.rel (1 / n)
  push_cast at ha
  rw [abs_of_pos (show (0 : ℝ) < 1 / n by positivity)] at ha
  have hinv : (1 : ℝ) / n ≤ 1 / 2 := by
    rw [div_le_div_iff₀ (by linarith) (by norm_num)]; linarith
  have hinv0 : (0 : ℝ) < 1 / n := by positivity
  have ha' : |((f (1 / n) : ℚ) : ℝ) - 1 / n| ≤ 6 / 10 ^ 17 :=
    le_trans ha (le_trans (mul_le_mul hε hinv hinv0.le (by norm_num)) (by norm_num))
  have ha2 := abs_le.mp ha'
  have habs : |((f (1 / n) : ℚ) : ℝ)| ≤ 501 / 1000 := by rw [abs_le]; constructor <;> linarith
  have W1 : Within (Real.log (f v : ℚ)) (Real.log v) (24 / 10 ^ 17) := Within.mono hlf (by linarith)
  have W2 : Within ((f (1 / n) : ℚ) : ℝ) (1 / n) (6 / 10 ^ 17) := ha'
  have W3 := W2.mul W1 (B := 1 / 2) (A := 437 / 10) (by rw [abs_of_pos hinv0]; exact hinv) (by rw [abs_of_nonneg hl0]; exact hl1)
  have hb : |1 / (n : ℝ) * Real.log v| ≤ 4370 / 200 := by
    rw [abs_mul, abs_of_pos hinv0, abs_of_nonneg hl0]
    exact le_trans (mul_le_mul hinv hl1 hl0 (by norm_num)) (by norm_num)
  have hav : |((f (1 / n) : ℚ) : ℝ) * Real.log (f v : ℚ)| ≤ 22 := by
    have e : ((f (1 / n) : ℚ) : ℝ) * Real.log (f v : ℚ) =
        (((f (1 / n) : ℚ) : ℝ) * Real.log (f v : ℚ) - 1 / n * Real.log v) + 1 / n * Real.log v := by ring
    rw [e]
    refine le_trans (abs_add_le _ _) (le_trans (add_le_add W3 hb) (by norm_num))
  refine ⟨hfv, habs, hav, ?_⟩
  rw [show Real.log (v : ℝ) / n = 1 / n * Real.log v by ring]
  exact W3.mono (by norm_num)

/-- The estimate of `iroot_compile`, before it is truncated: its logarithm is that of the root up to `2.8e-13`. -/
theorem compileEst_near {f : ℚ → ℚ} {ε : ℝ} (F : FlOK f ε) {n : Nat} (hn : 2 ≤ n) {v : Int} (hv1 : 1 ≤ v) (hv2 : v ≤ intMax) :
    ∃ p : ℚ, constexprPow f 12 64 (f v) (f (1 / n)) = .ok p ∧ 0 < p ∧
      Within (Real.log p) (Real.log v / n) (28 / 10 ^ 14) := by
  obtain ⟨hfv, habs, hav, W⟩ := rootArgs_near F hn hv1 hv2
  obtain ⟨p, q1, q2, q3⟩ := constexprPow_near F (v := f v) (a := f (1 / n)) (by linarith) ⟨v, rfl⟩
    (le_trans habs (by norm_num)) hav
  exact ⟨p, q1, q2, (q3.trans W).mono (by linarith)⟩

/-- The real root. -/
theorem root_bounds {n : Nat} (hn : 2 ≤ n) {v t : Int} (ht : 1 ≤ t) (h1 : t ^ n ≤ v) (h2 : v < (t + 1) ^ n) (hv2 : v ≤ intMax) :
    (t : ℝ) ≤ Real.exp (Real.log v / n) ∧ Real.exp (Real.log v / n) < t + 1 ∧ Real.exp (Real.log v / n) ≤ 2 ^ 32 := by
  have hn0 : n ≠ 0 := by omega
  have hv1 : 1 ≤ v := le_trans (one_le_pow₀ ht) h1
  have hvR : (0 : ℝ) < v := by exact_mod_cast (by omega : 0 < v)
  set R := Real.exp (Real.log v / n) with hR
  have hRp : 0 < R := Real.exp_pos _
  have e : R ^ n = v := by
    rw [hR, ← Real.exp_nat_mul, mul_div_cancel₀ _ (by exact_mod_cast hn0), Real.exp_log hvR]
  have htR : (0 : ℝ) ≤ t := by exact_mod_cast (by omega : 0 ≤ t)
  refine ⟨?_, ?_, ?_⟩
  · by_contra hc
    have := pow_lt_pow_left₀ (not_le.mp hc) hRp.le hn0
    rw [e] at this
    have h1' : (t : ℝ) ^ n ≤ v := by exact_mod_cast h1
    linarith
  · by_contra hc
    have := pow_le_pow_left₀ (by linarith) (not_lt.mp hc) n
    rw [e] at this
    have h2' : (v : ℝ) < ((t : ℝ) + 1) ^ n := by exact_mod_cast h2
    linarith
  · by_contra hc
    have hR1 : 1 ≤ R := by linarith [not_le.mp hc, show (1 : ℝ) ≤ 2 ^ 32 by norm_num]
    have h3 : R ^ 2 ≤ R ^ n := pow_le_pow_right₀ hR1 hn
    have h4 : ((2 : ℝ) ^ 32) ^ 2 ≤ R ^ 2 := pow_le_pow_left₀ (by norm_num) (not_le.mp hc).le 2
    rw [e] at h3
    have h5 : (v : ℝ) ≤ 2 ^ 63 := by
      have : v ≤ 2 ^ 63 := by unfold intMax at hv2; omega
      exact_mod_cast this
    norm_num at h4 h5
    linarith

/-- A number whose logarithm is that of the root up to `2.8e-13` is truncated to the root or a number next to it. -/
theorem trunc_within {n : Nat} (hn : 2 ≤ n) {v t : Int} (ht : 1 ≤ t) (h1 : t ^ n ≤ v) (h2 : v < (t + 1) ^ n) (hv2 : v ≤ intMax)
    {p : ℚ} (q2 : 0 < p) (q3 : Within (Real.log p) (Real.log v / n) (28 / 10 ^ 14)) :
    I64 (truncQ p) ∧ t - 1 ≤ truncQ p ∧ truncQ p ≤ t + 1 ∧
      (v = t ^ n → truncQ p ≤ t) ∧ (t ^ n < v → (n : Int) * v ≤ 3 * 10 ^ 12 → t ≤ truncQ p) := by
  have hv1 : 1 ≤ v := le_trans (one_le_pow₀ ht) h1
  obtain ⟨r1, r2, r3⟩ := root_bounds hn ht h1 h2 hv2
  have q4 := exp_of_log_near q2 q3 (by norm_num)
  have hvR : (0 : ℝ) < v := by exact_mod_cast (by omega : 0 < v)
  set R := Real.exp (Real.log v / n) with hR
  have q5 : |(p : ℝ) - R| ≤ 1 / 400 := by
    refine le_trans q4 ?_
    norm_num at r3 ⊢
    linarith
  have q6 := abs_le.mp q5
  have htR : (1 : ℝ) ≤ t := by exact_mod_cast ht
  have tr : truncQ p = ⌊p⌋ := by unfold truncQ; rw [if_pos q2.le]
  have lo : t - 1 ≤ ⌊p⌋ := by
    rw [Int.le_floor]
    have : ((t - 1 : Int) : ℝ) ≤ p := by push_cast; linarith
    exact_mod_cast this
  have hi : ⌊p⌋ ≤ t + 1 := by
    have : ⌊p⌋ < t + 2 := by
      rw [Int.floor_lt]
      have : (p : ℝ) < ((t + 2 : Int) : ℝ) := by push_cast; linarith
      exact_mod_cast this
    omega
  have hI : I64 ⌊p⌋ := by
    have h3 : t ≤ v := le_trans (le_self_pow₀ ht (by omega)) h1
    have h4 : (p : ℝ) < 2 ^ 33 := by norm_num at r3 ⊢; linarith
    have h5 : ⌊p⌋ < 2 ^ 33 := by
      rw [Int.floor_lt]
      exact_mod_cast h4
    unfold I64 intMin intMax; constructor <;> omega
  rw [tr]
  refine ⟨hI, lo, hi, ?_, ?_⟩
  · intro he
    have hRt : R = t := by
      have ht' : (0 : ℝ) < t := by linarith
      rw [hR, he]; push_cast
      rw [Real.log_pow, mul_div_assoc, mul_div_cancel₀, Real.exp_log ht']
      exact_mod_cast (by omega : n ≠ 0)
    have : ⌊p⌋ < t + 1 := by
      rw [Int.floor_lt]
      have : (p : ℝ) < ((t + 1 : Int) : ℝ) := by push_cast; linarith
      exact_mod_cast this
    omega
  · intro hlt hnv
    rw [Int.le_floor]
    have hp' : (0 : ℝ) < p := by exact_mod_cast q2
    have ht' : (0 : ℝ) < t := by linarith
    suffices h : Real.log t ≤ Real.log p by
      have := (Real.log_le_log_iff ht' hp').mp h
      exact_mod_cast this
    -- log v ≥ n log t + 1 / v
    have hnR : (2 : ℝ) ≤ n := by exact_mod_cast hn
    have htn : (0 : ℝ) < (t : ℝ) ^ n := pow_pos ht' n
    have hlt' : (t : ℝ) ^ n + 1 ≤ v := by exact_mod_cast (by omega : t ^ n + 1 ≤ v)
    have g1 : Real.log ((t : ℝ) ^ n / v) ≤ (t : ℝ) ^ n / v - 1 := Real.log_le_sub_one_of_pos (by positivity)
    rw [Real.log_div htn.ne' hvR.ne', Real.log_pow] at g1
    have g2 : (t : ℝ) ^ n / v ≤ 1 - 1 / v := by
      rw [div_le_iff₀ hvR, sub_mul, one_mul, one_div, inv_mul_cancel₀ hvR.ne']; linarith
    have g3 : (n : ℝ) * v ≤ 3 * 10 ^ 12 := by exact_mod_cast hnv
    have g4 : (1 : ℝ) / (3 * 10 ^ 12) ≤ 1 / (n * v) := one_div_le_one_div_of_le (by positivity) g3
    have g5 : Real.log t + 1 / (n * v) ≤ Real.log v / n := by
      rw [le_div_iff₀ (by linarith), add_mul]
      have : 1 / ((n : ℝ) * v) * n = 1 / v := by field_simp
      rw [this]
      linarith
    have g6 := (abs_le.mp q3).1
    have g7 : (28 : ℝ) / 10 ^ 14 ≤ 1 / (n * v) := le_trans (by norm_num) g4
    linarith

/-- The compile-time estimate of the root is defined and within one of it. -/
theorem compileEst_within {f : ℚ → ℚ} {ε : ℝ} (F : FlOK f ε) {n : Nat} (hn : 2 ≤ n) {v t : Int} (ht : 1 ≤ t) (h1 : t ^ n ≤ v)
    (h2 : v < (t + 1) ^ n) (hv2 : v ≤ intMax) :
    compileEstC f n v = .ok (compileEst f n v) ∧ t - 1 ≤ compileEst f n v ∧ compileEst f n v ≤ t + 1 ∧
      (v = t ^ n → compileEst f n v ≤ t) ∧ (t ^ n < v → (n : Int) * v ≤ 3 * 10 ^ 12 → t ≤ compileEst f n v) := by
  obtain ⟨p, q1, q2, q3⟩ := compileEst_near F hn (le_trans (one_le_pow₀ ht) h1) hv2
  obtain ⟨hI, h⟩ := trunc_within hn ht h1 h2 hv2 q2 q3
  have hC : compileEstC f n v = .ok (truncQ p) := by
    unfold compileEstC
    rw [q1, ok_bind, if_pos hI]
  have hE : compileEst f n v = truncQ p := by unfold compileEst; rw [hC]
  rw [hE]
  exact ⟨hC, h⟩

/-- C10 for the estimate that is computed, in exact arithmetic: on a perfect power an accepted integer root is exact. -/
theorem C10_compile_perfect_power_exact (n : Nat) (hn : 1 ≤ n) (t y : Int) (ht : 0 < t) (hm : t ^ n ≤ intMax)
    (h : iroot (compileEst id) n (t ^ n) = .ok y) : y = t := by
  refine C10_iroot_perfect_power_partial _ n hn t y ht (fun h1 => ?_) h
  have hn2 : 2 ≤ n := by omega
  obtain ⟨-, a, b, -⟩ := compileEst_within flOK_id hn2 (v := t ^ n) (t := t) (by omega) (le_refl _)
    (pow_lt_pow_left₀ (by omega) ht.le (by omega)) hm
  rw [abs_le]; constructor <;> linarith

/-- C10 for the estimate that is computed, in double precision: on a perfect power an accepted integer root is exact. -/
theorem C10_compile_perfect_power (n : Nat) (hn : 1 ≤ n) (t y : Int) (ht : 0 < t) (hm : t ^ n ≤ intMax)
    (h : iroot (compileEst rnd53) n (t ^ n) = .ok y) : y = t := by
  refine C10_iroot_perfect_power_partial _ n hn t y ht (fun h1 => ?_) h
  have hn2 : 2 ≤ n := by omega
  obtain ⟨-, a, b, -⟩ := compileEst_within flOK_rnd53 hn2 (v := t ^ n) (t := t) (by omega) (le_refl _)
    (pow_lt_pow_left₀ (by omega) ht.le (by omega)) hm
  rw [abs_le]; constructor <;> linarith

example : iroot (compileEst rnd53) 5 (496 ^ 5) = .ok 496 := by decide +kernel

/-- C10 for the estimate that is computed in double precision, up to `3e12 / N`: the integer root is the floor of the real root, and is accepted
unless `(root+2)^N` overflows. -/
theorem C10_compile_floor_partial (n : Nat) (hn : 1 ≤ n) (v t : Int) (ht : 0 ≤ t) (h1 : t ^ n ≤ v) (h2 : v < (t + 1) ^ n)
    (hv : n = 1 ∨ (n : Int) * v ≤ 3 * 10 ^ 12) (hov : n = 1 ∨ (t + 2) ^ n ≤ intMax) : iroot (compileEst rnd53) n v = .ok t := by
  have hn0 : n ≠ 0 := by omega
  by_cases hn1 : n = 1
  · exact C10_iroot_floor_partial _ n hn v t ht h1 h2 (Or.inl hn1) (Or.inl hn1)
  · replace hv := hv.resolve_left hn1
    replace hov := hov.resolve_left hn1
    by_cases hv0 : v = 0
    · exact C10_iroot_floor_partial _ n hn v t ht h1 h2 (Or.inr (Or.inl hv0)) (Or.inr (Or.inl hv0))
    · have ht1 : 1 ≤ t := by
        by_contra hc
        have : t = 0 := by omega
        subst this
        rw [zero_add, one_pow] at h2
        rw [zero_pow hn0] at h1
        omega
      have hv2 : v ≤ intMax := by
        refine le_trans h2.le (le_trans (pow_le_pow_left₀ (by omega) (by omega) n) hov)
      obtain ⟨-, a, b, c, d⟩ := compileEst_within flOK_rnd53 (by omega : 2 ≤ n) ht1 h1 h2 hv2
      refine C10_iroot_floor_partial _ n hn v t ht h1 h2 (Or.inr (Or.inr ?_)) (Or.inr (Or.inr ?_))
      · rcases lt_or_eq_of_le h1 with h3 | h3
        · have := d h3 hv
          omega
        · have := c h3.symm
          omega
      · exact le_trans (pow_le_pow_left₀ (by omega) (by omega) n) hov

example : iroot (compileEst rnd53) 3 999999 = .ok 99 := by decide +kernel

/-- C10 fails for the estimate that is computed in double precision: just above a square or a fifth power the result is one too little. -/
theorem C10_compile_underestimate :
    iroot (compileEst rnd53) 2 69911956427570 = .ok 8361336 ∧ (8361337 : Int) ^ 2 ≤ 69911956427570 ∧
    iroot (compileEst rnd53) 5 30019840638977 = .ok 495 ∧ (496 : Int) ^ 5 ≤ 30019840638977 := by
  refine ⟨by decide +kernel, by norm_num, by decide +kernel, by norm_num⟩

/-- C10, partial, for the estimate that is computed in double precision: over the whole range an accepted integer root is the floor of the
real root or one less.  Missing for the full claim: `C10_compile_underestimate`. -/
theorem C10_compile_near_partial (n : Nat) (hn : 1 ≤ n) (v t y : Int) (ht : 0 ≤ t) (h1 : t ^ n ≤ v) (h2 : v < (t + 1) ^ n)
    (hv : v ≤ intMax) (h : iroot (compileEst rnd53) n v = .ok y) : y = t ∨ y = t - 1 := by
  have hn0 : n ≠ 0 := by omega
  have hv0 : 0 ≤ v := le_trans (pow_nonneg ht n) h1
  by_cases hn1 : n = 1
  · subst hn1
    unfold iroot at h
    rw [if_pos rfl] at h
    simp only [pow_one, Except.ok.injEq] at h1 h2 h
    omega
  · by_cases hz : v = 0
    · subst hz
      have ht0 : t = 0 := by
        by_contra hc
        have := pow_pos (by omega : 0 < t) n
        omega
      unfold iroot at h
      rw [if_neg hn1, expects, if_pos (le_refl _), ok_bind, if_pos rfl] at h
      simp only [Except.ok.injEq] at h
      omega
    · have ht1 : 1 ≤ t := by
        by_contra hc
        have : t = 0 := by omega
        subst this
        rw [zero_add, one_pow] at h2
        omega
      obtain ⟨-, a, b, -⟩ := compileEst_within flOK_rnd53 (by omega : 2 ≤ n) ht1 h1 h2 hv
      unfold iroot at h
      rw [if_neg hn1, expects, if_pos hv0, ok_bind, if_neg hz] at h
      simp only [bind_ok, add64_eq_ok] at h
      obtain ⟨_, ⟨-, rfl⟩, q, hq, h⟩ := h
      have hq := powImplInt_sound _ hq
      subst hq
      have mono : ∀ a b : Int, 0 ≤ a → a ≤ b → a ^ n ≤ b ^ n := fun a b ha hab => pow_le_pow_left₀ ha hab n
      split at h
      · rename_i heq
        simp only [Except.ok.injEq] at h
        left
        rcases lt_trichotomy y t with hc | hc | hc
        · have := mono y t (by omega) hc.le
          have h3 : y ^ n < t ^ n := pow_lt_pow_left₀ hc (by omega) hn0
          rw [h] at heq; omega
        · exact hc
        · have := mono (t + 1) y (by omega) (by omega)
          rw [h] at heq; omega
      · simp only [bind_ok] at h
        obtain ⟨q, hq, h⟩ := h
        have hq := powImplInt_sound _ hq
        subst hq
        split at h
        · rename_i hlt
          simp only [sub64_eq_ok] at h
          have h3 : t < compileEst rnd53 n v := by
            by_contra hc
            have := mono (compileEst rnd53 n v) t (by omega) (by omega)
            omega
          left; omega
        · rename_i hnl
          simp only [Except.ok.injEq] at h
          have h3 : compileEst rnd53 n v ≤ t := by
            by_contra hc
            have := mono (t + 1) (compileEst rnd53 n v) (by omega) (by omega)
            omega
          omega

/-! ## The root at run time -/

/-- The estimate of `iroot_runtime<N>`, src/core/include/units/bits/root.h:72-84; `pw x a` is what `std::sqrt`, `std::cbrt` (for `N` two and three) or
`std::pow` return. -/
def runtimeEst (pw : Nat → ℚ → ℚ → ℚ) : RootEstimate := fun n v => truncQ (pw n (rnd53 v) (rnd53 (1 / n)))

/-- What is needed of the standard library: roots with a relative error of at most `1e-13`. -/
def AccurateRoots (pw : Nat → ℚ → ℚ → ℚ) : Prop :=
  ∀ (n : Nat) (x : ℚ), 2 ≤ n → 1 ≤ x → |(pw n x (rnd53 (1 / n)) : ℝ) - (x : ℝ) ^ ((rnd53 (1 / n) : ℚ) : ℝ)| ≤
    (x : ℝ) ^ ((rnd53 (1 / n) : ℚ) : ℝ) / 10 ^ 13

theorem runtimeEst_within {pw : Nat → ℚ → ℚ → ℚ} (hpw : AccurateRoots pw) {n : Nat} (hn : 2 ≤ n) {v t : Int} (ht : 1 ≤ t)
    (h1 : t ^ n ≤ v) (h2 : v < (t + 1) ^ n) (hv2 : v ≤ intMax) :
    t - 1 ≤ runtimeEst pw n v ∧ runtimeEst pw n v ≤ t + 1 ∧
      (v = t ^ n → runtimeEst pw n v ≤ t) ∧ (t ^ n < v → (n : Int) * v ≤ 3 * 10 ^ 12 → t ≤ runtimeEst pw n v) := by
  obtain ⟨hfv, -, -, W⟩ := rootArgs_near flOK_rnd53 hn (le_trans (one_le_pow₀ ht) h1) hv2
  have hfR : (0 : ℝ) < (rnd53 v : ℚ) := by exact_mod_cast (by linarith : 0 < rnd53 v)
  have hacc := hpw n (rnd53 v) hn hfv
  rw [Real.rpow_def_of_pos hfR] at hacc
  set b := Real.log (rnd53 v : ℚ) * ((rnd53 (1 / n) : ℚ) : ℝ) with hb
  have hE := Real.exp_pos b
  have hacc' := abs_le.mp hacc
  have hp : (0 : ℝ) < pw n (rnd53 v) (rnd53 (1 / n)) := by
    have : Real.exp b / 10 ^ 13 < Real.exp b := by rw [div_lt_iff₀ (by norm_num)]; linarith
    linarith [hacc'.1]
  have L : Within (Real.log (pw n (rnd53 v) (rnd53 (1 / n)))) b (2 / 10 ^ 13) := by
    unfold Within
    have u1 := Real.log_le_sub_one_of_pos (div_pos hp hE)
    rw [Real.log_div hp.ne' hE.ne', Real.log_exp] at u1
    have u2 := Real.log_le_sub_one_of_pos (div_pos hE hp)
    rw [Real.log_div hE.ne' hp.ne', Real.log_exp] at u2
    have v1 : (pw n (rnd53 v) (rnd53 (1 / n)) : ℝ) / Real.exp b - 1 ≤ 2 / 10 ^ 13 := by
      rw [sub_le_iff_le_add, div_le_iff₀ hE]
      linarith [hacc'.2]
    have v2 : Real.exp b / (pw n (rnd53 v) (rnd53 (1 / n)) : ℝ) - 1 ≤ 2 / 10 ^ 13 := by
      rw [sub_le_iff_le_add, div_le_iff₀ hp]
      linarith [hacc'.1]
    rw [abs_le]
    constructor <;> linarith
  have hW : Within b (Real.log v / n) (3 / 10 ^ 15) := by rw [hb, mul_comm]; exact W
  exact (trunc_within hn ht h1 h2 hv2 (by exact_mod_cast hp) ((L.trans hW).mono (by norm_num))).2

/-- C10 at run time: on a perfect power an accepted integer root is exact, if the roots of the standard library have a relative error
of at most `1e-13`. -/
theorem C10_runtime_perfect_power {pw : Nat → ℚ → ℚ → ℚ} (hpw : AccurateRoots pw) (n : Nat) (hn : 1 ≤ n) (t y : Int) (ht : 0 < t)
    (hm : t ^ n ≤ intMax) (h : iroot (runtimeEst pw) n (t ^ n) = .ok y) : y = t := by
  refine C10_iroot_perfect_power_partial _ n hn t y ht (fun h1 => ?_) h
  obtain ⟨a, b, -⟩ := runtimeEst_within hpw (by omega : 2 ≤ n) (v := t ^ n) (t := t) (by omega) (le_refl _)
    (pow_lt_pow_left₀ (by omega) ht.le (by omega)) hm
  rw [abs_le]; constructor <;> linarith

/-- C10 at run time, up to `3e12 / N`: the integer root is the floor of the real root. -/
theorem C10_runtime_floor_partial {pw : Nat → ℚ → ℚ → ℚ} (hpw : AccurateRoots pw) (n : Nat) (hn : 2 ≤ n) (v t : Int) (ht : 1 ≤ t)
    (h1 : t ^ n ≤ v) (h2 : v < (t + 1) ^ n) (hv : (n : Int) * v ≤ 3 * 10 ^ 12) (hov : (t + 2) ^ n ≤ intMax) :
    iroot (runtimeEst pw) n v = .ok t := by
  have hv2 : v ≤ intMax := le_trans h2.le (le_trans (pow_le_pow_left₀ (by omega) (by omega) n) hov)
  obtain ⟨a, b, c, d⟩ := runtimeEst_within hpw hn ht h1 h2 hv2
  refine C10_iroot_floor_partial _ n (by omega) v t (by omega) h1 h2 (Or.inr (Or.inr ?_)) (Or.inr (Or.inr ?_))
  · rcases lt_or_eq_of_le h1 with h3 | h3
    · have := d h3 hv
      omega
    · have := c h3.symm
      omega
  · exact le_trans (pow_le_pow_left₀ (by omega) (by omega) n) hov

/-- The hypothesis is met by roots rounded down to a multiple of `1e-13`. -/
example : AccurateRoots (fun _ x a => (⌊(x : ℝ) ^ (a : ℝ) * 10 ^ 13⌋ : ℚ) / 10 ^ 13) := by
  intro n x hn hx
  have hx' : (1 : ℝ) ≤ x := by exact_mod_cast hx
  have ha : (0 : ℝ) ≤ ((rnd53 (1 / n) : ℚ) : ℝ) := by
    have hn' : (0 : ℚ) < n := by exact_mod_cast (by omega : 0 < n)
    have : 0 < rnd53 (1 / n) := fl_pos flOK_rnd53 (by positivity)
    exact_mod_cast this.le
  have hr : 1 ≤ (x : ℝ) ^ ((rnd53 (1 / n) : ℚ) : ℝ) := Real.one_le_rpow hx' ha
  simp only
  push_cast
  generalize (x : ℝ) ^ ((rnd53 (1 / n) : ℚ) : ℝ) = r at *
  have h1 := Int.floor_le (r * 10 ^ 13)
  have h2 := Int.lt_floor_add_one (r * 10 ^ 13)
  generalize ((⌊r * 10 ^ 13⌋ : ℤ) : ℝ) = k at *
  rw [abs_le]
  constructor <;> linarith

/-- C09 for the estimate that is computed, in double precision: if the aligned numerator and denominator have no common factor, then an accepted
root of a perfect power is exact.  Missing for the full claim: `C09_sqrt_of_25`. -/
theorem C09_compile_exact_partial (n : Nat) (hn : 1 ≤ n) (r x : Ratio) (q : ℚ)
    (hr : r.WF) (hq0 : 0 < q) (hq : r.val = q ^ n)
    (halign : ∀ a b e, makeExpAlign r n = .ok (a, b, e) → Int.gcd a b = 1)
    (h : rootR (compileEst rnd53) n r = .ok x) : x.val = q := by
  refine C09_root_exact_partial _ n hn r x q hr hq0 hq halign (fun h1 t ht hm => ?_) h
  obtain ⟨-, a, b, -⟩ := compileEst_within flOK_rnd53 (by omega : 2 ≤ n) (v := t ^ n) (t := t) (by omega) (le_refl _)
    (pow_lt_pow_left₀ (by omega) ht.le (by omega)) hm
  rw [abs_le]; constructor <;> linarith

example : rootR (compileEst rnd53) 2 ⟨49, 9, 4⟩ = .ok ⟨7, 3, 2⟩ := by decide +kernel

/-- C09 fails as computed: the square root of 25 written as `5/2·10` is 7. -/
theorem C09_compile_sqrt_of_25 : sqrtR (compileEst rnd53) ⟨5, 2, 1⟩ = .ok ⟨7, 1, 0⟩ ∧ (⟨5, 2, 1⟩ : Ratio).val = 5 ^ 2 := by
  refine ⟨by decide +kernel, by simp only [Ratio.val]; norm_num⟩

end Verif
