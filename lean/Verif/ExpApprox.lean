import Verif.Rounding
import Mathlib.Analysis.Complex.Exponential
import Mathlib.Analysis.SpecialFunctions.Pow.Real
import Mathlib.Analysis.SpecialFunctions.Exponential

/-!
# The accuracy of `constexpr_exp` and `constexpr_pow`
-/

namespace Verif

open Finset

/-! ## The logarithm again -/

/-- The error of `constexpr_log`, in terms of the argument. -/
theorem constexprLog_within {f : ℚ → ℚ} {ε : ℝ} (F : FlOK f ε) {v : ℚ} (hv : 0 < v) (hw : ∃ w, v = f w) :
    ∃ l : ℚ, constexprLog f v = .ok l ∧ Within (l : ℝ) (Real.log v) (32 / 10 ^ 15 + 1 / 10 ^ 15 * |Real.log v|) := by
  obtain ⟨l, n1, n2, hl, hnear, hz1, hz2, t, t0, t1, ht⟩ := constexprLog_near F hv hw
  refine ⟨l, hl, hnear.mono ?_⟩
  have hε := F.small
  have hε0 := F.nonneg
  have hL := log_ten_bounds
  have c1 : (0 : ℝ) ≤ n1 := Nat.cast_nonneg _
  have c2 : (0 : ℝ) ≤ n2 := Nat.cast_nonneg _
  have g5 : 2 * ε * ((n1 : ℝ) + n2) ≤ 2 * (12 / 10 ^ 17) * ((n1 : ℝ) + n2) :=
    mul_le_mul_of_nonneg_right (by linarith) (by linarith)
  have h1 := (abs_le.mp ht).1
  have h2 := (abs_le.mp ht).2
  rcases lt_or_ge v 1 with hlt | hge
  · have hn2 : (n2 : ℝ) ≤ 1 := by exact_mod_cast hz2 hlt
    have a1 : -Real.log v ≤ |Real.log v| := neg_le_abs _
    have a2 : (n1 : ℝ) * (23 / 10) ≤ n1 * Real.log 10 := mul_le_mul_of_nonneg_left hL.2 c1
    have a3 : (n2 : ℝ) * Real.log 10 ≤ 1 * (2303 / 1000) := mul_le_mul hn2 hL.1 (by linarith [hL.2]) (by norm_num)
    have a4 : (0 : ℝ) ≤ n2 * Real.log 10 := mul_nonneg c2 (by linarith [hL.2])
    nlinarith
  · have hn1 : n1 = 0 := hz1 hge
    subst hn1
    have a1 : Real.log v ≤ |Real.log v| := le_abs_self _
    have a2 : (n2 : ℝ) * (23 / 10) ≤ n2 * Real.log 10 := mul_le_mul_of_nonneg_left hL.2 c2
    push_cast at *
    nlinarith

/-! ## The coefficients and the loop -/

theorem factMod_eq {k : Nat} (h : k ≤ 20) : factMod k = k.factorial := by
  have : ∀ k < 21, factMod k = k.factorial := by decide +kernel
  exact this k (by omega)

/-- The loop in exact arithmetic. -/
theorem expLoop_exact (x : ℚ) : ∀ (i : Nat) (r : ℚ), i ≤ 20 →
    expLoop id x i r = .ok (∑ k ∈ range i, x ^ (k + 1) / (k + 1).factorial + x ^ i * r)
  | 0, r, _ => by simp [expLoop]
  | i + 1, r, h => by
    have hf := factMod_eq h
    have hne : (i + 1).factorial ≠ 0 := Nat.factorial_ne_zero _
    rw [expLoop]
    unfold expCoeff
    rw [hf, if_neg hne, ok_bind]
    simp only [id]
    rw [expLoop_exact x i _ (by omega), sum_range_succ]
    congr 1
    ring

theorem expCoeff_near {f : ℚ → ℚ} {ε : ℝ} (F : FlOK f ε) {i : Nat} (h : i + 1 ≤ 20) :
    ∃ c : ℚ, expCoeff f i = .ok c ∧ Within (c : ℝ) (1 / (i + 1).factorial) (25 / 10 ^ 17) := by
  have hf := factMod_eq h
  have hne : (i + 1).factorial ≠ 0 := Nat.factorial_ne_zero _
  have hε := F.small
  refine ⟨_, by unfold expCoeff; rw [hf, if_neg hne], ?_⟩
  set k := (i + 1).factorial
  have hk : (1 : ℚ) ≤ k := by exact_mod_cast Nat.one_le_iff_ne_zero.mpr hne
  have hkR : (1 : ℝ) ≤ k := by exact_mod_cast hk
  have hq : 1 ≤ f k := F.one _ hk
  have hqR : (1 : ℝ) ≤ (f k : ℚ) := by exact_mod_cast hq
  have hr := F.rel k
  push_cast at hr
  rw [abs_of_pos (by linarith : (0 : ℝ) < k)] at hr
  have h1 : Within (((1 / f k : ℚ)) : ℝ) (1 / k) (12 / 10 ^ 17) := by
    unfold Within
    push_cast
    have e : 1 / ((f k : ℚ) : ℝ) - 1 / k = -((f k : ℚ) - (k : ℝ)) / ((f k : ℚ) * k) := by
      field_simp; ring
    rw [e, abs_div, abs_neg, abs_of_pos (show (0 : ℝ) < (f k : ℚ) * k by nlinarith), div_le_iff₀ (by nlinarith)]
    have h2 : ε * (k : ℝ) ≤ 12 / 10 ^ 17 * k := mul_le_mul_of_nonneg_right hε (by linarith)
    have h3 : (k : ℝ) ≤ (f k : ℚ) * k := by nlinarith
    nlinarith
  refine (Within.fl F h1 (B := 1) ?_).mono (by norm_num)
  rw [abs_of_pos (by positivity), div_le_one (by linarith)]
  exact hkR

/-- The loop with rounding, for a small argument. -/
theorem expLoop_near {f : ℚ → ℚ} {ε : ℝ} (F : FlOK f ε) {x : ℚ} (hx : |(x : ℝ)| ≤ 35 / 100) :
    ∀ (i : Nat) (r : ℚ) (R : ℝ), i ≤ 20 → Within (r : ℝ) R (4 / 10 ^ 16) → |R| ≤ 6 / 10 →
      ∃ s : ℚ, expLoop f x i r = .ok s ∧
        Within (s : ℝ) (∑ k ∈ range i, (x : ℝ) ^ (k + 1) / (k + 1).factorial + (x : ℝ) ^ i * R) (4 / 10 ^ 16) ∧
        |∑ k ∈ range i, (x : ℝ) ^ (k + 1) / (k + 1).factorial + (x : ℝ) ^ i * R| ≤ 6 / 10
  | 0, r, R, _, hr, hR => ⟨r, rfl, by simpa using hr, by simpa using hR⟩
  | i + 1, r, R, h, hr, hR => by
    obtain ⟨c, hc, hcn⟩ := expCoeff_near F (i := i) h
    have hk : (1 : ℝ) ≤ (i + 1).factorial := by exact_mod_cast Nat.one_le_iff_ne_zero.mpr (Nat.factorial_ne_zero (i + 1))
    have hcb : |(1 : ℝ) / (i + 1).factorial| ≤ 1 := by
      rw [abs_of_pos (by positivity), div_le_one (by linarith)]; exact hk
    have hsb : |(1 : ℝ) / (i + 1).factorial + R| ≤ 16 / 10 := le_trans (abs_add_le _ _) (by linarith)
    have h1 : Within ((c + r : ℚ) : ℝ) (1 / (i + 1).factorial + R) (65 / 10 ^ 17) := by
      push_cast; exact (hcn.add hr).mono (by norm_num)
    have h2 : Within ((f (c + r) : ℚ) : ℝ) (1 / (i + 1).factorial + R) (86 / 10 ^ 17) :=
      (Within.fl F h1 hsb).mono (by norm_num)
    have h3 : Within ((x * f (c + r) : ℚ) : ℝ) ((x : ℝ) * (1 / (i + 1).factorial + R)) (31 / 10 ^ 17) := by
      push_cast
      exact ((Within.refl (x : ℝ)).mul h2 hx hsb).mono (by norm_num)
    have hb : |(x : ℝ) * (1 / (i + 1).factorial + R)| ≤ 56 / 100 := by
      rw [abs_mul]
      exact le_trans (mul_le_mul hx hsb (abs_nonneg _) (by norm_num)) (by norm_num)
    have h4 := (Within.fl F h3 hb).mono (show _ ≤ (4 : ℝ) / 10 ^ 16 by norm_num)
    obtain ⟨s, e1, e2, e3⟩ := expLoop_near F hx i (f (x * f (c + r))) _ (by omega) h4 (le_trans hb (by norm_num))
    have e : ∑ k ∈ range (i + 1), (x : ℝ) ^ (k + 1) / (k + 1).factorial + (x : ℝ) ^ (i + 1) * R =
        ∑ k ∈ range i, (x : ℝ) ^ (k + 1) / (k + 1).factorial + (x : ℝ) ^ i * (x * (1 / (i + 1).factorial + R)) := by
      rw [sum_range_succ]; ring
    refine ⟨s, ?_, by rw [e]; exact e2, by rw [e]; exact e3⟩
    rw [expLoop, hc, ok_bind, e1]

/-- The polynomial is the beginning of the series of the exponential function. -/
theorem exp_poly (x : ℝ) (N : Nat) :
    1 + ∑ k ∈ range N, x ^ (k + 1) / (k + 1).factorial = ∑ m ∈ range (N + 1), x ^ m / m.factorial := by
  rw [sum_range_succ']
  simp [add_comm]

/-- The rest of the series of the exponential function. -/
theorem exp_rest (x : ℝ) (n : Nat) :
    |Real.exp x - ∑ m ∈ range n, x ^ m / m.factorial| ≤ |x| ^ n / n.factorial * Real.exp |x| := by
  have h0 : |Real.exp x - ∑ m ∈ range n, x ^ m / m.factorial| ≤ Real.exp |x| - ∑ m ∈ range n, |x| ^ m / m.factorial := by
    have := Complex.norm_exp_sub_sum_le_exp_norm_sub_sum (x : ℂ) n
    rw [Complex.norm_real, Real.norm_eq_abs] at this
    refine le_trans (le_of_eq ?_) this
    rw [← Real.norm_eq_abs, ← Complex.norm_real]
    push_cast
    rfl
  refine le_trans h0 ?_
  set y := |x|
  have hy : 0 ≤ y := abs_nonneg x
  have hs : HasSum (fun m : ℕ => y ^ m / (m.factorial : ℝ)) (Real.exp y) := by
    rw [Real.exp_eq_exp_ℝ]; exact NormedSpace.expSeries_div_hasSum_exp y
  have h1 := (hasSum_nat_add_iff' n).mpr hs
  have h2 := hs.mul_left (y ^ n / n.factorial)
  refine hasSum_le (fun j => ?_) h1 h2
  have hf : (n.factorial * j.factorial : ℝ) ≤ (j + n).factorial := by
    have := Nat.factorial_mul_factorial_dvd_factorial_add n j
    rw [add_comm n j] at this
    exact_mod_cast Nat.le_of_dvd (Nat.factorial_pos _) this
  rw [div_mul_div_comm, ← pow_add, add_comm n j]
  exact div_le_div_of_nonneg_left (pow_nonneg hy _) (by positivity) hf

/-- `1 + …` after the loop, for the order 12. -/
theorem expBase_near {f : ℚ → ℚ} {ε : ℝ} (F : FlOK f ε) {x : ℚ} (hx : |(x : ℝ)| ≤ 35 / 100) :
    ∃ s : ℚ, expLoop f x 12 0 = .ok s ∧ 0 < f (1 + s) ∧ Within (Real.log (f (1 + s) : ℚ)) x (28 / 10 ^ 16) := by
  obtain ⟨s, e1, e2, e3⟩ := expLoop_near F hx 12 0 0 (by norm_num) (by unfold Within; norm_num) (by norm_num)
  rw [mul_zero, add_zero] at e2 e3
  have h1 : Within ((1 + s : ℚ) : ℝ) (1 + ∑ k ∈ range 12, (x : ℝ) ^ (k + 1) / (k + 1).factorial) (4 / 10 ^ 16) := by
    push_cast
    exact ((Within.refl 1).add e2).mono (by norm_num)
  have h2 : Within ((f (1 + s) : ℚ) : ℝ) (1 + ∑ k ∈ range 12, (x : ℝ) ^ (k + 1) / (k + 1).factorial) (6 / 10 ^ 16) := by
    refine (Within.fl F h1 (B := 16 / 10) ?_).mono (by norm_num)
    refine le_trans (abs_add_le _ _) ?_
    rw [abs_one]; linarith
  rw [exp_poly] at h2
  have hb := Real.exp_bound (x := x) (le_trans hx (by norm_num)) (n := 13) (by norm_num)
  have hb' : |(x : ℝ)| ^ 13 * ((Nat.succ 13 : ℕ) / ((Nat.factorial 13 : ℕ) * (13 : ℕ))) ≤ 3 / 10 ^ 16 := by
    have hp : |(x : ℝ)| ^ 13 ≤ (35 / 100) ^ 13 := pow_le_pow_left₀ (abs_nonneg _) hx 13
    refine le_trans (mul_le_mul_of_nonneg_right hp (by positivity)) ?_
    norm_num [Nat.factorial]
  have h3 : Within ((f (1 + s) : ℚ) : ℝ) (Real.exp x) (9 / 10 ^ 16) := by
    refine (h2.trans (d' := 3 / 10 ^ 16) ?_).mono (by norm_num)
    unfold Within
    rw [abs_sub_comm]
    exact le_trans hb hb'
  have hx1 := (abs_le.mp hx).1
  have hexp : (65 : ℝ) / 100 ≤ Real.exp x := by linarith [Real.add_one_le_exp (x : ℝ)]
  have h4 := abs_le.mp h3
  have hpos : (0 : ℝ) < (f (1 + s) : ℚ) := by linarith [h4.1]
  refine ⟨s, e1, by exact_mod_cast hpos, ?_⟩
  -- the logarithm
  have hepos : (0 : ℝ) < Real.exp x := by linarith
  unfold Within
  have u1 : Real.log (f (1 + s) : ℚ) - x ≤ (f (1 + s) : ℚ) / Real.exp x - 1 := by
    have := Real.log_le_sub_one_of_pos (div_pos hpos hepos)
    rwa [Real.log_div hpos.ne' hepos.ne', Real.log_exp] at this
  have u2 : (x : ℝ) - Real.log (f (1 + s) : ℚ) ≤ Real.exp x / (f (1 + s) : ℚ) - 1 := by
    have := Real.log_le_sub_one_of_pos (div_pos hepos hpos)
    rwa [Real.log_div hepos.ne' hpos.ne', Real.log_exp] at this
  have v1 : ((f (1 + s) : ℚ) : ℝ) / Real.exp x - 1 ≤ 28 / 10 ^ 16 := by
    rw [sub_le_iff_le_add, div_le_iff₀ hepos]
    nlinarith [h4.2]
  have v2 : Real.exp x / (f (1 + s) : ℚ) - 1 ≤ 28 / 10 ^ 16 := by
    rw [sub_le_iff_le_add, div_le_iff₀ hpos]
    nlinarith [h4.1]
  rw [abs_le]
  constructor <;> linarith

/-- Repeated squaring. -/
theorem powImplQ_near {f : ℚ → ℚ} {ε : ℝ} (F : FlOK f ε) : ∀ (k : Nat) {w : ℚ}, 0 < w →
    0 < powImplQ f (2 ^ k) w ∧ Within (Real.log (powImplQ f (2 ^ k) w)) (2 ^ k * Real.log w) (2 * ε * (2 ^ k - 1))
  | 0, w, hw => by
    have e : powImplQ f (2 ^ 0) w = w := by
      rw [powImplQ.eq_def]; simp
    rw [e]
    exact ⟨hw, by unfold Within; simp⟩
  | k + 1, w, hw => by
    have e : powImplQ f (2 ^ (k + 1)) w = powImplQ f (2 ^ k) (f (w * w)) := by
      have h0 : 0 < 2 ^ k := Nat.two_pow_pos k
      conv_lhs => rw [powImplQ.eq_def]
      have h1 : (2 ^ (k + 1) : ℕ) = 2 * 2 ^ k := by ring
      rw [if_neg (by omega), if_neg (by omega), if_pos (by omega)]
      congr 1
      omega
    rw [e]
    have hww : 0 < w * w := mul_pos hw hw
    obtain ⟨p, n⟩ := powImplQ_near F k (fl_pos F hww)
    refine ⟨p, ?_⟩
    have l := log_fl F hww
    have e2 : Real.log ((w * w : ℚ) : ℝ) = 2 * Real.log w := by
      push_cast
      rw [Real.log_mul (by exact_mod_cast hw.ne') (by exact_mod_cast hw.ne')]; ring
    rw [e2] at l
    have h2k : (0 : ℝ) < 2 ^ k := by positivity
    have l' : Within (2 ^ k * Real.log (f (w * w) : ℚ)) (2 ^ k * (2 * Real.log w)) (2 ^ k * (2 * ε)) := by
      unfold Within at *
      rw [← mul_sub, abs_mul, abs_of_pos h2k]
      exact mul_le_mul_of_nonneg_left l h2k.le
    have := (n.trans l').mono (show _ ≤ 2 * ε * (2 ^ (k + 1) - 1) by rw [pow_succ]; linarith)
    rwa [show (2 : ℝ) ^ (k + 1) * Real.log w = 2 ^ k * (2 * Real.log w) by ring]

/-- `constexpr_exp<12, 64>`. -/
theorem constexprExp_near {f : ℚ → ℚ} {ε : ℝ} (F : FlOK f ε) {y : ℚ} (hy : |(y : ℝ)| ≤ 223 / 10) :
    ∃ p : ℚ, constexprExp f 12 64 y = .ok p ∧ 0 < p ∧ Within (Real.log p) y (2 / 10 ^ 13) := by
  have hε := F.small
  have hr := F.rel (y / 64)
  push_cast at hr
  have hyd : |(y : ℝ) / 64| ≤ 223 / 640 := by
    rw [abs_div, abs_of_pos (by norm_num : (0 : ℝ) < 64)]; linarith
  have hr' : |((f (y / 64) : ℚ) : ℝ) - y / 64| ≤ 12 / 10 ^ 17 * (223 / 640) :=
    le_trans hr (mul_le_mul hε hyd (abs_nonneg _) (by norm_num))
  have hx : |((f (y / 64) : ℚ) : ℝ)| ≤ 35 / 100 := by
    have : ((f (y / 64) : ℚ) : ℝ) = ((f (y / 64) : ℚ) - (y : ℝ) / 64) + y / 64 := by ring
    rw [this]
    refine le_trans (abs_add_le _ _) (le_trans (add_le_add hr' hyd) (by norm_num))
  obtain ⟨s, e1, e2, e3⟩ := expBase_near F hx
  obtain ⟨p1, p2⟩ := powImplQ_near F 6 e2
  refine ⟨powImplQ f (2 ^ 6) (f (1 + s)), ?_, p1, ?_⟩
  · unfold constexprExp
    rw [if_neg (by norm_num), if_neg (by norm_num)]
    simp only
    have : ((64 : ℕ) : ℚ) = 64 := by norm_num
    rw [this, e1, ok_bind]
    norm_num
  · have a := abs_le.mp p2
    have b := abs_le.mp e3
    have c := abs_le.mp hr'
    unfold Within
    norm_num at a b c ⊢
    rw [abs_le]
    constructor <;> linarith [a.1, a.2, b.1, b.2, c.1, c.2]

/-- `constexpr_pow<12, 64>`. -/
theorem constexprPow_near {f : ℚ → ℚ} {ε : ℝ} (F : FlOK f ε) {v a : ℚ} (hv : 0 < v) (hw : ∃ w, v = f w)
    (ha : |(a : ℝ)| ≤ 10 ^ 12) (hav : |(a : ℝ) * Real.log v| ≤ 22) :
    ∃ p : ℚ, constexprPow f 12 64 v a = .ok p ∧ 0 < p ∧
      Within (Real.log p) (a * Real.log v) (24 / 10 ^ 14 + 32 / 10 ^ 15 * |(a : ℝ)|) := by
  obtain ⟨l, e1, e2⟩ := constexprLog_within F hv hw
  have ha0 := abs_nonneg (a : ℝ)
  have h1 : Within ((a * l : ℚ) : ℝ) (a * Real.log v) (22 / 10 ^ 15 + 32 / 10 ^ 15 * |(a : ℝ)|) := by
    unfold Within at *
    push_cast
    rw [← mul_sub, abs_mul]
    refine le_trans (mul_le_mul_of_nonneg_left e2 ha0) ?_
    rw [abs_mul] at hav
    linarith
  have h2 := Within.fl F h1 hav
  have h3 : |((f (a * l) : ℚ) : ℝ)| ≤ 223 / 10 := by
    have : ((f (a * l) : ℚ) : ℝ) = ((f (a * l) : ℚ) - (a : ℝ) * Real.log v) + a * Real.log v := by ring
    rw [this]
    refine le_trans (abs_add_le _ _) (le_trans (add_le_add h2 hav) ?_)
    linarith
  obtain ⟨p, q1, q2, q3⟩ := constexprExp_near F h3
  refine ⟨p, ?_, q2, (q3.trans h2).mono ?_⟩
  · unfold constexprPow
    rw [e1, ok_bind, q1]
  · linarith

end Verif
