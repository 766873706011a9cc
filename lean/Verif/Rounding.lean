import Verif.LogApprox

/-!
# Exact arithmetic and IEEE double precision satisfy what the error analysis needs of a rounding
-/

namespace Verif

theorem flOK_id : FlOK id 0 where
  nonneg := le_refl _
  small := by norm_num
  rel x := by simp
  one x h := h
  ten x h := h
  top x h := by simp only [id] at *; linarith

theorem roundEven_near (x : ℚ) : |(roundEven x : ℚ) - x| ≤ 1 / 2 := by
  have h1 := Int.floor_le x
  have h2 := Int.lt_floor_add_one x
  unfold roundEven
  simp only
  rw [abs_le]
  split_ifs with a b c
  · constructor <;> linarith
  · push_cast; constructor <;> linarith
  · constructor <;> linarith
  · push_cast; constructor <;> linarith

theorem roundEven_ge {x : ℚ} {k : Int} (h : (k : ℚ) ≤ x) : k ≤ roundEven x := by
  have h1 := Int.le_floor.mpr h
  unfold roundEven
  simp only
  split_ifs <;> omega

theorem roundEven_le {x : ℚ} {k : Int} (h : x ≤ (k : ℚ)) : roundEven x ≤ k := by
  have h1 := Int.floor_le x
  have h2 : ⌊x⌋ ≤ k := by
    have : (⌊x⌋ : ℚ) ≤ k := by linarith
    exact_mod_cast this
  unfold roundEven
  simp only
  rcases lt_or_eq_of_le h2 with h3 | h3
  · split_ifs <;> omega
  · have h4 : x - ⌊x⌋ < 1 / 2 := by rw [h3]; linarith
    rw [if_pos h4]; omega

/-- The exponent and the digits of a rounded number. -/
theorem rnd53_pos {x : ℚ} (hx : 0 < x) :
    rnd53 x = (roundEven (x * 2 ^ (52 - Int.log 2 x)) : ℚ) * 2 ^ (Int.log 2 x - 52) := by
  unfold rnd53
  rw [if_neg hx.ne']
  simp only [abs_of_pos hx, if_neg (not_lt.mpr hx.le), one_mul]

theorem rnd53_neg (x : ℚ) : rnd53 (-x) = -rnd53 x := by
  unfold rnd53
  by_cases h : x = 0
  · subst h; simp
  · rw [if_neg h, if_neg (neg_ne_zero.mpr h)]
    simp only [abs_neg]
    rcases lt_or_gt_of_ne h with h1 | h1
    · rw [if_pos h1, if_neg (by linarith)]; ring
    · rw [if_neg (by linarith : ¬ x < 0), if_pos (by linarith : -x < 0)]; ring

theorem zpow_log_le' {x : ℚ} (hx : 0 < x) : (2 : ℚ) ^ Int.log 2 x ≤ x := by
  have := Int.zpow_log_le_self (b := 2) (by norm_num) hx
  exact_mod_cast this

theorem lt_zpow_log' {x : ℚ} : x < (2 : ℚ) ^ (Int.log 2 x + 1) := by
  have := Int.lt_zpow_succ_log_self (b := 2) (by norm_num) x
  exact_mod_cast this

theorem rnd53_rel_pos {x : ℚ} (hx : 0 < x) : |rnd53 x - x| ≤ 1 / 2 ^ 53 * x := by
  rw [rnd53_pos hx]
  set e := Int.log 2 x
  have h2 : (0 : ℚ) < 2 ^ (e - 52) := zpow_pos (by norm_num) _
  have e1 : x = (x * 2 ^ (52 - e)) * 2 ^ (e - 52) := by
    rw [mul_assoc, ← zpow_add₀ (by norm_num)]
    simp
  have h3 := roundEven_near (x * 2 ^ (52 - e))
  have e2 : (roundEven (x * 2 ^ (52 - e)) : ℚ) * 2 ^ (e - 52) - x =
      ((roundEven (x * 2 ^ (52 - e)) : ℚ) - x * 2 ^ (52 - e)) * 2 ^ (e - 52) := by
    rw [sub_mul, ← e1]
  rw [e2, abs_mul, abs_of_pos h2]
  have h4 : (2 : ℚ) ^ e ≤ x := zpow_log_le' hx
  have h5 : (2 : ℚ) ^ (e - 52) = 2 ^ e * (1 / 2 ^ 52) := by
    rw [zpow_sub₀ (by norm_num)]; norm_num [div_eq_mul_inv]
  calc |(roundEven (x * 2 ^ (52 - e)) : ℚ) - x * 2 ^ (52 - e)| * 2 ^ (e - 52)
      ≤ 1 / 2 * 2 ^ (e - 52) := mul_le_mul_of_nonneg_right h3 h2.le
    _ = 1 / 2 ^ 53 * 2 ^ e := by rw [h5]; ring
    _ ≤ 1 / 2 ^ 53 * x := mul_le_mul_of_nonneg_left h4 (by norm_num)

theorem rnd53_zero : rnd53 0 = 0 := by unfold rnd53; simp

theorem rnd53_rel (x : ℚ) : |rnd53 x - x| ≤ 1 / 2 ^ 53 * |x| := by
  rcases lt_trichotomy x 0 with h | h | h
  · have := rnd53_rel_pos (x := -x) (by linarith)
    rw [rnd53_neg] at this
    rw [abs_of_neg h]
    have e : -rnd53 x - -x = -(rnd53 x - x) := by ring
    rwa [e, abs_neg] at this
  · subst h; simp [rnd53_zero]
  · rw [abs_of_pos h]; exact rnd53_rel_pos h

/-- Rounding does not cross a representable number from above. -/
theorem rnd53_ge {x : ℚ} {k : Int} (hx : 0 < x) (h : (k : ℚ) * 2 ^ (Int.log 2 x - 52) ≤ x) :
    (k : ℚ) * 2 ^ (Int.log 2 x - 52) ≤ rnd53 x := by
  rw [rnd53_pos hx]
  set e := Int.log 2 x
  have h2 : (0 : ℚ) < 2 ^ (e - 52) := zpow_pos (by norm_num) _
  refine mul_le_mul_of_nonneg_right ?_ h2.le
  have : k ≤ roundEven (x * 2 ^ (52 - e)) := by
    apply roundEven_ge
    have h3 : (0 : ℚ) ≤ 2 ^ (52 - e) := (zpow_pos (by norm_num) _).le
    have h4 := mul_le_mul_of_nonneg_right h h3
    rw [mul_assoc, ← zpow_add₀ (by norm_num)] at h4
    simpa using h4
  exact_mod_cast this

theorem rnd53_ge_pow {x : ℚ} (hx : 0 < x) : (2 : ℚ) ^ Int.log 2 x ≤ rnd53 x := by
  have e : ((2 ^ 52 : Int) : ℚ) * 2 ^ (Int.log 2 x - 52) = 2 ^ Int.log 2 x := by
    rw [zpow_sub₀ (by norm_num)]; push_cast; field_simp
  have := rnd53_ge (k := 2 ^ 52) hx (by rw [e]; exact zpow_log_le' hx)
  rwa [e] at this

theorem le_log {x : ℚ} {k : Int} (_ : 0 < x) (h : (2 : ℚ) ^ k ≤ x) : k ≤ Int.log 2 x := by
  by_contra hc
  have h1 : Int.log 2 x + 1 ≤ k := by omega
  have h2 : (2 : ℚ) ^ (Int.log 2 x + 1) ≤ 2 ^ k := zpow_le_zpow_right₀ (by norm_num) h1
  have := lt_zpow_log' (x := x)
  linarith

theorem rnd53_one {x : ℚ} (h : 1 ≤ x) : 1 ≤ rnd53 x := by
  have hx : 0 < x := by linarith
  have h0 : 0 ≤ Int.log 2 x := le_log hx (by simpa using h)
  exact le_trans (one_le_zpow₀ (by norm_num) h0) (rnd53_ge_pow hx)

theorem rnd53_ten {x : ℚ} (h : 10 ≤ x) : 10 ≤ rnd53 x := by
  have hx : 0 < x := by linarith
  have h0 : 3 ≤ Int.log 2 x := le_log hx (by norm_num; linarith)
  rcases lt_or_eq_of_le h0 with h1 | h1
  · have h2 : (2 : ℚ) ^ (4 : Int) ≤ 2 ^ Int.log 2 x := zpow_le_zpow_right₀ (by norm_num) (by omega)
    have := rnd53_ge_pow hx
    norm_num at h2
    linarith
  · have e : ((10 * 2 ^ 49 : Int) : ℚ) * 2 ^ (Int.log 2 x - 52) = 10 := by rw [← h1]; norm_num
    have := rnd53_ge (k := 10 * 2 ^ 49) hx (by rw [e]; exact h)
    rwa [e] at this

/-- A rounded number in `[8, 10)` is at most `10 - 2^-49`. -/
theorem rnd53_below_ten {x : ℚ} (h8 : 8 < rnd53 x) (h10 : rnd53 x < 10) : rnd53 x ≤ 10 - 1 / 2 ^ 49 := by
  have hx : 0 < x := by
    by_contra hc
    rcases lt_or_eq_of_le (not_lt.mp hc) with h | h
    · have h1 := rnd53_ge_pow (x := -x) (by linarith)
      rw [rnd53_neg] at h1
      have h2 : (0 : ℚ) < 2 ^ Int.log 2 (-x) := zpow_pos (by norm_num) _
      linarith
    · rw [h, rnd53_zero] at h8; linarith
  set e := Int.log 2 x with he
  set m := roundEven (x * 2 ^ (52 - e)) with hm
  have hr : rnd53 x = (m : ℚ) * 2 ^ (e - 52) := rnd53_pos hx
  have h2 : (0 : ℚ) < 2 ^ (e - 52) := zpow_pos (by norm_num) _
  have hm2 : m ≤ 2 ^ 53 := by
    apply roundEven_le
    have h3 : (0 : ℚ) ≤ 2 ^ (52 - e) := (zpow_pos (by norm_num) _).le
    have h4 := mul_le_mul_of_nonneg_right (lt_zpow_log' (x := x)).le h3
    rw [← he, ← zpow_add₀ (by norm_num)] at h4
    have e3 : e + 1 + (52 - e) = 53 := by ring
    rw [e3] at h4
    exact_mod_cast h4
  have he3 : 3 ≤ e := by
    by_contra hc
    have h5 : (2 : ℚ) ^ (e - 52) ≤ 2 ^ (-50 : Int) := zpow_le_zpow_right₀ (by norm_num) (by omega)
    have h6 : (m : ℚ) * 2 ^ (e - 52) ≤ 2 ^ 53 * 2 ^ (e - 52) := mul_le_mul_of_nonneg_right (by exact_mod_cast hm2) h2.le
    have h7 : (2 : ℚ) ^ 53 * 2 ^ (e - 52) ≤ 2 ^ 53 * 2 ^ (-50 : Int) := mul_le_mul_of_nonneg_left h5 (by norm_num)
    have h8' : (2 : ℚ) ^ 53 * 2 ^ (-50 : Int) = 8 := by norm_num
    rw [hr] at h8
    linarith
  obtain ⟨k, hk⟩ := Int.eq_ofNat_of_zero_le (show 0 ≤ e - 3 by omega)
  have e4 : (2 : ℚ) ^ (e - 52) = 2 ^ k * (1 / 2 ^ 49) := by
    have : e - 52 = (k : Int) + (-49) := by omega
    rw [this, zpow_add₀ (by norm_num), zpow_natCast]; norm_num
  have e5 : rnd53 x = ((m * 2 ^ k : Int) : ℚ) * (1 / 2 ^ 49) := by rw [hr, e4]; push_cast; ring
  rw [e5] at h10 ⊢
  have h11 : ((m * 2 ^ k : Int) : ℚ) < ((10 * 2 ^ 49 : Int) : ℚ) := by
    push_cast at h10 ⊢; linarith
  have h12 : m * 2 ^ k ≤ 10 * 2 ^ 49 - 1 := by
    have : m * 2 ^ k < 10 * 2 ^ 49 := by exact_mod_cast h11
    omega
  have h13 : ((m * 2 ^ k : Int) : ℚ) ≤ ((10 * 2 ^ 49 - 1 : Int) : ℚ) := by exact_mod_cast h12
  push_cast at h13 ⊢
  linarith

theorem rnd53_top {y : ℚ} (hy : ∃ x, y = rnd53 x) (h : y < 10) : rnd53 (y * 10) < 100 := by
  have hr := rnd53_rel (y * 10)
  have h1 := (abs_le.mp hr).2
  rcases le_or_gt y 8 with h8 | h8
  · rcases le_or_gt y 0 with h0 | h0
    · rw [abs_of_nonpos (by linarith)] at h1
      have : (1 : ℚ) / 2 ^ 53 * -(y * 10) ≤ -(y * 10) := by
        have : (1 : ℚ) / 2 ^ 53 * -(y * 10) ≤ 1 * -(y * 10) := mul_le_mul_of_nonneg_right (by norm_num) (by linarith)
        linarith
      linarith
    · rw [abs_of_pos (by linarith)] at h1
      linarith
  · obtain ⟨x, hx⟩ := hy
    have := rnd53_below_ten (x := x) (by rw [← hx]; exact h8) (by rw [← hx]; exact h)
    rw [← hx] at this
    rw [abs_of_pos (by linarith)] at h1
    linarith

/-- Rounding to double precision has what the error analysis needs. -/
theorem flOK_rnd53 : FlOK rnd53 (1 / 2 ^ 53) where
  nonneg := by norm_num
  small := by norm_num
  rel x := by
    have := rnd53_rel x
    have h : ((|rnd53 x - x| : ℚ) : ℝ) ≤ ((1 / 2 ^ 53 * |x| : ℚ) : ℝ) := by exact_mod_cast this
    push_cast at h
    exact h
  one _ h := rnd53_one h
  ten _ h := rnd53_ten h
  top x h := rnd53_top ⟨x, rfl⟩ h

end Verif
