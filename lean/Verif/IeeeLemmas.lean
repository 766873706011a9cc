import Verif.Ieee
import Verif.Rounding

/-!
# Lemmas about the rounding of the IEEE formats
-/

namespace Verif

namespace FltTy

/-- Half a unit of the last place, relative to the number. -/
def u (f : FltTy) : ℚ := 1 / 2 ^ f.prec

/-- The least positive number of the format. -/
def tiny (f : FltTy) : ℚ := 2 ^ (f.emin - f.prec + 1)

theorem u_pos (f : FltTy) : 0 < f.u := by cases f <;> norm_num [u, prec]

theorem u_small (f : FltTy) : f.u ≤ 1 / 2 ^ 24 := by cases f <;> norm_num [u, prec]

theorem tiny_pos (f : FltTy) : 0 < f.tiny := zpow_pos (by norm_num) _

theorem one_le_prec (f : FltTy) : 24 ≤ f.prec := by cases f <;> decide

theorem emin_neg (f : FltTy) : f.emin ≤ -126 := by cases f <;> decide

theorem emax_ge (f : FltTy) : 128 ≤ f.emax := by cases f <;> decide

theorem two_zpow_pos (n : Int) : (0 : ℚ) < 2 ^ n := zpow_pos (by norm_num) _

theorem two_zpow_le {m n : Int} (h : m ≤ n) : (2 : ℚ) ^ m ≤ 2 ^ n := zpow_le_zpow_right₀ (by norm_num) h

theorem two_zpow_lt {m n : Int} (h : m < n) : (2 : ℚ) ^ m < 2 ^ n := zpow_lt_zpow_right₀ (by norm_num) h

/-- The rounded magnitude without the limit at the top. -/
def rndU (f : FltTy) (x : ℚ) : ℚ := (roundEven (x * 2 ^ (-f.lastExp x)) : ℚ) * 2 ^ f.lastExp x

theorem rndMag_eq (f : FltTy) (x : ℚ) : f.rndMag x = if f.rndU x < 2 ^ f.emax then some (f.rndU x) else none := rfl

theorem rndMag_some {f : FltTy} {x y : ℚ} : f.rndMag x = some y ↔ y = f.rndU x ∧ y < 2 ^ f.emax := by
  rw [rndMag_eq]
  split_ifs with h
  · simp only [Option.some.injEq]
    constructor
    · rintro rfl; exact ⟨rfl, h⟩
    · rintro ⟨rfl, -⟩; rfl
  · simp only [false_iff, not_and, not_lt]
    rintro rfl; exact not_lt.mp h

theorem rndMag_none {f : FltTy} {x : ℚ} : f.rndMag x = none ↔ 2 ^ f.emax ≤ f.rndU x := by
  rw [rndMag_eq]
  split_ifs with h
  · simpa using h
  · simpa using h

theorem rndU_scaled (f : FltTy) (x : ℚ) : x = (x * 2 ^ (-f.lastExp x)) * 2 ^ f.lastExp x := by
  rw [mul_assoc, ← zpow_add₀ (by norm_num)]; simp

/-- The error is at most half a unit of the last place. -/
theorem rndU_err (f : FltTy) (x : ℚ) : |f.rndU x - x| ≤ 1 / 2 * 2 ^ f.lastExp x := by
  have h2 := two_zpow_pos (f.lastExp x)
  have e2 : f.rndU x - x = ((roundEven (x * 2 ^ (-f.lastExp x)) : ℚ) - x * 2 ^ (-f.lastExp x)) * 2 ^ f.lastExp x := by
    rw [sub_mul, ← rndU_scaled]; rfl
  rw [e2, abs_mul, abs_of_pos h2]
  exact mul_le_mul_of_nonneg_right (roundEven_near _) h2.le

/-- Rounding does not cross a multiple of the unit of the last place. -/
theorem rndU_ge {f : FltTy} {x : ℚ} {k : Int} (h : (k : ℚ) * 2 ^ f.lastExp x ≤ x) : (k : ℚ) * 2 ^ f.lastExp x ≤ f.rndU x := by
  refine mul_le_mul_of_nonneg_right ?_ (two_zpow_pos _).le
  have : k ≤ roundEven (x * 2 ^ (-f.lastExp x)) := by
    apply roundEven_ge
    have h4 := mul_le_mul_of_nonneg_right h (two_zpow_pos (-f.lastExp x)).le
    rw [mul_assoc, ← zpow_add₀ (by norm_num)] at h4
    simpa using h4
  exact_mod_cast this

theorem rndU_le {f : FltTy} {x : ℚ} {k : Int} (h : x ≤ (k : ℚ) * 2 ^ f.lastExp x) : f.rndU x ≤ (k : ℚ) * 2 ^ f.lastExp x := by
  refine mul_le_mul_of_nonneg_right ?_ (two_zpow_pos _).le
  have : roundEven (x * 2 ^ (-f.lastExp x)) ≤ k := by
    apply roundEven_le
    have h4 := mul_le_mul_of_nonneg_right h (two_zpow_pos (-f.lastExp x)).le
    rw [mul_assoc, ← zpow_add₀ (by norm_num)] at h4
    simpa using h4
  exact_mod_cast this

theorem rndU_nonneg {f : FltTy} {x : ℚ} (h : 0 ≤ x) : 0 ≤ f.rndU x := by
  have := rndU_ge (f := f) (x := x) (k := 0) (by simpa using h)
  simpa using this

theorem rndU_zero (f : FltTy) : f.rndU 0 = 0 := by
  have h1 := rndU_nonneg (f := f) (le_refl 0)
  have h2 := rndU_le (f := f) (x := 0) (k := 0) (by simp)
  simp at h2
  linarith

theorem rndMag_zero (f : FltTy) : f.rndMag 0 = some 0 := by
  rw [rndMag_some, rndU_zero]; exact ⟨rfl, two_zpow_pos _⟩

theorem log_le {x : ℚ} {k : Int} (hx : 0 < x) (h : x < (2 : ℚ) ^ k) : Int.log 2 x < k := by
  by_contra hc
  have h1 : (2 : ℚ) ^ k ≤ 2 ^ Int.log 2 x := two_zpow_le (not_lt.mp hc)
  have := zpow_log_le' hx
  linarith

/-- Rounding does not cross a power of two, from above. -/
theorem rndU_ge_pow {f : FltTy} {x : ℚ} {k : Int} (hk : f.emin ≤ k) (h : (2 : ℚ) ^ k ≤ x) : (2 : ℚ) ^ k ≤ f.rndU x := by
  have hx : 0 < x := (two_zpow_pos k).trans_le h
  have hl : k ≤ Int.log 2 x := le_log hx h
  have he : f.lastExp x = Int.log 2 x - (f.prec - 1) := by
    unfold lastExp; rw [max_eq_left (by omega)]
  have hp := f.one_le_prec
  obtain ⟨n, hn⟩ := Int.eq_ofNat_of_zero_le (show 0 ≤ f.prec - 1 by omega)
  have e : ((2 ^ n : Int) : ℚ) * 2 ^ f.lastExp x = 2 ^ Int.log 2 x := by
    rw [he, hn, zpow_sub₀ (by norm_num)]; push_cast; field_simp
    simp
  have h1 := rndU_ge (f := f) (x := x) (k := 2 ^ n) (by rw [e]; exact zpow_log_le' hx)
  rw [e] at h1
  exact (two_zpow_le hl).trans h1

/-- Rounding does not cross a power of two, from below. -/
theorem rndU_le_pow {f : FltTy} {x : ℚ} {k : Int} (hk : f.emin ≤ k) (hx : 0 ≤ x) (h : x ≤ (2 : ℚ) ^ k) : f.rndU x ≤ (2 : ℚ) ^ k := by
  rcases hx.eq_or_lt with rfl | hx
  · rw [rndU_zero]; exact (two_zpow_pos k).le
  have hp := f.one_le_prec
  have hl : f.lastExp x ≤ k := by
    unfold lastExp
    have : Int.log 2 x ≤ k := by
      have := log_le (k := k + 1) hx (h.trans_lt (two_zpow_lt (by omega)))
      omega
    have : max (Int.log 2 x) f.emin ≤ k := max_le this hk
    omega
  obtain ⟨n, hn⟩ := Int.eq_ofNat_of_zero_le (show 0 ≤ k - f.lastExp x by omega)
  have e : ((2 ^ n : Int) : ℚ) * 2 ^ f.lastExp x = 2 ^ k := by
    rw [show k = n + f.lastExp x by omega, zpow_add₀ (by norm_num)]; push_cast; simp
  have h1 := rndU_le (f := f) (x := x) (k := 2 ^ n) (by rw [e]; exact h)
  rwa [e] at h1

/-- The relative error of a normal result. -/
theorem rndU_rel {f : FltTy} {x : ℚ} (h : (2 : ℚ) ^ f.emin ≤ x) : |f.rndU x - x| ≤ f.u * x := by
  have hx : 0 < x := (two_zpow_pos _).trans_le h
  have he : f.lastExp x = Int.log 2 x - (f.prec - 1) := by
    unfold lastExp; rw [max_eq_left (le_log hx h)]
  refine (rndU_err f x).trans ?_
  have h1 := zpow_log_le' hx
  have e : (1 : ℚ) / 2 * 2 ^ f.lastExp x = f.u * 2 ^ Int.log 2 x := by
    rw [he, u, show Int.log 2 x - (f.prec - 1) = Int.log 2 x - f.prec + 1 by ring, zpow_add₀ (by norm_num), zpow_sub₀ (by norm_num)]
    field_simp
  rw [e]
  exact mul_le_mul_of_nonneg_left h1 f.u_pos.le

/-- The absolute error of a small result. -/
theorem rndU_abs {f : FltTy} {x : ℚ} (hx : 0 ≤ x) (h : x < (2 : ℚ) ^ f.emin) : |f.rndU x - x| ≤ f.tiny / 2 := by
  rcases hx.eq_or_lt with rfl | hx
  · rw [rndU_zero]; have := f.tiny_pos; simp; linarith
  have he : f.lastExp x = f.emin - (f.prec - 1) := by
    unfold lastExp; rw [max_eq_right (log_le hx h).le]
  refine (rndU_err f x).trans (le_of_eq ?_)
  rw [he, tiny, show f.emin - f.prec + 1 = f.emin - (f.prec - 1) by ring]
  ring

/-- The error of any result. -/
theorem rndU_any {f : FltTy} {x : ℚ} (hx : 0 ≤ x) : |f.rndU x - x| ≤ f.u * x + f.tiny / 2 := by
  have h1 := f.tiny_pos
  have h2 := f.u_pos
  rcases lt_or_ge x ((2 : ℚ) ^ f.emin) with h | h
  · have := rndU_abs hx h
    have := mul_nonneg h2.le hx
    linarith
  · have := rndU_rel h
    linarith

/-- Numbers that have at most `prec` digits and are not too small are not changed. -/
theorem rndU_exact {f : FltTy} {k : Int} {e : Int} (hk : 0 ≤ k) (hp : (k : ℚ) < 2 ^ f.prec) (he : f.emin - (f.prec - 1) ≤ e) :
    f.rndU ((k : ℚ) * 2 ^ e) = (k : ℚ) * 2 ^ e := by
  rcases hk.eq_or_lt with rfl | hk
  · simp [rndU_zero]
  set x := (k : ℚ) * 2 ^ e with hxd
  have hk' : (0 : ℚ) < k := by exact_mod_cast hk
  have hx : 0 < x := mul_pos hk' (two_zpow_pos e)
  have hl : f.lastExp x ≤ e := by
    unfold lastExp
    have h1 : x < 2 ^ (f.prec + e) := by
      rw [zpow_add₀ (by norm_num)]; exact mul_lt_mul_of_pos_right hp (two_zpow_pos e)
    have := log_le hx h1
    have : max (Int.log 2 x) f.emin ≤ e + (f.prec - 1) := max_le (by omega) (by omega)
    omega
  obtain ⟨n, hn⟩ := Int.eq_ofNat_of_zero_le (show 0 ≤ e - f.lastExp x by omega)
  have e1 : ((k * 2 ^ n : Int) : ℚ) * 2 ^ f.lastExp x = x := by
    rw [hxd]
    conv_rhs => rw [show e = n + f.lastExp x by omega, zpow_add₀ (by norm_num)]
    push_cast; rw [zpow_natCast]; ring
  have h1 := rndU_ge (f := f) (x := x) (k := k * 2 ^ n) (by rw [e1])
  have h2 := rndU_le (f := f) (x := x) (k := k * 2 ^ n) (by rw [e1])
  rw [e1] at h1 h2
  linarith

/-- The digits of a rounded number. -/
theorem rndU_form {f : FltTy} {x : ℚ} (hx : 0 ≤ x) :
    ∃ k e : Int, 0 ≤ k ∧ (k : ℚ) < 2 ^ f.prec ∧ f.emin - (f.prec - 1) ≤ e ∧ f.rndU x = (k : ℚ) * 2 ^ e := by
  have hp := f.one_le_prec
  have hle : f.emin - (f.prec - 1) ≤ f.lastExp x := by
    unfold lastExp
    have := le_max_right (Int.log 2 x) f.emin
    omega
  set k := roundEven (x * 2 ^ (-f.lastExp x)) with hkd
  have hk0 : 0 ≤ k := roundEven_ge (by
    have := mul_nonneg hx (two_zpow_pos (-f.lastExp x)).le
    simpa using this)
  have hlt : x ≤ 2 ^ f.prec * 2 ^ f.lastExp x := by
    rw [← zpow_add₀ (by norm_num)]
    have h1 := lt_zpow_log' (x := x)
    have h2 : Int.log 2 x + 1 ≤ f.prec + f.lastExp x := by
      unfold lastExp
      have := le_max_left (Int.log 2 x) f.emin
      omega
    exact h1.le.trans (two_zpow_le h2)
  obtain ⟨n, hn⟩ := Int.eq_ofNat_of_zero_le (show 0 ≤ f.prec by omega)
  have hk1 : k ≤ 2 ^ n := by
    apply roundEven_le
    have h4 := mul_le_mul_of_nonneg_right hlt (two_zpow_pos (-f.lastExp x)).le
    rw [mul_assoc, ← zpow_add₀ (by norm_num), add_neg_cancel, zpow_zero, mul_one, hn, zpow_natCast] at h4
    push_cast; exact h4
  rcases lt_or_eq_of_le hk1 with h | h
  · refine ⟨k, f.lastExp x, hk0, ?_, hle, rfl⟩
    rw [hn, zpow_natCast]
    exact_mod_cast h
  · refine ⟨1, f.prec + f.lastExp x, by norm_num, ?_, by omega, ?_⟩
    · have : (2 : ℚ) ^ (0 : Int) < 2 ^ f.prec := two_zpow_lt (by omega)
      simpa using this
    · unfold rndU
      rw [← hkd, h, zpow_add₀ (by norm_num), hn, zpow_natCast]
      push_cast; ring

theorem rndU_idem {f : FltTy} {x : ℚ} (hx : 0 ≤ x) : f.rndU (f.rndU x) = f.rndU x := by
  obtain ⟨k, e, h1, h2, h3, h4⟩ := rndU_form (f := f) hx
  rw [h4, rndU_exact h1 h2 h3]

theorem roundEven_nearest (x : ℚ) (j : Int) : |(roundEven x : ℚ) - x| ≤ |(j : ℚ) - x| := by
  have h1 := Int.floor_le x
  have h2 := Int.lt_floor_add_one x
  have h3 : (j : ℚ) ≤ ⌊x⌋ ∨ (⌊x⌋ : ℚ) + 1 ≤ j := by
    rcases le_or_gt j ⌊x⌋ with h | h
    · left; exact_mod_cast h
    · right; exact_mod_cast h
  unfold roundEven
  simp only
  rcases h3 with h3 | h3
  · rw [abs_of_nonpos (by linarith : (j : ℚ) - x ≤ 0)]
    rw [abs_le]
    split_ifs <;> push_cast <;> constructor <;> linarith
  · rw [abs_of_nonneg (by linarith : 0 ≤ (j : ℚ) - x)]
    rw [abs_le]
    split_ifs <;> push_cast <;> constructor <;> linarith

/-- The rounded number is as near as any number with at most `prec` digits that is not too small. -/
theorem rndU_nearest {f : FltTy} {x : ℚ} (hx : 0 ≤ x) {k e : Int} (hk : 0 ≤ k) (hp : (k : ℚ) < 2 ^ f.prec)
    (he : f.emin - (f.prec - 1) ≤ e) : |f.rndU x - x| ≤ |(k : ℚ) * 2 ^ e - x| := by
  rcases hx.eq_or_lt with rfl | hx0
  · rw [rndU_zero, sub_zero, abs_zero]; exact abs_nonneg _
  have key : ∀ j : Int, |f.rndU x - x| ≤ |(j : ℚ) * 2 ^ f.lastExp x - x| := by
    intro j
    have h2 := two_zpow_pos (f.lastExp x)
    have e1 : ∀ z : ℚ, z * 2 ^ f.lastExp x - x = (z - x * 2 ^ (-f.lastExp x)) * 2 ^ f.lastExp x := by
      intro z; rw [sub_mul, ← rndU_scaled]
    unfold rndU
    rw [e1, e1, abs_mul, abs_mul]
    exact mul_le_mul_of_nonneg_right (roundEven_nearest _ _) (abs_nonneg _)
  rcases le_or_gt (f.lastExp x) e with h | h
  · obtain ⟨n, hn⟩ := Int.eq_ofNat_of_zero_le (show 0 ≤ e - f.lastExp x by omega)
    have := key (k * 2 ^ n)
    rw [show e = n + f.lastExp x by omega, zpow_add₀ (by norm_num), zpow_natCast]
    push_cast at this
    rwa [mul_assoc] at this
  · -- a number with finer digits is at most the power of two below `x`
    have hl : f.emin < Int.log 2 x := by
      by_contra hc
      have : f.lastExp x = f.emin - (f.prec - 1) := by unfold lastExp; rw [max_eq_right (by omega)]
      omega
    have hle : f.lastExp x = Int.log 2 x - (f.prec - 1) := by unfold lastExp; rw [max_eq_left hl.le]
    have hw : (k : ℚ) * 2 ^ e ≤ 2 ^ Int.log 2 x := by
      calc (k : ℚ) * 2 ^ e ≤ 2 ^ f.prec * 2 ^ e := mul_le_mul_of_nonneg_right hp.le (two_zpow_pos e).le
        _ = 2 ^ (f.prec + e) := by rw [zpow_add₀ (by norm_num)]
        _ ≤ 2 ^ Int.log 2 x := two_zpow_le (by omega)
    have hxl := zpow_log_le' hx0
    have hpr := f.one_le_prec
    obtain ⟨n, hn⟩ := Int.eq_ofNat_of_zero_le (show 0 ≤ f.prec - 1 by omega)
    have e3 : ((2 ^ n : Int) : ℚ) * 2 ^ f.lastExp x = 2 ^ Int.log 2 x := by
      rw [show Int.log 2 x = n + f.lastExp x by omega, zpow_add₀ (by norm_num), zpow_natCast]; push_cast; rfl
    refine (key (2 ^ n)).trans ?_
    rw [e3, abs_of_nonpos (by linarith), abs_of_nonpos (by linarith)]
    linarith

/-- No wider: every value of `g` is one of `f`. -/
def Le (g f : FltTy) : Prop := g.prec ≤ f.prec ∧ g.emax ≤ f.emax

/-- Converting to a wider type does not change a value. -/
theorem rndMag_wider {g f : FltTy} (h : Le g f) {m : ℚ} (hm : 0 ≤ m) (hg : g.rndMag m = some m) : f.rndMag m = some m := by
  obtain ⟨h1, h2⟩ := rndMag_some.mp hg
  obtain ⟨k, e, a, b, c, d⟩ := rndU_form (f := g) hm
  rw [← h1] at d
  refine rndMag_some.mpr ⟨?_, h2.trans_le (two_zpow_le h.2)⟩
  rw [d, rndU_exact a (b.trans_le (two_zpow_le h.1))]
  have := h.1; have := h.2
  unfold emin at *
  omega

end FltTy

end Verif
