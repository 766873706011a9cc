import Verif.Ratio

/-! # Helper lemmas about `units::ratio` (see `Verif/Ratio.lean` for the model) -/

namespace Verif

open Ratio

theorem make_eq_ok {n d e : Int} {r : Ratio} :
    make n d e = .ok r ↔ d ≠ 0 ∧ normalize n d e = .ok (r.num, r.den, r.exp) := by
  unfold make
  simp only [bind_ok, expects_eq_ok]
  constructor
  · rintro ⟨_, h0, ⟨n', d', e'⟩, h1, h2⟩
    simp only [Except.ok.injEq] at h2
    subst h2
    exact ⟨h0, h1⟩
  · rintro ⟨h0, h1⟩
    exact ⟨(), h0, _, h1, rfl⟩

theorem make_sound {n d e : Int} {r : Ratio} (hn : I64 n) (hd : I64 d) (he : I64 e)
    (h : make n d e = .ok r) : r.WF ∧ r.val = (n : ℚ) / d * 10 ^ e := by
  rw [make_eq_ok] at h
  exact normalize_sound hn hd he h.1 h.2

theorem make_accepts {n d e : Int} (hn : I64 n) (hd : I64 d) (hd0 : d ≠ 0)
    (hnm : n ≠ intMin) (hdm : d ≠ intMin) (he : -intMax + 40 ≤ e ∧ e ≤ intMax - 40) :
    ∃ r, make n d e = .ok r := by
  obtain ⟨⟨a, b, c⟩, h⟩ := normalize_accepts hn hd hd0 hnm hdm he
  exact ⟨⟨a, b, c⟩, make_eq_ok.mpr ⟨hd0, h⟩⟩

namespace Ratio.WF

variable {r : Ratio} (h : r.WF)
include h

theorem den_I64 : I64 r.den := by
  have := h.den_pos; have := h.den_range; unfold I64 intMin intMax at *; omega

theorem den_ne_min : r.den ≠ intMin := by
  have := h.den_pos; unfold intMin; omega

theorem denq : (r.den : ℚ) ≠ 0 := by
  have := h.den_pos
  exact_mod_cast this.ne'

theorem denq_pos : (0 : ℚ) < r.den := by exact_mod_cast h.den_pos

theorem val_eq_zero : r.val = 0 ↔ r.num = 0 := by
  unfold Ratio.val
  have := h.denq
  have h10 : ((10 : ℚ) ^ r.exp) ≠ 0 := zpow_ne_zero _ (by norm_num)
  simp [this, h10]

theorem val_pos : 0 < r.val ↔ 0 < r.num := by
  unfold Ratio.val
  have h10 : (0 : ℚ) < (10 : ℚ) ^ r.exp := zpow_pos (by norm_num) _
  rw [mul_pos_iff_of_pos_right h10, div_pos_iff_of_pos_right h.denq_pos]
  exact_mod_cast Iff.rfl

/-- A well-formed ratio is already normalised: constructing it again changes nothing. -/
theorem make_self : make r.num r.den r.exp = .ok r := by
  rw [make_eq_ok]
  refine ⟨h.den_pos.ne', ?_⟩
  unfold normalize
  split
  · rename_i h0
    obtain ⟨h1, h2⟩ := h.zero h0
    rw [h0, h1, h2]
  · rename_i h0
    have hg := h.coprime
    have hd : ¬ r.den < 0 := by have := h.den_pos; omega
    rw [sgcd, if_neg (by push Not; exact ⟨h.num_range.2, h.den_ne_min⟩), ok_bind, hg, if_neg hd,
      mul64]
    simp only [mul_one]
    rw [chk_of h.num_range.1, ok_bind, div64]
    simp only [Nat.cast_one, one_ne_zero, if_false, Int.tdiv_one]
    rw [chk_of h.num_range.1, ok_bind, (abs64_eq_ok h.den_I64).mpr ⟨h.den_ne_min, rfl⟩, ok_bind,
      abs_of_pos h.den_pos, div64]
    simp only [one_ne_zero, if_false, Int.tdiv_one]
    rw [chk_of h.den_I64, ok_bind]
    have s1 := strip10_complete (d := 1) (m := r.num) (e := r.exp) 0 h0 (h.num10 h0) (Or.inl rfl)
      h.exp_range (by simpa using h.exp_range)
    have s2 := strip10_complete (d := -1) (m := r.den) (e := r.exp) 0 h.den_pos.ne' h.den10
      (Or.inr rfl) h.exp_range (by simpa using h.exp_range)
    simp only [pow_zero, mul_one, Nat.cast_zero, mul_zero, add_zero] at s1 s2
    rw [s1, ok_bind]
    dsimp only
    rw [s2, ok_bind]

end Ratio.WF

theorem one_wf : Ratio.one.WF := by
  refine ⟨by decide, by decide, fun _ => by decide, by decide, by decide, ?_, ?_, ?_⟩ <;> decide

theorem one_val : Ratio.one.val = 1 := by simp [Ratio.val, Ratio.one]

theorem gcd_pos_right {a b : Int} (hb : b ≠ 0) : (0 : Int) < Int.gcd a b := by
  exact_mod_cast Int.gcd_pos_of_ne_zero_right a hb

theorem natAbs_tdiv_le (a b : Int) : (a.tdiv b).natAbs ≤ a.natAbs := by
  rw [Int.natAbs_tdiv]; exact Nat.div_le_self _ _

theorem tdiv_I64 {a b : Int} (ha : I64 a) (hm : a ≠ intMin) : I64 (a.tdiv b) ∧ a.tdiv b ≠ intMin := by
  have := natAbs_tdiv_le a b
  unfold I64 intMin intMax at *; omega

/-- Exactly when a product of ratios is accepted, and what it then is. -/
theorem mul_eq_ok {l r x : Ratio} (hl : l.WF) (hr : r.WF) :
    mul l r = .ok x ↔
      |l.num.tdiv (Int.gcd l.num r.den) * r.num.tdiv (Int.gcd r.num l.den)| ≤ intMax ∧
      |l.den.tdiv (Int.gcd r.num l.den) * r.den.tdiv (Int.gcd l.num r.den)| ≤ intMax ∧
      I64 (l.exp + r.exp) ∧
      make (l.num.tdiv (Int.gcd l.num r.den) * r.num.tdiv (Int.gcd r.num l.den))
        (l.den.tdiv (Int.gcd r.num l.den) * r.den.tdiv (Int.gcd l.num r.den))
        (l.exp + r.exp) = .ok x := by
  have g1 := gcd_pos_right (a := l.num) hr.den_pos.ne'
  have g2 := gcd_pos_right (a := r.num) hl.den_pos.ne'
  have a1 := tdiv_I64 (b := Int.gcd l.num r.den) hl.num_range.1 hl.num_range.2
  have a2 := tdiv_I64 (b := Int.gcd r.num l.den) hr.num_range.1 hr.num_range.2
  have a3 := tdiv_I64 (b := Int.gcd r.num l.den) hl.den_I64 hl.den_ne_min
  have a4 := tdiv_I64 (b := Int.gcd l.num r.den) hr.den_I64 hr.den_ne_min
  unfold mul
  rw [sgcd, if_neg (by push Not; exact ⟨hl.num_range.2, hr.den_ne_min⟩), ok_bind,
    sgcd, if_neg (by push Not; exact ⟨hr.num_range.2, hl.den_ne_min⟩), ok_bind,
    div64, if_neg g1.ne', chk_of a1.1, ok_bind, div64, if_neg g2.ne', chk_of a2.1, ok_bind,
    div64, if_neg g2.ne', chk_of a3.1, div64, if_neg g1.ne', chk_of a4.1]
  simp only [ok_bind]
  simp only [bind_ok, safeMultiply_eq_ok a1.1 a2.1, safeMultiply_eq_ok a3.1 a4.1, add64_eq_ok]
  constructor
  · rintro ⟨_, ⟨-, -, h1, rfl⟩, _, ⟨-, -, h2, rfl⟩, _, ⟨h3, rfl⟩, h4⟩
    exact ⟨h1, h2, h3, h4⟩
  · rintro ⟨h1, h2, h3, h4⟩
    exact ⟨_, ⟨a1.2, a2.2, h1, rfl⟩, _, ⟨a3.2, a4.2, h2, rfl⟩, _, ⟨h3, rfl⟩, h4⟩

theorem I64_of_abs {x : Int} (h : |x| ≤ intMax) : I64 x ∧ x ≠ intMin := by
  have := abs_le.mp h; unfold I64 intMin intMax at *; omega

theorem mul_sound {l r x : Ratio} (hl : l.WF) (hr : r.WF) (h : mul l r = .ok x) :
    x.WF ∧ x.val = l.val * r.val := by
  rw [mul_eq_ok hl hr] at h
  obtain ⟨h1, h2, h3, h4⟩ := h
  obtain ⟨hw, hv⟩ := make_sound (I64_of_abs h1).1 (I64_of_abs h2).1 h3 h4
  refine ⟨hw, ?_⟩
  rw [hv]
  have g1 := gcd_pos_right (a := l.num) hr.den_pos.ne'
  have g2 := gcd_pos_right (a := r.num) hl.den_pos.ne'
  have d1 : l.num.tdiv (Int.gcd l.num r.den) * (Int.gcd l.num r.den) = l.num :=
    Int.tdiv_mul_cancel (Int.gcd_dvd_left ..)
  have d2 : r.den.tdiv (Int.gcd l.num r.den) * (Int.gcd l.num r.den) = r.den :=
    Int.tdiv_mul_cancel (Int.gcd_dvd_right ..)
  have d3 : r.num.tdiv (Int.gcd r.num l.den) * (Int.gcd r.num l.den) = r.num :=
    Int.tdiv_mul_cancel (Int.gcd_dvd_left ..)
  have d4 : l.den.tdiv (Int.gcd r.num l.den) * (Int.gcd r.num l.den) = l.den :=
    Int.tdiv_mul_cancel (Int.gcd_dvd_right ..)
  unfold val
  have q1 := hl.denq
  have q2 := hr.denq
  generalize Int.gcd l.num r.den = G1 at *
  generalize Int.gcd r.num l.den = G2 at *
  generalize l.num.tdiv G1 = A at *
  generalize r.den.tdiv G1 = B at *
  generalize r.num.tdiv G2 = A' at *
  generalize l.den.tdiv G2 = B' at *
  rw [← d1, ← d2, ← d3, ← d4]
  rw [← d2] at q2
  rw [← d4] at q1
  push_cast at *
  have := left_ne_zero_of_mul q1
  have := right_ne_zero_of_mul q1
  have := left_ne_zero_of_mul q2
  have := right_ne_zero_of_mul q2
  rw [zpow_add₀ (by norm_num : (10 : ℚ) ≠ 0)]
  field_simp

theorem mul_comm_ok {l r x : Ratio} (hl : l.WF) (hr : r.WF) :
    mul l r = .ok x ↔ mul r l = .ok x := by
  rw [mul_eq_ok hl hr, mul_eq_ok hr hl]
  rw [mul_comm (l.num.tdiv _), mul_comm (l.den.tdiv _), add_comm l.exp]

/-- A generous sufficient condition for acceptance of a product. -/
theorem mul_accepts {l r : Ratio} (hl : l.WF) (hr : r.WF)
    (hn : |l.num * r.num| ≤ intMax) (hd : l.den * r.den ≤ intMax)
    (he : -intMax + 40 ≤ l.exp + r.exp ∧ l.exp + r.exp ≤ intMax - 40) :
    ∃ x, mul l r = .ok x := by
  have key : ∀ a b c d : Int, |a.tdiv c * b.tdiv d| ≤ |a * b| := by
    intro a b c d
    rw [Int.abs_eq_natAbs, Int.abs_eq_natAbs, Int.natAbs_mul, Int.natAbs_mul]
    exact_mod_cast Nat.mul_le_mul (natAbs_tdiv_le a c) (natAbs_tdiv_le b d)
  have h1 := (key l.num r.num (Int.gcd l.num r.den) (Int.gcd r.num l.den)).trans hn
  have hd' : |l.den * r.den| ≤ intMax := by
    rw [abs_of_pos (mul_pos hl.den_pos hr.den_pos)]; exact hd
  have h2 := (key l.den r.den (Int.gcd r.num l.den) (Int.gcd l.num r.den)).trans hd'
  have hI : I64 (l.exp + r.exp) := by unfold I64 intMin intMax at *; omega
  have d2 : r.den.tdiv (Int.gcd l.num r.den) * (Int.gcd l.num r.den) = r.den :=
    Int.tdiv_mul_cancel (Int.gcd_dvd_right ..)
  have d4 : l.den.tdiv (Int.gcd r.num l.den) * (Int.gcd r.num l.den) = l.den :=
    Int.tdiv_mul_cancel (Int.gcd_dvd_right ..)
  have n1 : r.den.tdiv (Int.gcd l.num r.den) ≠ 0 := by
    intro h; rw [h, zero_mul] at d2; exact hr.den_pos.ne d2
  have n2 : l.den.tdiv (Int.gcd r.num l.den) ≠ 0 := by
    intro h; rw [h, zero_mul] at d4; exact hl.den_pos.ne d4
  obtain ⟨x, hx⟩ := make_accepts (I64_of_abs h1).1 (I64_of_abs h2).1 (mul_ne_zero n2 n1)
    (I64_of_abs h1).2 (I64_of_abs h2).2 he
  exact ⟨x, (mul_eq_ok hl hr).mpr ⟨h1, h2, hI, hx⟩⟩

theorem inverse_eq_ok {r x : Ratio} :
    inverse r = .ok x ↔ I64 (-r.exp) ∧ make r.den r.num (-r.exp) = .ok x := by
  unfold inverse
  simp only [bind_ok, neg64_eq_ok]
  constructor
  · rintro ⟨_, ⟨h, rfl⟩, h2⟩; exact ⟨h, h2⟩
  · rintro ⟨h, h2⟩; exact ⟨_, ⟨h, rfl⟩, h2⟩

theorem inverse_sound {r x : Ratio} (hr : r.WF) (h : inverse r = .ok x) :
    x.WF ∧ x.val = r.val⁻¹ ∧ r.num ≠ 0 := by
  rw [inverse_eq_ok] at h
  obtain ⟨hI, h⟩ := h
  obtain ⟨hw, hv⟩ := make_sound hr.den_I64 hr.num_range.1 hI h
  refine ⟨hw, ?_, (make_eq_ok.mp h).1⟩
  rw [hv]; unfold val
  rw [mul_inv, inv_div, zpow_neg]

theorem inverse_accepts {r : Ratio} (hr : r.WF) (h0 : r.num ≠ 0)
    (he : -intMax + 40 ≤ r.exp ∧ r.exp ≤ intMax - 40) : ∃ x, inverse r = .ok x := by
  obtain ⟨x, hx⟩ := make_accepts (e := -r.exp) hr.den_I64 hr.num_range.1 h0 hr.den_ne_min
    hr.num_range.2 (by unfold intMax at *; omega)
  exact ⟨x, inverse_eq_ok.mpr ⟨by unfold I64 intMin intMax at *; omega, hx⟩⟩

theorem div_eq_ok {l r x : Ratio} :
    div l r = .ok x ↔ ∃ i, inverse r = .ok i ∧ mul l i = .ok x := by
  unfold div; simp only [bind_ok]

theorem div_sound {l r x : Ratio} (hl : l.WF) (hr : r.WF) (h : div l r = .ok x) :
    x.WF ∧ x.val = l.val / r.val ∧ r.num ≠ 0 := by
  rw [div_eq_ok] at h
  obtain ⟨i, hi, hm⟩ := h
  obtain ⟨hw, hv, h0⟩ := inverse_sound hr hi
  obtain ⟨hw', hv'⟩ := mul_sound hl hw hm
  exact ⟨hw', by rw [hv', hv, div_eq_mul_inv], h0⟩

theorem isIntegral_eq_ok {r : Ratio} {b : Bool} (hr : r.WF) (hpos : 0 < r.num) :
    isIntegral r = .ok b ↔ (b = true ↔ ∃ n : Int, r.val = n) := by
  have hd := hr.den_pos
  have hdq := hr.denq
  have key : ∀ k : Nat, (∃ n : Int, (r.num : ℚ) / r.den * 10 ^ k = n) ↔ r.den ∣ r.num * 10 ^ k := by
    intro k
    constructor
    · rintro ⟨n, hn⟩
      refine ⟨n, ?_⟩
      have : (r.num : ℚ) * 10 ^ k = r.den * n := by rw [← hn]; field_simp
      exact_mod_cast this
    · rintro ⟨n, hn⟩
      refine ⟨n, ?_⟩
      have : (r.num : ℚ) * 10 ^ k = r.den * n := by exact_mod_cast hn
      rw [div_mul_eq_mul_div, this, mul_div_cancel_left₀ _ hdq]
  unfold isIntegral
  split
  · rename_i he
    -- negative exponent: a factor ten survives in the denominator
    have hno : ¬ ∃ n : Int, r.val = n := by
      rintro ⟨n, hn⟩
      obtain ⟨k, hk⟩ : ∃ k : Nat, r.exp = -((k : Int) + 1) := ⟨(-r.exp - 1).toNat, by omega⟩
      have h10 : (10 : ℚ) ≠ 0 := by norm_num
      unfold val at hn
      rw [hk, zpow_neg] at hn
      have e1 : (10 : ℚ) ^ ((k : Int) + 1) = 10 ^ (k + 1) := by exact_mod_cast zpow_natCast (10 : ℚ) (k + 1)
      rw [e1] at hn
      have hp : ((10 : ℚ) ^ (k + 1)) ≠ 0 := pow_ne_zero _ h10
      have : (r.num : ℚ) = n * r.den * 10 ^ (k + 1) := by
        rw [← hn]; field_simp
      have hz : r.num = n * r.den * 10 ^ (k + 1) := by exact_mod_cast this
      exact hr.num10 hpos.ne' ⟨n * r.den * 10 ^ k, by rw [hz]; ring⟩
    simp only [Except.ok.injEq]
    constructor
    · rintro rfl; simpa using hno
    · intro h
      cases b
      · rfl
      · exact absurd (h.mp rfl) hno
  · rename_i he
    push Not at he
    obtain ⟨k, hk⟩ := Int.eq_ofNat_of_zero_le he
    have hv : r.val = (r.num : ℚ) / r.den * 10 ^ k := by unfold val; rw [hk, zpow_natCast]
    simp only [bind_ok, gcdpow_eq_ok hr.num_range.1 hr.den_I64]
    rw [hv, key]
    have hgd : ((Int.gcd (r.num * 10 ^ r.exp.toNat) r.den : Int) = r.den) ↔ r.den ∣ r.num * 10 ^ k := by
      rw [hk, Int.toNat_natCast]
      constructor
      · intro h; rw [← h]; exact Int.gcd_dvd_left ..
      · intro h
        rw [Int.gcd_eq_right_iff_dvd hd.le |>.mpr h]
    constructor
    · rintro ⟨g, ⟨-, -, -, rfl⟩, h⟩
      simp only [Except.ok.injEq] at h
      rw [← h, decide_eq_true_iff, hgd]
    · intro h
      refine ⟨_, ⟨hpos, he, hd, rfl⟩, ?_⟩
      simp only [Except.ok.injEq]
      cases b
      · simp only [Bool.false_eq_true, false_iff] at h
        rw [decide_eq_false_iff_not, hgd]; exact h
      · simp only [true_iff] at h
        rw [decide_eq_true_iff, hgd]; exact h

end Verif
