import Verif.LogTable

/-!
# The accuracy of `constexpr_log`

For every rounding with relative error at most `1.2e-16` (so for exact arithmetic and for IEEE double precision).
-/

namespace Verif

/-- What is needed of the rounding of an operation: its relative error is at most `ε`, and it does not cross the
bounds `1`, `10` and, for numbers obtained by rounding, `100`. -/
structure FlOK (fl : ℚ → ℚ) (ε : ℝ) : Prop where
  nonneg : 0 ≤ ε
  small : ε ≤ 12 / 10 ^ 17
  rel : ∀ x : ℚ, |((fl x : ℚ) : ℝ) - x| ≤ ε * |(x : ℝ)|
  one : ∀ x, 1 ≤ x → 1 ≤ fl x
  ten : ∀ x, 10 ≤ x → 10 ≤ fl x
  top : ∀ x, fl x < 10 → fl (fl x * 10) < 100

/-- `a` differs from `b` by at most `d`. -/
def Within (a b d : ℝ) : Prop := |a - b| ≤ d

theorem Within.mono {a b d d' : ℝ} (h : Within a b d) (hd : d ≤ d') : Within a b d' := le_trans h hd

theorem Within.add {a b a' b' d d' : ℝ} (h : Within a b d) (h' : Within a' b' d') : Within (a + a') (b + b') (d + d') := by
  unfold Within at *
  rw [abs_le] at *
  constructor <;> linarith [h.1, h.2, h'.1, h'.2]

theorem Within.trans {a b c d d' : ℝ} (h : Within a b d) (h' : Within b c d') : Within a c (d + d') := by
  unfold Within at *
  rw [abs_le] at *
  constructor <;> linarith [h.1, h.2, h'.1, h'.2]

theorem Within.symm {a b d : ℝ} (h : Within a b d) : Within b a d := by
  unfold Within at *; rwa [abs_sub_comm]

theorem Within.refl (a : ℝ) : Within a a 0 := by unfold Within; simp

theorem Within.nonneg {a b d : ℝ} (h : Within a b d) : 0 ≤ d := le_trans (abs_nonneg _) h

theorem Within.mul {a b a' b' d d' A B : ℝ} (h : Within a b d) (h' : Within a' b' d') (hB : |b| ≤ B) (hA : |b'| ≤ A) :
    Within (a * a') (b * b') (d * A + B * d' + d * d') := by
  have hd := h.nonneg
  have hd' := h'.nonneg
  have hB0 : 0 ≤ B := le_trans (abs_nonneg _) hB
  unfold Within at *
  have e : a * a' - b * b' = (a - b) * b' + b * (a' - b') + (a - b) * (a' - b') := by ring
  rw [e]
  refine le_trans (abs_add_le _ _) (add_le_add (le_trans (abs_add_le _ _) (add_le_add ?_ ?_)) ?_)
  · rw [abs_mul]; exact mul_le_mul h hA (abs_nonneg _) hd
  · rw [abs_mul]; exact mul_le_mul hB h' (abs_nonneg _) hB0
  · rw [abs_mul]; exact mul_le_mul h h' (abs_nonneg _) hd

theorem Within.fl {f : ℚ → ℚ} {ε : ℝ} (F : FlOK f ε) {x : ℚ} {b d B : ℝ} (h : Within (x : ℝ) b d) (hB : |b| ≤ B) :
    Within ((f x : ℚ) : ℝ) b (d + 12 / 10 ^ 17 * (B + d)) := by
  have h1 := F.rel x
  have hx : |(x : ℝ)| ≤ B + d := by
    have : (x : ℝ) = b + (x - b) := by ring
    rw [this]
    exact le_trans (abs_add_le _ _) (add_le_add hB h)
  have h2 : ε * |(x : ℝ)| ≤ 12 / 10 ^ 17 * (B + d) :=
    mul_le_mul F.small hx (abs_nonneg _) (by norm_num)
  have h3 : Within ((f x : ℚ) : ℝ) x (12 / 10 ^ 17 * (B + d)) := le_trans h1 h2
  exact (h3.trans h).mono (by linarith)

theorem fl_pos {f : ℚ → ℚ} {ε : ℝ} (F : FlOK f ε) {x : ℚ} (hx : 0 < x) : 0 < f x := by
  have h := F.rel x
  have hx' : (0 : ℝ) < x := by exact_mod_cast hx
  rw [abs_of_pos hx'] at h
  have h1 := (abs_le.mp h).1
  have h2 : ε * (x : ℝ) ≤ 12 / 10 ^ 17 * x := mul_le_mul_of_nonneg_right F.small hx'.le
  have : (0 : ℝ) < f x := by nlinarith
  exact_mod_cast this

/-- Rounding changes the logarithm by at most `2 ε`. -/
theorem log_fl {f : ℚ → ℚ} {ε : ℝ} (F : FlOK f ε) {x : ℚ} (hx : 0 < x) :
    Within (Real.log (f x)) (Real.log x) (2 * ε) := by
  have h := F.rel x
  have hx' : (0 : ℝ) < x := by exact_mod_cast hx
  have hf : (0 : ℝ) < f x := by exact_mod_cast fl_pos F hx
  rw [abs_of_pos hx'] at h
  have h1 := abs_le.mp h
  have hε := F.small
  have hε0 := F.nonneg
  have ht : (0 : ℝ) < f x / x := div_pos hf hx'
  have e : Real.log (f x) - Real.log x = Real.log (f x / x) := by rw [Real.log_div hf.ne' hx'.ne']
  have t1 : (f x : ℝ) / x ≤ 1 + ε := by rw [div_le_iff₀ hx']; nlinarith [h1.2]
  have t2 : 1 - ε ≤ (f x : ℝ) / x := by rw [le_div_iff₀ hx']; nlinarith [h1.1]
  unfold Within
  rw [e, abs_le]
  constructor
  · have := Real.one_sub_inv_le_log_of_pos ht
    have hi : ((f x : ℝ) / x)⁻¹ ≤ 1 + 2 * ε := by
      rw [inv_le_comm₀ ht (by linarith)]
      refine le_trans ?_ t2
      rw [inv_le_iff_one_le_mul₀ (by linarith)]
      nlinarith
    linarith
  · have := Real.log_le_sub_one_of_pos ht
    linarith

/-! ## `to_decimal` -/

/-- A power of nine makes up for the rounding. -/
theorem decUp_ok {f : ℚ → ℚ} {ε : ℝ} (F : FlOK f ε) : ∀ {k : Nat} {s : ℚ} {e : Int}, 0 < s → 1 ≤ s * 9 ^ k →
    (∃ w, s = f w) → ∃ s' n, decUp f k s e = .ok (s', e - (n : Nat)) ∧ n ≤ k ∧ 1 ≤ s' ∧ (∃ w, s' = f w) ∧ (1 ≤ s → n = 0 ∧ s' = s) ∧ (s' < 11 ∨ s' = s) ∧
      Within (Real.log s') (Real.log s + n * Real.log 10) (2 * ε * n)
  | 0, s, e, h0, h1, hw => by
    refine ⟨s, 0, ?_, le_refl _, by simpa using h1, hw, fun _ => ⟨rfl, rfl⟩, Or.inr rfl, ?_⟩
    · simp only [decUp]; rw [if_neg (by simp at h1; linarith)]; simp
    · simp [Within]
  | k + 1, s, e, h0, h1, hw => by
    simp only [decUp]
    by_cases hs : s < 1
    · rw [if_pos hs]
      have h10 : 0 < s * 10 := by linarith
      have hr := F.rel (s * 10)
      have h9 : s * 9 ≤ f (s * 10) := by
        have : ((s * 9 : ℚ) : ℝ) ≤ f (s * 10) := by
          have hs' : (0 : ℝ) < s := by exact_mod_cast h0
          push_cast at hr ⊢
          rw [abs_of_pos (show (0 : ℝ) < s * 10 by linarith)] at hr
          have h2 : ε * ((s : ℝ) * 10) ≤ 12 / 10 ^ 17 * (s * 10) := mul_le_mul_of_nonneg_right F.small (by linarith)
          have := (abs_le.mp hr).1
          linarith
        exact_mod_cast this
      have h1' : 1 ≤ f (s * 10) * 9 ^ k := by
        refine le_trans h1 ?_
        rw [pow_succ]
        have : (0 : ℚ) < 9 ^ k := by positivity
        nlinarith
      obtain ⟨s', n, e1, e2, e3, e4, -, e4', e5⟩ := decUp_ok F (k := k) (s := f (s * 10)) (e := e - 1) (fl_pos F h10) h1' ⟨_, rfl⟩
      refine ⟨s', n + 1, ?_, by omega, e3, e4, fun h => absurd hs (by linarith), ?_, ?_⟩
      · rw [e1]; push_cast; congr 2; ring
      · left
        rcases e4' with h | h
        · exact h
        · rw [h]
          have : ((f (s * 10) : ℚ) : ℝ) < 11 := by
            have hs' : (0 : ℝ) < s := by exact_mod_cast h0
            have hs1 : (s : ℝ) < 1 := by exact_mod_cast hs
            push_cast at hr
            rw [abs_of_pos (show (0 : ℝ) < s * 10 by linarith)] at hr
            have h2 : ε * ((s : ℝ) * 10) ≤ 12 / 10 ^ 17 * (s * 10) := mul_le_mul_of_nonneg_right F.small (by linarith)
            have := (abs_le.mp hr).2
            linarith
          exact_mod_cast this
      · have hl := log_fl F h10
        have e6 := e5.trans (hl.add (Within.refl (n * Real.log 10)))
        have hlog : Real.log ((s * 10 : ℚ) : ℝ) = Real.log s + Real.log 10 := by
          push_cast
          rw [Real.log_mul (by exact_mod_cast h0.ne') (by norm_num)]
        rw [hlog] at e6
        push_cast
        refine Within.mono ?_ (show 2 * ε * n + (2 * ε + 0) ≤ 2 * ε * (n + 1) by linarith)
        have e7 : Real.log s + Real.log 10 + n * Real.log 10 = Real.log s + (n + 1) * Real.log 10 := by ring
        rw [e7] at e6
        exact e6
    · rw [if_neg hs]
      refine ⟨s, 0, by simp, by omega, by linarith, hw, fun _ => ⟨rfl, rfl⟩, Or.inr rfl, ?_⟩
      simp [Within]

theorem decDown_ok {f : ℚ → ℚ} {ε : ℝ} (F : FlOK f ε) : ∀ {k : Nat} {s : ℚ} {e : Int}, 1 ≤ s → s < 10 * 9 ^ k →
    (∃ w, s = f w) → ∃ s' n, decDown f k s e = .ok (s', e + (n : Nat)) ∧ n ≤ k ∧ 1 ≤ s' ∧ s' < 10 ∧ (∃ w, s' = f w) ∧
      Within (Real.log s') (Real.log s - n * Real.log 10) (2 * ε * n)
  | 0, s, e, h0, h1, hw => by
    refine ⟨s, 0, ?_, le_refl _, h0, by simpa using h1, hw, ?_⟩
    · simp only [decDown]; rw [if_neg (by simp at h1; linarith)]; simp
    · simp [Within]
  | k + 1, s, e, h0, h1, hw => by
    simp only [decDown]
    by_cases hs : s ≥ 10
    · rw [if_pos hs]
      have h10 : 0 < s / 10 := by linarith
      have hr := F.rel (s / 10)
      have h9 : f (s / 10) ≤ s / 9 := by
        have : ((f (s / 10) : ℚ) : ℝ) ≤ ((s / 9 : ℚ) : ℝ) := by
          have hs' : (0 : ℝ) < s := by exact_mod_cast (by linarith : 0 < s)
          push_cast at hr ⊢
          rw [abs_of_pos (show (0 : ℝ) < s / 10 by linarith)] at hr
          have h2 : ε * ((s : ℝ) / 10) ≤ 12 / 10 ^ 17 * (s / 10) := mul_le_mul_of_nonneg_right F.small (by linarith)
          have := (abs_le.mp hr).2
          linarith
        exact_mod_cast this
      have h1' : f (s / 10) < 10 * 9 ^ k := by
        refine lt_of_le_of_lt h9 ?_
        rw [pow_succ] at h1
        linarith
      obtain ⟨s', n, e1, e2, e3, e4, e5, e6⟩ := decDown_ok F (k := k) (s := f (s / 10)) (e := e + 1)
        (F.one _ (by linarith)) h1' ⟨_, rfl⟩
      refine ⟨s', n + 1, ?_, by omega, e3, e4, e5, ?_⟩
      · rw [e1]; push_cast; congr 2; ring
      · have hl := log_fl F h10
        have e7 := e6.trans (hl.add (Within.refl (-(n * Real.log 10))))
        have hlog : Real.log ((s / 10 : ℚ) : ℝ) = Real.log s - Real.log 10 := by
          push_cast
          rw [Real.log_div (by exact_mod_cast (by linarith : s ≠ 0)) (by norm_num)]
        rw [hlog] at e7
        push_cast
        refine Within.mono ?_ (show 2 * ε * n + (2 * ε + 0) ≤ 2 * ε * (n + 1) by linarith)
        have e8 : Real.log s - Real.log 10 + -(n * Real.log 10) = Real.log s - (n + 1) * Real.log 10 := by ring
        rw [e8] at e7
        exact e7
    · rw [if_neg hs]
      refine ⟨s, 0, by simp, by omega, h0, by linarith, hw, ?_⟩
      simp [Within]

/-! ## The series -/

theorem y_near {f : ℚ → ℚ} {ε : ℝ} (F : FlOK f ε) {s : ℚ} (h1 : 1 ≤ s) (h2 : s ≤ 111 / 100) :
    Within ((f (f (s - 1) / f (s + 1)) : ℚ) : ℝ) (((s : ℝ) - 1) / (s + 1)) (26 / 10 ^ 18) := by
  have h1' : (1 : ℝ) ≤ s := by exact_mod_cast h1
  have h2' : (s : ℝ) ≤ 111 / 100 := by
    have : ((s : ℚ) : ℝ) ≤ ((111 / 100 : ℚ) : ℝ) := by exact_mod_cast h2
    simpa using this
  have hε := F.small
  have hε0 := F.nonneg
  have ra := F.rel (s - 1)
  have rb := F.rel (s + 1)
  have rc := F.rel (f (s - 1) / f (s + 1))
  push_cast at ra rb rc
  rw [abs_of_nonneg (show (0 : ℝ) ≤ s - 1 by linarith)] at ra
  rw [abs_of_nonneg (show (0 : ℝ) ≤ s + 1 by linarith)] at rb
  generalize ((f (s - 1) : ℚ) : ℝ) = a at *
  generalize ((f (s + 1) : ℚ) : ℝ) = b at *
  generalize ((f (f (s - 1) / f (s + 1)) : ℚ) : ℝ) = c at *
  generalize (s : ℝ) = t at *
  have ra' := abs_le.mp ra
  have rb' := abs_le.mp rb
  have e1 : ε * (t - 1) ≤ 12 / 10 ^ 17 * (11 / 100) := by
    refine mul_le_mul hε (by linarith) (by linarith) (by norm_num)
  have e2 : ε * (t + 1) ≤ 12 / 10 ^ 17 * (211 / 100) := by
    refine mul_le_mul hε (by linarith) (by linarith) (by norm_num)
  have hb : (2 : ℝ) - 1 / 10 ^ 15 ≤ b := by linarith [rb'.1]
  have hb0 : (0 : ℝ) < b := by linarith
  have ht0 : (0 : ℝ) < t + 1 := by linarith
  -- the quotient before rounding
  have q1 : Within (a / b) ((t - 1) / (t + 1)) (14 / 10 ^ 18) := by
    unfold Within
    have e : a / b - (t - 1) / (t + 1) = ((a - (t - 1)) * (t + 1) - (t - 1) * (b - (t + 1))) / (b * (t + 1)) := by
      field_simp; ring
    rw [e, abs_div, abs_of_pos (mul_pos hb0 ht0), div_le_iff₀ (mul_pos hb0 ht0)]
    have n1 : |(a - (t - 1)) * (t + 1) - (t - 1) * (b - (t + 1))| ≤ 2 * ε * (t - 1) * (t + 1) := by
      have m1 : |(a - (t - 1)) * (t + 1)| ≤ ε * (t - 1) * (t + 1) := by
        rw [abs_mul, abs_of_pos ht0]
        exact mul_le_mul_of_nonneg_right ra ht0.le
      have m2 : |(t - 1) * (b - (t + 1))| ≤ (t - 1) * (ε * (t + 1)) := by
        rw [abs_mul, abs_of_nonneg (show (0 : ℝ) ≤ t - 1 by linarith)]
        exact mul_le_mul_of_nonneg_left rb (by linarith)
      have := abs_sub ((a - (t - 1)) * (t + 1)) ((t - 1) * (b - (t + 1)))
      linarith
    refine le_trans n1 ?_
    have n2 : 2 * ε * (t - 1) * (t + 1) ≤ 2 * (12 / 10 ^ 17 * (11 / 100)) * (t + 1) := by
      refine mul_le_mul_of_nonneg_right ?_ ht0.le
      linarith
    refine le_trans n2 ?_
    rw [show 14 / 10 ^ 18 * (b * (t + 1)) = 14 / 10 ^ 18 * b * (t + 1) by ring]
    refine mul_le_mul_of_nonneg_right ?_ ht0.le
    linarith
  have hq : |(t - 1) / (t + 1)| ≤ 11 / 200 := by
    rw [abs_of_nonneg (div_nonneg (by linarith) ht0.le), div_le_iff₀ ht0]
    linarith
  have hab : |a / b| ≤ 6 / 100 := by
    have := abs_le.mp q1
    have hq' := abs_le.mp hq
    rw [abs_le]
    constructor <;> linarith [this.1, this.2, hq'.1, hq'.2]
  have q2 : Within c (a / b) (12 / 10 ^ 17 * (6 / 100)) := le_trans rc (mul_le_mul hε hab (abs_nonneg _) (by norm_num))
  exact (q2.trans q1).mono (by norm_num)

/-- The exact value of the loop. -/
noncomputable def logLoopR (q : ℝ) : Nat → ℝ → ℝ
  | 0, sum => sum
  | k + 1, sum => logLoopR q k (q * (1 / (2 * (k + 1 : ℕ) + 1) + sum))

theorem logLoop_near {f : ℚ → ℚ} {ε : ℝ} (F : FlOK f ε) {p : ℚ} {q : ℝ} (hp : Within (p : ℝ) q (32 / 10 ^ 19)) (h0 : 0 ≤ q)
    (h1 : q ≤ 31 / 10 ^ 4) : ∀ {k : Nat} {x : ℚ} {y : ℝ}, Within (x : ℝ) y (1 / 10 ^ 17) → 0 ≤ y → y ≤ 1 / 100 →
    Within ((logLoop f p k x : ℚ) : ℝ) (logLoopR q k y) (1 / 10 ^ 17) ∧ 0 ≤ logLoopR q k y ∧ logLoopR q k y ≤ 1 / 100
  | 0, x, y, h, hy0, hy1 => ⟨h, hy0, hy1⟩
  | k + 1, x, y, h, hy0, hy1 => by
    simp only [logLoop, logLoopR]
    have hk : (0 : ℝ) ≤ (k : ℝ) := Nat.cast_nonneg k
    have hc0 : (0 : ℝ) ≤ 1 / (2 * (k + 1 : ℕ) + 1) := by positivity
    have hc1 : (1 : ℝ) / (2 * (k + 1 : ℕ) + 1) ≤ 1 / 3 := by
      push_cast
      rw [div_le_div_iff₀ (by linarith) (by norm_num)]
      linarith
    have n1 : Within ((f (1 / (2 * (k + 1 : ℕ) + 1)) : ℚ) : ℝ) (1 / (2 * (k + 1 : ℕ) + 1)) (0 + 12 / 10 ^ 17 * (1 / 3 + 0)) := by
      refine Within.fl F ?_ (by rw [abs_of_nonneg hc0]; exact hc1)
      have : (((1 / (2 * (k + 1 : ℕ) + 1) : ℚ)) : ℝ) = 1 / (2 * (k + 1 : ℕ) + 1) := by push_cast; rfl
      rw [this]
      exact Within.refl _
    have n2 := n1.add h
    have n3 : Within ((f (f (1 / (2 * (k + 1 : ℕ) + 1)) + x) : ℚ) : ℝ) (1 / (2 * (k + 1 : ℕ) + 1) + y) (11 / 10 ^ 17) := by
      refine (Within.fl F (x := f (1 / (2 * (k + 1 : ℕ) + 1)) + x) (b := 1 / (2 * (k + 1 : ℕ) + 1) + y) (B := 35 / 100)
        (by push_cast at n2 ⊢; exact n2) ?_).mono (by norm_num)
      rw [abs_of_nonneg (by linarith)]; linarith
    have hs0 : (0 : ℝ) ≤ 1 / (2 * (k + 1 : ℕ) + 1) + y := by linarith
    have hs1 : (1 : ℝ) / (2 * (k + 1 : ℕ) + 1) + y ≤ 35 / 100 := by linarith
    have n4 := hp.mul n3 (B := 31 / 10 ^ 4) (A := 35 / 100) (by rw [abs_of_nonneg h0]; exact h1) (by rw [abs_of_nonneg hs0]; exact hs1)
    have hpr0 : 0 ≤ q * (1 / (2 * (k + 1 : ℕ) + 1) + y) := mul_nonneg h0 hs0
    have hpr1 : q * (1 / (2 * (k + 1 : ℕ) + 1) + y) ≤ 31 / 10 ^ 4 * (35 / 100) := mul_le_mul h1 hs1 hs0 (by norm_num)
    have n5 : Within ((f (p * f (f (1 / (2 * (k + 1 : ℕ) + 1)) + x)) : ℚ) : ℝ) (q * (1 / (2 * (k + 1 : ℕ) + 1) + y)) (1 / 10 ^ 17) := by
      refine (Within.fl F (x := p * f (f (1 / (2 * (k + 1 : ℕ) + 1)) + x)) (B := 31 / 10 ^ 4 * (35 / 100))
        (by push_cast at n4 ⊢; exact n4) ?_).mono (by norm_num)
      rw [abs_of_nonneg hpr0]; exact hpr1
    exact logLoop_near F hp h0 h1 n5 hpr0 (le_trans hpr1 (by norm_num))

/-- The series as computed is the logarithm up to `1.7e-14`. -/
theorem series_near {f : ℚ → ℚ} {ε : ℝ} (F : FlOK f ε) {s y ysq : ℚ} (h1 : 1 ≤ s) (h2 : s ≤ 111 / 100)
    (hy : y = f (f (s - 1) / f (s + 1))) (hq : ysq = f (y * y)) :
    Within ((f (f (2 * y) * f (1 + logLoop f ysq 4 0)) : ℚ) : ℝ) (Real.log s) (17 / 10 ^ 15) ∧ |Real.log s| ≤ 11 / 100 := by
  have h1' : (1 : ℝ) ≤ s := by exact_mod_cast h1
  have h2' : (s : ℝ) ≤ 111 / 100 := by
    have : ((s : ℚ) : ℝ) ≤ ((111 / 100 : ℚ) : ℝ) := by exact_mod_cast h2
    simpa using this
  have ny := y_near F h1 h2
  rw [← hy] at ny
  set t : ℝ := ((s : ℝ) - 1) / (s + 1) with ht
  have hs0 : (0 : ℝ) < s + 1 := by linarith
  have t0 : 0 ≤ t := div_nonneg (by linarith) hs0.le
  have t1 : t ≤ 522 / 10 ^ 4 := by rw [ht, div_le_iff₀ hs0]; linarith
  have ta : |t| ≤ 522 / 10 ^ 4 := by rw [abs_of_nonneg t0]; exact t1
  have nq : Within (ysq : ℝ) (t * t) (32 / 10 ^ 19) := by
    rw [hq]
    have := ny.mul ny ta ta
    refine (Within.fl F (x := y * y) (B := 522 / 10 ^ 4 * (522 / 10 ^ 4)) (by push_cast; exact this) ?_).mono (by norm_num)
    rw [abs_mul]; exact mul_le_mul ta ta (abs_nonneg _) (by norm_num)
  have tt0 : 0 ≤ t * t := mul_nonneg t0 t0
  have tt1 : t * t ≤ 31 / 10 ^ 4 := le_trans (mul_le_mul t1 t1 t0 (by norm_num)) (by norm_num)
  obtain ⟨nl, l0, l1⟩ := logLoop_near F nq tt0 tt1 (k := 4) (x := 0) (y := 0) (by simp [Within]) le_rfl (by norm_num)
  have n1 : Within ((f (1 + logLoop f ysq 4 0) : ℚ) : ℝ) (1 + logLoopR (t * t) 4 0) (14 / 10 ^ 17) := by
    refine (Within.fl F (x := 1 + logLoop f ysq 4 0) (B := 101 / 100) (by push_cast; exact (Within.refl 1).add nl) ?_).mono (by norm_num)
    rw [abs_of_nonneg (by linarith)]; linarith
  have n2 : Within ((f (2 * y) : ℚ) : ℝ) (2 * t) (7 / 10 ^ 17) := by
    have := (Within.refl 2).mul ny (B := 2) (A := 522 / 10 ^ 4) (by norm_num) ta
    refine (Within.fl F (x := 2 * y) (B := 2 * (522 / 10 ^ 4)) (by push_cast; exact this) ?_).mono (by norm_num)
    rw [abs_of_nonneg (by linarith)]; linarith
  have n3 : Within ((f (f (2 * y) * f (1 + logLoop f ysq 4 0)) : ℚ) : ℝ) (2 * t * (1 + logLoopR (t * t) 4 0)) (1 / 10 ^ 16) := by
    have b1 : |2 * t| ≤ 2 * (522 / 10 ^ 4) := by rw [abs_of_nonneg (by linarith)]; linarith
    have b2 : |1 + logLoopR (t * t) 4 0| ≤ 101 / 100 := by rw [abs_of_nonneg (by linarith)]; linarith
    have := n2.mul n1 b1 b2
    refine (Within.fl F (x := f (2 * y) * f (1 + logLoop f ysq 4 0)) (B := 2 * (522 / 10 ^ 4) * (101 / 100))
      (by push_cast; exact this) ?_).mono (by norm_num)
    rw [abs_mul]; exact mul_le_mul b1 b2 (abs_nonneg _) (by norm_num)
  have hlog : Within (2 * t * (1 + logLoopR (t * t) 4 0)) (Real.log s) (16 / 10 ^ 15) := by
    have e := Real.sum_range_sub_log_div_le (x := t) (lt_of_le_of_lt ta (by norm_num)) 5
    have hfrac : (1 + t) / (1 - t) = s := by
      rw [ht]
      have : (s : ℝ) + 1 ≠ 0 := hs0.ne'
      field_simp
      ring_nf
    rw [hfrac, abs_of_nonneg t0] at e
    have hsum : 2 * ∑ i ∈ Finset.range 5, t ^ (2 * i + 1) / (2 * i + 1) = 2 * t * (1 + logLoopR (t * t) 4 0) := by
      simp only [Finset.sum_range_succ, Finset.sum_range_zero, logLoopR]
      push_cast
      ring
    have hb : t ^ (2 * 5 + 1) / (1 - t ^ 2) ≤ 8 / 10 ^ 15 := by
      have hp : t ^ (2 * 5 + 1) ≤ (522 / 10 ^ 4) ^ (2 * 5 + 1) := pow_le_pow_left₀ t0 t1 _
      have hd : (1 : ℝ) - t ^ 2 ≥ 99 / 100 := by nlinarith
      rw [div_le_iff₀ (by linarith)]
      refine le_trans hp ?_
      have : (522 / 10 ^ 4 : ℝ) ^ (2 * 5 + 1) ≤ 8 / 10 ^ 15 * (99 / 100) := by norm_num
      linarith
    have e' := abs_le.mp (le_trans e hb)
    unfold Within
    rw [← hsum, abs_le]
    constructor <;> linarith [e'.1, e'.2]
  refine ⟨(n3.trans hlog).mono (by norm_num), ?_⟩
  have hl0 : 0 ≤ Real.log s := Real.log_nonneg h1'
  have := Real.log_le_sub_one_of_pos (show (0 : ℝ) < s by linarith)
  rw [abs_of_nonneg hl0]
  linarith

/-! ## The whole function -/

theorem log_ten_bounds : Real.log 10 ≤ 2303 / 1000 ∧ 23 / 10 ≤ Real.log 10 := by
  have h := table_log (i := 10) (by norm_num) (by norm_num)
  have hv : logTable id 10 = 23025850929940459 / 10 ^ 16 := by decide +kernel
  rw [hv] at h
  push_cast at h
  have := abs_le.mp h
  constructor <;> linarith [this.1, this.2]

theorem logTable_near {f : ℚ → ℚ} {ε : ℝ} (F : FlOK f ε) {i : Nat} (h1 : 1 ≤ i) (h2 : i ≤ 99) {B : ℝ} (hB : |Real.log i| ≤ B) :
    Within ((logTable f i : ℚ) : ℝ) (Real.log i) (46 / 10 ^ 17 + 12 / 10 ^ 17 * (B + 46 / 10 ^ 17)) := by
  have h : Within ((logTable id i : ℚ) : ℝ) (Real.log i) (46 / 10 ^ 17) := table_log h1 h2
  exact Within.fl F h hB

/-- The bound of the number of iterations suffices. -/
theorem decFuel_ok {v : ℚ} (hv : 0 < v) : 1 ≤ v * 9 ^ decFuel v ∧ v < 10 * 9 ^ decFuel v := by
  have key : ∀ m k : Nat, m ≠ 0 → m.log2 + 2 ≤ k → (m : ℚ) ≤ 9 ^ k := by
    intro m k hm hk
    have h1 : m < 2 ^ (m.log2 + 1) := (Nat.log2_lt hm).mp (by omega)
    have h2 : 2 ^ (m.log2 + 1) ≤ 9 ^ (m.log2 + 1) := Nat.pow_le_pow_left (by norm_num) _
    have h3 : 9 ^ (m.log2 + 1) ≤ 9 ^ k := Nat.pow_le_pow_right (by norm_num) (by omega)
    have : m ≤ 9 ^ k := by omega
    exact_mod_cast this
  have hnum : 0 < v.num := Rat.num_pos.mpr hv
  have hden : (0 : ℚ) < v.den := by exact_mod_cast v.den_pos
  have hval : v = v.num.natAbs / v.den := by
    have h := Rat.num_div_den v
    rw [show (v.num : ℚ) = ((v.num.natAbs : ℕ) : ℚ) by
      rw [show v.num = ((v.num.natAbs : ℕ) : ℤ) by omega]; simp] at h
    exact h.symm
  have hn1 : (1 : ℚ) ≤ v.num.natAbs := by exact_mod_cast (by omega : 1 ≤ v.num.natAbs)
  have hd1 : (1 : ℚ) ≤ v.den := by exact_mod_cast v.den_pos
  have k1 := key v.den (decFuel v) v.den_nz (by unfold decFuel; omega)
  have k2 := key v.num.natAbs (decFuel v) (by omega) (by unfold decFuel; omega)
  generalize (9 : ℚ) ^ decFuel v = g at *
  constructor
  · rw [hval, div_mul_eq_mul_div, le_div_iff₀ hden]
    nlinarith
  · rw [hval, div_lt_iff₀ hden]
    nlinarith

/-- `constexpr_log` of a representable positive number: its error, where `n1` and `n2` are the numbers of
iterations of the two loops of `to_decimal`. -/
theorem constexprLog_near {f : ℚ → ℚ} {ε : ℝ} (F : FlOK f ε) {v : ℚ} (hv : 0 < v) (hw : ∃ w, v = f w) :
    ∃ (l : ℚ) (n1 n2 : Nat), constexprLog f v = .ok l ∧
      Within (l : ℝ) (Real.log v) (21 / 10 ^ 15 + 2 / 10 ^ 15 * (n1 + n2 + 2)) ∧ (1 ≤ v → n1 = 0) ∧ (v < 1 → n2 ≤ 1) ∧
      ∃ t : ℝ, 0 ≤ t ∧ t ≤ 2303 / 1000 ∧ Within (Real.log v) (t + (n2 - n1) * Real.log 10) (2 * ε * (n1 + n2)) := by
  have hε := F.small
  have hε0 := F.nonneg
  have hL := log_ten_bounds
  obtain ⟨hlo, hhi⟩ := decFuel_ok hv
  obtain ⟨s1, n1, e1, b1, c1, w1, z1, z2, l1⟩ := decUp_ok F (k := decFuel v) (e := 0) hv hlo hw
  have hs1 : s1 < 10 * 9 ^ decFuel v := by
    rcases z2 with h | h
    · have h9 : (81 : ℚ) ≤ 9 ^ decFuel v := le_trans (by norm_num : (81 : ℚ) ≤ 9 ^ 2) (pow_le_pow_right₀ (by norm_num) (by unfold decFuel; omega))
      exact lt_of_lt_of_le (lt_trans h (by norm_num : (11 : ℚ) < 10 * 81)) (mul_le_mul_of_nonneg_left h9 (by norm_num))
    · rw [h]; exact hhi
  obtain ⟨s2, n2, e2, b2, c2, d2, ⟨w, hws⟩, l2⟩ := decDown_ok F (k := decFuel v) (e := 0 - (n1 : Nat)) c1 hs1 w1
  clear hlo hhi hs1
  have hdec : toDecimal f v = .ok (s2, 0 - (n1 : Nat) + (n2 : Nat)) := by
    unfold toDecimal
    rw [if_neg hv.ne', abs_of_pos hv, e1, ok_bind]
    simp only
    rw [e2, ok_bind]
    simp only [if_neg (not_lt.mpr hv.le)]
  -- the significant scaled by ten, and the index into the table
  set s3 := f (s2 * 10) with hs3
  have s3lo : 10 ≤ s3 := F.ten _ (by linarith)
  have s3hi : s3 < 100 := by rw [hs3, hws]; exact F.top _ (by rw [← hws]; exact d2)
  have hi : truncQ s3 = ⌊s3⌋ := by unfold truncQ; rw [if_pos (by linarith)]
  set i := ⌊s3⌋ with hidef
  have i1 : 10 ≤ i := Int.le_floor.mpr (by exact_mod_cast s3lo)
  have i2 : i ≤ 99 := by
    have : i < 100 := Int.floor_lt.mpr (by exact_mod_cast s3hi)
    omega
  have iq : ((i.toNat : ℕ) : ℤ) = i := Int.toNat_of_nonneg (by omega)
  have iR : ((i.toNat : ℕ) : ℝ) = (i : ℝ) := by exact_mod_cast iq
  have i1q : (10 : ℚ) ≤ (i : ℚ) := by exact_mod_cast i1
  have hfl : (i : ℚ) ≤ s3 := Int.floor_le s3
  have hfl' : s3 < i + 1 := Int.lt_floor_add_one s3
  have q1 : 1 ≤ s3 / i := by rw [le_div_iff₀ (by linarith)]; linarith
  have q2 : s3 / i < 11 / 10 := by rw [div_lt_iff₀ (by linarith)]; linarith
  set s4 := f (s3 / i) with hs4
  have s4lo : 1 ≤ s4 := F.one _ q1
  have s4hi : s4 ≤ 111 / 100 := by
    have hr := F.rel (s3 / i)
    have q1' : (1 : ℝ) ≤ ((s3 / i : ℚ) : ℝ) := by exact_mod_cast q1
    have q2' : ((s3 / i : ℚ) : ℝ) < ((11 / 10 : ℚ) : ℝ) := by exact_mod_cast q2
    rw [abs_of_nonneg (show (0 : ℝ) ≤ ((s3 / i : ℚ) : ℝ) by linarith)] at hr
    push_cast at q2'
    have h2 : ε * ((s3 / i : ℚ) : ℝ) ≤ 12 / 10 ^ 17 * ((s3 / i : ℚ) : ℝ) := mul_le_mul_of_nonneg_right hε (by linarith)
    have := (abs_le.mp hr).2
    have : ((s4 : ℚ) : ℝ) ≤ ((111 / 100 : ℚ) : ℝ) := by
      rw [hs4]; push_cast at *; linarith
    exact_mod_cast this
  -- logarithms
  have l3 : Within (Real.log s3) (Real.log s2 + Real.log 10) (2 * ε) := by
    have := log_fl F (x := s2 * 10) (by linarith)
    have e : Real.log ((s2 * 10 : ℚ) : ℝ) = Real.log s2 + Real.log 10 := by
      push_cast
      rw [Real.log_mul (by exact_mod_cast (by linarith : s2 ≠ 0)) (by norm_num)]
    rwa [e] at this
  have l4 : Within (Real.log s4) (Real.log s3 - Real.log i) (2 * ε) := by
    have := log_fl F (x := s3 / i) (by linarith)
    have e : Real.log ((s3 / i : ℚ) : ℝ) = Real.log s3 - Real.log i := by
      push_cast
      rw [Real.log_div (by exact_mod_cast (by linarith : s3 ≠ 0)) (by exact_mod_cast (by linarith : (i : ℚ) ≠ 0))]
    rwa [e] at this
  obtain ⟨ns, hs4l⟩ := series_near F s4lo s4hi rfl rfl
  -- the table
  have hD : |(((0 - (n1 : Nat) + (n2 : Nat) - 1 : Int) : ℚ) : ℝ)| ≤ (n1 : ℝ) + n2 + 1 := by
    push_cast
    have a1 : (0 : ℝ) ≤ n1 := Nat.cast_nonneg _
    have a2 : (0 : ℝ) ≤ n2 := Nat.cast_nonneg _
    rw [abs_le]; constructor <;> linarith
  set e0 : Int := 0 - (n1 : Nat) + (n2 : Nat) - 1 with he0
  set D : ℝ := (n1 : ℝ) + n2 + 1 with hDdef
  have D1 : 1 ≤ D := by
    have a1 : (0 : ℝ) ≤ n1 := Nat.cast_nonneg _
    have a2 : (0 : ℝ) ≤ n2 := Nat.cast_nonneg _
    rw [hDdef]; linarith
  have hl10 : |Real.log (10 : ℕ)| ≤ 2303 / 1000 := by
    push_cast; rw [abs_of_nonneg (by linarith [hL.2])]; exact hL.1
  have t10 : Within ((logTable f 10 : ℚ) : ℝ) (Real.log 10) (8 / 10 ^ 16) := by
    have := logTable_near F (i := 10) (by norm_num) (by norm_num) hl10
    push_cast at this
    exact this.mono (by norm_num)
  have hli : |Real.log i| ≤ 4606 / 1000 := by
    have h1 : (1 : ℝ) ≤ i := by exact_mod_cast (by omega : (1 : Int) ≤ i)
    have h2 : (i : ℝ) ≤ 100 := by exact_mod_cast (by omega : i ≤ 100)
    rw [abs_of_nonneg (Real.log_nonneg h1)]
    have h3 : Real.log i ≤ Real.log 100 := Real.log_le_log (by linarith) h2
    have h4 : Real.log 100 = 2 * Real.log 10 := by
      rw [show (100 : ℝ) = 10 ^ 2 by norm_num, Real.log_pow]; push_cast; rfl
    linarith [hL.1]
  have ti : Within ((logTable f i.toNat : ℚ) : ℝ) (Real.log i) (11 / 10 ^ 16) := by
    have := logTable_near F (i := i.toNat) (by omega) (by omega) (B := 4606 / 1000) (by rw [iR]; exact hli)
    rw [iR] at this
    exact this.mono (by norm_num)
  have m1 : Within ((((e0 : Int) : ℚ) * logTable f 10 : ℚ) : ℝ) (((e0 : ℚ) : ℝ) * Real.log 10) (D * (8 / 10 ^ 16)) := by
    have := (Within.refl ((e0 : ℚ) : ℝ)).mul t10 (B := D) (A := 2303 / 1000) hD (by push_cast at hl10; exact hl10)
    push_cast at this ⊢
    exact this.mono (by linarith)
  have mb : |((e0 : ℚ) : ℝ) * Real.log 10| ≤ D * (2303 / 1000) := by
    rw [abs_mul]
    exact mul_le_mul hD (by push_cast at hl10; exact hl10) (abs_nonneg _) (by linarith)
  have m2 : Within ((f (((e0 : Int) : ℚ) * logTable f 10) : ℚ) : ℝ) (((e0 : ℚ) : ℝ) * Real.log 10) (D * (11 / 10 ^ 16)) :=
    (Within.fl F m1 mb).mono (by linarith)
  have m3 : Within ((f (f (((e0 : Int) : ℚ) * logTable f 10) + logTable f i.toNat) : ℚ) : ℝ)
      (((e0 : ℚ) : ℝ) * Real.log 10 + Real.log i) (D * (14 / 10 ^ 16) + 17 / 10 ^ 16) := by
    refine (Within.fl F (B := D * (2303 / 1000) + 4606 / 1000) (by push_cast; exact_mod_cast m2.add ti) ?_).mono (by linarith)
    exact le_trans (abs_add_le _ _) (add_le_add mb hli)
  have m4 := m3.add ns
  have m5 : Within ((f (f (f (((e0 : Int) : ℚ) * logTable f 10) + logTable f i.toNat) +
      f (f (2 * f (f (s4 - 1) / f (s4 + 1))) * f (1 + logLoop f (f (f (f (s4 - 1) / f (s4 + 1)) * f (f (s4 - 1) / f (s4 + 1)))) 4 0))) : ℚ) : ℝ)
      (((e0 : ℚ) : ℝ) * Real.log 10 + Real.log i + Real.log s4) (D * (17 / 10 ^ 16) + 20 / 10 ^ 15) := by
    refine (Within.fl F (B := D * (2303 / 1000) + 4606 / 1000 + 11 / 100) (by push_cast; exact_mod_cast m4) ?_).mono (by linarith)
    exact le_trans (abs_add_le _ _) (add_le_add (le_trans (abs_add_le _ _) (add_le_add mb hli)) hs4l)
  refine ⟨f (f (f (((e0 : Int) : ℚ) * logTable f 10) + logTable f i.toNat) +
      f (f (2 * f (f (s4 - 1) / f (s4 + 1))) * f (1 + logLoop f (f (f (f (s4 - 1) / f (s4 + 1)) * f (f (s4 - 1) / f (s4 + 1)))) 4 0))),
    n1, n2, ?_, ?_, fun h => (z1 h).1, ?_, Real.log s2, ?_, ?_, ?_⟩
  · unfold constexprLog
    rw [show expects (v > 0) = .ok () from if_pos hv, ok_bind, hdec, ok_bind]
    simp only
    rw [← hs3, hi, if_pos ⟨by omega, by omega⟩, ← hs4]
  · refine (m5.trans (c := Real.log v) (d' := 2 * ε * (n1 + n2 + 2)) ?_).mono ?_
    · have r1 := abs_le.mp l1
      have r2 := abs_le.mp l2
      have r3 := abs_le.mp l3
      have r4 := abs_le.mp l4
      unfold Within
      rw [he0]
      push_cast
      rw [abs_le]
      constructor <;> linarith [r1.1, r1.2, r2.1, r2.2, r3.1, r3.2, r4.1, r4.2]
    · have : 2 * ε * ((n1 : ℝ) + n2 + 2) ≤ 2 * (12 / 10 ^ 17) * ((n1 : ℝ) + n2 + 2) := by
        refine mul_le_mul_of_nonneg_right (by linarith) (by rw [hDdef] at D1; linarith)
      rw [hDdef] at *
      linarith
  · intro hv1
    have h11 : (s1 : ℝ) < 11 := by
      rcases z2 with h | h
      · exact_mod_cast h
      · linarith
    have hs1 : (0 : ℝ) < s1 := by exact_mod_cast (by linarith : 0 < s1)
    have g1 : Real.log s1 ≤ Real.log 11 := Real.log_le_log hs1 h11.le
    have g2 : Real.log 11 ≤ 2 * Real.log 10 - 2 := by
      have h : Real.log 11 = Real.log 10 + Real.log (11 / 10) := by
        rw [← Real.log_mul (by norm_num) (by norm_num)]; norm_num
      have h' : Real.log (11 / 10) ≤ 11 / 10 - 1 := Real.log_le_sub_one_of_pos (by norm_num)
      linarith [hL.2]
    have g3 := (abs_le.mp l2).1
    have g3' := (abs_le.mp l2).2
    have g4 : 0 ≤ Real.log s2 := Real.log_nonneg (by exact_mod_cast c2)
    by_contra hc
    have hn : (2 : ℝ) ≤ n2 := by exact_mod_cast (by omega : 2 ≤ n2)
    have g5 : 2 * ε * n2 ≤ 2 * (12 / 10 ^ 17) * n2 :=
      mul_le_mul_of_nonneg_right (by linarith) (by linarith)
    have g6 : 2 * (Real.log 10 - 24 / 10 ^ 17) ≤ n2 * (Real.log 10 - 24 / 10 ^ 17) :=
      mul_le_mul_of_nonneg_right hn (by linarith [hL.2])
    linarith
  · exact Real.log_nonneg (by exact_mod_cast c2)
  · refine le_trans (Real.log_le_log (by exact_mod_cast (by linarith : 0 < s2)) (show (s2 : ℝ) ≤ 10 from ?_)) hL.1
    exact_mod_cast d2.le
  · have r1 := abs_le.mp l1
    have r2 := abs_le.mp l2
    unfold Within
    rw [abs_le]
    constructor <;> linarith [r1.1, r1.2, r2.1, r2.2]

end Verif
