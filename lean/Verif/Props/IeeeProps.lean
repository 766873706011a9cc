import Verif.IeeeLemmas
import Verif.Props.FloatProps

/-!
# Floating point conversions with the limits of the IEEE formats (C69)
-/

namespace Verif

open FltTy

/-! ### The conversion factor -/

/-- A number in the middle of the range of a format: neither it nor what it becomes after a few roundings overflows or is denormal. -/
def InRange (f : FltTy) (x : ℚ) : Prop := 2 ^ (f.emin + 1) ≤ x ∧ x ≤ 2 ^ (f.emax - 1)

/-- None of the numbers from which the factor of a conversion is computed leaves the range of the type in which it is computed. -/
structure SafeRatio (f : FltTy) (c : Ratio) : Prop where
  pos : 0 < c.num
  pow : InRange f ((10 : ℚ) ^ c.exp)
  num : InRange f (c.num * (10 : ℚ) ^ c.exp)
  val : InRange f c.val

theorem Near.of_rel {u : ℚ} (h0 : 0 ≤ u) (h1 : u < 1) {k j : ℕ} {x y z : ℚ} (h : Near u k j x y) (hz : |z - y| ≤ u * |y|) :
    Near u (k + 1) j x z := by
  have hfl : StdModel u (fun _ w => if w = y then z else w) := by
    intro _ w
    by_cases hw : w = y
    · subst hw; simpa using hz
    · simp only [if_neg hw, sub_self, abs_zero]
      exact mul_nonneg h0 (abs_nonneg _)
  have := Near.round h0 h1 hfl h .f32
  simpa using this

/-- A few roundings change little. -/
theorem Near.bounds {f : FltTy} {k j : ℕ} (hk : k ≤ 5010) (hj : j ≤ 1) {x y : ℚ} (hx : 0 ≤ x) (h : Near f.u k j x y) :
    99 / 100 * x ≤ y ∧ y ≤ 101 / 100 * x := by
  obtain ⟨θ, rfl, l, r⟩ := h
  have u0 := f.u_pos
  have u1 := f.u_small
  have hk' : (k : ℚ) ≤ 5010 := by exact_mod_cast hk
  have p : (0 : ℚ) < 1 - f.u := by norm_num at u1; linarith
  have p' : (0 : ℚ) < 1 + f.u := by linarith
  have b1 : 1 + (k : ℚ) * (-f.u) ≤ (1 + -f.u) ^ k := one_add_mul_le_pow (by norm_num at u1; linarith) k
  rw [← sub_eq_add_neg] at b1
  have hku : (k : ℚ) * f.u ≤ 5010 * (1 / 2 ^ 24) := mul_le_mul hk' u1 u0.le (by norm_num)
  have b2 : (999 / 1000 : ℚ) ≤ (1 - f.u) ^ k := by norm_num at hku; linarith
  have b3 : (1 + f.u) ^ k * (1 - f.u) ^ k ≤ 1 := by
    rw [← mul_pow]; exact pow_le_one₀ (by nlinarith) (by nlinarith)
  have b4 : (1 + f.u) ^ k ≤ 1000 / 999 := by
    have hp : 0 < (1 + f.u) ^ k := pow_pos p' k
    have := mul_le_mul_of_nonneg_left b2 hp.le
    have := this.trans b3
    linarith
  have j1 : (1 + f.u) ^ j ≤ 1000 / 999 := by
    refine (pow_le_pow_right₀ (by linarith) hj).trans ?_
    norm_num at u1 ⊢; linarith
  have j2 : (999 / 1000 : ℚ) ≤ (1 - f.u) ^ j := by
    refine le_trans ?_ (pow_le_pow_of_le_one p.le (by linarith) hj)
    norm_num at u1 ⊢; linarith
  have l' : (99 / 100 : ℚ) ≤ θ := by
    refine le_trans ?_ l
    rw [le_div_iff₀ (by positivity)]
    nlinarith
  have r' : θ ≤ 101 / 100 := by
    refine r.trans ?_
    rw [div_le_iff₀ (by positivity)]
    nlinarith
  constructor <;> nlinarith

theorem Near.nonneg {f : FltTy} {k j : ℕ} (hk : k ≤ 5010) (hj : j ≤ 1) {x y : ℚ} (hx : 0 ≤ x) (h : Near f.u k j x y) : 0 ≤ y := by
  have := (Near.bounds hk hj hx h).1
  linarith

theorem FltTy.u_lt_one (f : FltTy) : f.u < 1 := f.u_small.trans_lt (by norm_num)

/-- A result in the middle of the range is rounded with a small relative error. -/
theorem rndMag_near {f : FltTy} {k j : ℕ} (hk : k ≤ 5010) (hj : j ≤ 1) {X x : ℚ} (hX : InRange f X) (h : Near f.u k j X x) :
    ∃ y, f.rndMag x = some y ∧ Near f.u (k + 1) j X y := by
  have hX0 : 0 < X := (two_zpow_pos _).trans_le hX.1
  obtain ⟨b1, b2⟩ := Near.bounds hk hj hX0.le h
  have u1 := f.u_small
  have e1 : (2 : ℚ) ^ (f.emin + 1) = 2 * 2 ^ f.emin := by rw [zpow_add₀ (by norm_num)]; ring
  have e2 : (2 : ℚ) ^ f.emax = 2 * 2 ^ (f.emax - 1) := by rw [zpow_sub₀ (by norm_num)]; field_simp
  have hn : (2 : ℚ) ^ f.emin ≤ x := by have := hX.1; rw [e1] at this; linarith
  have hr := rndU_rel hn
  refine ⟨f.rndU x, rndMag_some.mpr ⟨rfl, ?_⟩, Near.of_rel f.u_pos.le f.u_lt_one h ?_⟩
  · have h1 := (abs_le.mp hr).2
    have h2 := hX.2
    rw [e2]
    have h3 : f.u * x ≤ 1 / 100 * x := mul_le_mul_of_nonneg_right (by norm_num at u1; linarith) (by linarith)
    linarith
  · rw [abs_of_pos (show 0 < x by linarith)]; exact hr

theorem InRange.between {f : FltTy} {a b x : ℚ} (ha : InRange f a) (hb : InRange f b) (h1 : a ≤ x) (h2 : x ≤ b) : InRange f x :=
  ⟨ha.1.trans h1, h2.trans hb.2⟩

theorem inRange_one_to {f : FltTy} {x : ℚ} (h1 : 1 ≤ x) (h2 : x ≤ 2 ^ 63) : InRange f x := by
  constructor
  · refine le_trans ?_ h1
    have := f.emin_neg
    rw [← zpow_zero (2 : ℚ)]; exact two_zpow_le (by omega)
  · refine h2.trans ?_
    have := f.emax_ge
    rw [← zpow_natCast]; exact two_zpow_le (by push_cast; omega)

theorem ofInt_one (f : FltTy) : FVal.ofInt f 1 = .fin false 1 := by cases f <;> decide +kernel
theorem ofInt_ten (f : FltTy) : FVal.ofInt f 10 = .fin false 10 := by cases f <;> decide +kernel

theorem ofInt_near {f : FltTy} {z : Int} (h0 : 0 < z) (h1 : (z : ℚ) ≤ 2 ^ 63) :
    ∃ y, FVal.ofInt f z = .fin false y ∧ Near f.u 1 0 (z : ℚ) y := by
  have hz : (0 : ℚ) < z := by exact_mod_cast h0
  have hz1 : (1 : ℚ) ≤ z := by exact_mod_cast h0
  obtain ⟨y, h2, h3⟩ := rndMag_near (f := f) (k := 0) (j := 0) (by omega) (by omega) (inRange_one_to hz1 h1) (Near.refl' (u := f.u) (z : ℚ))
  refine ⟨y, ?_, by simpa using h3⟩
  unfold FVal.ofInt FVal.round
  rw [abs_of_pos hz, h2]
  simp [show ¬ z < 0 by omega]

theorem fpow10I_mul {f : FltTy} (n : ℕ) {k : ℕ} {X x : ℚ} (hk : k + n ≤ 5000) (h1 : InRange f X) (h2 : InRange f (X * 10 ^ n))
    (h : Near f.u k 0 X x) :
    ∃ y, fpow10LoopI (FVal.mul f) (.fin false 10) n (.fin false x) = .fin false y ∧ Near f.u (k + n) 0 (X * 10 ^ n) y := by
  induction n generalizing k X x with
  | zero => exact ⟨x, rfl, by simpa using h⟩
  | succ n ih =>
    have hX : 0 < X := (two_zpow_pos _).trans_le h1.1
    have h10 : (1 : ℚ) ≤ 10 ^ n := one_le_pow₀ (by norm_num)
    have hm : InRange f (X * 10) := by
      refine h1.between h2 (by linarith) ?_
      rw [pow_succ']
      nlinarith
    obtain ⟨y, hy, ny⟩ := rndMag_near (by omega) (by omega) hm (Near.mul f.u_pos.le f.u_lt_one h (Near.refl' (10 : ℚ)))
    simp only [fpow10LoopI]
    have e : FVal.mul f (.fin false x) (.fin false 10) = .fin false y := by simp [FVal.mul, FVal.round, hy]
    rw [e]
    have e2 : X * 10 * 10 ^ n = X * 10 ^ (n + 1) := by rw [pow_succ']; ring
    obtain ⟨z, hz, nz⟩ := ih (k := k + 1) (by omega) hm (by rw [e2]; exact h2) ny
    refine ⟨z, hz, ?_⟩
    rw [← e2, show k + (n + 1) = k + 1 + n by ring]; exact nz

theorem fpow10I_div {f : FltTy} (n : ℕ) {k : ℕ} {X x : ℚ} (hk : k + n ≤ 5000) (h1 : InRange f X) (h2 : InRange f (X / 10 ^ n))
    (h : Near f.u k 0 X x) :
    ∃ y, fpow10LoopI (FVal.div f) (.fin false 10) n (.fin false x) = .fin false y ∧ Near f.u (k + n) 0 (X / 10 ^ n) y := by
  induction n generalizing k X x with
  | zero => exact ⟨x, rfl, by simpa using h⟩
  | succ n ih =>
    have hX : 0 < X := (two_zpow_pos _).trans_le h1.1
    have h10 : (1 : ℚ) ≤ 10 ^ n := one_le_pow₀ (by norm_num)
    have hm : InRange f (X / 10) := by
      refine h2.between h1 ?_ (by linarith)
      rw [pow_succ']
      exact div_le_div_of_nonneg_left hX.le (by norm_num) (by linarith)
    obtain ⟨y, hy, ny⟩ := rndMag_near (by omega) (by omega) hm (Near.div f.u_pos.le f.u_lt_one h (Near.refl' (10 : ℚ)))
    simp only [fpow10LoopI]
    have e : FVal.div f (.fin false x) (.fin false 10) = .fin false y := by simp [FVal.div, FVal.round, hy]
    rw [e]
    have e2 : X / 10 / 10 ^ n = X / 10 ^ (n + 1) := by rw [pow_succ', div_div]
    obtain ⟨z, hz, nz⟩ := ih (k := k + 1) (by omega) hm (by rw [e2]; exact h2) ny
    refine ⟨z, hz, ?_⟩
    rw [← e2, show k + (n + 1) = k + 1 + n by ring]; exact nz

theorem exp_bound {f : FltTy} {e : Int} (h : InRange f ((10 : ℚ) ^ e)) : e.natAbs ≤ 4950 := by
  have hm : f.emax ≤ 16384 := by cases f <;> decide
  have key : (10 : ℚ) ^ (e.natAbs : Int) ≤ 2 ^ (16384 : Int) := by
    rcases le_total 0 e with h0 | h0
    · rw [Int.natAbs_of_nonneg h0]
      exact h.2.trans (two_zpow_le (by omega))
    · rw [show (e.natAbs : Int) = -e by omega, zpow_neg, ← inv_inv ((2 : ℚ) ^ (16384 : Int))]
      refine inv_anti₀ (by positivity) (le_trans ?_ h.1)
      rw [← zpow_neg]
      exact two_zpow_le (by unfold emin; omega)
  by_contra hc
  have h1 : (10 : ℚ) ^ (4951 : Int) ≤ 10 ^ (e.natAbs : Int) := zpow_le_zpow_right₀ (by norm_num) (by omega)
  have h2 : (2 : ℚ) ^ (16384 : Int) < 10 ^ (4951 : Int) := by
    have : (2 : ℕ) ^ 16384 < 10 ^ 4951 := by decide +kernel
    have : (2 : ℚ) ^ (16384 : ℕ) < 10 ^ (4951 : ℕ) := by exact_mod_cast this
    exact_mod_cast this
  exact absurd (h1.trans key) (not_le.mpr h2)

theorem fpow10I_near {f : FltTy} {e : Int} (h : InRange f ((10 : ℚ) ^ e)) :
    ∃ y, fpow10I f e = .fin false y ∧ Near f.u e.natAbs 0 ((10 : ℚ) ^ e) y := by
  have hb := exp_bound h
  have h1 : InRange f (1 : ℚ) := inRange_one_to le_rfl (by norm_num)
  unfold fpow10I
  rw [ofInt_one, ofInt_ten]
  split
  · rename_i h0; subst h0
    exact ⟨1, rfl, by simpa using Near.refl' (u := f.u) (1 : ℚ)⟩
  · split
    · rename_i h0
      have e1 : (1 : ℚ) / 10 ^ e.natAbs = 10 ^ e := by
        conv_rhs => rw [show e = -(e.natAbs : Int) by omega, zpow_neg, zpow_natCast]
        rw [one_div]
      obtain ⟨y, hy, ny⟩ := fpow10I_div (f := f) e.natAbs (k := 0) (X := 1) (x := 1) (by omega) h1 (by rw [e1]; exact h) (Near.refl' _)
      exact ⟨y, hy, by rw [← e1]; simpa using ny⟩
    · have e1 : (1 : ℚ) * 10 ^ e.natAbs = 10 ^ e := by
        conv_rhs => rw [show e = (e.natAbs : Int) by omega, zpow_natCast]
        rw [one_mul]
      obtain ⟨y, hy, ny⟩ := fpow10I_mul (f := f) e.natAbs (k := 0) (X := 1) (x := 1) (by omega) h1 (by rw [e1]; exact h) (Near.refl' _)
      exact ⟨y, hy, by rw [← e1]; simpa using ny⟩

/-- The factor of a conversion. -/
theorem factor_near {f : FltTy} {c : Ratio} (hc : c.WF) (h : SafeRatio f c) :
    ∃ F, 0 < F ∧ FVal.div f (FVal.mul f (FVal.ofInt f c.num) (fpow10I f c.exp)) (FVal.ofInt f c.den) = .fin false F ∧
      Near f.u (c.exp.natAbs + 3) 1 c.val F := by
  have hb := exp_bound h.pow
  have i64 : ∀ z : Int, I64 z → (z : ℚ) ≤ 2 ^ 63 := by
    intro z hz
    have : z ≤ 2 ^ 63 := by have := hz.2; unfold intMax at this; omega
    exact_mod_cast this
  obtain ⟨p, hp, np⟩ := fpow10I_near h.pow
  obtain ⟨n, hn, nn⟩ := ofInt_near (f := f) h.pos (i64 _ hc.num_range.1)
  obtain ⟨d, hd, nd⟩ := ofInt_near (f := f) hc.den_pos (i64 _ ⟨by have := hc.den_pos; unfold intMin; omega, hc.den_range⟩)
  obtain ⟨a, ha, na⟩ := rndMag_near (by omega) (by omega) h.num (Near.mul f.u_pos.le f.u_lt_one nn np)
  have hdp : 0 < d := by
    have := (Near.bounds (by omega) (by omega) (by exact_mod_cast hc.den_pos.le) nd).1
    have : (0 : ℚ) < c.den := by exact_mod_cast hc.den_pos
    linarith
  have ev : c.val = c.num * (10 : ℚ) ^ c.exp / c.den := by unfold Ratio.val; ring
  have nq := Near.div f.u_pos.le f.u_lt_one na nd
  rw [← ev] at nq
  obtain ⟨F, hF, nF⟩ := rndMag_near (by omega) (by omega) h.val nq
  have hv0 : 0 < c.val := (two_zpow_pos _).trans_le h.val.1
  refine ⟨F, ?_, ?_, ?_⟩
  · have := (Near.bounds (by omega) (by omega) hv0.le nF).1
    linarith
  · rw [hp, hn, hd]
    simp [FVal.mul, FVal.round, ha, FVal.div, hdp.ne', hF]
  · exact Near.weaken f.u_pos.le f.u_lt_one (by omega) (by omega) nF

/-! ### The last roundings -/

/-- The relative error of `n` roundings in a product and one in a divisor. -/
def gammaErr (f : FltTy) (n : ℕ) : ℚ := (1 + f.u) ^ n / (1 - f.u) - 1

theorem Near.err {f : FltTy} {n : ℕ} (hn : 1 ≤ n) {x y : ℚ} (hx : 0 ≤ x) (h : Near f.u n 1 x y) : |y - x| ≤ gammaErr f n * x := by
  obtain ⟨θ, rfl, l, r⟩ := h
  have u0 := f.u_pos
  have u1 := f.u_lt_one
  have p : (0 : ℚ) < 1 - f.u := by linarith
  have p' : (0 : ℚ) < 1 + f.u := by linarith
  rw [pow_one] at l r
  have b1 : 1 + (n : ℚ) * f.u ≤ (1 + f.u) ^ n := one_add_mul_le_pow (by linarith) n
  have b2 : 1 + (n : ℚ) * (-f.u) ≤ (1 + -f.u) ^ n := one_add_mul_le_pow (by linarith) n
  have b2 : 1 - (n : ℚ) * f.u ≤ (1 - f.u) ^ n := by simpa [sub_eq_add_neg] using b2
  have hn' : (1 : ℚ) ≤ n := by exact_mod_cast hn
  have hn0 : (0 : ℚ) ≤ n * f.u := by positivity
  have c1 : (1 + (n : ℚ) * f.u) / (1 - f.u) ≤ (1 + f.u) ^ n / (1 - f.u) := div_le_div_of_nonneg_right b1 p.le
  have c2 : (1 - (n : ℚ) * f.u) / (1 + f.u) ≤ (1 - f.u) ^ n / (1 + f.u) := div_le_div_of_nonneg_right b2 p'.le
  have c3 : 2 ≤ (1 + (n : ℚ) * f.u) / (1 - f.u) + (1 - (n : ℚ) * f.u) / (1 + f.u) := by
    rw [div_add_div _ _ p.ne' p'.ne', le_div_iff₀ (by positivity)]
    nlinarith [mul_nonneg hn0 u0.le, sq_nonneg f.u]
  have hθ : |θ - 1| ≤ gammaErr f n := by
    unfold gammaErr
    rw [abs_le]; constructor <;> linarith
  rw [show x * θ - x = (θ - 1) * x by ring, abs_mul, abs_of_nonneg hx]
  exact mul_le_mul_of_nonneg_right hθ hx

theorem FltTy.Le.u {g f : FltTy} (h : FltTy.Le g f) : f.u ≤ g.u := by
  unfold FltTy.u
  exact div_le_div_of_nonneg_left (by norm_num) (two_zpow_pos _) (two_zpow_le h.1)

theorem Near.mono {u u' : ℚ} (h0 : 0 ≤ u) (hu : u ≤ u') (h1 : u' < 1) {k j : ℕ} {x y : ℚ} (h : Near u k j x y) : Near u' k j x y := by
  obtain ⟨θ, e, l, r⟩ := h
  have p : 0 < 1 - u' := by linarith
  refine ⟨θ, e, le_trans ?_ l, le_trans r ?_⟩
  · exact div_le_div₀ (pow_nonneg (by linarith) _) (pow_le_pow_left₀ p.le (by linarith) _) (pow_pos (by linarith) _)
      (pow_le_pow_left₀ (by linarith) (by linarith) _)
  · exact div_le_div₀ (pow_nonneg (by linarith) _) (pow_le_pow_left₀ (by linarith) (by linarith) _) (pow_pos p _)
      (pow_le_pow_left₀ p.le (by linarith) _)

/-- Rounding to `f` and then to the same or a narrower type. -/
def round2 (f g : FltTy) (s : Bool) (z : ℚ) : FVal := (FVal.round f s z).conv g

theorem round2_same (f : FltTy) (s : Bool) {z : ℚ} (hz : 0 ≤ z) : round2 f f s z = FVal.round f s z := by
  unfold round2 FVal.round
  cases h : f.rndMag z with
  | none => rfl
  | some y =>
    obtain ⟨h1, h2⟩ := rndMag_some.mp h
    have : f.rndMag y = some y := rndMag_some.mpr ⟨by rw [h1, rndU_idem hz], h2⟩
    simp [FVal.conv, FVal.round, this]

theorem Le.eq_or_tiny {g f : FltTy} (h : FltTy.Le g f) : f = g ∨ f.tiny ≤ g.tiny / 2 := by
  rcases eq_or_ne f g with e | e
  · exact Or.inl e
  · right
    have h1 := h.1; have h2 := h.2
    have : f.emin - f.prec + 1 ≤ g.emin - g.prec + 1 - 1 := by
      cases f <;> cases g <;> simp_all [FltTy.emin, FltTy.emax, FltTy.prec]
    calc f.tiny ≤ 2 ^ (g.emin - g.prec + 1 - 1) := two_zpow_le this
      _ = g.tiny / 2 := by unfold FltTy.tiny; rw [zpow_sub₀ (by norm_num)]; norm_num

/-- A number that is not too large is rounded twice without overflow, and the error is small. -/
theorem round2_small {f g : FltTy} (h : FltTy.Le g f) {n : ℕ} (hn : n ≤ 5000) {X z : ℚ} (hX : 0 ≤ X) (s : Bool) (hz : Near f.u n 1 X z)
    (hb : X ≤ 2 ^ (g.emax - 2)) :
    ∃ y, 0 ≤ y ∧ g.rndMag y = some y ∧ round2 f g s z = .fin s y ∧ |y - X| ≤ gammaErr g (n + 2) * X + g.tiny ∧
      (2 ^ (g.emin + 1) ≤ X → |y - X| ≤ gammaErr g (n + 2) * X) := by
  have z0 : 0 ≤ z := Near.nonneg (by omega) (by omega) hX hz
  obtain ⟨b1, b2⟩ := Near.bounds (by omega) (by omega) hX hz
  have eg := g.emax_ge
  have e4 : (2 : ℚ) ^ (g.emax - 1) = 2 * 2 ^ (g.emax - 2) := by
    rw [show g.emax - 1 = g.emax - 2 + 1 by ring, zpow_add₀ (by norm_num)]; ring
  have hz2 : z ≤ 2 ^ (g.emax - 1) := by rw [e4]; have := two_zpow_pos (g.emax - 2); linarith
  have hge : g.emin ≤ g.emax - 1 := by unfold FltTy.emin; omega
  have hfe : f.emin ≤ g.emax - 1 := by unfold FltTy.emin; have := h.2; omega
  -- the first rounding
  have y1le : f.rndU z ≤ 2 ^ (g.emax - 1) := rndU_le_pow hfe z0 hz2
  have hy1 : f.rndMag z = some (f.rndU z) := rndMag_some.mpr ⟨rfl, y1le.trans_lt (two_zpow_lt (by have := h.2; omega))⟩
  have y10 : 0 ≤ f.rndU z := rndU_nonneg z0
  set y1 := f.rndU z with hy1d
  -- the second rounding
  have y2le : g.rndU y1 ≤ 2 ^ (g.emax - 1) := rndU_le_pow hge y10 y1le
  have hy2 : g.rndMag y1 = some (g.rndU y1) := rndMag_some.mpr ⟨rfl, y2le.trans_lt (two_zpow_lt (by omega))⟩
  have y20 : 0 ≤ g.rndU y1 := rndU_nonneg y10
  have hz' : Near g.u n 1 X z := Near.mono f.u_pos.le h.u g.u_lt_one hz
  have ug := g.u_pos
  have ug1 := g.u_lt_one
  have A1 : z ≤ (1 + g.u) ^ n / (1 - g.u) * X := by
    obtain ⟨θ, rfl, -, r⟩ := hz'
    rw [pow_one] at r
    rw [mul_comm]; exact mul_le_mul_of_nonneg_right r hX
  refine ⟨g.rndU y1, y20, rndMag_some.mpr ⟨(rndU_idem y10).symm, y2le.trans_lt (two_zpow_lt (by omega))⟩, ?_, ?_, ?_⟩
  · simp [round2, FVal.round, hy1, FVal.conv, hy2]
  · -- absolute and relative part
    have E0 : |z - X| ≤ ((1 + g.u) ^ n / (1 - g.u) - 1) * X := by
      rcases Nat.eq_zero_or_pos n with hn0 | hn0
      · subst hn0
        obtain ⟨θ, e, l, r⟩ := hz'
        rw [e, show X * θ - X = (θ - 1) * X by ring, abs_mul, abs_of_nonneg hX]
        refine mul_le_mul_of_nonneg_right ?_ hX
        simp only [pow_zero, pow_one] at l r ⊢
        rw [abs_le]; constructor
        · have : 2 ≤ 1 / (1 - g.u) + 1 / (1 + g.u) := by
            rw [div_add_div _ _ (by linarith) (by linarith), le_div_iff₀ (by nlinarith)]
            nlinarith
          linarith
        · linarith
      · exact Near.err hn0 hX hz'
    have E1 : |y1 - z| ≤ g.u * z + f.tiny / 2 := by
      refine (rndU_any z0).trans ?_
      have := mul_le_mul_of_nonneg_right h.u z0
      linarith
    have E2 : |g.rndU y1 - y1| ≤ g.u * y1 + (g.tiny / 2 - f.tiny / 2 * g.u - f.tiny / 2) + g.tiny / 2 := by
      rcases Le.eq_or_tiny h with e | e
      · have : g.rndU y1 = y1 := by rw [hy1d, e]; exact rndU_idem z0
        rw [this, sub_self, abs_zero, e]
        have := g.tiny_pos
        have := mul_nonneg ug.le y10
        nlinarith
      · refine (rndU_any y10).trans ?_
        have := f.tiny_pos
        nlinarith
    have y1up : y1 ≤ z + g.u * z + f.tiny / 2 := by have := (abs_le.mp E1).2; linarith
    have key : gammaErr g (n + 2) * X = ((1 + g.u) ^ n / (1 - g.u) - 1) * X + (2 * g.u + g.u ^ 2) * ((1 + g.u) ^ n / (1 - g.u) * X) := by
      unfold gammaErr; rw [pow_add]; ring
    rw [key]
    have t1 : |g.rndU y1 - X| ≤ |g.rndU y1 - y1| + |y1 - z| + |z - X| := by
      have := abs_add_three (g.rndU y1 - y1) (y1 - z) (z - X)
      rwa [show g.rndU y1 - y1 + (y1 - z) + (z - X) = g.rndU y1 - X by ring] at this
    have t2 : g.u * y1 ≤ g.u * (z + g.u * z + f.tiny / 2) := mul_le_mul_of_nonneg_left y1up ug.le
    have t3 : (2 * g.u + g.u ^ 2) * z ≤ (2 * g.u + g.u ^ 2) * ((1 + g.u) ^ n / (1 - g.u) * X) :=
      mul_le_mul_of_nonneg_left A1 (by positivity)
    nlinarith
  · -- normal results
    intro hnorm
    have e1 : (2 : ℚ) ^ (g.emin + 1) = 2 * 2 ^ g.emin := by rw [zpow_add₀ (by norm_num)]; ring
    have hnz : (2 : ℚ) ^ g.emin ≤ z := by rw [e1] at hnorm; linarith
    have hfg : f.emin ≤ g.emin := by unfold FltTy.emin; have := h.2; omega
    have n1 : Near f.u (n + 1) 1 X y1 := by
      refine Near.of_rel f.u_pos.le f.u_lt_one hz ?_
      rw [abs_of_nonneg z0]
      exact rndU_rel ((two_zpow_le hfg).trans hnz)
    have hy1n : (2 : ℚ) ^ g.emin ≤ y1 := rndU_ge_pow hfg hnz
    have n2 : Near g.u (n + 2) 1 X (g.rndU y1) := by
      refine Near.of_rel ug.le ug1 (Near.mono f.u_pos.le h.u ug1 n1) ?_
      rw [abs_of_nonneg y10]
      exact rndU_rel hy1n
    exact Near.err (by omega) hX n2

/-- A number that is too large becomes an infinity. -/
theorem round2_large {f g : FltTy} (h : FltTy.Le g f) {n : ℕ} (hn : n ≤ 5000) {X z : ℚ} (s : Bool) (hz : Near f.u n 1 X z)
    (hb : 2 ^ (g.emax + 1) ≤ X) : round2 f g s z = .inf s := by
  have hX : 0 < X := (two_zpow_pos _).trans_le hb
  obtain ⟨b1, b2⟩ := Near.bounds (by omega) (by omega) hX.le hz
  have eg := g.emax_ge
  have e4 : (2 : ℚ) ^ (g.emax + 1) = 2 * 2 ^ g.emax := by rw [zpow_add₀ (by norm_num)]; ring
  have hz2 : 2 ^ g.emax ≤ z := by rw [e4] at hb; linarith
  have hfe : f.emin ≤ g.emax := by unfold FltTy.emin; have := h.2; omega
  have hge : g.emin ≤ g.emax := by unfold FltTy.emin; omega
  have h1 := rndU_ge_pow hfe hz2
  unfold round2 FVal.round
  cases hr : f.rndMag z with
  | none => rfl
  | some y =>
    obtain ⟨rfl, -⟩ := rndMag_some.mp hr
    have h2 := rndU_ge_pow hge h1
    have : g.rndMag (f.rndU z) = none := rndMag_none.mpr h2
    simp [FVal.conv, FVal.round, this]

/-! ### Conversions of numbers -/

/-- A finite value. -/
def FVal.Finite : FVal → Prop
  | .fin _ _ => True
  | _ => False

/-- A finite number; integers are. -/
def FNum.Finite : FNum → Prop
  | .i _ => True
  | .f x => x.Finite

/-- The sign of a number. -/
def FNum.neg : FNum → Bool
  | .i x => x < 0
  | .f (.fin s _) => s
  | .f (.inf s) => s
  | .f .nan => false

theorem castRep_le_src {s t : Rep} {f g : FltTy} (h : castRep s t = .flt f) (hs : s = .flt g) : FltTy.Le g f := by
  subst hs
  rcases t with t | t <;> cases g <;> cases t <;> cases f <;> first | exact ⟨by decide, by decide⟩ | exact absurd h (by decide)

theorem castRep_le_dst {s t : Rep} {f g : FltTy} (h : castRep s t = .flt f) (hs : t = .flt g) : FltTy.Le g f := by
  subst hs
  rcases s with t | t <;> cases g <;> cases t <;> cases f <;> first | exact ⟨by decide, by decide⟩ | exact absurd h (by decide)

theorem int_mag {t : IntTy} {x : Int} (h : t.In x) : |(x : ℚ)| ≤ 2 ^ 64 := by
  have h1 : -2 ^ 64 ≤ x := by have := h.1; cases t <;> simp [IntTy.lo, IntTy.signed, IntTy.bits] at this <;> omega
  have h2 : x ≤ 2 ^ 64 := by have := h.2; cases t <;> simp [IntTy.hi, IntTy.signed, IntTy.bits] at this <;> omega
  have h1' : -2 ^ 64 ≤ (x : ℚ) := by exact_mod_cast h1
  have h2' : (x : ℚ) ≤ 2 ^ 64 := by exact_mod_cast h2
  exact abs_le.mpr ⟨h1', h2'⟩

/-- The value after the first conversion. -/
theorem convI_first {s : Rep} {f : FltTy} (hw : ∀ g, s = .flt g → FltTy.Le g f) {v : FNum} (hv : v.Typed s) (hfin : v.Finite) :
    ∃ m, 0 ≤ m ∧ convI s (.flt f) v = .ok (.f (.fin v.neg m)) ∧ Near f.u 1 0 |v.q| m := by
  cases v with
  | i x =>
    obtain ⟨t, rfl, hx⟩ := hv
    rcases eq_or_ne x 0 with h0 | h0
    · subst h0
      refine ⟨0, le_refl _, ?_, ?_⟩
      · simp [convI, FVal.ofInt, FVal.round, rndMag_zero, FNum.neg]
      · have := Near.weaken f.u_pos.le f.u_lt_one (Nat.zero_le 1) le_rfl (Near.refl' (u := f.u) (0 : ℚ))
        simpa [FNum.q] using this
    · have h1 : (1 : ℚ) ≤ |(x : ℚ)| := by
        have : (1 : Int) ≤ |x| := Int.one_le_abs h0
        exact_mod_cast this
      have hr : InRange f |(x : ℚ)| := by
        constructor
        · refine le_trans ?_ h1
          have := f.emin_neg
          rw [← zpow_zero (2 : ℚ)]; exact two_zpow_le (by omega)
        · refine (int_mag hx).trans ?_
          have := f.emax_ge
          rw [← zpow_natCast]; exact two_zpow_le (by push_cast; omega)
      obtain ⟨y, hy, ny⟩ := rndMag_near (k := 0) (j := 0) (by omega) (by omega) hr (Near.refl' (u := f.u) _)
      refine ⟨y, ?_, ?_, by simpa [FNum.q] using ny⟩
      · exact Near.nonneg (by omega) (by omega) (abs_nonneg _) ny
      · simp [convI, FVal.ofInt, FVal.round, hy, FNum.neg]
  | f x =>
    cases x with
    | inf b => exact hfin.elim
    | nan => exact hfin.elim
    | fin b m =>
      obtain ⟨g, rfl, hm, hr⟩ := hv
      refine ⟨m, hm, ?_, ?_⟩
      · unfold convI
        split
        · rfl
        · simp [FVal.conv, FVal.round, rndMag_wider (hw g rfl) hm hr, FNum.neg]
      · have : |(FNum.f (.fin b m)).q| = m := by cases b <;> simp [FNum.q, FVal.q, abs_of_nonneg hm]
        rw [this]
        exact Near.weaken f.u_pos.le f.u_lt_one (Nat.zero_le 1) le_rfl (Near.refl' _)

theorem castFltI_fin {f : FltTy} {c : Ratio} {F m : ℚ} {b : Bool}
    (hF : FVal.div f (FVal.mul f (FVal.ofInt f c.num) (fpow10I f c.exp)) (FVal.ofInt f c.den) = .fin false F) :
    castFltI f c (.fin b m) = FVal.round f b (m * F) := by
  unfold castFltI
  rw [hF]
  cases b <;> simp [FVal.mul]

/-- The number computed for a finite value. -/
theorem castNumI_flt {s : Rep} {g f : FltTy} {c : Ratio} (hc : c.WF) (hf : castRep s (.flt g) = .flt f) (hs : SafeRatio f c) {v : FNum}
    (hv : v.Typed s) (hfin : v.Finite) :
    ∃ z, Near f.u (c.exp.natAbs + 4) 1 (|v.q| * c.val) z ∧ castNumI s (.flt g) c v = .ok (.f (round2 f g v.neg z)) := by
  obtain ⟨F, F0, hF, nF⟩ := factor_near hc hs
  obtain ⟨m, m0, hm, nm⟩ := convI_first (f := f) (fun g' e => castRep_le_src hf e) hv hfin
  refine ⟨m * F, ?_, ?_⟩
  · have := Near.mul f.u_pos.le f.u_lt_one nm nF
    exact Near.weaken f.u_pos.le f.u_lt_one (by omega) (by omega) this
  · unfold castNumI
    rw [hf, hm]
    simp only [ok_bind]
    rw [castFltI_fin hF]
    unfold convI
    split
    · rename_i e
      cases e
      rw [round2_same _ _ (mul_nonneg m0 F0.le)]
    · rfl

theorem signed_err {b : Bool} {y x X c : ℚ} (hx : x = if b then -|x| else |x|) (hX : X = |x| * c) :
    |(FVal.fin b y).q - x * c| = |y - X| := by
  rw [hX]
  cases b
  · simp only [Bool.false_eq_true, if_false] at hx
    rw [← hx]; rfl
  · simp only [if_true] at hx
    conv_lhs => rw [hx]
    rw [FVal.q, show -y - -|x| * c = -(y - |x| * c) by ring, abs_neg]

theorem FNum.q_sign {s : Rep} {v : FNum} (hv : v.Typed s) (hfin : v.Finite) : v.q = if v.neg then -|v.q| else |v.q| := by
  cases v with
  | i x =>
    simp only [FNum.q, FNum.neg]
    by_cases h : x < 0
    · have : (x : ℚ) < 0 := by exact_mod_cast h
      simp [h, abs_of_neg this]
    · have : (0 : ℚ) ≤ x := by exact_mod_cast not_lt.mp h
      simp [h, abs_of_nonneg this]
  | f x =>
    cases x with
    | inf b => exact hfin.elim
    | nan => exact hfin.elim
    | fin b m =>
      obtain ⟨g, rfl, hm, hr⟩ := hv
      cases b <;> simp [FNum.q, FVal.q, FNum.neg, abs_of_nonneg hm]

/-- C69 for the IEEE formats: a conversion whose factor is computed within the range of the type rounds a result that is not too
large with a small relative error (plus at most the least positive number of the target type), and turns a result that is too large into an infinity.
Partial: the factor must be computed within the range of the type (`SafeRatio`), see `C69_float_range_wrong`. -/
theorem C69_number_partial (s : Rep) (g f : FltTy) (c : Ratio) (hc : c.WF) (hf : castRep s (.flt g) = .flt f) (hs : SafeRatio f c) (v : FNum)
    (hv : v.Typed s) (hfin : v.Finite) :
    (|v.q * c.val| ≤ 2 ^ (g.emax - 2) → ∃ y : FVal, castNumI s (.flt g) c v = .ok (.f y) ∧ y.Finite ∧ y.In g ∧
      |y.q - v.q * c.val| ≤ gammaErr g (c.exp.natAbs + 6) * |v.q * c.val| + g.tiny ∧
      (2 ^ (g.emin + 1) ≤ |v.q * c.val| → |y.q - v.q * c.val| ≤ gammaErr g (c.exp.natAbs + 6) * |v.q * c.val|)) ∧
    (2 ^ (g.emax + 1) ≤ |v.q * c.val| → castNumI s (.flt g) c v = .ok (.f (.inf v.neg))) := by
  have hb := exp_bound hs.pow
  have hc0 : 0 < c.val := (two_zpow_pos _).trans_le hs.val.1
  have eX : |v.q * c.val| = |v.q| * c.val := by rw [abs_mul, abs_of_pos hc0]
  have X0 : 0 ≤ |v.q| * c.val := mul_nonneg (abs_nonneg _) hc0.le
  obtain ⟨z, nz, hz⟩ := castNumI_flt hc hf hs hv hfin
  have hle := castRep_le_dst hf rfl
  rw [eX]
  constructor
  · intro h
    obtain ⟨y, y0, yr, e, e1, e2⟩ := round2_small hle (by omega) X0 v.neg nz h
    refine ⟨.fin v.neg y, by rw [hz, e], trivial, ⟨y0, yr⟩, ?_, ?_⟩
    · rw [signed_err (FNum.q_sign hv hfin) rfl]; exact e1
    · intro hn
      rw [signed_err (FNum.q_sign hv hfin) rfl]; exact e2 hn
  · intro h
    rw [hz, round2_large hle (by omega) v.neg nz h]

/-- C69: infinities, NaNs and zeros are kept.  Partial as `C69_number_partial`. -/
theorem C69_special_partial (s g f : FltTy) (c : Ratio) (hc : c.WF) (hf : castRep (.flt s) (.flt g) = .flt f) (hs : SafeRatio f c) (b : Bool) :
    castNumI (.flt s) (.flt g) c (.f (.inf b)) = .ok (.f (.inf b)) ∧
    castNumI (.flt s) (.flt g) c (.f .nan) = .ok (.f .nan) ∧
    castNumI (.flt s) (.flt g) c (.f (.fin b 0)) = .ok (.f (.fin b 0)) := by
  obtain ⟨F, F0, hF, -⟩ := factor_near hc hs
  have h1 : ∀ x : FVal, (x = .inf b ∨ x = .nan) → castNumI (.flt s) (.flt g) c (.f x) = .ok (.f x) := by
    intro x hx
    have e1 : convI (.flt s) (.flt f) (.f x) = .ok (.f x) := by
      unfold convI; split
      · rfl
      · rcases hx with rfl | rfl <;> rfl
    have e2 : castFltI f c x = x := by
      unfold castFltI; rw [hF]
      rcases hx with rfl | rfl <;> simp [FVal.mul, F0.ne']
    have e3 : convI (.flt f) (.flt g) (.f x) = .ok (.f x) := by
      unfold convI; split
      · rfl
      · rcases hx with rfl | rfl <;> rfl
    unfold castNumI
    rw [hf, e1]
    simp only [ok_bind]
    rw [e2, e3]
  refine ⟨h1 _ (Or.inl rfl), h1 _ (Or.inr rfl), ?_⟩
  have r0 : ∀ f : FltTy, FVal.round f b 0 = .fin b 0 := fun f => by simp [FVal.round, rndMag_zero]
  have e1 : convI (.flt s) (.flt f) (.f (.fin b 0)) = .ok (.f (.fin b 0)) := by
    unfold convI; split
    · rfl
    · simp [FVal.conv, r0]
  have e3 : convI (.flt f) (.flt g) (.f (.fin b 0)) = .ok (.f (.fin b 0)) := by
    unfold convI; split
    · rfl
    · simp [FVal.conv, r0]
  unfold castNumI
  rw [hf, e1]
  simp only [ok_bind]
  rw [castFltI_fin hF, zero_mul, r0, e3]

/-- C69: a floating point number converted to an integral type is truncated once, after a few roundings; a result that does not fit, an infinity and
a NaN are undefined behaviour.  Partial as `C69_number_partial`. -/
theorem C69_truncated_partial (s f : FltTy) (t : IntTy) (c : Ratio) (hc : c.WF) (hf : castRep (.flt s) (.int t) = .flt f) (hs : SafeRatio f c)
    (v : FVal) (hv : v.In s) :
    (v.Finite → |v.q * c.val| ≤ 2 ^ (f.emax - 2) → ∃ z : ℚ, |z - v.q * c.val| ≤ gammaErr f (c.exp.natAbs + 6) * |v.q * c.val| + f.tiny ∧
      castNumI (.flt s) (.int t) c (.f v) = if t.In (truncQ z) then .ok (.i (truncQ z)) else .error .overflow) ∧
    (v.Finite → 2 ^ (f.emax + 1) ≤ |v.q * c.val| → castNumI (.flt s) (.int t) c (.f v) = .error .overflow) ∧
    (¬ v.Finite → castNumI (.flt s) (.int t) c (.f v) = .error .overflow) := by
  have hb := exp_bound hs.pow
  have hc0 : 0 < c.val := (two_zpow_pos _).trans_le hs.val.1
  obtain ⟨F, F0, hF, nF⟩ := factor_near hc hs
  have hty : (FNum.f v).Typed (.flt s) := ⟨s, rfl, hv⟩
  have main : v.Finite → ∃ z, 0 ≤ z ∧ Near f.u (c.exp.natAbs + 4) 1 (|v.q| * c.val) z ∧
      castNumI (.flt s) (.int t) c (.f v) = convI (.flt f) (.int t) (.f (round2 f f (FNum.f v).neg z)) := by
    intro hfin
    obtain ⟨m, m0, hm, nm⟩ := convI_first (f := f) (fun g' e => castRep_le_src hf e) hty hfin
    refine ⟨m * F, mul_nonneg m0 F0.le, ?_, ?_⟩
    · have := Near.mul f.u_pos.le f.u_lt_one nm nF
      exact Near.weaken f.u_pos.le f.u_lt_one (by omega) (by omega) this
    · unfold castNumI
      rw [hf, hm]
      simp only [ok_bind]
      rw [castFltI_fin hF, round2_same _ _ (mul_nonneg m0 F0.le)]
  have eX : |v.q * c.val| = |v.q| * c.val := by rw [abs_mul, abs_of_pos hc0]
  have X0 : 0 ≤ |v.q| * c.val := mul_nonneg (abs_nonneg _) hc0.le
  have hle : FltTy.Le f f := ⟨le_rfl, le_rfl⟩
  refine ⟨fun hfin h => ?_, fun hfin h => ?_, fun hfin => ?_⟩
  · obtain ⟨z, z0, nz, e⟩ := main hfin
    rw [eX] at h ⊢
    obtain ⟨y, y0, yr, er, e1, -⟩ := round2_small hle (by omega) X0 (FNum.f v).neg nz h
    refine ⟨(FVal.fin (FNum.f v).neg y).q, ?_, ?_⟩
    · rw [signed_err (x := v.q) (FNum.q_sign hty hfin) rfl]; exact e1
    · rw [e, er]
      simp only [convI, FVal.toInt, reduceCtorEq, if_false]
      split_ifs <;> rfl
  · obtain ⟨z, z0, nz, e⟩ := main hfin
    rw [eX] at h
    rw [e, round2_large hle (by omega) _ nz h]
    rfl
  · have e1 : convI (.flt s) (.flt f) (.f v) = .ok (.f v) := by
      unfold convI; split
      · rfl
      · cases v <;> first | exact absurd trivial hfin | rfl
    have e2 : castFltI f c v = v := by
      unfold castFltI; rw [hF]
      cases v <;> first | exact absurd trivial hfin | simp [FVal.mul, F0.ne']
    unfold castNumI
    rw [hf, e1]
    simp only [ok_bind]
    rw [e2]
    cases v <;> first | exact absurd trivial hfin | rfl

/-! ### Which conversions are safe -/

/-- With a conversion ratio of at most this decimal exponent nothing leaves the range. -/
def FltTy.safeExp : FltTy → Nat
  | .f32 => 18
  | .f64 => 288
  | .f80 => 4912

theorem safe_of_exp {f : FltTy} {c : Ratio} (hc : c.WF) (hp : 0 < c.num) (he : c.exp.natAbs ≤ f.safeExp) : SafeRatio f c := by
  have k : (2 : ℚ) ^ 63 * 10 ^ f.safeExp ≤ 2 ^ (f.emax - 3) := by
    have h : ∀ a b : ℕ, 2 ^ 63 * 10 ^ a ≤ 2 ^ b → (2 : ℚ) ^ 63 * 10 ^ a ≤ 2 ^ ((b : ℕ) : Int) := by
      intro a b h
      rw [zpow_natCast]; exact_mod_cast h
    cases f
    · exact h 18 125 (by decide +kernel)
    · exact h 288 1021 (by decide +kernel)
    · exact h 4912 16381 (by decide +kernel)
  have i64 : ∀ z : Int, z ≤ intMax → (z : ℚ) ≤ 2 ^ 63 := by
    intro z hz
    have : z ≤ 2 ^ 63 := by unfold intMax at hz; omega
    exact_mod_cast this
  have n1 : (1 : ℚ) ≤ c.num := by exact_mod_cast hp
  have n2 := i64 _ hc.num_range.1.2
  have d1 : (1 : ℚ) ≤ c.den := by exact_mod_cast hc.den_pos
  have d2 := i64 _ hc.den_range
  have p1 : (10 : ℚ) ^ c.exp ≤ 10 ^ f.safeExp := by
    rw [← zpow_natCast]; exact zpow_le_zpow_right₀ (by norm_num) (by omega)
  have p2 : ((10 : ℚ) ^ f.safeExp)⁻¹ ≤ 10 ^ c.exp := by
    rw [← zpow_natCast, ← zpow_neg]; exact zpow_le_zpow_right₀ (by norm_num) (by omega)
  have P : (0 : ℚ) < 10 ^ f.safeExp := by positivity
  have Q : (0 : ℚ) < 10 ^ c.exp := by positivity
  have main : ∀ x : ℚ, ((10 : ℚ) ^ f.safeExp)⁻¹ / 2 ^ 63 ≤ x → x ≤ 2 ^ 63 * 10 ^ f.safeExp → InRange f x := by
    intro x h1 h2
    constructor
    · refine le_trans ?_ h1
      rw [div_eq_mul_inv, ← mul_inv, show f.emin + 1 = -(f.emax - 3) by unfold FltTy.emin; ring, zpow_neg]
      refine inv_anti₀ (by positivity) ?_
      rw [mul_comm]; exact k
    · exact (h2.trans k).trans (two_zpow_le (by omega))
  have low : ((10 : ℚ) ^ f.safeExp)⁻¹ / 2 ^ 63 ≤ (10 : ℚ) ^ c.exp / 2 ^ 63 := div_le_div_of_nonneg_right p2 (by norm_num)
  have low1 : (10 : ℚ) ^ c.exp / 2 ^ 63 ≤ 10 ^ c.exp := div_le_self Q.le (by norm_num)
  refine ⟨hp, main _ (low.trans low1) ?_, main _ ?_ ?_, main _ ?_ ?_⟩
  · nlinarith
  · refine (low.trans low1).trans ?_
    nlinarith
  · exact mul_le_mul n2 p1 Q.le (by norm_num)
  · refine low.trans ?_
    unfold Ratio.val
    rw [div_mul_eq_mul_div]
    exact div_le_div₀ (by positivity) (by nlinarith) (by linarith) d2
  · unfold Ratio.val
    have : (c.num : ℚ) / c.den ≤ 2 ^ 63 := (div_le_self (by linarith) d1).trans n2
    exact mul_le_mul this p1 Q.le (by norm_num)

/-- Metres per second from kilometres per hour: the conversion of `18.0` and of `-1.0` in `double`, of a number that is too large for `float`, of one
that becomes denormal, and of an `int64_t` that is no `double`. -/
example : (⟨1, 36, 1⟩ : Ratio).WF ∧ castRep (.flt .f64) (.flt .f64) = .flt .f64 ∧ SafeRatio .f64 ⟨1, 36, 1⟩ ∧
    castNumI (.flt .f64) (.flt .f64) ⟨1, 36, 1⟩ (.f (.fin false 18)) = .ok (.f (.fin false 5)) ∧
    castNumI (.flt .f64) (.flt .f64) ⟨1, 36, 1⟩ (.f (.fin true 1)) = .ok (.f (.fin true (2501999792983609 / 2 ^ 53))) ∧
    castNumI (.flt .f64) (.flt .f32) ⟨1, 36, 1⟩ (.f (.fin true (2 ^ 200))) = .ok (.f (.inf true)) ∧
    castNumI (.flt .f32) (.flt .f32) ⟨1, 36, 1⟩ (.f (.fin true (1 / 2 ^ 147))) = .ok (.f (.fin true (1 / 2 ^ 149))) ∧
    castNumI (.int .i64) (.flt .f64) ⟨1, 36, 1⟩ (.i (2 ^ 62 + 1)) = .ok (.f (.fin false 1281023894007607808)) ∧
    castNumI (.flt .f64) (.int .i32) ⟨1, 36, 1⟩ (.f (.fin true 101)) = .ok (.i (-28)) ∧
    castNumI (.flt .f64) (.int .i32) ⟨1, 36, 1⟩ (.f (.fin true (2 ^ 40))) = .error .overflow := by
  have w : (⟨1, 36, 1⟩ : Ratio).WF := ⟨by decide, by decide, by decide, by decide, by decide, by decide, by decide, by decide⟩
  refine ⟨w, by decide +kernel, safe_of_exp w (by decide) (by decide), by decide +kernel, by decide +kernel, by decide +kernel, by decide +kernel,
    by decide +kernel, by decide +kernel, by decide +kernel⟩

/-- The exponent of a ratio is bounded by its value. -/
theorem exp_of_val {c : Ratio} (hc : c.WF) (hp : 0 < c.num) {k : ℕ} (h1 : ((10 : ℚ) ^ k)⁻¹ ≤ c.val) (h2 : c.val ≤ 10 ^ k) :
    c.exp.natAbs ≤ k + 18 := by
  have i64 : ∀ z : Int, z ≤ intMax → (z : ℚ) < 10 ^ 19 := by
    intro z hz
    have : z < 10 ^ 19 := by unfold intMax at hz; omega
    exact_mod_cast this
  have n1 : (1 : ℚ) ≤ c.num := by exact_mod_cast hp
  have n2 := i64 _ hc.num_range.1.2
  have d1 : (1 : ℚ) ≤ c.den := by exact_mod_cast hc.den_pos
  have d2 := i64 _ hc.den_range
  have Q : (0 : ℚ) < 10 ^ c.exp := by positivity
  have K : (0 : ℚ) < 10 ^ k := by positivity
  have ev : c.val * c.den = c.num * (10 : ℚ) ^ c.exp := by
    unfold Ratio.val
    have : (c.den : ℚ) ≠ 0 := by linarith
    field_simp
  have up : (10 : ℚ) ^ c.exp < 10 ^ ((k + 19 : ℕ) : Int) := by
    rw [zpow_natCast, pow_add]
    have h0 : 0 < c.val := (inv_pos.mpr K).trans_le h1
    have : c.val * c.den < 10 ^ k * 10 ^ 19 := by
      refine lt_of_le_of_lt (mul_le_mul_of_nonneg_right h2 (by linarith)) ?_
      exact mul_lt_mul_of_pos_left d2 K
    nlinarith
  have lo : (10 : ℚ) ^ (-((k + 19 : ℕ) : Int)) < 10 ^ c.exp := by
    rw [zpow_neg, zpow_natCast, pow_add, mul_inv]
    have a1 : ((10 : ℚ) ^ k)⁻¹ ≤ c.num * (10 : ℚ) ^ c.exp := by
      rw [← ev]
      have : 0 < c.val := (inv_pos.mpr K).trans_le h1
      nlinarith
    have a2 : ((10 : ℚ) ^ k)⁻¹ < 10 ^ 19 * (10 : ℚ) ^ c.exp := a1.trans_lt (mul_lt_mul_of_pos_right n2 Q)
    rw [← div_eq_mul_inv, div_lt_iff₀ (by norm_num), mul_comm]
    exact a2
  have u' := (zpow_lt_zpow_iff_right₀ (by norm_num : (1 : ℚ) < 10)).mp up
  have l' := (zpow_lt_zpow_iff_right₀ (by norm_num : (1 : ℚ) < 10)).mp lo
  push_cast at u' l'
  omega

/-! ### Quantities -/

theorem quantityCastI_eq {est : RootEstimate} {t : QTy} {q : QtyI} {c : Ratio} (he : dimEquivalent t.dim q.ty.dim = .ok true)
    (hc : castRatio est q.ty.dim q.ty.unit t.dim t.unit = .ok c) :
    quantityCastI est t q = (castNumI q.ty.rep t.rep c q.num).bind fun x => .ok ⟨t, x⟩ := by
  unfold quantityCastI
  rw [he]
  simp only [ok_bind, if_true]
  rw [hc]
  rfl

/-- C69 for quantities with numbers of the IEEE formats: an amount that is not too large for the target type is kept with a small relative
error (plus at most the least positive number of the target type), one that is too large becomes an infinity of the right sign.  Partial: the exponent
of the conversion ratio is limited, see `C69_float_range_wrong`, and the sizes of the dimensions must agree, see `C32_unknown_dimensions_wrong`. -/
theorem C69_amounts_partial (E : Env) (β : String → ℝ) (hβ : Sizes β) (t : QTy) (q : QtyI) (c : Ratio) (g f : FltTy)
    (gq : q.ty.Good E) (gt : t.Good E) (hco : Coherent β q.ty.dim t.dim) (hv : q.num.Typed q.ty.rep) (hfin : q.num.Finite)
    (ht : t.rep = .flt g) (hf : castRep q.ty.rep t.rep = .flt f) (he : dimEquivalent t.dim q.ty.dim = .ok true)
    (hc : castRatio E.est q.ty.dim q.ty.unit t.dim t.unit = .ok c) (hs : c.exp.natAbs ≤ f.safeExp) :
    (|q.amount β| ≤ 2 ^ (g.emax - 2) * t.size β → ∃ r, quantityCastI E.est t q = .ok r ∧ r.ty = t ∧ r.num.Typed t.rep ∧ r.num.Finite ∧
      |r.amount β - q.amount β| ≤ gammaErr g (c.exp.natAbs + 6) * |q.amount β| + g.tiny * t.size β ∧
      (2 ^ (g.emin + 1) * t.size β ≤ |q.amount β| → |r.amount β - q.amount β| ≤ gammaErr g (c.exp.natAbs + 6) * |q.amount β|)) ∧
    (2 ^ (g.emax + 1) * t.size β ≤ |q.amount β| → quantityCastI E.est t q = .ok ⟨t, .f (.inf q.num.neg)⟩) := by
  obtain ⟨w, p, e⟩ := castRatio_size hβ gq gt (C17_symmetric _ _ he) hco hc
  have sz := gt.size_pos hβ
  rw [ht] at hf
  have hsafe := safe_of_exp w p hs
  obtain ⟨m1, m2⟩ := C69_number_partial q.ty.rep g f c w hf hsafe q.num hv hfin
  have ea : q.amount β = ((q.num.q * c.val : ℚ) : ℝ) * t.size β := by
    unfold QtyI.amount
    push_cast
    rw [e]; field_simp
  have eabs : |q.amount β| = ((|q.num.q * c.val| : ℚ) : ℝ) * t.size β := by
    rw [ea, abs_mul, abs_of_pos sz, Rat.cast_abs]
  have cast2 : ∀ n : Int, ((2 : ℝ) ^ n) = (((2 : ℚ) ^ n : ℚ) : ℝ) := fun n => by push_cast; rfl
  have hq := quantityCastI_eq he hc (q := q) (t := t)
  rw [ht] at hq
  constructor
  · intro h
    rw [eabs, cast2, mul_le_mul_iff_left₀ sz] at h
    obtain ⟨y, h1, h2, h3, h4, h5⟩ := m1 (by exact_mod_cast h)
    have er : ∀ b : ℚ, |y.q - q.num.q * c.val| ≤ b → |(⟨t, .f y⟩ : QtyI).amount β - q.amount β| ≤ b * t.size β := by
      intro b hb
      rw [ea]
      have : (⟨t, .f y⟩ : QtyI).amount β - ((q.num.q * c.val : ℚ) : ℝ) * t.size β = ((y.q - q.num.q * c.val : ℚ) : ℝ) * t.size β := by
        simp only [QtyI.amount, FNum.q]; push_cast; ring
      rw [this, abs_mul, abs_of_pos sz, ← Rat.cast_abs]
      exact mul_le_mul_of_nonneg_right (by exact_mod_cast hb) sz.le
    refine ⟨⟨t, .f y⟩, by rw [hq, h1]; rfl, rfl, ⟨g, ht, h3⟩, h2, ?_, fun hn => ?_⟩
    · refine (er _ h4).trans (le_of_eq ?_)
      rw [eabs]; push_cast; ring
    · rw [eabs, cast2, mul_le_mul_iff_left₀ sz] at hn
      refine (er _ (h5 (by exact_mod_cast hn))).trans (le_of_eq ?_)
      rw [eabs]; push_cast; ring
  · intro h
    rw [eabs, cast2, mul_le_mul_iff_left₀ sz] at h
    rw [hq, m2 (by exact_mod_cast h)]; rfl

end Verif
