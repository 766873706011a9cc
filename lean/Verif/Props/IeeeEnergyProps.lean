import Verif.IeeeEnergy
import Verif.ProgramsLemmas
import Verif.Props.IeeeAccelProps

/-!
# C96: the total energy of a particle in IEEE floating point

The numbers of example/references/total_energy.cpp against `√((p c)² + (m c²)²)` in real arithmetic.
-/

namespace Verif

open FltTy

set_option maxRecDepth 100000

/-! ### Specification -/

/-- `std::pow(x, 2)` has relative error at most `δ`, and is zero for zero. -/
def LibmI.SquareSpec (L : LibmI) (δ : ℝ) : Prop :=
  ∀ x : FVal, x.Finite → x.In .f64 → x.q = 0 ∨ Bd 450 (x.q : ℝ) → RelErr δ .f64 ((x.q : ℝ) ^ 2) (L.pow .f64 x (.fin false 2))

/-- A number that is zero or of moderate size. -/
structure MidZero (x : FVal) : Prop where
  finite : x.Finite
  within : x.In .f64
  size : x.q = 0 ∨ (1 / 2 ^ 100 ≤ |x.q| ∧ |x.q| ≤ 2 ^ 100)

/-! ### Numbers with their exact values -/

/-- The value `y` is the real number `X` up to `k` factors between `1 - δ` and its inverse; `X` is zero or of moderate size. -/
structure Got (δ : ℝ) (k j : ℕ) (X : ℝ) (y : FVal) : Prop where
  finite : y.Finite
  within : y.In .f64
  rel : Rel δ k X y.q
  size : X = 0 ∨ Bd j X

section
set_option linter.unusedSectionVars false
variable {δ : ℝ} (hu : ((FltTy.f64.u : ℚ) : ℝ) ≤ δ) (hδ : δ ≤ 1 / 400)
include hu hδ

theorem got_pos : 0 < δ := lt_of_lt_of_le (by exact_mod_cast FltTy.f64.u_pos) hu

theorem Rel.of_err {X x : ℝ} (h : |x - X| ≤ δ * |X|) : Rel δ 1 X x := by
  have p := got_pos hu hδ
  rcases eq_or_ne X 0 with rfl | h0
  · have : x = 0 := by simpa using h
    subst this
    exact Rel.refl p.le (by linarith) _ _
  have lim : |x / X - 1| ≤ δ := by
    have : x / X - 1 = (x - X) / X := by field_simp
    rw [this, abs_div, div_le_iff₀ (abs_pos.mpr h0)]; exact h
  obtain ⟨l, r⟩ := abs_le.mp lim
  refine ⟨x / X, by field_simp, by rw [pow_one]; linarith, ?_⟩
  rw [pow_one, inv_eq_one_div, le_div_iff₀ (by linarith)]
  nlinarith

theorem Rel.zero {k : ℕ} {x : ℝ} (h : Rel δ k 0 x) : x = 0 := by
  obtain ⟨t, e, -⟩ := h
  rw [e, zero_mul]

theorem Got.num {k j : ℕ} {X : ℝ} {y : FVal} (h : Got δ k j X y) (hk : k ≤ 200) : y.q = 0 ∨ Bd (j + 1) (y.q : ℝ) := by
  have p := got_pos hu hδ
  rcases h.size with rfl | hb
  · left
    have := Rel.zero hu hδ h.rel
    exact_mod_cast this
  · right
    have kd : (k : ℝ) * δ ≤ 1 / 2 := by
      have : (k : ℝ) ≤ 200 := by exact_mod_cast hk
      nlinarith
    obtain ⟨l, r⟩ := h.rel.two p.le (by linarith) kd
    obtain ⟨b1, b2⟩ := hb
    refine ⟨?_, ?_⟩
    · rw [pow_succ, one_div, mul_inv, ← one_div]; linarith
    · rw [pow_succ]; linarith

theorem Got.weaken {k k' j j' : ℕ} {X : ℝ} {y : FVal} (h : Got δ k j X y) (hk : k ≤ k') (hb : X = 0 ∨ Bd j' X) : Got δ k' j' X y :=
  ⟨h.finite, h.within, h.rel.weaken (got_pos hu hδ).le (by linarith) hk, hb⟩

omit hu hδ in
theorem roundKey_zero (f : FltTy) : roundKey f 0 = 0 := by
  unfold roundKey posKey
  rw [if_neg (lt_irrefl _), rndU_zero, if_pos (two_zpow_pos _)]

omit hu hδ in
theorem roundKey_rel {f : FltTy} {w : ℚ} (h : |w| ≤ 2 ^ (f.emax - 1)) (h' : w = 0 ∨ 2 ^ f.emin ≤ |w|) : |roundKey f w - w| ≤ f.u * |w| := by
  rcases h' with rfl | h'
  · rw [roundKey_zero]; simp
  have pos : ∀ x : ℚ, 0 ≤ x → 2 ^ f.emin ≤ x → x ≤ 2 ^ (f.emax - 1) → |posKey f x - x| ≤ f.u * x := by
    intro x hx hl hb
    have hle : f.rndU x ≤ 2 ^ (f.emax - 1) := rndU_le_pow (by unfold FltTy.emin; have := f.emax_ge; omega) hx hb
    unfold posKey
    rw [if_pos (hle.trans_lt (two_zpow_lt (by omega)))]
    exact rndU_rel hl
  unfold roundKey
  split_ifs with hw
  · rw [abs_of_neg hw] at h h' ⊢
    have h1 := pos _ (by linarith) h' h
    rwa [show -posKey f (-w) - w = -(posKey f (-w) - -w) by ring, abs_neg]
  · rw [abs_of_nonneg (not_lt.mp hw)] at h h' ⊢
    exact pos _ (not_lt.mp hw) h' h

omit hu hδ in
theorem Bd.range {j : ℕ} {w : ℚ} (h : Bd j (w : ℝ)) (hj : j ≤ 1000) : |w| ≤ 2 ^ (FltTy.f64.emax - 1) ∧ 2 ^ FltTy.f64.emin ≤ |w| := by
  constructor
  · refine le_two_zpow ?_
    push_cast
    refine h.2.trans ?_
    rw [show FltTy.f64.emax - 1 = ((1023 : ℕ) : Int) by decide, zpow_natCast]
    exact pow_le_pow_right₀ (by norm_num) (by omega)
  · refine two_zpow_le ?_
    push_cast
    refine le_trans ?_ h.1
    rw [show FltTy.f64.emin = -((1022 : ℕ) : Int) by decide, zpow_neg, zpow_natCast, one_div]
    exact inv_anti₀ (by positivity) (pow_le_pow_right₀ (by norm_num) (by omega))

omit hu hδ in
theorem Bd.range' {j : ℕ} {w : ℚ} (h : Bd j (w : ℝ)) (hj : j ≤ 1000) : |w| ≤ 2 ^ (FltTy.f64.emax - 2) ∧ 2 ^ (FltTy.f64.emin + 1) ≤ |w| := by
  constructor
  · refine le_two_zpow ?_
    push_cast
    refine h.2.trans ?_
    rw [show FltTy.f64.emax - 2 = ((1022 : ℕ) : Int) by decide, zpow_natCast]
    exact pow_le_pow_right₀ (by norm_num) (by omega)
  · refine two_zpow_le ?_
    push_cast
    refine le_trans ?_ h.1
    rw [show FltTy.f64.emin + 1 = -((1021 : ℕ) : Int) by decide, zpow_neg, zpow_natCast, one_div]
    exact inv_anti₀ (by positivity) (pow_le_pow_right₀ (by norm_num) (by omega))

/-- The last rounding. -/
theorem Got.round {k j : ℕ} {W : ℝ} {w : ℚ} {y : FVal} (hk : k ≤ 199) (hj : j ≤ 900) (hw : Rel δ k W (w : ℝ)) (hs : W = 0 ∨ Bd j W)
    (h : y.key .f64 = roundKey .f64 w ∧ y.In .f64 ∧ y ≠ .nan) : Got δ (k + 1) j W y := by
  have p := got_pos hu hδ
  have r : |w| ≤ 2 ^ (FltTy.f64.emax - 1) ∧ (w = 0 ∨ 2 ^ FltTy.f64.emin ≤ |w|) := by
    rcases hs with rfl | hb
    · have := Rel.zero hu hδ hw
      have w0 : w = 0 := by exact_mod_cast this
      subst w0
      exact ⟨by rw [abs_zero]; exact (two_zpow_pos _).le, .inl rfl⟩
    · have kd : (k : ℝ) * δ ≤ 1 / 2 := by
        have : (k : ℝ) ≤ 199 := by exact_mod_cast hk
        nlinarith
      obtain ⟨l, r⟩ := hw.two p.le (by linarith) kd
      obtain ⟨b1, b2⟩ := hb
      have B : Bd (j + 1) (w : ℝ) := by
        refine ⟨?_, ?_⟩
        · rw [pow_succ, one_div, mul_inv, ← one_div]; linarith
        · rw [pow_succ]; linarith
      obtain ⟨c1, c2⟩ := B.range (by omega)
      exact ⟨c1, .inr c2⟩
  have i := finite_round h r.1
  refine ⟨i.finite, i.within, ?_, hs⟩
  refine hw.trans p.le (by linarith) (Rel.of_err hu hδ ?_)
  rw [i.eq]
  have e := (Rat.cast_le (K := ℝ)).mpr (roundKey_rel r.1 r.2)
  push_cast at e
  exact e.trans (mul_le_mul_of_nonneg_right hu (abs_nonneg _))

theorem Got.mul {k k' j j' : ℕ} {X Y : ℝ} {x y : FVal} (hx : Got δ k j X x) (hy : Got δ k' j' Y y) (hk : k + k' ≤ 199) (hj : j + j' ≤ 900) :
    Got δ (k + k' + 1) (j + j') (X * Y) (x.mul .f64 y) := by
  have p := got_pos hu hδ
  refine Got.round hu hδ hk hj (w := x.q * y.q) ?_ ?_ (key_mul hx.within hy.within hx.finite hy.finite)
  · push_cast; exact hx.rel.mul p.le (by linarith) hy.rel
  · rcases hx.size with rfl | a
    · left; ring
    · rcases hy.size with rfl | b
      · left; ring
      · right; exact a.mul b

theorem Got.div {k k' j j' : ℕ} {X Y : ℝ} {x y : FVal} (hx : Got δ k j X x) (hy : Got δ k' j' Y y) (hY : Y ≠ 0) (hk : k + k' ≤ 199) (hj : j + j' ≤ 900) :
    Got δ (k + k' + 1) (j + j') (X / Y) (x.div .f64 y) := by
  have p := got_pos hu hδ
  have b := hy.size.resolve_left hY
  have y0 : y.q ≠ 0 := by
    obtain ⟨t, e, l, -⟩ := hy.rel
    have t0 : 0 < t := lt_of_lt_of_le (pow_pos (by linarith) _) l
    intro h
    rw [h] at e
    have := mul_ne_zero hY t0.ne'
    rw [← e] at this
    simp at this
  refine Got.round hu hδ hk hj (w := x.q / y.q) ?_ ?_ (key_div hx.within hy.within hx.finite hy.finite y0)
  · push_cast; exact hx.rel.div p.le (by linarith) hy.rel
  · rcases hx.size with rfl | a
    · left; simp
    · right; exact a.div b

theorem Got.add {k j : ℕ} {X Y : ℝ} {x y : FVal} (hx : Got δ k j X x) (hy : Got δ k j Y y) (X0 : 0 ≤ X) (Y0 : 0 ≤ Y) (hk : k ≤ 199) (hj : j ≤ 900) :
    Got δ (k + 1) (j + 1) (X + Y) (x.add .f64 y) := by
  have p := got_pos hu hδ
  have hs : X + Y = 0 ∨ Bd (j + 1) (X + Y) := by
    have up : (2 : ℝ) ^ j ≤ 2 ^ (j + 1) := pow_le_pow_right₀ (by norm_num) (by omega)
    have dn : (1 : ℝ) / 2 ^ (j + 1) ≤ 1 / 2 ^ j := one_div_le_one_div_of_le (by positivity) up
    have dd : (2 : ℝ) ^ (j + 1) = 2 ^ j + 2 ^ j := by rw [pow_succ]; ring
    unfold Bd
    rw [abs_of_nonneg (add_nonneg X0 Y0)]
    rcases hx.size with rfl | a
    · rcases hy.size with rfl | b
      · left; ring
      · obtain ⟨b1, b2⟩ := b
        rw [abs_of_nonneg Y0] at b1 b2
        right; constructor <;> linarith
    · obtain ⟨a1, a2⟩ := a
      rw [abs_of_nonneg X0] at a1 a2
      rcases hy.size with rfl | b
      · right; constructor <;> linarith
      · obtain ⟨b1, b2⟩ := b
        rw [abs_of_nonneg Y0] at b1 b2
        right; constructor <;> linarith
  have rl := hx.rel.add p.le (by linarith) hy.rel (mul_nonneg X0 Y0)
  have kd : (k : ℝ) * δ ≤ 1 / 2 := by
    have : (k : ℝ) ≤ 199 := by exact_mod_cast hk
    nlinarith
  have hb : |x.q + y.q| ≤ 2 ^ (FltTy.f64.emax - 1) := by
    refine le_two_zpow ?_
    push_cast
    refine (rl.two p.le (by linarith) kd).2.trans ?_
    have : |X + Y| ≤ 2 ^ (j + 1) := by
      rcases hs with h | h
      · rw [h, abs_zero]; positivity
      · exact h.2
    rw [show FltTy.f64.emax - 1 = ((1023 : ℕ) : Int) by decide, zpow_natCast]
    have c : 2 * (2 : ℝ) ^ (j + 1) ≤ 2 ^ 1023 := by
      rw [← pow_succ']; exact pow_le_pow_right₀ (by norm_num) (by omega)
    exact (mul_le_mul_of_nonneg_left this (by norm_num)).trans c
  obtain ⟨f1, f2, f3⟩ := add_rel hx.within hy.within hx.finite hy.finite hb
  refine ⟨f1, f2, rl.trans p.le (by linarith) (Rel.of_err hu hδ ?_), hs⟩
  have e := (Rat.cast_le (K := ℝ)).mpr f3
  push_cast at e
  exact e.trans (mul_le_mul_of_nonneg_right hu (abs_nonneg _))

theorem Got.sq {L : LibmI} (hL : L.SquareSpec δ) {k j : ℕ} {X : ℝ} {x : FVal} (hx : Got δ k j X x) (hk : k ≤ 90) (hj : j ≤ 400) :
    Got δ (2 * k + 1) (2 * j) (X ^ 2) (L.pow .f64 x (.fin false 2)) := by
  have p := got_pos hu hδ
  have n : x.q = 0 ∨ Bd 450 (x.q : ℝ) := by
    refine (hx.num hu hδ (by omega)).imp_right fun h => ?_
    have c : (2 : ℝ) ^ (j + 1) ≤ 2 ^ 450 := pow_le_pow_right₀ (by norm_num) (by omega)
    exact ⟨(one_div_le_one_div_of_le (by positivity) c).trans h.1, h.2.trans c⟩
  obtain ⟨f, i, e⟩ := hL x hx.finite hx.within n
  have m := hx.rel.mul p.le (by linarith) hx.rel
  rw [← _root_.sq, ← _root_.sq, ← two_mul] at m
  refine ⟨f, i, m.trans p.le (by linarith) (Rel.of_err hu hδ e), hx.size.imp (fun h => by rw [h]; ring) fun h => ?_⟩
  rw [_root_.sq, two_mul]
  exact h.mul h

theorem Rel.sqrt {k : ℕ} {X x : ℝ} (X0 : 0 ≤ X) (h : Rel δ (2 * k) X x) : Rel δ k (√X) (√x) := by
  have p := got_pos hu hδ
  obtain ⟨t, rfl, l, r⟩ := h
  have q : 0 < (1 - δ) ^ k := pow_pos (by linarith) _
  rw [mul_comm 2 k, pow_mul] at l r
  refine ⟨√t, Real.sqrt_mul X0 t, ?_, ?_⟩
  · exact Real.le_sqrt_of_sq_le l
  · refine Real.sqrt_le_iff.mpr ⟨inv_nonneg.mpr q.le, ?_⟩
    rw [inv_pow]; exact r

theorem Got.sqrt {k j : ℕ} {X : ℝ} {x : FVal} (hx : Got δ (2 * k) j X x) (X0 : 0 ≤ X) : Got δ (k + 1) j (√X) (x.sqrt .f64) := by
  have p := got_pos hu hδ
  have rt := hx.rel.sqrt hu hδ X0
  have x0 : 0 ≤ (x.q : ℝ) := by
    obtain ⟨t, e, l, -⟩ := hx.rel
    rw [e]
    exact mul_nonneg X0 ((pow_nonneg (by linarith) _).trans l)
  have sz : √X = 0 ∨ Bd j (√X) := by
    refine hx.size.imp (fun h => by rw [h, Real.sqrt_zero]) fun h => ?_
    obtain ⟨h1, h2⟩ := h
    rw [abs_of_nonneg X0] at h1 h2
    unfold Bd
    rw [abs_of_nonneg (Real.sqrt_nonneg _)]
    have one : (1 : ℝ) ≤ 2 ^ j := one_le_pow₀ (by norm_num)
    have q : (0 : ℝ) < 2 ^ j := by positivity
    constructor
    · refine Real.le_sqrt_of_sq_le (le_trans ?_ h1)
      rw [_root_.sq]
      exact mul_le_of_le_one_left (by positivity) ((div_le_one q).mpr one)
    · refine Real.sqrt_le_iff.mpr ⟨q.le, h2.trans ?_⟩
      rw [_root_.sq]
      exact le_mul_of_one_le_left q.le one
  have ix := hx.within
  obtain ⟨s, m, rfl⟩ := hx.finite.eq
  rcases eq_or_ne m 0 with h0 | h0
  · subst h0
    have e : (FVal.fin s 0).sqrt .f64 = .fin s 0 := by simp [FVal.sqrt]
    have e0 : (FVal.fin s 0).q = 0 := by cases s <;> simp [FVal.q]
    rw [e]
    refine ⟨trivial, ix, ?_, sz⟩
    rw [e0] at rt ⊢
    simp only [Rat.cast_zero, Real.sqrt_zero] at rt ⊢
    exact rt.weaken p.le (by linarith) (by omega)
  · have m0 : 0 < m := lt_of_le_of_ne ix.1 (Ne.symm h0)
    have s0 : s = false := by
      cases s
      · rfl
      · exfalso
        have : (0 : ℚ) ≤ (FVal.fin true m).q := by exact_mod_cast x0
        simp only [FVal.q] at this; linarith
    subst s0
    have e : (FVal.fin false m).sqrt .f64 = .fin false (FltTy.f64.sqrtMag m) := by simp [FVal.sqrt, h0]
    rw [e]
    obtain ⟨i1, -⟩ := sqrtMag_in m0 ix.2
    refine ⟨trivial, i1, rt.trans p.le (by linarith) (Rel.of_err hu hδ ?_), sz⟩
    rw [abs_of_nonneg (Real.sqrt_nonneg _)]
    exact (sqrtMag_rel m0).trans (mul_le_mul_of_nonneg_right hu (Real.sqrt_nonneg _))

/-- A conversion between units. -/
theorem Got.cast {k j i : ℕ} {X : ℝ} {x : FVal} {c : Ratio} (hx : Got δ k j X x) (hc : c.WF) (hs : SafeRatio .f64 c) (hi : Bd i (c.val : ℝ))
    (hk : k + c.exp.natAbs + 8 ≤ 199) (hj : j + i ≤ 900) (he : c.exp.natAbs ≤ 40) :
    ∃ y : FVal, castNumI (.flt .f64) (.flt .f64) c (.f x) = .ok (.f y) ∧ Got δ (k + c.exp.natAbs + 8) (j + i) (X * c.val) y := by
  have p := got_pos hu hδ
  have rl : Rel δ k (X * c.val) ((x.q * c.val : ℚ) : ℝ) := by
    push_cast
    exact hx.rel.mul p.le (by linarith) (Rel.refl p.le (by linarith) 0 _)
  have sz : X * c.val = 0 ∨ Bd (j + i) (X * (c.val : ℝ)) := hx.size.imp (fun h => by rw [h, zero_mul]) fun h => h.mul hi
  have kd : (k : ℝ) * δ ≤ 1 / 2 := by
    have : (k : ℝ) ≤ 199 := by exact_mod_cast (by omega : k ≤ 199)
    nlinarith
  have B : ((x.q * c.val : ℚ)) = 0 ∨ Bd (j + i + 1) ((x.q * c.val : ℚ) : ℝ) := by
    rcases sz with h | h
    · left
      rw [h] at rl
      exact_mod_cast Rel.zero hu hδ rl
    · right
      obtain ⟨l, r⟩ := rl.two p.le (by linarith) kd
      obtain ⟨b1, b2⟩ := h
      refine ⟨?_, ?_⟩
      · rw [pow_succ, one_div, mul_inv, ← one_div]; linarith
      · rw [pow_succ]; linarith
  rcases B with h0 | hb
  · have hc0 : 0 < c.val := (two_zpow_pos _).trans_le hs.val.1
    have x0 : x.q = 0 := (mul_eq_zero.mp h0).resolve_right hc0.ne'
    obtain ⟨s, m, rfl⟩ := hx.finite.eq
    have m0 : m = 0 := by cases s <;> simpa [FVal.q] using x0
    subst m0
    refine ⟨_, (C69_special_partial .f64 .f64 .f64 c hc rfl hs s).2.2, hx.finite, hx.within, ?_, sz⟩
    have : X * c.val = 0 := by
      rcases sz with h | h
      · exact h
      · exfalso
        obtain ⟨l, -⟩ := rl.two p.le (by linarith) kd
        rw [h0, Rat.cast_zero, abs_zero] at l
        have := h.1
        have q : (0 : ℝ) < 1 / 2 ^ (j + i) := by positivity
        linarith
    rw [this, x0, Rat.cast_zero]
    exact Rel.refl p.le (by linarith) _ _
  · obtain ⟨r1, r2⟩ := hb.range' (by omega)
    obtain ⟨y, hy, fy, iy, -, er⟩ := (C69_number_partial (.flt .f64) .f64 .f64 c hc rfl hs (.f x) ⟨_, rfl, hx.within⟩ hx.finite).1 r1
    refine ⟨y, hy, fy, iy, ?_, sz⟩
    have e := (Rat.cast_le (K := ℝ)).mpr (er r2)
    push_cast at e
    have g := Rel.of_gamma (f := .f64) (n := c.exp.natAbs + 6) (X := ((x.q * c.val : ℚ) : ℝ)) (by
      have : 40 ≤ FltTy.f64.safeExp := by decide
      omega) (by push_cast; exact e)
    have := rl.trans p.le (by linarith) (g.mono hu (by linarith))
    rwa [← add_assoc] at this
end

/-! ### Types -/

/-- Gigaelectronvolts in `double`, example/references/total_energy.cpp:52-53. -/
def gev64Ty : QTy := ⟨.named siEnergy, siGeV, .flt .f64⟩
/-- Square gigaelectronvolts. -/
def gev2x64Ty : QTy := ⟨energy2, scaledU ⟨641742491633892489, 25, -36⟩ "unknown_coherent_unit", .flt .f64⟩
/-- Gigaelectronvolts by metres per second, example/references/total_energy.cpp:52. -/
def gevP64Ty : QTy := ⟨gevPTy.dim, gevPTy.unit, .flt .f64⟩
/-- Gigaelectronvolts by the square of a speed, example/references/total_energy.cpp:53. -/
def gevM64Ty : QTy := ⟨gevMTy.dim, gevMTy.unit, .flt .f64⟩

theorem mulPI {t1 t2 t : QTy} (h1 : t1.rep = .flt .f64) (h2 : t2.rep = .flt .f64) (h3 : t.rep = .flt .f64)
    (h : refMultiply pE t1.dim t1.unit t2.dim t2.unit = .ok (t.dim, t.unit)) (v w : FVal) :
    mulQtyI pE ⟨t1, .f v⟩ ⟨t2, .f w⟩ = .ok ⟨t, .f (v.mul .f64 w)⟩ := by
  obtain ⟨d, u, r⟩ := t
  obtain ⟨d1, u1, r1⟩ := t1
  obtain ⟨d2, u2, r2⟩ := t2
  dsimp only at *
  subst h1 h2 h3
  unfold mulQtyI
  dsimp only
  rw [h]
  rfl

theorem divPI {t1 t2 t : QTy} (h1 : t1.rep = .flt .f64) (h2 : t2.rep = .flt .f64) (h3 : t.rep = .flt .f64)
    (h : refDivide pE t1.dim t1.unit t2.dim t2.unit = .ok (t.dim, t.unit)) (v w : FVal) :
    divQtyI pE ⟨t1, .f v⟩ ⟨t2, .f w⟩ = .ok ⟨t, .f (v.div .f64 w)⟩ := by
  obtain ⟨d, u, r⟩ := t
  obtain ⟨d1, u1, r1⟩ := t1
  obtain ⟨d2, u2, r2⟩ := t2
  dsimp only at *
  subst h1 h2 h3
  unfold divQtyI
  dsimp only
  rw [h]
  rfl

theorem squarePI (L : LibmI) {t t' : QTy} {p : Ratio} (h1 : t.rep = .flt .f64) (h2 : t'.rep = .flt .f64)
    (hd : dimPow pE.dims t.dim 2 1 = .ok t'.dim) (hp : powR pE.est 2 1 t.unit.ratio = .ok p) (hu : downcastUnit pE.units t'.dim p = .ok t'.unit) (x : FVal) :
    squareI pE L ⟨t, .f x⟩ = .ok ⟨t', .f (L.pow .f64 x (.fin false 2))⟩ := by
  obtain ⟨d, u, r⟩ := t'
  subst h2
  have n : powNumI L 2 1 t.rep (.f x) = .ok (.f (L.pow .f64 x (.fin false 2))) := by rw [h1, ← two_exponent]; rfl
  unfold squareI
  rw [powQtyI_ok (E := pE) (L := L) (q := ⟨t, .f x⟩) (by decide) (by decide) hd hp hu n, ok_bind, h1]

theorem sqrtPI {t t' : QTy} {p : Ratio} (h1 : t.rep = .flt .f64) (h2 : t'.rep = .flt .f64)
    (hd : dimPow pE.dims t.dim 1 2 = .ok t'.dim) (hp : sqrtR pE.est t.unit.ratio = .ok p) (hu : downcastUnit pE.units t'.dim p = .ok t'.unit) (x : FVal) :
    sqrtQtyI pE ⟨t, .f x⟩ = .ok ⟨t', .f (x.sqrt .f64)⟩ := by
  obtain ⟨d, u, r⟩ := t'
  subst h2
  simp only [sqrtQtyI, hd, hp, hu, ok_bind, h1]
  rfl

theorem castPI {t t' : QTy} {c : Ratio} {x y : FVal} (h1 : t.rep = .flt .f64) (h2 : t'.rep = .flt .f64) (hd : dimEquivalent t'.dim t.dim = .ok true)
    (hc : castRatio pE.est t.dim t.unit t'.dim t'.unit = .ok c) (h : castNumI (.flt .f64) (.flt .f64) c (.f x) = .ok (.f y)) :
    quantityCastI pE.est t' ⟨t, .f x⟩ = .ok ⟨t', .f y⟩ := by
  simp only [quantityCastI, hd, ok_bind, hc, if_true, h1, h2, h]

theorem convPI {t t' : QTy} {c : Ratio} {x y : FVal} (hne : t ≠ t') (h1 : t.rep = .flt .f64) (h2 : t'.rep = .flt .f64)
    (hd : dimEquivalent t'.dim t.dim = .ok true) (hc : castRatio pE.est t.dim t.unit t'.dim t'.unit = .ok c)
    (h : castNumI (.flt .f64) (.flt .f64) c (.f x) = .ok (.f y)) : convertQtyI pE t' ⟨t, .f x⟩ = .ok ⟨t', .f y⟩ := by
  simp only [convertQtyI, if_neg hne, safeCastable, hd, ok_bind, if_true, h2, Rep.floating]
  exact castPI h1 h2 hd hc h

/-- The types of `total_energy` in some system of units. -/
structure EnergyTypes (L : LibmI) (tp tm tc te : QTy) where
  tcc : QTy
  tee : QTy
  rep : tee.rep = .flt .f64
  pc : ∀ x y, mulQtyI pE ⟨tp, .f x⟩ ⟨tc, .f y⟩ = .ok ⟨te, .f (x.mul .f64 y)⟩
  cc : ∀ x, squareI pE L ⟨tc, .f x⟩ = .ok ⟨tcc, .f (L.pow .f64 x (.fin false 2))⟩
  mc : ∀ x y, mulQtyI pE ⟨tm, .f x⟩ ⟨tcc, .f y⟩ = .ok ⟨te, .f (x.mul .f64 y)⟩
  ee : ∀ x, squareI pE L ⟨te, .f x⟩ = .ok ⟨tee, .f (L.pow .f64 x (.fin false 2))⟩
  root : ∀ x, sqrtQtyI pE ⟨tee, .f x⟩ = .ok ⟨te, .f (x.sqrt .f64)⟩

theorem light_square (L : LibmI) (x : FVal) : squareI pE L ⟨lightTy, .f x⟩ = .ok ⟨speed2Ty, .f (L.pow .f64 x (.fin false 2))⟩ :=
  squarePI L (p := Ratio.one) rfl rfl (by decide +kernel) (by decide +kernel) (by decide +kernel) x

/-- Gigaelectronvolts. -/
def gevTypes (L : LibmI) : EnergyTypes L gevP64Ty gevM64Ty lightTy gev64Ty where
  tcc := speed2Ty
  tee := gev2x64Ty
  rep := rfl
  pc := mulPI rfl rfl rfl (by decide +kernel)
  cc := light_square L
  mc := mulPI rfl rfl rfl (by decide +kernel)
  ee := squarePI L (p := ⟨641742491633892489, 25, -36⟩) rfl rfl (by decide +kernel) (by decide +kernel) (by decide +kernel)
  root := sqrtPI (p := ⟨801088317, 5, -18⟩) rfl rfl (by decide +kernel) (by decide +kernel) (by decide +kernel)

/-- Joules. -/
def jouleTypes (L : LibmI) : EnergyTypes L momentumTy boxMass lightTy jouleTy where
  tcc := speed2Ty
  tee := joule2Ty
  rep := rfl
  pc := mulPI rfl rfl rfl (by decide +kernel)
  cc := light_square L
  mc := mulPI rfl rfl rfl (by decide +kernel)
  ee := squarePI L (p := Ratio.one) rfl rfl (by decide +kernel) (by decide +kernel) (by decide +kernel)
  root := sqrtPI (p := Ratio.one) rfl rfl (by decide +kernel) (by decide +kernel) (by decide +kernel)

/-- Natural units. -/
def natTypes (L : LibmI) : EnergyTypes L natPTy natMTy natCTy natETy where
  tcc := natC2Ty
  tee := natE2Ty
  rep := rfl
  pc := mulPI rfl rfl rfl (by decide +kernel)
  cc := squarePI L (p := Ratio.one) rfl rfl (by decide +kernel) (by decide +kernel) (by decide +kernel)
  mc := mulPI rfl rfl rfl (by decide +kernel)
  ee := squarePI L (p := ⟨1, 1, 18⟩) rfl rfl (by decide +kernel) (by decide +kernel) (by decide +kernel)
  root := sqrtPI (p := ⟨1, 1, 9⟩) rfl rfl (by decide +kernel) (by decide +kernel) (by decide +kernel)

/-! ### The program -/

section
variable {δ : ℝ} (hu : ((FltTy.f64.u : ℚ) : ℝ) ≤ δ) (hδ : δ ≤ 1 / 400) {L : LibmI} (hL : L.SquareSpec δ)
include hu hδ hL

theorem energy_got {tp tm tc te : QTy} (T : EnergyTypes L tp tm tc te) {p m c : FVal} {a b ja jb k : ℕ} {P M K : ℝ} (hp : Got δ a ja P p) (hm : Got δ b jb M m)
    (hc : Got δ 0 100 K c) (h1 : P * K = 0 ∨ Bd 300 (P * K)) (h2 : M * K ^ 2 = 0 ∨ Bd 300 (M * K ^ 2)) (ka : a + 2 ≤ k) (kb : b + 3 ≤ k) (hk : k ≤ 80)
    (hja : ja ≤ 700) (hjb : jb ≤ 700) :
    ∃ e, totalEnergyI pE L ⟨tp, .f p⟩ ⟨tm, .f m⟩ ⟨tc, .f c⟩ = .ok ⟨te, .f e⟩ ∧ Got δ (k + 1) 601 (√((P * K) ^ 2 + (M * K ^ 2) ^ 2)) e := by
  have pc := (hp.mul hu hδ hc (by omega) (by omega)).weaken hu hδ le_rfl h1
  have a2 := pc.sq hu hδ hL (by omega) (by omega)
  have cc := hc.sq hu hδ hL (by omega) (by omega)
  have mc := (hm.mul hu hδ cc (by omega) (by omega)).weaken hu hδ le_rfl h2
  have b2 := mc.sq hu hδ hL (by omega) (by omega)
  have s := (a2.weaken hu hδ (k' := 2 * k - 1) (by omega) a2.size).add hu hδ (b2.weaken hu hδ (k' := 2 * k - 1) (by omega) b2.size) (sq_nonneg _) (sq_nonneg _)
    (by omega) (by omega)
  rw [show 2 * k - 1 + 1 = 2 * k by omega] at s
  have r := s.sqrt hu hδ (add_nonneg (sq_nonneg _) (sq_nonneg _))
  refine ⟨_, ?_, r⟩
  unfold totalEnergyI
  rw [T.pc, ok_bind, T.ee, ok_bind, T.cc, ok_bind, T.mc, ok_bind, T.ee, ok_bind, addSubI_self pE false T.tee .f64 T.rep, ok_bind, T.root]
  rfl

omit hL in
theorem MidZero.got {x : FVal} (h : MidZero x) : Got δ 0 100 (x.q : ℝ) x := by
  have p := got_pos hu hδ
  refine ⟨h.finite, h.within, Rel.refl p.le (by linarith) _ _, h.size.imp (fun e => by rw [e, Rat.cast_zero]) fun ⟨a, b⟩ => ?_⟩
  have a' := (Rat.cast_le (K := ℝ)).mpr a
  have b' := (Rat.cast_le (K := ℝ)).mpr b
  push_cast at a' b'
  exact ⟨a', b'⟩

omit hu hδ hL in
theorem MidZero.bd {x : FVal} (h : MidZero x) : (x.q : ℝ) = 0 ∨ Bd 100 (x.q : ℝ) := (h.got (δ := 1 / 400) (by rw [u53]; norm_num) le_rfl).size

omit hu hδ hL in
theorem Bd.up {j j' : ℕ} {x : ℝ} (h : Bd j x) (hj : j ≤ j') : Bd j' x := by
  have c : (2 : ℝ) ^ j ≤ 2 ^ j' := pow_le_pow_right₀ (by norm_num) hj
  exact ⟨(one_div_le_one_div_of_le (by positivity) c).trans h.1, h.2.trans c⟩

omit hL in
theorem Got.err {k j : ℕ} {X : ℝ} {y : FVal} (h : Got δ k j X y) (hk : k ≤ 200) : |(y.q : ℝ) - X| ≤ 2 * k * δ * |X| := by
  have p := got_pos hu hδ
  refine h.rel.err p.le (by linarith) ?_
  have : (k : ℝ) ≤ 200 := by exact_mod_cast hk
  nlinarith

/-- C96: `total_energy` in kilograms, metres and seconds: `√((p c)² + (m c²)²)` joules with a relative error of at most `8 δ`, where `δ` bounds the relative
error of `std::pow` and is at least `2 ^ -53`; also for a particle at rest or without mass. -/
theorem C96_total_energy {p m c : FVal} (hp : MidZero p) (hm : MidZero m) (hc : Mid c) :
    ∃ e, totalEnergyI progEnv L ⟨momentumTy, .f p⟩ ⟨boxMass, .f m⟩ ⟨lightTy, .f c⟩ = .ok ⟨jouleTy, .f e⟩ ∧ e.Finite ∧ e.In .f64 ∧
      |(e.q : ℝ) - √((p.q * c.q) ^ 2 + (m.q * c.q ^ 2) ^ 2)| ≤ 8 * δ * √((p.q * c.q) ^ 2 + (m.q * c.q ^ 2) ^ 2) := by
  have gc : Got δ 0 100 (c.q : ℝ) c := MidZero.got hu hδ ⟨hc.finite, hc.within, .inr ⟨hc.lower, hc.upper⟩⟩
  obtain ⟨e, he, g⟩ := energy_got hu hδ hL (jouleTypes L) (k := 3) (hp.got hu hδ) (hm.got hu hδ) gc
    (hp.bd.imp (fun h => by rw [h, zero_mul]) fun h => (h.mul hc.bd).up (by norm_num))
    (hm.bd.imp (fun h => by rw [h, zero_mul]) fun h => by rw [sq]; exact h.mul (hc.bd.mul hc.bd)) (by norm_num) (by norm_num) (by norm_num) (by norm_num) (by norm_num)
  refine ⟨e, he, g.finite, g.within, ?_⟩
  have := g.err hu hδ (by norm_num)
  rw [abs_of_nonneg (Real.sqrt_nonneg _)] at this
  refine this.trans (le_of_eq ?_)
  norm_num

/-- C96: `natural_example`, where the speed of light is one: `√(p² + m²)` gigaelectronvolts. -/
theorem C96_natural {p m : FVal} (hp : MidZero p) (hm : MidZero m) :
    ∃ e, naturalExampleI progEnv L p m = .ok ⟨⟨.named natEnergy, natGeV, .flt .f64⟩, .f e⟩ ∧ e.Finite ∧ e.In .f64 ∧
      |(e.q : ℝ) - √((p.q : ℝ) ^ 2 + (m.q : ℝ) ^ 2)| ≤ 8 * δ * √((p.q : ℝ) ^ 2 + (m.q : ℝ) ^ 2) := by
  have m1 : MidZero (.fin false 1) := ⟨trivial, ⟨by norm_num, by decide +kernel⟩, .inr (by norm_num [FVal.q])⟩
  have q1 : (FVal.fin false 1).q = 1 := rfl
  have gc := m1.got hu hδ
  rw [q1, Rat.cast_one] at gc
  obtain ⟨e, he, g⟩ := energy_got hu hδ hL (natTypes L) (k := 3) (hp.got hu hδ) (hm.got hu hδ) gc
    (by rw [mul_one]; exact hp.bd.imp_right fun h => h.up (by norm_num)) (by rw [one_pow, mul_one]; exact hm.bd.imp_right fun h => h.up (by norm_num))
    (by norm_num) (by norm_num) (by norm_num) (by norm_num) (by norm_num)
  rw [one_pow, mul_one, mul_one] at g
  refine ⟨e, he, g.finite, g.within, ?_⟩
  have := g.err hu hδ (by norm_num)
  rw [abs_of_nonneg (Real.sqrt_nonneg _)] at this
  refine this.trans (le_of_eq ?_)
  norm_num

/-- C96: `si_example` for a particle of momentum `p` GeV/c and mass `m` GeV/c², with any number for the speed of light: the energy is `√(p² + m²)` GeV, the energy
from kilograms and metres per second that times `1.602176634e-10` J, and the last converted back `√(p² + m²)` GeV again, all up to rounding. -/
theorem C96_si {c p m : FVal} (hc : Mid c) (hp : MidZero p) (hm : MidZero m) :
    ∃ e j g, siExampleI progEnv L ⟨lightTy, .f c⟩ ⟨gev64Ty, .f p⟩ ⟨gev64Ty, .f m⟩ = .ok (⟨gev64Ty, .f e⟩, ⟨jouleTy, .f j⟩, ⟨gev64Ty, .f g⟩) ∧
      e.Finite ∧ j.Finite ∧ g.Finite ∧
      |(e.q : ℝ) - √((p.q : ℝ) ^ 2 + (m.q : ℝ) ^ 2)| ≤ 12 * δ * √((p.q : ℝ) ^ 2 + (m.q : ℝ) ^ 2) ∧
      |(j.q : ℝ) - √((p.q : ℝ) ^ 2 + (m.q : ℝ) ^ 2) * (1602176634 / 10 ^ 19)| ≤ 64 * δ * (√((p.q : ℝ) ^ 2 + (m.q : ℝ) ^ 2) * (1602176634 / 10 ^ 19)) ∧
      |(g.q : ℝ) - √((p.q : ℝ) ^ 2 + (m.q : ℝ) ^ 2)| ≤ 116 * δ * √((p.q : ℝ) ^ 2 + (m.q : ℝ) ^ 2) := by
  have gc : Got δ 0 100 (c.q : ℝ) c := MidZero.got hu hδ ⟨hc.finite, hc.within, .inr ⟨hc.lower, hc.upper⟩⟩
  have c0 : (c.q : ℝ) ≠ 0 := by
    have : 0 < |(c.q : ℝ)| := (by positivity : (0 : ℝ) < 1 / 2 ^ 100).trans_le hc.bd.1
    exact abs_pos.mp this
  have cc := gc.sq hu hδ hL (by norm_num) (by norm_num)
  have P := (hp.got hu hδ).div hu hδ gc c0 (by norm_num) (by norm_num)
  have M := (hm.got hu hδ).div hu hδ cc (pow_ne_zero _ c0) (by norm_num) (by norm_num)
  have kv : (((⟨801088317, 5, -18⟩ : Ratio).val : ℚ) : ℝ) = 1602176634 / 10 ^ 19 := by norm_num [Ratio.val]
  have kv' : (((⟨5, 801088317, 18⟩ : Ratio).val : ℚ) : ℝ) = (1602176634 / 10 ^ 19)⁻¹ := by norm_num [Ratio.val]
  have kb : Bd 33 (1602176634 / 10 ^ 19 : ℝ) := by unfold Bd; rw [abs_of_pos (by norm_num)]; norm_num
  have e1 : (p.q : ℝ) / c.q * c.q = p.q := by field_simp
  have e2 : (m.q : ℝ) / c.q ^ 2 * c.q ^ 2 = m.q := by field_simp
  obtain ⟨e, he, ge⟩ := energy_got hu hδ hL (gevTypes L) (k := 5) P M gc (by rw [e1]; exact hp.bd.imp_right fun h => h.up (by norm_num))
    (by rw [e2]; exact hm.bd.imp_right fun h => h.up (by norm_num)) (by norm_num) (by norm_num) (by norm_num) (by norm_num) (by norm_num)
  rw [e1, e2] at ge
  obtain ⟨p', hp', P'⟩ := P.cast hu hδ (c := ⟨801088317, 5, -18⟩) (i := 33) (Systems.posWF_sound (u := scaledU ⟨801088317, 5, -18⟩ "") (by decide)).1 (safe_of_exp (Systems.posWF_sound (u := scaledU ⟨801088317, 5, -18⟩ "") (by decide)).1 (by decide) (by decide))
    (by rw [kv]; exact kb) (by decide) (by norm_num) (by decide)
  obtain ⟨m', hm', M'⟩ := M.cast hu hδ (c := ⟨801088317, 5, -18⟩) (i := 33) (Systems.posWF_sound (u := scaledU ⟨801088317, 5, -18⟩ "") (by decide)).1 (safe_of_exp (Systems.posWF_sound (u := scaledU ⟨801088317, 5, -18⟩ "") (by decide)).1 (by decide) (by decide))
    (by rw [kv]; exact kb) (by decide) (by norm_num) (by decide)
  rw [kv] at P' M'
  generalize hκ : (1602176634 / 10 ^ 19 : ℝ) = κ at *
  have κ0 : 0 < κ := by rw [← hκ]; norm_num
  have e3 : (p.q : ℝ) / c.q * κ * c.q = p.q * κ := by field_simp
  have e4 : (m.q : ℝ) / c.q ^ 2 * κ * c.q ^ 2 = m.q * κ := by field_simp
  obtain ⟨j, hj, gj⟩ := energy_got hu hδ hL (jouleTypes L) (k := 31) P' M' gc
    (by rw [e3]; exact hp.bd.imp (fun h => by rw [h, zero_mul]) fun h => (h.mul kb).up (by norm_num))
    (by rw [e4]; exact hm.bd.imp (fun h => by rw [h, zero_mul]) fun h => (h.mul kb).up (by norm_num)) (by decide) (by decide) (by norm_num) (by norm_num) (by norm_num)
  have e5 : √(((p.q : ℝ) * κ) ^ 2 + (m.q * κ) ^ 2) = √((p.q : ℝ) ^ 2 + m.q ^ 2) * κ := by
    rw [mul_pow, mul_pow, ← add_mul, Real.sqrt_mul (by positivity), Real.sqrt_sq κ0.le]
  rw [e3, e4, e5] at gj
  obtain ⟨g, hg, gg⟩ := gj.cast hu hδ (c := ⟨5, 801088317, 18⟩) (i := 33) (Systems.posWF_sound (u := scaledU ⟨5, 801088317, 18⟩ "") (by decide)).1 (safe_of_exp (Systems.posWF_sound (u := scaledU ⟨5, 801088317, 18⟩ "") (by decide)).1 (by decide) (by decide))
    (by rw [kv']; exact kb.inv) (by decide) (by norm_num) (by decide)
  rw [kv', mul_assoc, mul_inv_cancel₀ κ0.ne', mul_one] at gg
  refine ⟨e, j, g, ?_, ge.finite, gj.finite, gg.finite, ?_, ?_, ?_⟩
  · show siExampleI pE L _ _ _ = _
    unfold siExampleI
    rw [divPI (t := gevP64Ty) rfl rfl rfl (by decide +kernel), ok_bind, light_square, ok_bind, divPI (t := gevM64Ty) rfl rfl rfl (by decide +kernel), ok_bind, he, ok_bind,
      convPI (c := ⟨801088317, 5, -18⟩) (by decide) rfl rfl (by decide +kernel) (by decide +kernel) hp', ok_bind,
      convPI (c := ⟨801088317, 5, -18⟩) (by decide) rfl rfl (by decide +kernel) (by decide +kernel) hm', ok_bind, hj, ok_bind,
      show convertQtyI pE jouleTy ⟨jouleTy, .f j⟩ = _ from convertQtyI_self pE ⟨jouleTy, .f j⟩, ok_bind,
      show quantityCastI pE.est ⟨jouleTy.dim, siGeV, jouleTy.rep⟩ ⟨jouleTy, .f j⟩ = .ok ⟨gev64Ty, .f g⟩ from
        castPI (t' := gev64Ty) (c := ⟨5, 801088317, 18⟩) rfl rfl (by decide +kernel) (by decide +kernel) hg, ok_bind]
  · have := ge.err hu hδ (by norm_num)
    rw [abs_of_nonneg (Real.sqrt_nonneg _)] at this
    refine this.trans (le_of_eq ?_)
    norm_num
  · have := gj.err hu hδ (by norm_num)
    rw [abs_of_nonneg (mul_nonneg (Real.sqrt_nonneg _) κ0.le)] at this
    refine this.trans (le_of_eq ?_)
    norm_num
  · have := gg.err hu hδ (by decide)
    rw [abs_of_nonneg (Real.sqrt_nonneg _)] at this
    refine this.trans (le_of_eq ?_)
    norm_num
end

/-- C96: a correctly rounded `std::pow` whose square of zero is zero meets the specification with the unit roundoff. -/
theorem C96_square_spec (L : LibmI) (hL : L.PowSpec Nearest) (h0 : ∀ s, L.pow .f64 (.fin s 0) (.fin false 2) = .fin false 0) :
    L.SquareSpec (FltTy.f64.u : ℚ) := by
  intro x fx ix hx
  rcases hx with h | h
  · obtain ⟨s, m, rfl⟩ := fx.eq
    have m0 : m = 0 := by cases s <;> simpa [FVal.q] using h
    subst m0
    rw [h0, h]
    exact ⟨trivial, ⟨le_rfl, by decide +kernel⟩, by norm_num [FVal.q]⟩
  · have x0 : x.q ≠ 0 := by
      intro e
      have := h.1
      rw [e, Rat.cast_zero, abs_zero] at this
      exact absurd this (not_le.mpr (by positivity))
    have hx' : 0 < x.q ∨ (x.q < 0 ∧ (FVal.fin false 2).q.den = 1) := by
      rcases lt_or_gt_of_ne x0 with h | h
      · exact .inr ⟨h, rfl⟩
      · exact .inl h
    have hpw : realPow x.q (FVal.fin false 2).q = (x.q : ℝ) ^ 2 := by
      rw [show (FVal.fin false 2).q = ((2 : ℤ) : ℚ) from rfl, realPow_int]; norm_cast
    have b := h.mul h
    rw [← sq] at b
    have lo : (2 : ℝ) ^ FltTy.f64.emin ≤ |(x.q : ℝ) ^ 2| := by
      refine le_trans ?_ b.1
      rw [show FltTy.f64.emin = -((1022 : ℕ) : Int) by decide, zpow_neg, zpow_natCast, ← one_div]
      exact one_div_le_one_div_of_le (by positivity) (pow_le_pow_right₀ (by norm_num) (by norm_num))
    have hi : |(x.q : ℝ) ^ 2| ≤ 2 ^ (FltTy.f64.emax - 1) := by
      refine b.2.trans ?_
      rw [show FltTy.f64.emax - 1 = ((1023 : ℕ) : Int) by decide, zpow_natCast]
      exact pow_le_pow_right₀ (by norm_num) (by norm_num)
    have r := hL.within .f64 x (.fin false 2) ix ⟨by norm_num, by decide +kernel⟩ fx trivial hx' (by rw [hpw]; exact ⟨lo, hi⟩)
    rwa [hpw] at r

/-- Such a function exists. -/
example : ∃ L : LibmI, L.PowSpec Nearest ∧ ∀ s, L.pow .f64 (.fin s 0) (.fin false 2) = .fin false 0 := by
  obtain ⟨L, h, -⟩ := libm_exists
  refine ⟨⟨fun f x e => if x.q = 0 then .fin false 0 else L.pow f x e, L.cbrt, L.exp⟩, fun f x e h1 h2 h3 h4 h5 h6 => ?_, fun s => ?_⟩
  · have x0 : x.q ≠ 0 := by rcases h5 with h5 | h5 <;> [exact h5.ne'; exact h5.1.ne]
    show Nearest f _ (if x.q = 0 then _ else _)
    rw [if_neg x0]
    exact h f x e h1 h2 h3 h4 h5 h6
  · show (if (FVal.fin s 0).q = 0 then _ else _) = _
    rw [if_pos (by cases s <;> simp [FVal.q])]

/-! ### Cases -/

/-- A `std::pow` that squares with one rounding. -/
def mulLibm : LibmI := ⟨fun f x e => if e = .fin false 2 then x.mul f x else .nan, fun _ _ => .nan, fun _ _ => .nan⟩

theorem mulLibm_square : mulLibm.SquareSpec (FltTy.f64.u : ℚ) := by
  intro x fx ix hx
  have hu : ((FltTy.f64.u : ℚ) : ℝ) ≤ 1 / 400 := by rw [u53]; norm_num
  show RelErr _ _ _ (x.mul .f64 x)
  have r : |x.q * x.q| ≤ 2 ^ (FltTy.f64.emax - 1) ∧ (x.q * x.q = 0 ∨ 2 ^ FltTy.f64.emin ≤ |x.q * x.q|) := by
    rcases hx with h | h
    · rw [h, mul_zero, abs_zero]; exact ⟨(two_zpow_pos _).le, .inl rfl⟩
    · obtain ⟨a, b⟩ := Bd.range (j := 900) (w := x.q * x.q) (by push_cast; exact h.mul h) (by norm_num)
      exact ⟨a, .inr b⟩
  have i := finite_round (key_mul ix ix fx fx) r.1
  refine ⟨i.finite, i.within, ?_⟩
  rw [i.eq]
  have e := (Rat.cast_le (K := ℝ)).mpr (roundKey_rel r.1 r.2)
  push_cast at e
  rw [sq]; exact e

/-- The particle of the program, with a `std::pow` that rounds once: the energy is 5 GeV up to 12 roundings. -/
example : ∃ e j g, siExampleI progEnv mulLibm ⟨lightTy, .f (.fin false 299792458)⟩ ⟨gev64Ty, .f (.fin false 4)⟩ ⟨gev64Ty, .f (.fin false 3)⟩ =
      .ok (⟨gev64Ty, .f e⟩, ⟨jouleTy, .f j⟩, ⟨gev64Ty, .f g⟩) ∧ |(e.q : ℝ) - 5| ≤ 60 / 2 ^ 53 ∧ |(g.q : ℝ) - 5| ≤ 580 / 2 ^ 53 := by
  have hu : ((FltTy.f64.u : ℚ) : ℝ) ≤ 1 / 400 := by rw [u53]; norm_num
  have z : ∀ x : ℚ, 1 ≤ x → x ≤ 2 ^ 100 → FltTy.f64.rndMag x = some x → MidZero (.fin false x) := fun x h1 h2 h3 => by
    have := Mid.of h1 h2 h3
    exact ⟨this.finite, this.within, .inr ⟨this.lower, this.upper⟩⟩
  obtain ⟨e, j, g, h, -, -, -, r1, -, r3⟩ := C96_si le_rfl hu mulLibm_square (c := .fin false 299792458) (p := .fin false 4) (m := .fin false 3)
    (Mid.of (by norm_num) (by norm_num) (by decide +kernel)) (z _ (by norm_num) (by norm_num) (by decide +kernel)) (z _ (by norm_num) (by norm_num) (by decide +kernel))
  have e5 : √((((FVal.fin false 4).q : ℚ) : ℝ) ^ 2 + (((FVal.fin false 3).q : ℚ) : ℝ) ^ 2) = 5 := by
    rw [show (((FVal.fin false 4).q : ℚ) : ℝ) ^ 2 + (((FVal.fin false 3).q : ℚ) : ℝ) ^ 2 = 5 ^ 2 by norm_num [FVal.q]]
    exact Real.sqrt_sq (by norm_num)
  rw [e5, u53] at r1 r3
  exact ⟨e, j, g, h, r1.trans (le_of_eq (by norm_num)), r3.trans (le_of_eq (by norm_num))⟩

/-- A particle without mass in natural units. -/
example : ∃ e, naturalExampleI progEnv mulLibm (.fin false 7) (.fin false 0) = .ok ⟨⟨.named natEnergy, natGeV, .flt .f64⟩, .f e⟩ ∧ |(e.q : ℝ) - 7| ≤ 56 / 2 ^ 53 := by
  have hu : ((FltTy.f64.u : ℚ) : ℝ) ≤ 1 / 400 := by rw [u53]; norm_num
  obtain ⟨e, h, -, -, r⟩ := C96_natural le_rfl hu mulLibm_square (p := .fin false 7) (m := .fin false 0)
    ⟨trivial, ⟨by norm_num, by decide +kernel⟩, .inr (by norm_num [FVal.q])⟩ ⟨trivial, ⟨le_rfl, by decide +kernel⟩, .inl rfl⟩
  have e7 : √((((FVal.fin false 7).q : ℚ) : ℝ) ^ 2 + (((FVal.fin false 0).q : ℚ) : ℝ) ^ 2) = 7 := by
    rw [show (((FVal.fin false 7).q : ℚ) : ℝ) ^ 2 + (((FVal.fin false 0).q : ℚ) : ℝ) ^ 2 = 7 ^ 2 by norm_num [FVal.q]]
    exact Real.sqrt_sq (by norm_num)
  rw [e7, u53] at r
  exact ⟨e, h, r.trans (le_of_eq (by norm_num))⟩

/-- An electron in SI units: its momentum `1e-22` and mass `9.1e-31` are not integers, but of moderate size. -/
example : Mid (.fin false (1 / 2 ^ 73)) ∧ MidZero (.fin false (1 / 2 ^ 99)) :=
  ⟨⟨trivial, ⟨by norm_num, by decide +kernel⟩, by norm_num [FVal.q], by norm_num [FVal.q]⟩,
    ⟨trivial, ⟨by norm_num, by decide +kernel⟩, .inr ⟨by norm_num [FVal.q], by norm_num [FVal.q]⟩⟩⟩

/-- C96: moderate sizes are needed, since the squares leave the range long before the energy: with a momentum of `2^600` GeV and no mass the energy is
infinite, and with `2^-600` GeV it is zero; both are numbers of the type. -/
theorem C96_squares_wrong :
    naturalExampleI progEnv mulLibm (.fin false (2 ^ 600)) (.fin false 0) = .ok ⟨⟨.named natEnergy, natGeV, .flt .f64⟩, .f (.inf false)⟩ ∧
    naturalExampleI progEnv mulLibm (.fin false (1 / 2 ^ 600)) (.fin false 0) = .ok ⟨⟨.named natEnergy, natGeV, .flt .f64⟩, .f (.fin false 0)⟩ ∧
    FltTy.f64.rndMag (2 ^ 600) = some (2 ^ 600) ∧ FltTy.f64.rndMag (1 / 2 ^ 600) = some (1 / 2 ^ 600) := by
  decide +kernel

end Verif
