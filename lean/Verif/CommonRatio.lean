import Verif.RatioLemmas

/-! # Helper lemmas about `common_ratio` (model in `Verif/Ratio.lean`, `Verif/RatioMaths.lean`) -/

namespace Verif

open Ratio

/-- The body of `gcd_frac` after the exchange that makes `e1 ≥ e2`
(same lines as `gcdFrac`: src/core/include/units/bits/ratio_maths.h:137-152). -/
def gcdFracGo (n1 d1 e1 n2 d2 e2 : Int) : C (Int × Int × Int) := do
  let q1 ← div64 intMax n1
  cassert (q1 > d2)
  let q2 ← div64 intMax n2
  cassert (q2 > d1)
  let x ← mul64 n1 d2
  let e ← sub64 e1 e2
  let y ← mul64 n2 d1
  let num ← gcdpow x e y
  let q3 ← div64 intMax d1
  cassert (q3 > d2)
  let den ← mul64 d1 d2
  let g ← sgcd num den
  let num' ← div64 num g
  let den' ← div64 den g
  .ok (num', den', e2)

theorem gcdFrac_eq (n1 d1 e1 n2 d2 e2 : Int) :
    gcdFrac n1 d1 e1 n2 d2 e2 =
      if n1 = n2 ∧ d1 = d2 ∧ e1 = e2 then .ok (n1, d1, e1)
      else if e2 > e1 then gcdFracGo n2 d2 e2 n1 d1 e1 else gcdFracGo n1 d1 e1 n2 d2 e2 := rfl

theorem lt_of_tdiv_gt {M a b : Int} (hM : 0 ≤ M) (ha : 0 < a) (_hb : 0 < b) (h : M.tdiv a > b) :
    a * b ≤ M := by
  rw [Int.tdiv_eq_ediv_of_nonneg hM] at h
  have h1 : b ≤ M / a := by omega
  have := (Int.le_ediv_iff_mul_le ha).mp h1
  linarith [mul_comm a b]

/-- What the body computes, for positive operands with `e1 ≥ e2`. -/
theorem gcdFracGo_sound {n1 d1 e1 n2 d2 e2 a b c : Int}
    (_hn1 : 0 < n1) (hd1 : 0 < d1) (hn2 : 0 < n2) (hd2 : 0 < d2)
    (h : gcdFracGo n1 d1 e1 n2 d2 e2 = .ok (a, b, c)) :
    e2 ≤ e1 ∧ c = e2 ∧ 0 < a ∧ 0 < b ∧ I64 a ∧ I64 b ∧
      (a : ℚ) / b = (Int.gcd (n1 * d2 * 10 ^ (e1 - e2).toNat) (n2 * d1) : ℚ) / (d1 * d2 : ℚ) := by
  unfold gcdFracGo at h
  simp only [bind_ok, cassert_eq_ok, div64_eq_ok, mul64_eq_ok, sub64_eq_ok, sgcd_eq_ok] at h
  obtain ⟨_, ⟨-, -, rfl⟩, _, hq1, _, ⟨-, -, rfl⟩, _, hq2, _, ⟨hI1, rfl⟩, _, ⟨hI2, rfl⟩, _,
    ⟨hI3, rfl⟩, num, hnum, _, ⟨-, -, rfl⟩, _, hq3, _, ⟨hI4, rfl⟩, g, ⟨-, -, rfl⟩, x, ⟨hg0, hx, rfl⟩,
    y, ⟨-, hy, rfl⟩, heq⟩ := h
  simp only [Except.ok.injEq, Prod.mk.injEq] at heq
  obtain ⟨rfl, rfl, rfl⟩ := heq
  rw [gcdpow_eq_ok hI1 hI3] at hnum
  obtain ⟨-, he, -, rfl⟩ := hnum
  set N : Int := (Int.gcd (n1 * d2 * 10 ^ (e1 - e2).toNat) (n2 * d1) : Int) with hN
  have hNpos : 0 < N := by
    rw [hN]; exact gcd_pos_right (mul_pos hn2 hd1).ne'
  have hdd : 0 < d1 * d2 := mul_pos hd1 hd2
  have hgpos : (0 : Int) < Int.gcd N (d1 * d2) := gcd_pos_right hdd.ne'
  set g : Int := (Int.gcd N (d1 * d2) : Int) with hg
  have c1 : N.tdiv g * g = N := Int.tdiv_mul_cancel (Int.gcd_dvd_left ..)
  have c2 : (d1 * d2).tdiv g * g = d1 * d2 := Int.tdiv_mul_cancel (Int.gcd_dvd_right ..)
  refine ⟨by omega, rfl, ?_, ?_, hx, hy, ?_⟩
  · rw [← c1] at hNpos; exact (mul_pos_iff_of_pos_right hgpos).mp hNpos
  · rw [← c2] at hdd; exact (mul_pos_iff_of_pos_right hgpos).mp hdd
  · have gq : (g : ℚ) ≠ 0 := by exact_mod_cast hgpos.ne'
    have q1 : (N : ℚ) = (N.tdiv g : ℤ) * (g : ℚ) := by exact_mod_cast c1.symm
    have q2 : (d1 * d2 : ℚ) = ((d1 * d2).tdiv g : ℤ) * (g : ℚ) := by exact_mod_cast c2.symm
    rw [show ((Int.gcd (n1 * d2 * 10 ^ (e1 - e2).toNat) (n2 * d1) : ℕ) : ℚ) = (N : ℚ) by
      rw [hN]; push_cast; rfl]
    rw [q1, q2, mul_div_mul_right _ _ gq]

/-- Specification vocabulary: `g` is a greatest common divisor of the rationals `x` and `y`, i.e. the
coarsest rational of which both are integer multiples. -/
structure IsCommonUnit (x y g : ℚ) : Prop where
  left : ∃ a : ℤ, x = a * g
  right : ∃ b : ℤ, y = b * g
  greatest : ∀ h : ℚ, (∃ a : ℤ, x = a * h) → (∃ b : ℤ, y = b * h) → ∃ k : ℤ, g = k * h

theorem IsCommonUnit.symm {x y g : ℚ} (h : IsCommonUnit x y g) : IsCommonUnit y x g :=
  ⟨h.right, h.left, fun z hy hx => h.greatest z hx hy⟩

theorem IsCommonUnit.refl (x : ℚ) : IsCommonUnit x x x :=
  ⟨⟨1, by simp⟩, ⟨1, by simp⟩, fun _ h _ => h⟩

theorem IsCommonUnit.unique {x y g g' : ℚ} (h : IsCommonUnit x y g) (h' : IsCommonUnit x y g')
    (hg : 0 < g) (hg' : 0 < g') : g = g' := by
  obtain ⟨k, hk⟩ := h.greatest g' h'.left h'.right
  obtain ⟨l, hl⟩ := h'.greatest g h.left h.right
  have hkpos : 0 < k := by
    rw [hk] at hg
    exact_mod_cast (mul_pos_iff_of_pos_right hg').mp hg
  have hlpos : 0 < l := by
    rw [hl] at hg'
    exact_mod_cast (mul_pos_iff_of_pos_right hg).mp hg'
  have : (k : ℚ) * l = 1 := by
    have : g * (k * l) = g * 1 := by
      calc g * (k * l) = k * (l * g) := by ring
        _ = g * 1 := by rw [← hl, ← hk, mul_one]
    exact mul_left_cancel₀ hg.ne' this
  have hkl : k * l = 1 := by exact_mod_cast this
  have : k = 1 := by
    rcases Int.eq_one_or_neg_one_of_mul_eq_one hkl with h | h
    · exact h
    · omega
  rw [hk, this]; simp

/-- The gcd of two integers, scaled by a positive rational, is the coarsest common unit. -/
theorem isCommonUnit_gcd (A B : Int) (s : ℚ) :
    IsCommonUnit (A * s) (B * s) ((Int.gcd A B : ℚ) * s) := by
  refine ⟨?_, ?_, ?_⟩
  · obtain ⟨a, ha⟩ := Int.gcd_dvd_left (a := A) (b := B)
    refine ⟨a, ?_⟩
    have : (A : ℚ) = (Int.gcd A B : ℚ) * a := by exact_mod_cast ha
    rw [← mul_assoc, mul_comm (a : ℚ), ← this]
  · obtain ⟨a, ha⟩ := Int.gcd_dvd_right (a := A) (b := B)
    refine ⟨a, ?_⟩
    have : (B : ℚ) = (Int.gcd A B : ℚ) * a := by exact_mod_cast ha
    rw [← mul_assoc, mul_comm (a : ℚ), ← this]
  · rintro h ⟨a, ha⟩ ⟨b, hb⟩
    refine ⟨Int.gcdA A B * a + Int.gcdB A B * b, ?_⟩
    have hz : (Int.gcd A B : Int) = A * Int.gcdA A B + B * Int.gcdB A B := Int.gcd_eq_gcd_ab A B
    have hq : (Int.gcd A B : ℚ) = A * (Int.gcdA A B : ℤ) + B * (Int.gcdB A B : ℤ) := by
      exact_mod_cast hz
    rw [hq]
    push_cast
    calc (A * (Int.gcdA A B : ℚ) + B * (Int.gcdB A B : ℚ)) * s
        = (A * s) * (Int.gcdA A B : ℚ) + (B * s) * (Int.gcdB A B : ℚ) := by ring
      _ = _ := by rw [ha, hb]; ring

theorem gcdFracGo_common {r1 r2 : Ratio} (h1 : r1.WF) (h2 : r2.WF) (p1 : 0 < r1.num)
    (p2 : 0 < r2.num) {a b c : Int}
    (h : gcdFracGo r1.num r1.den r1.exp r2.num r2.den r2.exp = .ok (a, b, c)) :
    0 < a ∧ 0 < b ∧ I64 a ∧ I64 b ∧ I64 c ∧
      IsCommonUnit r1.val r2.val ((a : ℚ) / b * 10 ^ c) := by
  obtain ⟨he, hc, ha, hb, hIa, hIb, hv⟩ := gcdFracGo_sound p1 h1.den_pos p2 h2.den_pos h
  refine ⟨ha, hb, hIa, hIb, hc ▸ h2.exp_range, ?_⟩
  rw [hv, hc]
  have t10 : (10 : ℚ) ≠ 0 := by norm_num
  have q1 := h1.denq
  have q2 := h2.denq
  have key := isCommonUnit_gcd (r1.num * r2.den * 10 ^ (r1.exp - r2.exp).toNat) (r2.num * r1.den)
    ((10 : ℚ) ^ r2.exp / (r1.den * r2.den))
  have e1 : ((r1.num * r2.den * 10 ^ (r1.exp - r2.exp).toNat : Int) : ℚ)
      * ((10 : ℚ) ^ r2.exp / (r1.den * r2.den)) = r1.val := by
    unfold val
    have : (10 : ℚ) ^ r1.exp = 10 ^ (r1.exp - r2.exp).toNat * 10 ^ r2.exp := by
      rw [← zpow_natCast, ← zpow_add₀ t10]
      congr 1; omega
    rw [this]; push_cast; field_simp
  have e2 : ((r2.num * r1.den : Int) : ℚ) * ((10 : ℚ) ^ r2.exp / (r1.den * r2.den)) = r2.val := by
    unfold val; push_cast; field_simp
  rw [e1, e2] at key
  convert key using 1
  ring

theorem common_sound {r1 r2 x : Ratio} (h1 : r1.WF) (h2 : r2.WF) (p1 : 0 < r1.num)
    (p2 : 0 < r2.num) (h : common r1 r2 = .ok x) :
    x.WF ∧ 0 < x.num ∧ IsCommonUnit r1.val r2.val x.val := by
  unfold common at h
  simp only [bind_ok] at h
  obtain ⟨⟨a, b, c⟩, hg, hm⟩ := h
  dsimp only at hm
  have fin : 0 < a → 0 < b → I64 a → I64 b → I64 c →
      IsCommonUnit r1.val r2.val ((a : ℚ) / b * 10 ^ c) →
      x.WF ∧ 0 < x.num ∧ IsCommonUnit r1.val r2.val x.val := by
    intro ha hb hIa hIb hIc hcu
    obtain ⟨hw, hv⟩ := make_sound hIa hIb hIc hm
    refine ⟨hw, ?_, hv ▸ hcu⟩
    rw [← hw.val_pos, hv]
    have : (0 : ℚ) < a := by exact_mod_cast ha
    have : (0 : ℚ) < b := by exact_mod_cast hb
    positivity
  rw [gcdFrac_eq] at hg
  split at hg
  · rename_i heq
    simp only [Except.ok.injEq, Prod.mk.injEq] at hg
    obtain ⟨rfl, rfl, rfl⟩ := hg
    have : r1 = r2 := by
      obtain ⟨e1, e2, e3⟩ := heq
      cases r1; cases r2; simp_all
    subst this
    refine fin p1 h1.den_pos h1.num_range.1 h1.den_I64 h1.exp_range ?_
    exact IsCommonUnit.refl _
  · split at hg
    · obtain ⟨ha, hb, hIa, hIb, hIc, hcu⟩ := gcdFracGo_common h2 h1 p2 p1 hg
      exact fin ha hb hIa hIb hIc hcu.symm
    · obtain ⟨ha, hb, hIa, hIb, hIc, hcu⟩ := gcdFracGo_common h1 h2 p1 p2 hg
      exact fin ha hb hIa hIb hIc hcu

/-- Exactly when the body of `gcd_frac` accepts positive operands. -/
theorem gcdFracGo_accepts {n1 d1 e1 n2 d2 e2 : Int}
    (hn1 : 0 < n1) (hd1 : 0 < d1) (hn2 : 0 < n2) (hd2 : 0 < d2)
    (h1 : d2 < intMax / n1) (h2 : d1 < intMax / n2) (h3 : d2 < intMax / d1)
    (he : e2 ≤ e1) (hI : I64 (e1 - e2)) :
    gcdFracGo n1 d1 e1 n2 d2 e2 = .ok (
      ((Int.gcd (n1 * d2 * 10 ^ (e1 - e2).toNat) (n2 * d1) : Int).tdiv
        (Int.gcd (Int.gcd (n1 * d2 * 10 ^ (e1 - e2).toNat) (n2 * d1) : Int) (d1 * d2))),
      ((d1 * d2).tdiv
        (Int.gcd (Int.gcd (n1 * d2 * 10 ^ (e1 - e2).toNat) (n2 * d1) : Int) (d1 * d2))), e2) := by
  have hM : (0 : Int) ≤ intMax := by decide
  have bound : ∀ a b : Int, 0 < a → 0 < b → b < intMax / a → I64 (a * b) ∧ 0 < a * b := by
    intro a b ha hb h
    have := lt_of_tdiv_gt hM ha hb (by rw [Int.tdiv_eq_ediv_of_nonneg hM]; exact h)
    have hp := mul_pos ha hb
    refine ⟨?_, hp⟩
    unfold I64 intMin intMax at *; omega
  have divok : ∀ a : Int, 0 < a → div64 intMax a = .ok (intMax / a) := by
    intro a ha
    rw [div64_eq_ok]
    refine ⟨ha.ne', I64_tdiv (by decide) ha.ne' (Or.inl (by decide)), ?_⟩
    rw [Int.tdiv_eq_ediv_of_nonneg hM]
  have m1 := bound n1 d2 hn1 hd2 h1
  have m2 := bound n2 d1 hn2 hd1 h2
  have m3 := bound d1 d2 hd1 hd2 h3
  unfold gcdFracGo
  rw [divok n1 hn1, ok_bind, cassert, if_pos h1, ok_bind, divok n2 hn2, ok_bind, cassert, if_pos h2,
    ok_bind, mul64, chk_of m1.1, ok_bind, sub64, chk_of hI, ok_bind, mul64, chk_of m2.1, ok_bind,
    (gcdpow_eq_ok m1.1 m2.1).mpr ⟨m1.2, by omega, m2.2, rfl⟩, ok_bind, divok d1 hd1, ok_bind, cassert,
    if_pos h3, ok_bind, mul64, chk_of m3.1, ok_bind]
  set N : Int := (Int.gcd (n1 * d2 * 10 ^ (e1 - e2).toNat) (n2 * d1) : Int) with hN
  have hNpos : 0 < N := by rw [hN]; exact gcd_pos_right m2.2.ne'
  have hNle : N ≤ n2 * d1 := Int.le_of_dvd m2.2 (Int.gcd_dvd_right ..)
  have hNI : I64 N := by
    have := m2.1
    unfold I64 intMin intMax at *; omega
  have gp : (0 : Int) < Int.gcd N (d1 * d2) := gcd_pos_right m3.2.ne'
  have ne : ∀ x : Int, 0 < x → x ≠ intMin := fun x hx => by unfold intMin; omega
  rw [sgcd_eq_ok.mpr ⟨ne _ hNpos, ne _ m3.2, rfl⟩, ok_bind,
    div64_eq_ok.mpr ⟨gp.ne', I64_tdiv hNI gp.ne' (Or.inl (ne _ hNpos)), rfl⟩, ok_bind,
    div64_eq_ok.mpr ⟨gp.ne', I64_tdiv m3.1 gp.ne' (Or.inl (ne _ m3.2)), rfl⟩, ok_bind]

/-- With equal exponents the body is symmetric where it accepts. -/
theorem gcdFracGo_symm {n1 d1 n2 d2 e : Int} {p q : Int × Int × Int}
    (h : gcdFracGo n1 d1 e n2 d2 e = .ok p) (h' : gcdFracGo n2 d2 e n1 d1 e = .ok q) : p = q := by
  unfold gcdFracGo at h h'
  simp only [bind_ok, cassert_eq_ok, div64_eq_ok, mul64_eq_ok, sub64_eq_ok, sgcd_eq_ok] at h h'
  obtain ⟨_, ⟨-, -, rfl⟩, _, -, _, ⟨-, -, rfl⟩, _, -, _, ⟨hI1, rfl⟩, _, ⟨-, rfl⟩, _,
    ⟨hI3, rfl⟩, num, hnum, _, ⟨-, -, rfl⟩, _, -, _, ⟨-, rfl⟩, g, ⟨-, -, rfl⟩, x, ⟨-, -, rfl⟩,
    y, ⟨-, -, rfl⟩, heq⟩ := h
  obtain ⟨_, ⟨-, -, rfl⟩, _, -, _, ⟨-, -, rfl⟩, _, -, _, ⟨-, rfl⟩, _, ⟨-, rfl⟩, _,
    ⟨-, rfl⟩, num', hnum', _, ⟨-, -, rfl⟩, _, -, _, ⟨-, rfl⟩, g, ⟨-, -, rfl⟩, x, ⟨-, -, rfl⟩,
    y, ⟨-, -, rfl⟩, heq'⟩ := h'
  simp only [Except.ok.injEq] at heq heq'
  rw [← heq, ← heq']
  rw [gcdpow_eq_ok hI1 hI3] at hnum
  rw [gcdpow_eq_ok hI3 hI1] at hnum'
  have : num = num' := by
    rw [hnum.2.2.2, hnum'.2.2.2, Int.gcd_comm]
    simp
  rw [this, mul_comm d1 d2]

theorem common_symm {r1 r2 x y : Ratio} (h : common r1 r2 = .ok x) (h' : common r2 r1 = .ok y) :
    x = y := by
  unfold common at h h'
  simp only [bind_ok] at h h'
  obtain ⟨p, hp, hm⟩ := h
  obtain ⟨q, hq, hm'⟩ := h'
  suffices p = q by
    subst this; rw [hm] at hm'; simpa using hm'
  rw [gcdFrac_eq] at hp hq
  by_cases he : r1.num = r2.num ∧ r1.den = r2.den ∧ r1.exp = r2.exp
  · rw [if_pos he] at hp
    rw [if_pos ⟨he.1.symm, he.2.1.symm, he.2.2.symm⟩] at hq
    simp only [Except.ok.injEq] at hp hq
    rw [← hp, ← hq, he.1, he.2.1, he.2.2]
  · rw [if_neg he] at hp
    rw [if_neg (fun k => he ⟨k.1.symm, k.2.1.symm, k.2.2.symm⟩)] at hq
    rcases lt_trichotomy r1.exp r2.exp with hl | hl | hl
    · rw [if_pos hl] at hp
      rw [if_neg (by omega), hp] at hq
      simpa using hq
    · rw [if_neg (by omega)] at hp
      rw [if_neg (by omega)] at hq
      rw [← hl] at hp hq
      exact gcdFracGo_symm hp hq
    · rw [if_neg (by omega)] at hp
      rw [if_pos hl, hp] at hq
      simpa using hq

end Verif
