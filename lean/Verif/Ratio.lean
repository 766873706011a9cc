import Verif.RatioMaths
import Mathlib.Data.Rat.Defs
import Mathlib.Algebra.Order.Field.Rat
import Mathlib.Algebra.Field.Rat
import Mathlib.Algebra.Order.Field.Power
import Mathlib.Data.Rat.Cast.Defs
import Mathlib.Tactic.FieldSimp
import Mathlib.Tactic.Positivity

/-!
# `units/ratio.h`

`units::ratio`: an integral fraction times a power of ten, used as a non-type template argument.
-/

namespace Verif

/-- `struct ratio { intmax_t num, den, exp; }`, src/core/include/units/ratio.h:50-53.
Structural equality is the defaulted `operator==`, line 61. -/
structure Ratio where
  num : Int
  den : Int
  exp : Int
deriving DecidableEq, Repr

namespace Ratio

/-- `ratio::ratio(n, d, e)`, src/core/include/units/ratio.h:55-59. -/
def make (n d e : Int) : C Ratio := do
  expects (d ≠ 0)
  let (n', d', e') ← normalize n d e
  .ok ⟨n', d', e'⟩

/-- `operator*`, src/core/include/units/ratio.h:63-70. -/
def mul (lhs rhs : Ratio) : C Ratio := do
  let gcd1 ← sgcd lhs.num rhs.den
  let gcd2 ← sgcd rhs.num lhs.den
  let a ← div64 lhs.num gcd1
  let b ← div64 rhs.num gcd2
  let n ← safeMultiply a b
  let c ← div64 lhs.den gcd2
  let d ← div64 rhs.den gcd1
  let m ← safeMultiply c d
  let e ← add64 lhs.exp rhs.exp
  make n m e

/-- `inverse`, src/core/include/units/ratio.h:78-81. -/
def inverse (r : Ratio) : C Ratio := do
  let e ← neg64 r.exp
  make r.den r.num e

/-- `operator/`, src/core/include/units/ratio.h:72-75. -/
def div (lhs rhs : Ratio) : C Ratio := do
  let i ← inverse rhs
  mul lhs i

/-- `is_integral`, src/core/include/units/ratio.h:83-90. -/
def isIntegral (r : Ratio) : C Bool :=
  if r.exp < 0 then .ok false
  else do
    let g ← gcdpow r.num r.exp r.den
    .ok (decide (g = r.den))

/-- `common_ratio`, src/core/include/units/ratio.h:159-163. -/
def common (r1 r2 : Ratio) : C Ratio := do
  let (n, d, e) ← gcdFrac r1.num r1.den r1.exp r2.num r2.den r2.exp
  make n d e

/-- `ratio(1)`, the default ratio of a coherent unit. -/
def one : Ratio := ⟨1, 1, 0⟩

/-! ### Specification vocabulary -/

/-- The rational number denoted by a ratio (specification, not library code). -/
def val (r : Ratio) : ℚ := (r.num : ℚ) / r.den * (10 : ℚ) ^ r.exp

/-- The shape every constructed ratio has (established by `make`, see `make_wf`). -/
structure WF (r : Ratio) : Prop where
  den_pos : 0 < r.den
  coprime : Int.gcd r.num r.den = 1
  num10 : r.num ≠ 0 → ¬ (10 : Int) ∣ r.num
  den10 : ¬ (10 : Int) ∣ r.den
  zero : r.num = 0 → r.den = 1 ∧ r.exp = 0
  num_range : I64 r.num ∧ r.num ≠ intMin
  den_range : r.den ≤ intMax
  exp_range : I64 r.exp

end Ratio

/-! ### Helper lemmas -/

open Ratio

theorem I64_neg {a : Int} (h : I64 a) (h' : a ≠ intMin) : I64 (-a) := by
  unfold I64 intMin intMax at *; omega

theorem tdiv_gcd_mul {a b : Int} :
    a.tdiv (Int.gcd a b) * (Int.gcd a b) = a ∧ b.tdiv (Int.gcd a b) * (Int.gcd a b) = b :=
  ⟨Int.tdiv_mul_cancel (Int.gcd_dvd_left ..), Int.tdiv_mul_cancel (Int.gcd_dvd_right ..)⟩

theorem gcd_tdiv_gcd {a b : Int} (h : 0 < Int.gcd a b) :
    Int.gcd (a.tdiv (Int.gcd a b)) (b.tdiv (Int.gcd a b)) = 1 := by
  have h1 : (a.tdiv (Int.gcd a b)) = a / (Int.gcd a b : Int) :=
    Int.tdiv_eq_ediv_of_dvd (Int.gcd_dvd_left ..)
  have h2 : (b.tdiv (Int.gcd a b)) = b / (Int.gcd a b : Int) :=
    Int.tdiv_eq_ediv_of_dvd (Int.gcd_dvd_right ..)
  rw [h1, h2]
  exact Int.gcd_div_gcd_div_gcd h

/-- Everything `normalize` guarantees on an accepted non-degenerate input. -/
theorem normalize_sound {n d e n' d' e' : Int} (hn : I64 n) (hd : I64 d) (he : I64 e)
    (hd0 : d ≠ 0) (h : normalize n d e = .ok (n', d', e')) :
    (⟨n', d', e'⟩ : Ratio).WF ∧ (⟨n', d', e'⟩ : Ratio).val = (n : ℚ) / d * 10 ^ e := by
  unfold normalize at h
  split at h
  · rename_i h0
    simp only [Except.ok.injEq, Prod.mk.injEq] at h
    obtain ⟨rfl, rfl, rfl⟩ := h
    subst h0
    refine ⟨⟨by norm_num, by decide, by simp, by norm_num, by simp, ?_, ?_, ?_⟩, by simp [val]⟩
    · decide
    · decide
    · decide
  · rename_i h0
    simp only [bind_ok, sgcd_eq_ok, mul64_eq_ok, div64_eq_ok, abs64_eq_ok hd] at h
    obtain ⟨g, ⟨hnm, hdm, rfl⟩, s, ⟨hs, rfl⟩, p, ⟨-, hp, rfl⟩, a, ⟨-, rfl⟩, q, ⟨-, hq, rfl⟩,
      ⟨n1, e1⟩, hst1, ⟨d1, e2⟩, hst2, heq⟩ := h
    simp only [Except.ok.injEq, Prod.mk.injEq] at heq
    obtain ⟨rfl, rfl, rfl⟩ := heq
    obtain ⟨k1, hk1, hke1, hn1, hn110, hIe1⟩ := strip10_sound he hst1
    obtain ⟨k2, hk2, hke2, hd1, hd110, hIe2⟩ := strip10_sound hIe1 hst2
    have hg : 0 < Int.gcd n d := Int.gcd_pos_of_ne_zero_left d h0
    have hgz : (0 : Int) < Int.gcd n d := by exact_mod_cast hg
    set g : Int := (Int.gcd n d : Int) with hgdef
    obtain ⟨sg, hsg, hsgd⟩ : ∃ sg : Int, (sg = 1 ∨ sg = -1) ∧ sg = (if d < 0 then -1 else 1) := by
      split
      · exact ⟨-1, by simp, rfl⟩
      · exact ⟨1, by simp, rfl⟩
    rw [← hsgd] at hk1 hs
    have habs : |d| = sg * d := by
      rw [hsgd]; split
      · rename_i hneg; rw [abs_of_neg hneg]; ring
      · rename_i hneg; rw [abs_of_nonneg (by omega)]; ring
    rw [habs] at hk2
    have dn : g ∣ n := Int.gcd_dvd_left ..
    have dd : g ∣ d := Int.gcd_dvd_right ..
    obtain ⟨a, ha⟩ := dn
    obtain ⟨b, hb⟩ := dd
    have e1' : (n * sg).tdiv g = a * sg := by
      rw [ha, mul_assoc, Int.mul_tdiv_cancel_left _ hgz.ne']
    have e2' : (sg * d).tdiv g = sg * b := by
      rw [hb, show sg * (g * b) = g * (sg * b) by ring, Int.mul_tdiv_cancel_left _ hgz.ne']
    rw [e1'] at hk1
    rw [e2'] at hk2
    have hcop : Int.gcd a b = 1 := by
      have := Int.gcd_div_gcd_div_gcd hg
      rwa [← hgdef, ha, hb, Int.mul_ediv_cancel_left _ hgz.ne',
        Int.mul_ediv_cancel_left _ hgz.ne'] at this
    have hsq : sg * sg = 1 := by rcases hsg with h | h <;> rw [h] <;> norm_num
    have hbpos : 0 < sg * b := by
      have : 0 < |d| := abs_pos.mpr hd0
      rw [habs, hb, show sg * (g * b) = g * (sg * b) by ring] at this
      exact (mul_pos_iff_of_pos_left hgz).mp this
    have hd1pos : 0 < d1 := by
      rw [hk2] at hbpos
      exact (mul_pos_iff_of_pos_right (by positivity)).mp hbpos
    -- divisibility of the stripped values
    have dvn : n1 ∣ a := by
      have : n1 ∣ a * sg := ⟨10 ^ k1, hk1⟩
      have h2 : n1 ∣ a * sg * sg := Dvd.dvd.mul_right this sg
      rwa [mul_assoc, hsq, mul_one] at h2
    have dvd1 : d1 ∣ b := by
      have : d1 ∣ sg * b := ⟨10 ^ k2, hk2⟩
      have h2 : d1 ∣ sg * (sg * b) := Dvd.dvd.mul_left this sg
      rwa [← mul_assoc, hsq, one_mul] at h2
    have hle : ∀ {x y : Int}, x ∣ y → y ≠ 0 → |x| ≤ |y| := fun {x y} h hy => by
      have := Int.natAbs_dvd_natAbs.mpr h
      have := Nat.le_of_dvd (Int.natAbs_pos.mpr hy) this
      rw [Int.abs_eq_natAbs, Int.abs_eq_natAbs]; exact_mod_cast this
    have hnle : |n1| ≤ |n| := hle (dvn.trans ⟨g, by rw [ha]; ring⟩) h0
    have hdle : |d1| ≤ |d| := hle (dvd1.trans ⟨g, by rw [hb]; ring⟩) hd0
    have hnb : |n| ≤ intMax := by
      unfold I64 intMin intMax at *; rw [abs_le]; omega
    have hdb : |d| ≤ intMax := by
      unfold I64 intMin intMax at *; rw [abs_le]; omega
    refine ⟨⟨hd1pos, ?_, fun _ => hn110, hd110, fun h => absurd h hn1, ?_, ?_, hIe2⟩, ?_⟩
    · have h1 : Int.gcd n1 d1 ∣ Int.gcd a b :=
        (Int.gcd_dvd_gcd_of_dvd_left _ dvn).trans (Int.gcd_dvd_gcd_of_dvd_right _ dvd1)
      rw [hcop] at h1
      exact Nat.eq_one_of_dvd_one h1
    · have := abs_le.mp (hnle.trans hnb)
      unfold I64 intMin intMax at *; dsimp only; omega
    · have := (abs_le.mp (hdle.trans hdb)).2
      exact this
    · simp only [val]
      have q1 : (n : ℚ) = g * a := by rw [ha]; push_cast; ring
      have q2 : (d : ℚ) = g * b := by rw [hb]; push_cast; ring
      have q3 : (a : ℚ) * sg = n1 * 10 ^ k1 := by exact_mod_cast hk1
      have q4 : (sg : ℚ) * b = d1 * 10 ^ k2 := by exact_mod_cast hk2
      have gq : (g : ℚ) ≠ 0 := by exact_mod_cast hgz.ne'
      have sq : (sg : ℚ) ≠ 0 := by
        rcases hsg with h | h <;> rw [h] <;> norm_num
      have d1q : (d1 : ℚ) ≠ 0 := by exact_mod_cast hd1
      rw [q1, q2, mul_div_mul_left _ _ gq]
      have : (a : ℚ) / b = (a * sg) / (sg * b) := by
        rw [mul_comm (a : ℚ), mul_div_mul_left _ _ sq]
      rw [this, q3, q4, hke2, hke1]
      have ten : (10 : ℚ) ≠ 0 := by norm_num
      rw [show e + 1 * (k1 : Int) + -1 * (k2 : Int) = e + k1 - k2 by ring,
        zpow_sub₀ ten, zpow_add₀ ten, zpow_natCast, zpow_natCast]
      field_simp

theorem exists_strip10 {x : Int} (hx : x ≠ 0) : ∃ (k : Nat) (m : Int), ¬ (10 : Int) ∣ m ∧ x = m * 10 ^ k := by
  induction hn : x.natAbs using Nat.strong_induction_on generalizing x with
  | _ n ih =>
    by_cases h : (10 : Int) ∣ x
    · obtain ⟨y, rfl⟩ := h
      have hy : y ≠ 0 := by rintro rfl; simp at hx
      obtain ⟨k, m, h1, h2⟩ := ih y.natAbs (by omega) hy rfl
      exact ⟨k + 1, m, h1, by rw [h2]; ring⟩
    · exact ⟨0, x, h, by simp⟩

/-- `normalize` accepts every non-extremal input whose exponent stays in range. -/
theorem normalize_accepts {n d e : Int} (hn : I64 n) (hd : I64 d) (hd0 : d ≠ 0)
    (hnm : n ≠ intMin) (hdm : d ≠ intMin) (he : -intMax + 40 ≤ e ∧ e ≤ intMax - 40) :
    ∃ r, normalize n d e = .ok r := by
  unfold normalize
  split
  · exact ⟨_, rfl⟩
  · rename_i h0
    have hg : 0 < Int.gcd n d := Int.gcd_pos_of_ne_zero_left d h0
    have hgz : (0 : Int) < Int.gcd n d := by exact_mod_cast hg
    have hs : I64 (n * (if d < 0 then -1 else 1)) := by
      split
      · rw [mul_neg_one]; exact I64_neg hn hnm
      · rwa [mul_one]
    have habs : I64 |d| := by
      unfold I64 intMin intMax at *
      rcases abs_choice d with h | h <;> rw [h] <;> omega
    have habs0 : |d| ≠ 0 := abs_ne_zero.mpr hd0
    have hne : ¬ ((Int.gcd n d : Int) = -1) := by omega
    -- exponents collected by the two loops
    have pow_bound : ∀ (m x : Int) (k : Nat), m ≠ 0 → I64 x → x = m * 10 ^ k → k ≤ 18 := by
      intro m x k hm hx hxm
      by_contra hk
      have hk : 19 ≤ k := by omega
      have h1 : (10 : Int) ^ 19 ≤ 10 ^ k := pow_le_pow_right₀ (by norm_num) hk
      have h2 : |x| = |m| * 10 ^ k := by
        rw [hxm, abs_mul, abs_of_pos (a := (10 : Int) ^ k) (by positivity)]
      have h3 : 1 ≤ |m| := Int.one_le_abs hm
      have h4 : (10 : Int) ^ 19 ≤ |x| := by
        rw [h2]; nlinarith [pow_pos (show (0:Int) < 10 by norm_num) k]
      unfold I64 intMin intMax at hx
      have : |x| ≤ 9223372036854775808 := abs_le.mpr (by omega)
      norm_num at h4; omega
    have strip_ok : ∀ (dd x e : Int), (dd = 1 ∨ dd = -1) → x ≠ 0 → I64 x →
        (-intMax + 20 ≤ e ∧ e ≤ intMax - 20) →
        ∃ m e', strip10 dd x e = .ok (m, e') ∧ e - 20 ≤ e' ∧ e' ≤ e + 20 := by
      intro dd x e hdd hx hI he
      obtain ⟨k, m, hm10, hxm⟩ : ∃ k m, ¬ (10 : Int) ∣ m ∧ x = m * 10 ^ k :=
        exists_strip10 hx
      have hm : m ≠ 0 := by rintro rfl; simp at hxm; exact hx hxm
      have hk := pow_bound m x k hm hI hxm
      have hr : e - 20 ≤ e + dd * k ∧ e + dd * k ≤ e + 20 := by
        rcases hdd with h | h <;> rw [h] <;> omega
      refine ⟨m, e + dd * k, ?_, hr⟩
      rw [hxm]
      refine strip10_complete k hm hm10 hdd ?_ ?_
      · unfold I64 intMin intMax at *; omega
      · unfold I64 intMin intMax at *; omega
    rw [sgcd, if_neg (by push Not; exact ⟨hnm, hdm⟩), ok_bind, mul64, chk_of hs, ok_bind]
    have hdiv1 : I64 ((n * (if d < 0 then -1 else 1)).tdiv (Int.gcd n d)) :=
      I64_tdiv hs hgz.ne' (Or.inr hne)
    rw [div64, if_neg hgz.ne', chk_of hdiv1, ok_bind, (abs64_eq_ok hd).mpr ⟨hdm, rfl⟩, ok_bind]
    have hdiv2 : I64 (|d|.tdiv (Int.gcd n d)) := I64_tdiv habs hgz.ne' (Or.inr hne)
    rw [div64, if_neg hgz.ne', chk_of hdiv2, ok_bind]
    have ne1 : (n * (if d < 0 then -1 else 1)).tdiv (Int.gcd n d) ≠ 0 := by
      intro h
      have hdv : (Int.gcd n d : Int) ∣ n * (if d < 0 then -1 else 1) :=
        Dvd.dvd.mul_right (Int.gcd_dvd_left ..) _
      have := Int.tdiv_mul_cancel hdv
      rw [h, zero_mul] at this
      rcases mul_eq_zero.mp this.symm with h | h
      · exact h0 h
      · split at h <;> omega
    have ne2 : |d|.tdiv (Int.gcd n d) ≠ 0 := by
      intro h
      have hdv : (Int.gcd n d : Int) ∣ |d| := (dvd_abs _ _).mpr (Int.gcd_dvd_right ..)
      have := Int.tdiv_mul_cancel hdv
      rw [h, zero_mul] at this
      exact habs0 this.symm
    obtain ⟨m1, e1, h1, hb1⟩ := strip_ok 1 _ e (Or.inl rfl) ne1 hdiv1
      (by unfold intMax at *; omega)
    obtain ⟨m2, e2, h2, hb2⟩ := strip_ok (-1) _ e1 (Or.inr rfl) ne2 hdiv2
      (by unfold intMax at *; omega)
    rw [h1, ok_bind]
    dsimp only
    rw [h2, ok_bind]
    exact ⟨_, rfl⟩

end Verif
