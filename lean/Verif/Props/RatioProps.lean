import Verif.CommonRatio
import Verif.Root
import Mathlib.Data.Rat.Lemmas
import Mathlib.RingTheory.Coprime.Lemmas

/-!
# Properties C01 – C10: unit ratios

Statements use only the outcome of the API functions, the denoted rational `Ratio.val`, and plain
arithmetic.  `Ratio.WF` is what construction guarantees (C01), so every ratio a program can hold
satisfies it.
-/

namespace Verif

open Ratio

/-! ## C01 -/

/-- C01: an accepted construction denotes exactly `n/d·10^e` and is in normal form. -/
theorem C01_construction_exact (n d e : Int) (hn : I64 n) (hd : I64 d) (he : I64 e) (r : Ratio)
    (h : make n d e = .ok r) :
    r.val = (n : ℚ) / d * 10 ^ e ∧ 0 < r.den ∧ Int.gcd r.num r.den = 1 ∧
      (r.num ≠ 0 → ¬ (10 : Int) ∣ r.num) ∧ ¬ (10 : Int) ∣ r.den ∧ r.WF := by
  obtain ⟨hw, hv⟩ := make_sound hn hd he h
  exact ⟨hv, hw.den_pos, hw.coprime, hw.num10, hw.den10, hw⟩

example : make 9144 1000 (-1) = .ok ⟨1143, 125, -1⟩ := by decide +kernel
example : make 3000 (-70) 5 = .ok ⟨-3, 7, 7⟩ := by decide +kernel

/-- C01: a zero denominator is always rejected, and nothing else is, except `INTMAX_MIN` as numerator or
denominator and exponents within 40 of the limits of `intmax_t`. -/
theorem C01_construction_acceptance (n d e : Int) (hn : I64 n) (hd : I64 d) :
    (d = 0 → ∀ r, make n d e ≠ .ok r) ∧
    (d ≠ 0 → n ≠ intMin → d ≠ intMin → -intMax + 40 ≤ e → e ≤ intMax - 40 → ∃ r, make n d e = .ok r) := by
  refine ⟨fun h r hr => (make_eq_ok.mp hr).1 h, fun h1 h2 h3 h4 h5 => ?_⟩
  exact make_accepts hn hd h1 h2 h3 ⟨h4, h5⟩

example : I64 9223372036854775807 ∧ (9223372036854775807 : Int) ≠ intMin ∧
    make 9223372036854775807 (-9223372036854775806) 12 =
      .ok ⟨-9223372036854775807, 9223372036854775806, 12⟩ := by decide +kernel

/-- C01: constructing from the parts of a constructed ratio gives the same ratio. -/
theorem C01_construction_idempotent (n d e : Int) (hn : I64 n) (hd : I64 d) (he : I64 e) (r : Ratio)
    (h : make n d e = .ok r) : make r.num r.den r.exp = .ok r :=
  (make_sound hn hd he h).1.make_self

example : make 25146 15625 3 = .ok ⟨25146, 15625, 3⟩ := by decide +kernel

/-! ## C02 -/

/-- C02 fails: two constructible ratios with the same value that do not compare equal. -/
theorem C02_equality_not_canonical :
    ∃ r s : Ratio, make 5 1 (-1) = .ok r ∧ make 1 2 0 = .ok s ∧ r.val = s.val ∧ r ≠ s := by
  refine ⟨⟨5, 1, -1⟩, ⟨1, 2, 0⟩, by decide +kernel, by decide +kernel, ?_, by decide⟩
  simp only [val]; norm_num

theorem wf_eq_of_fraction {r s : Ratio} (hr : r.WF) (hs : s.WF) (he : r.exp = s.exp)
    (hv : r.val = s.val) : r = s := by
  have h10 : ((10 : ℚ) ^ s.exp) ≠ 0 := zpow_ne_zero _ (by norm_num)
  unfold val at hv
  rw [he] at hv
  have hq : (r.num : ℚ) / r.den = s.num / s.den := mul_right_cancel₀ h10 hv
  have key : ∀ t : Ratio, t.WF → ((t.num : ℚ) / t.den).num = t.num ∧
      ((((t.num : ℚ) / t.den).den : ℕ) : ℤ) = t.den := by
    intro t ht
    have hc : Nat.Coprime t.num.natAbs t.den.natAbs := ht.coprime
    exact ⟨Rat.num_div_eq_of_coprime ht.den_pos hc, Rat.den_div_eq_of_coprime ht.den_pos hc⟩
  have k1 := key r hr
  have k2 := key s hs
  rw [hq] at k1
  cases r; cases s
  simp only [Ratio.mk.injEq]
  exact ⟨k1.1.symm.trans k2.1, k1.2.symm.trans k2.2, he⟩

/-- C02, partial: among ratios with the same power of ten, `==` decides equality of value.  Missing for
the full claim: ratios whose powers of ten differ (see `C02_equality_not_canonical`). -/
theorem C02_equality_same_exponent_partial (r s : Ratio) (hr : r.WF) (hs : s.WF)
    (he : r.exp = s.exp) : r = s ↔ r.val = s.val :=
  ⟨fun h => h ▸ rfl, wf_eq_of_fraction hr hs he⟩

/-- C02, partial: when numerators and denominators have no factor two and no factor five (for
instance all pure powers of ten), `==` decides equality of value whatever the exponents. -/
theorem C02_equality_coprime_to_ten_partial (r s : Ratio) (hr : r.WF) (hs : s.WF)
    (h1 : Int.gcd r.num 10 = 1) (h2 : Int.gcd r.den 10 = 1) (h3 : Int.gcd s.num 10 = 1)
    (h4 : Int.gcd s.den 10 = 1) : r = s ↔ r.val = s.val := by
  refine ⟨fun h => h ▸ rfl, fun hv => ?_⟩
  -- it suffices to show the exponents agree
  have main : ∀ a b : Ratio, a.WF → b.WF → Int.gcd a.num 10 = 1 → Int.gcd b.den 10 = 1 →
      a.val = b.val → a.exp ≤ b.exp → a.exp = b.exp := by
    intro a b ha hb hn hd hv hle
    by_contra hne
    obtain ⟨k, hk⟩ : ∃ k : Nat, b.exp = a.exp + ((k : Int) + 1) :=
      ⟨(b.exp - a.exp - 1).toNat, by omega⟩
    unfold val at hv
    have t10 : (10 : ℚ) ≠ 0 := by norm_num
    rw [hk, zpow_add₀ t10] at hv
    have e1 : (10 : ℚ) ^ ((k : Int) + 1) = 10 ^ (k + 1) := by
      exact_mod_cast zpow_natCast (10 : ℚ) (k + 1)
    rw [e1] at hv
    have hz : ((10 : ℚ) ^ a.exp) ≠ 0 := zpow_ne_zero _ t10
    have qa := ha.denq
    have qb := hb.denq
    have h5 : (a.num : ℚ) * b.den = b.num * a.den * 10 ^ (k + 1) := by
      have : (a.num : ℚ) / a.den = b.num / b.den * 10 ^ (k + 1) := by
        apply mul_right_cancel₀ hz
        rw [hv]; ring
      field_simp at this
      linarith
    have h6 : a.num * b.den = b.num * a.den * 10 ^ (k + 1) := by exact_mod_cast h5
    have h7 : (10 : Int) ∣ a.num * b.den := ⟨b.num * a.den * 10 ^ k, by rw [h6]; ring⟩
    have c1 : IsCoprime (10 : Int) a.num := (Int.isCoprime_iff_gcd_eq_one.mpr hn).symm
    have c2 : IsCoprime (10 : Int) b.den := (Int.isCoprime_iff_gcd_eq_one.mpr hd).symm
    have : (10 : Int) ∣ b.den := c1.dvd_of_dvd_mul_left h7
    exact hb.den10 this
  rcases le_total r.exp s.exp with hle | hle
  · exact wf_eq_of_fraction hr hs (main r s hr hs h1 h4 hv hle) hv
  · exact wf_eq_of_fraction hr hs (main s r hs hr h3 h2 hv.symm hle).symm hv

example : make 7 3 (-24) = .ok ⟨7, 3, -24⟩ ∧ Int.gcd 7 10 = 1 ∧ Int.gcd 3 10 = 1 := by decide +kernel

/-! ## C03 -/

/-- C03: an accepted product is exact (and again a constructible ratio). -/
theorem C03_mul_exact (l r x : Ratio) (hl : l.WF) (hr : r.WF) (h : mul l r = .ok x) :
    x.val = l.val * r.val ∧ x.WF := (mul_sound hl hr h).symm

example : mul ⟨1143, 125, -1⟩ ⟨1, 3, 0⟩ = .ok ⟨381, 125, -1⟩ := by decide +kernel

/-- C03: an accepted quotient is exact and the divisor is not zero. -/
theorem C03_div_exact (l r x : Ratio) (hl : l.WF) (hr : r.WF) (h : div l r = .ok x) :
    x.val = l.val / r.val ∧ r.val ≠ 0 ∧ x.WF := by
  obtain ⟨hw, hv, h0⟩ := div_sound hl hr h
  exact ⟨hv, fun h => h0 ((hr.val_eq_zero).mp h), hw⟩

example : div ⟨1, 1, 3⟩ ⟨36, 1, 2⟩ = .ok ⟨1, 36, 1⟩ := by decide +kernel

/-- C03: an accepted inverse is the reciprocal; the zero ratio has none. -/
theorem C03_inverse_exact (r x : Ratio) (hr : r.WF) (h : inverse r = .ok x) :
    x.val = r.val⁻¹ ∧ r.val ≠ 0 ∧ x.WF := by
  obtain ⟨hw, hv, h0⟩ := inverse_sound hr h
  exact ⟨hv, fun h => h0 ((hr.val_eq_zero).mp h), hw⟩

example : inverse ⟨-3, 7, 7⟩ = .ok ⟨-7, 3, -7⟩ := by decide +kernel

/-- C03: multiplication is commutative, including whether it is accepted. -/
theorem C03_mul_comm (l r x : Ratio) (hl : l.WF) (hr : r.WF) :
    mul l r = .ok x ↔ mul r l = .ok x := mul_comm_ok hl hr

/-- C03: `ratio(1)` is neutral, even in representation. -/
theorem C03_mul_one (r : Ratio) (hr : r.WF) : mul r Ratio.one = .ok r := by
  rw [mul_eq_ok hr one_wf]
  have g2 : Int.gcd 1 r.den = 1 := by simp
  simp only [Ratio.one, Int.gcd_one, g2, Nat.cast_one, Int.tdiv_one, mul_one, add_zero]
  refine ⟨?_, ?_, hr.exp_range, hr.make_self⟩
  · have := hr.num_range
    unfold I64 intMin intMax at *; rw [abs_le]; omega
  · rw [abs_of_pos hr.den_pos]; exact hr.den_range

example : (⟨45359237, 1, -8⟩ : Ratio).WF :=
  ⟨by decide, by decide, fun _ => by decide, by decide, by decide, by decide, by decide, by decide⟩

/-- C03: a non-zero ratio divided by itself is exactly `ratio(1)`, and this is never rejected unless its
exponent is within 40 of the limits of `intmax_t`. -/
theorem C03_div_self (r : Ratio) (hr : r.WF) (h0 : r.val ≠ 0)
    (he : -intMax + 40 ≤ r.exp ∧ r.exp ≤ intMax - 40) : div r r = .ok Ratio.one := by
  have hn : r.num ≠ 0 := fun h => h0 (hr.val_eq_zero.mpr h)
  obtain ⟨i, hi⟩ := inverse_accepts hr hn he
  obtain ⟨hiw, hiv, -⟩ := inverse_sound hr hi
  -- the inverse swaps numerator and denominator
  have hmk := (inverse_eq_ok.mp hi).2
  have hshape : i.exp = -r.exp ∧ i.num.natAbs = r.den.natAbs ∧ i.den.natAbs = r.num.natAbs := by
    have hn10 := hr.num10 hn
    have hw : (⟨if r.num < 0 then -r.den else r.den, |r.num|, -r.exp⟩ : Ratio).WF := by
      have hp := hr.den_pos
      have hnr := hr.num_range
      have hdr := hr.den_range
      have her := hr.exp_range
      refine ⟨abs_pos.mpr hn, ?_, ?_, ?_, ?_, ?_, ?_, ?_⟩
      · show Int.gcd (if r.num < 0 then -r.den else r.den) |r.num| = 1
        rw [Int.gcd_comm, ← hr.coprime]
        split <;> simp [Int.gcd, Int.natAbs_abs]
      · intro _
        show ¬ (10 : Int) ∣ (if r.num < 0 then -r.den else r.den)
        split
        · rw [dvd_neg]; exact hr.den10
        · exact hr.den10
      · show ¬ (10 : Int) ∣ |r.num|
        rw [dvd_abs]; exact hn10
      · intro h
        exfalso
        simp only at h
        split at h <;> omega
      · show I64 (if r.num < 0 then -r.den else r.den) ∧ (if r.num < 0 then -r.den else r.den) ≠ intMin
        unfold I64 intMin intMax at *
        split <;> omega
      · show |r.num| ≤ intMax
        unfold I64 intMin intMax at *
        rw [abs_le]; omega
      · show I64 (-r.exp)
        unfold I64 intMin intMax at *; omega
    have e2 : (⟨if r.num < 0 then -r.den else r.den, |r.num|, -r.exp⟩ : Ratio).val = r.val⁻¹ := by
      unfold val
      simp only
      rw [mul_inv, inv_div, zpow_neg]
      congr 1
      split
      · rename_i hneg
        rw [abs_of_neg hneg]; push_cast; rw [neg_div_neg_eq]
      · rename_i hneg
        rw [abs_of_nonneg (by omega)]
    -- `make` of the swapped parts is this ratio because normalisation finds nothing to do
    have hme : make r.den r.num (-r.exp)
        = .ok ⟨if r.num < 0 then -r.den else r.den, |r.num|, -r.exp⟩ := by
      have hs := hw.make_self
      rw [make_eq_ok] at hs ⊢
      refine ⟨hn, ?_⟩
      rw [← hs.2]
      have hp := hr.den_pos
      have hnr := hr.num_range
      have hgc : Int.gcd r.den r.num = 1 := by rw [Int.gcd_comm]; exact hr.coprime
      have hgc' : Int.gcd (if r.num < 0 then -r.den else r.den) |r.num| = 1 := hw.coprime
      have hz : (if r.num < 0 then -r.den else r.den) ≠ 0 := by split <;> omega
      have dm : r.den ≠ intMin := by unfold intMin; omega
      have nm : |r.num| ≠ intMin := by have := abs_nonneg r.num; unfold intMin; omega
      have s1 : sgcd r.den r.num = .ok 1 := by
        rw [sgcd, if_neg (by push Not; exact ⟨dm, hnr.2⟩), hgc]; rfl
      have s2 : sgcd (if r.num < 0 then -r.den else r.den) |r.num| = .ok 1 := by
        rw [sgcd, if_neg (by push Not; exact ⟨hw.num_range.2, nm⟩), hgc']; rfl
      unfold normalize
      dsimp only
      rw [if_neg hp.ne', if_neg hz, s1, s2, ok_bind, ok_bind]
      have habs : ¬ (|r.num| < 0) := not_lt.mpr (abs_nonneg _)
      rw [if_neg habs]
      have e3 : r.den * (if r.num < 0 then -1 else 1) = (if r.num < 0 then -r.den else r.den) * 1 := by
        split <;> ring
      rw [mul64, mul64, e3]
      have e4 : abs64 r.num = abs64 |r.num| := by
        have h1 := (abs64_eq_ok hnr.1 (y := |r.num|)).mpr ⟨hnr.2, rfl⟩
        have h2 := (abs64_eq_ok hw.den_I64 (y := |r.num|)).mpr ⟨nm, (abs_abs _).symm⟩
        rw [h1]; exact h2.symm
      rw [e4]
    rw [hme] at hmk
    simp only [Except.ok.injEq] at hmk
    rw [← hmk]
    refine ⟨rfl, ?_, by simp [Int.natAbs_abs]⟩
    simp only
    split <;> simp
  rw [div_eq_ok]
  refine ⟨i, hi, ?_⟩
  rw [mul_eq_ok hr hiw]
  obtain ⟨s1, s2, s3⟩ := hshape
  have g1 : Int.gcd r.num i.den = r.num.natAbs := by
    unfold Int.gcd; rw [s3]; simp
  have g2 : Int.gcd i.num r.den = r.den.natAbs := by
    unfold Int.gcd; rw [s2]; simp
  have hv : r.val * i.val = 1 := by rw [hiv]; exact mul_inv_cancel₀ h0
  rw [g1, g2]
  have hnpos : (0 : Int) < r.num.natAbs := by exact_mod_cast Int.natAbs_pos.mpr hn
  have hdn : (r.den.natAbs : Int) = r.den := Int.natAbs_of_nonneg hr.den_pos.le
  have hidn : i.den = (r.num.natAbs : Int) := by
    rw [← s3]; exact (Int.natAbs_of_nonneg hiw.den_pos.le).symm
  rw [hdn, hidn, Int.tdiv_self hr.den_pos.ne', Int.tdiv_self hnpos.ne', s1, one_mul, add_neg_cancel]
  -- signs
  have hsign : r.num.tdiv r.num.natAbs * i.num.tdiv r.den = 1 := by
    have a1 : r.num.tdiv r.num.natAbs * r.num.natAbs = r.num :=
      Int.tdiv_mul_cancel (Int.natAbs_dvd.mpr dvd_rfl)
    have hdi : r.den ∣ i.num := by
      rw [← Int.natAbs_dvd_natAbs, s2]
    have a2 : i.num.tdiv r.den * r.den = i.num := Int.tdiv_mul_cancel hdi
    have hq : (r.num : ℚ) * i.num = r.den * i.den := by
      unfold val at hv
      have qa := hr.denq
      have qb := hiw.denq
      rw [s1, zpow_neg] at hv
      have hz : ((10 : ℚ) ^ r.exp) ≠ 0 := zpow_ne_zero _ (by norm_num)
      field_simp at hv
      linarith
    have hz : r.num * i.num = r.den * i.den := by exact_mod_cast hq
    rw [hidn] at hz
    have : (r.num.tdiv r.num.natAbs * i.num.tdiv r.den) * (r.num.natAbs * r.den)
        = 1 * (r.num.natAbs * r.den) := by
      calc _ = (r.num.tdiv r.num.natAbs * r.num.natAbs) * (i.num.tdiv r.den * r.den) := by ring
        _ = r.num * i.num := by rw [a1, a2]
        _ = _ := by rw [hz]; ring
    exact mul_right_cancel₀ (mul_ne_zero hnpos.ne' hr.den_pos.ne') this
  rw [hsign]
  refine ⟨by decide, by decide, by decide, one_wf.make_self⟩

example : div ⟨1143, 125, -1⟩ ⟨1143, 125, -1⟩ = .ok Ratio.one := by decide +kernel

/-- C03: products that fit are accepted. -/
theorem C03_mul_accepts (l r : Ratio) (hl : l.WF) (hr : r.WF)
    (hn : |l.num * r.num| ≤ intMax) (hd : l.den * r.den ≤ intMax)
    (he : -intMax + 40 ≤ l.exp + r.exp ∧ l.exp + r.exp ≤ intMax - 40) :
    ∃ x, mul l r = .ok x ∧ x.val = l.val * r.val := by
  obtain ⟨x, hx⟩ := mul_accepts hl hr hn hd he
  exact ⟨x, hx, (mul_sound hl hr hx).2⟩

example : mul ⟨1602176634, 1, -28⟩ ⟨1, 1, 9⟩ = .ok ⟨1602176634, 1, -19⟩ := by decide +kernel

/-- C03: because the normal form is not canonical, multiplication is associative in value only: the
same product of three ratios has different representations (hence gives different unit types)
depending on the grouping. -/
theorem C03_mul_assoc_representation_fails :
    ∃ a b c ab bc x y : Ratio, a.WF ∧ b.WF ∧ c.WF ∧ mul a b = .ok ab ∧ mul ab c = .ok x ∧
      mul b c = .ok bc ∧ mul a bc = .ok y ∧ x.val = y.val ∧ x ≠ y := by
  refine ⟨⟨5, 1, 0⟩, ⟨2, 1, 0⟩, ⟨1, 4, 0⟩, ⟨1, 1, 1⟩, ⟨1, 2, 0⟩, ⟨1, 4, 1⟩, ⟨5, 2, 0⟩,
    ?_, ?_, ?_, by decide +kernel, by decide +kernel, by decide +kernel, by decide +kernel, ?_, by decide⟩
  · exact ⟨by decide, by decide, fun _ => by decide, by decide, by decide, by decide, by decide, by decide⟩
  · exact ⟨by decide, by decide, fun _ => by decide, by decide, by decide, by decide, by decide, by decide⟩
  · exact ⟨by decide, by decide, fun _ => by decide, by decide, by decide, by decide, by decide, by decide⟩
  · simp only [val]; norm_num

/-- C03: associativity of the denoted value. -/
theorem C03_mul_assoc_value (a b c ab bc x y : Ratio) (ha : a.WF) (hb : b.WF) (hc : c.WF)
    (h1 : mul a b = .ok ab) (h2 : mul ab c = .ok x) (h3 : mul b c = .ok bc) (h4 : mul a bc = .ok y) :
    x.val = y.val := by
  obtain ⟨w1, v1⟩ := mul_sound ha hb h1
  obtain ⟨w2, v2⟩ := mul_sound w1 hc h2
  obtain ⟨w3, v3⟩ := mul_sound hb hc h3
  obtain ⟨w4, v4⟩ := mul_sound ha w3 h4
  rw [v2, v1, v4, v3]; ring

/-! ## C04 -/

/-- C04: the overflow guard accepts exactly the products whose magnitude is at most `INTMAX_MAX` (and
whose factors are not `INTMAX_MIN`) and returns the exact product. -/
theorem C04_guard_exact (l r v : Int) (hl : I64 l) (hr : I64 r) :
    safeMultiply l r = .ok v ↔
      (l ≠ intMin ∧ r ≠ intMin) ∧ |l * r| ≤ intMax ∧ v = l * r := by
  rw [safeMultiply_eq_ok hl hr]; tauto

example : safeMultiply 3037000500 (-3037000499) = .ok (-9223372033963249500) := by decide +kernel
example : safeMultiply 3037000500 3037000500 = .error .overflow := by decide +kernel
example : safeMultiply 4294967296 2147483648 = .error .expects := by decide +kernel

/-! ## C05 -/

/-- C05: `is_integral` answers exactly whether the value is an integer, and always answers. -/
theorem C05_isIntegral_exact (r : Ratio) (hr : r.WF) (hpos : 0 < r.val) :
    ∃ b, isIntegral r = .ok b ∧ (b = true ↔ ∃ n : Int, r.val = n) := by
  have hp := hr.val_pos.mp hpos
  by_cases h : ∃ n : Int, r.val = n
  · exact ⟨true, (isIntegral_eq_ok hr hp).mpr (by simp [h]), by simp [h]⟩
  · exact ⟨false, (isIntegral_eq_ok hr hp).mpr (by simp [h]), by simp [h]⟩

example : isIntegral ⟨3, 9223372036854775783, 5000000000⟩ = .ok false := by decide +kernel
example : isIntegral ⟨7, 1048576, 20⟩ = .ok true := by decide +kernel
example : isIntegral ⟨7, 2097152, 20⟩ = .ok false := by decide +kernel

/-! ## C06 -/

/-- C06: `mulmod` is multiplication modulo `m` for every 64-bit modulus. -/
theorem C06_mulmod_exact (a b m : Nat) (hm : 0 < m) (hm64 : m < 2 ^ 64) (hb : b < 2 ^ 64) :
    mulmod a b m = .ok (a * b % m) := by
  exact mulmod_spec hm (by unfold two64; norm_num at hm64; omega) (by unfold two64; norm_num at hb; omega)

example : mulmod 18446744073709551614 18446744073709551613 18446744073709551615 = .ok 2 := by
  decide +kernel

/-- C06: `modpow` is congruent to the power modulo `m`, and reduced except for `a^0 mod 1`, where it
returns 1. -/
theorem C06_modpow_exact (a e m : Nat) (hm : 0 < m) (hm64 : m < 2 ^ 64) :
    ∃ r, modpow a e m = .ok r ∧ r % m = a ^ e % m ∧ (r < m ∨ (e = 0 ∧ m = 1 ∧ r = 1)) := by
  have hm64' : m < two64 := by unfold two64; norm_num at hm64; omega
  refine ⟨_, modpow_spec hm hm64', ?_, ?_⟩
  · split
    · rename_i h; simp [h]
    · exact Nat.mod_mod _ _
  · split
    · rename_i h
      rcases Nat.lt_or_ge 1 m with h1 | h1
      · exact Or.inl h1
      · exact Or.inr ⟨h, by omega, rfl⟩
    · exact Or.inl (Nat.mod_lt _ hm)

example : modpow 10 30 18446744073709551557 = .ok (10 ^ 30 % 18446744073709551557) := by decide +kernel

/-- C06: the exponent-aware gcd is the gcd of `a·10^e` and `b`. -/
theorem C06_gcdpow_exact (a e b : Int) (ha : I64 a) (hb : I64 b) (pa : 0 < a) (pe : 0 ≤ e) (pb : 0 < b) :
    gcdpow a e b = .ok (Int.gcd (a * 10 ^ e.toNat) b : Int) :=
  (gcdpow_eq_ok ha hb).mpr ⟨pa, pe, pb, rfl⟩

example : gcdpow 6 40 9223372036854775800 = .ok 600 := by decide +kernel

/-! ## C07 -/

/-- C07: the common ratio of two positive ratios is the coarsest rational of which both are integer
multiples. -/
theorem C07_common_exact (r1 r2 x : Ratio) (h1 : r1.WF) (h2 : r2.WF) (p1 : 0 < r1.val)
    (p2 : 0 < r2.val) (h : common r1 r2 = .ok x) :
    0 < x.val ∧ (∃ a : ℤ, r1.val = a * x.val) ∧ (∃ b : ℤ, r2.val = b * x.val) ∧
      (∀ y : ℚ, (∃ a : ℤ, r1.val = a * y) → (∃ b : ℤ, r2.val = b * y) → ∃ k : ℤ, x.val = k * y) ∧
      x.WF := by
  obtain ⟨hw, hp, hc⟩ := common_sound h1 h2 (h1.val_pos.mp p1) (h2.val_pos.mp p2) h
  exact ⟨hw.val_pos.mpr hp, hc.left, hc.right, hc.greatest, hw⟩

example : common ⟨1, 1, 3⟩ ⟨1143, 125, -1⟩ = .ok ⟨1, 125, -1⟩ := by decide +kernel

/-- C07: whichever ratio comes first, an accepted common ratio is the same ratio (identical
representation, hence the same common unit type). -/
theorem C07_common_symmetric (r1 r2 x y : Ratio) (h : common r1 r2 = .ok x)
    (h' : common r2 r1 = .ok y) : x = y := common_symm h h'

example : common ⟨1143, 125, -1⟩ ⟨1, 1, 3⟩ = .ok ⟨1, 125, -1⟩ := by decide +kernel

/-- C07: a common ratio is produced whenever the cross products stay below `INTMAX_MAX` (and the
exponents are not at the limits of `intmax_t`). -/
theorem C07_common_accepts (r1 r2 : Ratio) (h1 : r1.WF) (h2 : r2.WF) (p1 : 0 < r1.val) (p2 : 0 < r2.val)
    (a1 : r1.num * (r2.den + 1) ≤ intMax) (a2 : r2.num * (r1.den + 1) ≤ intMax)
    (a3 : r1.den * (r2.den + 1) ≤ intMax) (a4 : r2.den * (r1.den + 1) ≤ intMax)
    (e1 : -(2 ^ 62) ≤ r1.exp ∧ r1.exp < 2 ^ 62) (e2 : -(2 ^ 62) ≤ r2.exp ∧ r2.exp < 2 ^ 62) :
    ∃ x, common r1 r2 = .ok x := by
  have q1 := h1.val_pos.mp p1
  have q2 := h2.val_pos.mp p2
  have b : ∀ a c : Int, 0 < a → a * (c + 1) ≤ intMax → c < intMax / a := by
    intro a c ha h
    have := (Int.le_ediv_iff_mul_le ha).mpr (show (c + 1) * a ≤ intMax by linarith [mul_comm a (c + 1)])
    omega
  have c1 := b _ _ q1 a1
  have c2 := b _ _ q2 a2
  have c3 := b _ _ h1.den_pos a3
  have c4 := b _ _ h2.den_pos a4
  unfold common
  rw [gcdFrac_eq]
  have fin : ∀ s1 s2 : Ratio, s1.WF → s2.WF → 0 < s1.num → 0 < s2.num → s2.den < intMax / s1.num →
      s1.den < intMax / s2.num → s2.den < intMax / s1.den → s2.exp ≤ s1.exp →
      -(2 ^ 62) ≤ s1.exp ∧ s1.exp < 2 ^ 62 → -(2 ^ 62) ≤ s2.exp ∧ s2.exp < 2 ^ 62 →
      ∃ x, (gcdFracGo s1.num s1.den s1.exp s2.num s2.den s2.exp >>= fun (n, d, e) => make n d e)
        = .ok x := by
    intro s1 s2 w1 w2 p1 p2 k1 k2 k3 he j1 j2
    have hI : I64 (s1.exp - s2.exp) := by unfold I64 intMin intMax; norm_num at j1 j2; omega
    have hacc := gcdFracGo_accepts p1 w1.den_pos p2 w2.den_pos k1 k2 k3 he hI
    obtain ⟨-, -, ha, hb, hIa, hIb, -⟩ := gcdFracGo_sound p1 w1.den_pos p2 w2.den_pos hacc
    rw [hacc, ok_bind]
    apply make_accepts hIa hIb hb.ne'
    · unfold intMin; omega
    · unfold intMin; omega
    · unfold intMax; norm_num at j2; omega
  split
  · rename_i heq
    rw [ok_bind]
    exact ⟨r1, h1.make_self⟩
  · split
    · rename_i hlt
      exact fin r2 r1 h2 h1 q2 q1 c2 c1 c4 hlt.le e2 e1
    · rename_i hlt
      exact fin r1 r2 h1 h2 q1 q2 c1 c2 c3 (by omega) e1 e2

example : ∃ x, common ⟨254, 1, -2⟩ ⟨1, 36, 3⟩ = .ok x := ⟨⟨2, 9, -2⟩, by decide +kernel⟩

/-- C07: acceptance does depend on the order at the edge of the range (the overflow assertion is not
symmetric): this pair has a common ratio in one order only. -/
theorem C07_common_acceptance_asymmetric :
    ∃ r1 r2 x : Ratio, r1.WF ∧ r2.WF ∧ 0 < r1.num ∧ 0 < r2.num ∧
      common r1 r2 = .ok x ∧ ∀ y, common r2 r1 ≠ .ok y := by
  refine ⟨⟨1, 3, 0⟩, ⟨1, 3000000000000000001, 0⟩, ⟨1, 9000000000000000003, 0⟩, ?_, ?_, by decide,
    by decide, by decide +kernel, ?_⟩
  · exact ⟨by decide, by decide, fun _ => by decide, by decide, by decide, by decide, by decide, by decide⟩
  · exact ⟨by decide, by decide +kernel, fun _ => by decide, by decide, by decide, by decide, by decide,
      by decide⟩
  · intro y hy
    have : common ⟨1, 3000000000000000001, 0⟩ ⟨1, 3, 0⟩ = .error .assertion := by decide +kernel
    rw [this] at hy; cases hy

/-! ## C08 -/

/-- C08: an accepted integral power is exact (positive, negative and zero exponents), whatever the root
estimate (no root is taken). -/
theorem C08_pow_exact (est : RootEstimate) (n : Int) (r y : Ratio) (hr : r.WF)
    (h : powR est n 1 r = .ok y) : y.val = r.val ^ n ∧ y.WF := by
  unfold powR at h
  rw [if_neg one_ne_zero] at h
  split at h
  · rename_i h0
    simp only [Except.ok.injEq] at h
    rw [h0, ← h]; exact ⟨by simp [one_val], one_wf⟩
  · split at h
    · rename_i h1
      simp only [Except.ok.injEq] at h
      rw [h1, ← h]; exact ⟨by simp, hr⟩
    · simp only [bind_ok, sgcd_eq_ok, div64_eq_ok, mul64_eq_ok] at h
      obtain ⟨g, ⟨-, -, rfl⟩, a, ⟨-, hI, rfl⟩, n', hn', d, ⟨-, hId, rfl⟩, d', hd', p, hp, res, hres, s,
        ⟨hIs, rfl⟩, h⟩ := h
      simp only [Int.gcd_one, Nat.cast_one, Int.tdiv_one, mul_one] at *
      rw [abs64_eq_ok hI] at hn'
      rw [abs64_eq_ok hId] at hd'
      obtain ⟨-, rfl⟩ := hn'
      obtain ⟨-, rfl⟩ := hd'
      have : rootR est (|1| : Int).toNat p = .ok p := by simp [rootR]
      rw [this] at hres
      simp only [Except.ok.injEq] at hres
      subst hres
      obtain ⟨pw, pv⟩ := powImpl_sound _ hr hp
      split at h
      · rename_i hneg
        obtain ⟨yw, yv, -⟩ := inverse_sound pw h
        refine ⟨?_, yw⟩
        rw [yv, pv, abs_of_neg hneg, ← zpow_natCast, ← zpow_neg]
        congr 1; omega
      · rename_i hneg
        simp only [Except.ok.injEq] at h
        rw [← h]
        refine ⟨?_, pw⟩
        rw [pv, abs_of_nonneg (by omega), ← zpow_natCast]
        congr 1; omega

example : powR (fun _ _ => 0) (-3) 1 ⟨2, 3, 1⟩ = .ok ⟨27, 8, -3⟩ := by decide +kernel

/-! ## C09, C10: roots -/

/-- C10, partial: the integer root is the floor of the real root when the estimate is the floor or one
above it, or one below it for a perfect power, and `(estimate+1)^N` does not overflow.
Missing for the full claim: see the two counterexamples below. -/
theorem C10_iroot_floor_partial (est : RootEstimate) (n : Nat) (hn : 1 ≤ n) (v t : Int)
    (ht : 0 ≤ t) (h1 : t ^ n ≤ v) (h2 : v < (t + 1) ^ n)
    (hest : n = 1 ∨ v = 0 ∨ est n v = t ∨ est n v = t + 1 ∨ (est n v = t - 1 ∧ v = t ^ n))
    (hov : n = 1 ∨ v = 0 ∨ (est n v + 1) ^ n ≤ intMax) : iroot est n v = .ok t := by
  unfold iroot
  have hv0 : 0 ≤ v := le_trans (pow_nonneg ht n) h1
  by_cases hn1 : n = 1
  · subst hn1
    rw [if_pos rfl]; simp only [pow_one] at h1 h2
    congr 1; omega
  · rw [if_neg hn1, expects, if_pos hv0, ok_bind]
    by_cases hz : v = 0
    · rw [if_pos hz]
      congr 1
      by_contra hne
      have : 0 < t := by omega
      have := pow_pos this n
      omega
    · rw [if_neg hz]
      have hpos : 0 < t := by
        by_contra hne
        have : t = 0 := by omega
        subst this
        simp at h2; omega
      replace hest := (hest.resolve_left hn1).resolve_left hz
      replace hov := (hov.resolve_left hn1).resolve_left hz
      have mono : ∀ a b : Int, 0 ≤ a → a < b → a ^ n < b ^ n := fun a b ha hab =>
        pow_lt_pow_left₀ hab ha (by omega)
      have henn : 0 ≤ est n v := by rcases hest with h | h | ⟨h, -⟩ <;> rw [h] <;> omega
      have hup : I64 (est n v + 1) := by
        have : est n v + 1 ≤ (est n v + 1) ^ n := le_self_pow₀ (by omega) (by omega)
        unfold I64 intMin intMax at *; omega
      have hI : I64 (est n v) ∧ I64 (est n v - 1) := by unfold I64 intMin intMax at *; omega
      have hpe : (est n v) ^ n ≤ intMax := le_trans (le_of_lt (mono _ _ henn (by omega))) hov
      dsimp only
      rw [add64, chk_of hup, ok_bind, powImplInt_complete n (by omega) hov, ok_bind]
      rw [powImplInt_complete n henn hpe, ok_bind, sub64, chk_of hI.2]
      rcases hest with h | h | ⟨h, hp⟩
      · rw [h, if_neg (by omega), if_neg (by omega)]
      · rw [h]
        have := mono (t + 1) (t + 1 + 1) (by omega) (by omega)
        rw [if_neg (by omega), if_pos h2]
        congr 1; ring
      · rw [h]
        have e : t - 1 + 1 = t := by ring
        rw [e, if_pos hp]

example : iroot (fun _ _ => 11) 3 1000 = .ok 10 ∧ iroot (fun _ _ => 9) 3 1000 = .ok 10 ∧
    iroot (fun _ _ => 10) 3 1330 = .ok 10 := by decide +kernel

/-- C10 fails at the top of the range: with the exactly right estimate, the square root of the
largest square below `2^63` overflows while probing `(root+1)²`. -/
theorem C10_iroot_overflow (est : RootEstimate) (h : est 2 9223372030926249001 = 3037000499) :
    iroot est 2 9223372030926249001 = .error .overflow ∧
      (3037000499 : Int) ^ 2 = 9223372030926249001 := by
  refine ⟨?_, by norm_num⟩
  unfold iroot
  rw [if_neg (by norm_num), h]
  decide +kernel

/-- C10 fails for arguments that are not perfect powers when the estimate is one too low: the result is
one too low as well. -/
theorem C10_iroot_underestimate (est : RootEstimate) (h : est 2 17 = 3) :
    iroot est 2 17 = .ok 3 ∧ (4 : Int) ^ 2 ≤ 17 := by
  refine ⟨?_, by norm_num⟩
  unfold iroot
  rw [if_neg (by norm_num), h]
  decide +kernel

/-- A rational power in lowest terms has powers as numerator and denominator. -/
theorem coprime_pow_of_rat {a b : Int} (_ha : 0 < a) (hb : 0 < b) (hc : Int.gcd a b = 1) {q : ℚ} {n : Nat}
    (hq : (a : ℚ) / b = q ^ n) : a = q.num ^ n ∧ b = (q.den : Int) ^ n := by
  have hc' : Nat.Coprime a.natAbs b.natAbs := hc
  have h1 := Rat.num_div_eq_of_coprime hb hc'
  have h2 := Rat.den_div_eq_of_coprime hb hc'
  rw [hq, Rat.num_pow] at h1
  rw [hq, Rat.den_pow] at h2
  exact ⟨h1.symm, by rw [← h2]; push_cast; rfl⟩

/-- C09 fails: the square root of 25 written as `5/2·10` is 7, for every estimate that is exact on the
integers involved. -/
theorem C09_sqrt_of_25 (est : RootEstimate) (h1 : est 2 50 = 7) (h2 : est 2 2 = 1) :
    ∃ r x, mul ⟨5, 2, 0⟩ ⟨1, 1, 1⟩ = .ok r ∧ r.val = 5 ^ 2 ∧ sqrtR est r = .ok x ∧ x.val = 7 := by
  refine ⟨⟨5, 2, 1⟩, ⟨7, 1, 0⟩, by decide +kernel, by simp only [val]; norm_num, ?_,
    by simp only [val]; norm_num⟩
  have e1 : iroot est 2 50 = .ok 7 := by
    unfold iroot; rw [h1]; decide +kernel
  have e2 : iroot est 2 2 = .ok 1 := by
    unfold iroot; rw [h2]; decide +kernel
  have e3 : makeExpAlign ⟨5, 2, 1⟩ 2 = .ok (50, 2, 0) := by decide +kernel
  have e4 : powImpl 1 ⟨5, 2, 1⟩ = .ok ⟨5, 2, 1⟩ := by decide +kernel
  have e5 : rootR est 2 ⟨5, 2, 1⟩ = .ok ⟨7, 1, 0⟩ := by
    unfold rootR
    rw [if_neg (by norm_num), if_neg (by norm_num)]
    change (makeExpAlign ⟨5, 2, 1⟩ 2 >>= _) = _
    rw [e3, ok_bind]
    dsimp only
    rw [e1, ok_bind, e2, ok_bind]
    decide +kernel
  unfold sqrtR powR
  rw [if_neg (by norm_num), if_neg (by norm_num), if_neg (by norm_num)]
  have a1 : sgcd 1 2 = .ok 1 := by decide
  have a2 : div64 1 1 = .ok 1 := by decide
  have a3 : abs64 1 = .ok 1 := by decide
  have a4 : div64 2 1 = .ok 2 := by decide
  have a5 : abs64 2 = .ok 2 := by decide
  have a6 : mul64 1 2 = .ok 2 := by decide
  rw [a1, ok_bind, a2, ok_bind, a3, ok_bind, a4, ok_bind, a5, ok_bind]
  change (powImpl 1 _ >>= _) = _
  rw [e4, ok_bind]
  change (rootR est 2 _ >>= _) = _
  rw [e5, ok_bind, a6, ok_bind, if_neg (by norm_num)]

/-- C10, partial: on a perfect power an accepted integer root is exact whenever the floating point
estimate is within one of the root (no assumption on overflow: an accepted call did not overflow). -/
theorem C10_iroot_perfect_power_partial (est : RootEstimate) (n : Nat) (hn : 1 ≤ n) (t y : Int)
    (ht : 0 < t) (hest : n ≠ 1 → |est n (t ^ n) - t| ≤ 1) (h : iroot est n (t ^ n) = .ok y) : y = t := by
  unfold iroot at h
  by_cases hn1 : n = 1
  · subst hn1
    rw [if_pos rfl] at h
    simpa using h.symm
  · rw [if_neg hn1] at h
    have hest := hest hn1
    rw [abs_le] at hest
    have hpos : 0 < t ^ n := pow_pos ht n
    rw [expects, if_pos hpos.le, ok_bind, if_neg hpos.ne'] at h
    simp only [bind_ok, add64_eq_ok] at h
    obtain ⟨_, ⟨-, rfl⟩, p, hp, h⟩ := h
    have hp := powImplInt_sound _ hp
    subst hp
    have inj : ∀ a b : Int, 0 ≤ a → 0 ≤ b → a ^ n = b ^ n → a = b := fun a b ha hb hab =>
      (pow_left_inj₀ ha hb (by omega)).mp hab
    have mono : ∀ a b : Int, 0 ≤ a → a < b → a ^ n < b ^ n := fun a b ha hab =>
      pow_lt_pow_left₀ hab ha (by omega)
    split at h
    · rename_i heq
      simp only [Except.ok.injEq] at h
      rw [← h]
      exact (inj _ _ ht.le (by omega) heq).symm
    · rename_i hne
      simp only [bind_ok] at h
      obtain ⟨q, hq, h⟩ := h
      have hq := powImplInt_sound _ hq
      subst hq
      have hge : est n (t ^ n) ≠ t - 1 := by
        intro h1
        apply hne; rw [h1]; congr 1; ring
      split at h
      · rename_i hlt
        simp only [sub64_eq_ok] at h
        have : est n (t ^ n) ≠ t := by
          intro h1; rw [h1] at hlt; omega
        rw [h.2]; omega
      · rename_i hnl
        simp only [Except.ok.injEq] at h
        have : est n (t ^ n) ≠ t + 1 := by
          intro h1; rw [h1] at hnl; exact hnl (mono _ _ ht.le (by omega))
        rw [← h]; omega

example : |((fun _ _ => 1999999) : RootEstimate) 3 (2000000 ^ 3) - 2000000| ≤ 1 ∧
    iroot (fun _ _ => 1999999) 3 (2000000 ^ 3) = .ok 2000000 := by decide +kernel

/-- C09, partial: if, after aligning the power of ten, numerator and denominator have no common factor
(always so when `N` divides the exponent), then an accepted root of a perfect power is exact —
provided the floating point estimates are within one of the integer roots taken (C10).  Missing for the full claim: ratios whose
alignment reintroduces a common factor (`C09_sqrt_of_25`). -/
theorem C09_root_exact_partial (est : RootEstimate) (n : Nat) (hn : 1 ≤ n) (r x : Ratio) (q : ℚ)
    (hr : r.WF) (hq0 : 0 < q) (hq : r.val = q ^ n)
    (halign : ∀ a b e, makeExpAlign r n = .ok (a, b, e) → Int.gcd a b = 1)
    (hest : n ≠ 1 → ∀ t : Int, 0 < t → t ^ n ≤ intMax → |est n (t ^ n) - t| ≤ 1)
    (h : rootR est n r = .ok x) : x.val = q := by
  have hroot : ∀ t : Int, 0 < t → t ^ n ≤ intMax → ∀ y, iroot est n (t ^ n) = .ok y → y = t :=
    fun t ht hle y hy => C10_iroot_perfect_power_partial est n hn t y ht (fun h => hest h t ht hle) hy
  have hpos : 0 < r.num := by
    rw [← hr.val_pos, hq]; positivity
  unfold rootR at h
  split at h
  · rename_i h1
    simp only [Except.ok.injEq] at h
    rw [← h, hq, h1, pow_one]
  · rw [if_neg hpos.ne'] at h
    simp only [bind_ok] at h
    obtain ⟨⟨a, b, e⟩, hal, h⟩ := h
    dsimp only at h
    simp only [div64_eq_ok] at h
    obtain ⟨xa, hxa, xb, hxb, e', ⟨hn0, hIe, rfl⟩, hmk⟩ := h
    obtain ⟨hk, ha, hb, hIa, hIb, hIe', ⟨m, hm⟩, hv⟩ := makeExpAlign_sound hr hpos hal
    have hcop := halign a b e hal
    -- a/b is the n-th power of q / 10^m
    have t10 : (10 : ℚ) ≠ 0 := by norm_num
    have h10m : ((10 : ℚ) ^ m) ≠ 0 := zpow_ne_zero _ t10
    have hab : (a : ℚ) / b = (q / 10 ^ m) ^ n := by
      rw [div_pow, ← hq, ← hv, hm, ← zpow_natCast ((10 : ℚ) ^ m), ← zpow_mul, mul_comm m,
        mul_div_assoc, div_self (zpow_ne_zero _ t10), mul_one]
    obtain ⟨ea, eb⟩ := coprime_pow_of_rat ha hb hcop hab
    set p := q / (10 : ℚ) ^ m with hp
    have hppos : 0 < p := by
      have : (0 : ℚ) < 10 ^ m := zpow_pos (by norm_num) _
      positivity
    have hna : (0 : Int) < p.num := Rat.num_pos.mpr hppos
    have hnb : (0 : Int) < (p.den : Int) := by exact_mod_cast p.den_pos
    have r1 := hroot p.num hna (by rw [← ea]; exact hIa.2) xa (by rw [← ea]; exact hxa)
    have r2 := hroot (p.den : Int) hnb (by rw [← eb]; exact hIb.2) xb (by rw [← eb]; exact hxb)
    have hnn : (n : Int) ≠ 0 := by omega
    have he' : e.tdiv n = m := by rw [hm, Int.mul_tdiv_cancel_left _ hnn]
    rw [he'] at hmk hIe
    have le_pow : ∀ t : Int, 0 < t → t ≤ t ^ n := fun t ht => le_self_pow₀ (by omega) (by omega)
    have hIxa : I64 xa := by
      have := le_pow p.num hna
      rw [← ea] at this
      unfold I64 intMin intMax at *; omega
    have hIxb : I64 xb := by
      have := le_pow p.den hnb
      rw [← eb] at this
      unfold I64 intMin intMax at *; omega
    obtain ⟨-, hxv⟩ := make_sound hIxa hIxb hIe hmk
    rw [hxv, r1, r2]
    have : ((p.num : ℤ) : ℚ) / ((p.den : ℤ) : ℚ) = p := by
      push_cast; exact Rat.num_div_den p
    rw [this, hp, div_mul_cancel₀ _ h10m]

/-- C09, partial: with an exponent divisible by `N`, and estimates within one, an accepted root of a
perfect `N`-th power is exact.  (The alignment hypothesis of `C09_root_exact_partial` then holds.) -/
theorem C09_root_exact_aligned_partial (est : RootEstimate) (n : Nat) (hn : 1 ≤ n) (r x : Ratio) (q : ℚ)
    (hr : r.WF) (hq0 : 0 < q) (hq : r.val = q ^ n) (hdvd : (n : Int) ∣ r.exp)
    (hest : n ≠ 1 → ∀ t : Int, 0 < t → t ^ n ≤ intMax → |est n (t ^ n) - t| ≤ 1)
    (h : rootR est n r = .ok x) : x.val = q := by
  refine C09_root_exact_partial est n hn r x q hr hq0 hq ?_ hest h
  intro a b e hal
  unfold makeExpAlign at hal
  simp only [bind_ok, expects_eq_ok, mod64_eq_ok] at hal
  obtain ⟨_, hk, rem, ⟨-, -, hrem⟩, hal⟩ := hal
  have : rem = 0 := by rw [hrem]; exact Int.tmod_eq_zero_of_dvd hdvd
  rw [if_pos this] at hal
  simp only [Except.ok.injEq, Prod.mk.injEq] at hal
  rw [← hal.1, ← hal.2.1]; exact hr.coprime

example : rootR (fun _ _ => 3) 3 ⟨27, 64, -6⟩ = .ok ⟨3, 4, -2⟩ ∧ (3 : Int) ∣ -6 := by decide +kernel

/-- C09, partial: with the aligned numerator and denominator having no common factor, a rational
power `pow<Num, Den>` of positive numerator that is accepted is exact when the root exists. -/
theorem C09_pow_rational_partial (est : RootEstimate) (num den : Int) (r p x : Ratio) (q : ℚ)
    (hr : r.WF) (hnum : 0 < num) (hden : 0 < den) (hgcd : Int.gcd num den = 1) (hne : num ≠ den)
    (hp : powImpl num.toNat r = .ok p) (hdvd : den ∣ p.exp)
    (hq0 : 0 < q) (hq : r.val ^ num.toNat = q ^ den.toNat)
    (hest : den.toNat ≠ 1 → ∀ t : Int, 0 < t → t ^ den.toNat ≤ intMax → |est den.toNat (t ^ den.toNat) - t| ≤ 1)
    (h : powR est num den r = .ok x) : x.val = q := by
  unfold powR at h
  rw [if_neg hden.ne', if_neg hnum.ne', if_neg hne] at h
  simp only [bind_ok, sgcd_eq_ok, div64_eq_ok, mul64_eq_ok] at h
  obtain ⟨g, ⟨-, -, rfl⟩, a, ⟨-, hI, rfl⟩, n', hn', d, ⟨-, hId, rfl⟩, d', hd', p', hp', res, hres, s,
    ⟨hIs, rfl⟩, h⟩ := h
  rw [hgcd] at *
  simp only [Nat.cast_one, Int.tdiv_one] at *
  rw [abs64_eq_ok hI, abs_of_pos hnum] at hn'
  rw [abs64_eq_ok hId, abs_of_pos hden] at hd'
  obtain ⟨-, rfl⟩ := hn'
  obtain ⟨-, rfl⟩ := hd'
  rw [hp] at hp'
  simp only [Except.ok.injEq] at hp'
  subst hp'
  rw [if_neg (not_lt.mpr (mul_pos hnum hden).le)] at h
  simp only [Except.ok.injEq] at h
  subst h
  obtain ⟨pw, pv⟩ := powImpl_sound _ hr hp
  refine C09_root_exact_aligned_partial est d'.toNat (by omega) p res q pw hq0 (by rw [pv, hq]) ?_ hest hres
  rw [Int.toNat_of_nonneg hden.le]; exact hdvd

example : powR (fun _ v => if v = 64 then 4 else 9) 2 3 ⟨8, 27, 3⟩ = .ok ⟨4, 9, 2⟩ ∧ powImpl 2 ⟨8, 27, 3⟩ = .ok ⟨64, 729, 6⟩ := by
  constructor <;> decide +kernel

example : rootR (fun _ v => Nat.sqrt v.toNat) 2 ⟨9, 16, 4⟩ = .ok ⟨3, 4, 2⟩ ∧
    makeExpAlign ⟨9, 16, 4⟩ 2 = .ok (9, 16, 4) := by decide +kernel
example : rootR (fun _ v => Nat.sqrt v.toNat) 2 ⟨121, 169, -7⟩ = .ok ⟨11, 41, -3⟩ := by decide +kernel

end Verif
