import Verif.Props.ArithProps

/-!
# Quantities of unsigned integers (C91)

What casts, sums and differences give when unsigned numbers wrap around: no condition that intermediate results fit.
-/

namespace Verif

theorem IntTy.lo_unsigned {t : IntTy} (h : t.signed = false) : t.lo = 0 := by unfold IntTy.lo; simp [h]

theorem IntTy.wrap_unsigned {t : IntTy} (h : t.signed = false) (x : Int) : t.wrap x = x % 2 ^ t.bits := by
  unfold IntTy.wrap; rw [IntTy.lo_unsigned h]; simp

theorem IntTy.in_unsigned {t : IntTy} (h : t.signed = false) (x : Int) : t.In x ↔ 0 ≤ x ∧ x < 2 ^ t.bits := by
  have := t.span
  have := IntTy.lo_unsigned h
  unfold IntTy.In; omega

theorem IntTy.arith_unsigned {t : IntTy} (h : t.signed = false) {x y : Int} (he : t.arith x = .ok y) : y = x % 2 ^ t.bits := by
  rcases IntTy.arith_eq_ok.mp he with ⟨h1, -⟩ | ⟨-, rfl⟩
  · rw [h] at h1; cases h1
  · exact IntTy.wrap_unsigned h x

theorem wrap_dvd (t : IntTy) (x : Int) : ∃ k : Int, t.wrap x = x + k * 2 ^ t.bits := by
  unfold IntTy.wrap
  refine ⟨-((x - t.lo) / 2 ^ t.bits), ?_⟩
  have := Int.emod_add_mul_ediv (x - t.lo) (2 ^ t.bits)
  linarith

/-- The product and the divisor are reduced modulo 2^64. -/
theorem castInt_u64 {c : Ratio} (hc : c.WF) (hp : 0 < c.num) {v y : Int} (h : castInt .u64 c v = .ok y) :
    c.D % 2 ^ 64 ≠ 0 ∧ y = (v * c.N % 2 ^ 64) / (c.D % 2 ^ 64) := by
  have hI : ∀ x, I64 x → 0 ≤ x → IntTy.u64.In x := by
    intro x hx h0
    unfold I64 intMax at hx
    unfold IntTy.In IntTy.lo IntTy.hi; simp [IntTy.signed, IntTy.bits]; omega
  have hu : IntTy.u64.signed = false := rfl
  have hb : (2 : Int) ^ IntTy.u64.bits = 2 ^ 64 := rfl
  have hnum : IntTy.u64.wrap c.num = c.num := IntTy.wrap_of_in (hI _ hc.num_range.1 hp.le)
  have hden : IntTy.u64.wrap c.den = c.den := IntTy.wrap_of_in (hI _ hc.den_I64 hc.den_pos.le)
  have hD0 := Ratio.D_pos hc
  have fin : ∀ m d : Int, 0 ≤ m → m < 2 ^ 64 → 0 ≤ d → d ≠ 0 → ∀ z, IntTy.u64.arith (m.tdiv d) = .ok z → z = m / d := by
    intro m d h0 h1 d0 d1 z hz
    have := IntTy.arith_unsigned hu hz
    rw [this, hb, Int.tdiv_eq_ediv_of_nonneg h0]
    exact Int.emod_eq_of_lt (Int.ediv_nonneg h0 d0) (lt_of_le_of_lt (Int.ediv_le_self _ h0) h1)
  have m0 : ∀ x : Int, 0 ≤ x % 2 ^ 64 ∧ x % 2 ^ 64 < 2 ^ 64 := fun x => ⟨Int.emod_nonneg _ (by norm_num), Int.emod_lt_of_pos _ (by norm_num)⟩
  unfold castInt at h
  split at h
  · simp only [bind_ok, ipow10_eq_ok, intOp] at h
    obtain ⟨p, ⟨-, hpI, rfl⟩, n, hn, m, hm, h⟩ := h
    have hpw : IntTy.u64.wrap (10 ^ c.exp.toNat) = 10 ^ c.exp.toNat := IntTy.wrap_of_in (hI _ hpI (by positivity))
    have hD : c.den = c.D := by
      unfold Ratio.D
      have : (-c.exp).toNat = 0 := by omega
      rw [this]; simp
    have hDm : c.D % 2 ^ 64 = c.D := by
      have := (IntTy.in_unsigned hu _).mp (hI _ hc.den_I64 hc.den_pos.le)
      rw [hb] at this
      rw [← hD]; exact Int.emod_eq_of_lt this.1 this.2
    rw [hnum, hpw, show c.num * 10 ^ c.exp.toNat = c.N from rfl] at hn
    have hn' := IntTy.arith_unsigned hu hn
    have hm' := IntTy.arith_unsigned hu hm
    rw [hn', hb, Int.mul_emod, Int.emod_emod_of_dvd _ (dvd_refl _), ← Int.mul_emod] at hm'
    rw [hden, hD, if_neg hD0.ne'] at h
    rw [hDm]
    refine ⟨hD0.ne', ?_⟩
    subst hm'
    exact fin _ _ (m0 _).1 (m0 _).2 hD0.le hD0.ne' _ h
  · simp only [bind_ok, ipow10_eq_ok, intOp, neg64_eq_ok] at h
    obtain ⟨m, hm, e, ⟨-, rfl⟩, p, ⟨-, hpI, rfl⟩, d, hd, h⟩ := h
    have hpw : IntTy.u64.wrap (10 ^ (-c.exp).toNat) = 10 ^ (-c.exp).toNat := IntTy.wrap_of_in (hI _ hpI (by positivity))
    have hN : c.num = c.N := by
      unfold Ratio.N
      have : c.exp.toNat = 0 := by omega
      rw [this]; simp
    rw [hnum, hN] at hm
    rw [hden, hpw, show c.den * 10 ^ (-c.exp).toNat = c.D from rfl] at hd
    have hm' := IntTy.arith_unsigned hu hm
    have hd' := IntTy.arith_unsigned hu hd
    rw [hb] at hm' hd'
    split at h
    · cases h
    rename_i hne
    rw [hd'] at hne h
    subst hm'
    exact ⟨hne, fin _ _ (m0 _).1 (m0 _).2 (m0 _).1 hne _ h⟩

/-- The number stored by a cast when one of the representations is the 64-bit unsigned type. -/
theorem castNum_u64 {fl : Rounding} {s d : IntTy} (hu : s = .u64 ∨ d = .u64) {c : Ratio} (hc : c.WF) (hp : 0 < c.num) {v : Int} (hv : s.In v) {y : Num}
    (h : castNum fl (.int s) (.int d) c (.i v) = .ok y) : c.D % 2 ^ 64 ≠ 0 ∧ y = .i (d.wrap ((v * c.N % 2 ^ 64) / (c.D % 2 ^ 64))) := by
  unfold castNum at h
  rw [castRep_int, if_pos hu] at h
  simp only [bind_ok] at h
  obtain ⟨v', hv', h⟩ := h
  have e := convNum_int hv hv'
  subst e
  simp only [bind_ok] at h
  obtain ⟨z, hz, h⟩ := h
  obtain ⟨h1, h2⟩ := castInt_u64 hc hp hz
  rw [IntTy.wrap_unsigned rfl, show (2 : Int) ^ IntTy.u64.bits = 2 ^ 64 from rfl, Int.mul_emod, Int.emod_emod_of_dvd _ (dvd_refl _), ← Int.mul_emod] at h2
  refine ⟨h1, ?_⟩
  have zin : IntTy.u64.In z := by
    rw [IntTy.in_unsigned rfl, h2]
    have a0 := Int.emod_nonneg (v * c.N) (by norm_num : (2 ^ 64 : Int) ≠ 0)
    have a1 := Int.emod_lt_of_pos (v * c.N) (by norm_num : (0 : Int) < 2 ^ 64)
    exact ⟨Int.ediv_nonneg a0 (Int.emod_nonneg _ (by norm_num)), lt_of_le_of_lt (Int.ediv_le_self _ a0) a1⟩
  rw [← h2]
  exact convNum_int zin h

/-- C91: a cast of a number that is not negative to or from the 64-bit unsigned type, with a computed ratio `N / D` of the units, `D < 2^64`: the number stored is the product
modulo 2^64, divided once.  To the 64-bit unsigned type, the result is the amount rounded towards zero if and only if the product is below 2^64; otherwise it is too small by at
least `2^64 / D` units. -/
theorem C91_cast (E : Env) (β : String → ℝ) (hβ : Sizes β) (t : QTy) (q r : Qty) (s d : IntTy) (c : Ratio) (v : Int) (g1 : q.ty.Good E) (g2 : t.Good E)
    (hco : Coherent β q.ty.dim t.dim) (hs : q.ty.rep = .int s) (hd : t.rep = .int d) (hu : s = .u64 ∨ d = .u64) (hq : q.num = .i v) (hv : s.In v) (v0 : 0 ≤ v)
    (hc : castRatio E.est q.ty.dim q.ty.unit t.dim t.unit = .ok c) (hD : c.D < 2 ^ 64) (h : quantityCast E t q = .ok r) :
    (c.N : ℝ) / c.D = q.ty.size β / t.size β ∧ r = ⟨t, .i (d.wrap ((v * c.N % 2 ^ 64) / c.D))⟩ ∧
      (d = .u64 → (r.num = .i ⌊q.amount β / t.size β⌋ ↔ v * c.N < 2 ^ 64) ∧
        (2 ^ 64 ≤ v * c.N → r.amount β + 2 ^ 64 / c.D * t.size β ≤ q.amount β)) := by
  obtain ⟨heq, c', x, hc', hx, rfl⟩ := quantityCast_eq_ok h
  rw [hc] at hc'; cases hc'
  obtain ⟨w, p, e⟩ := castRatio_size hβ g1 g2 (C17_symmetric _ _ heq) hco hc
  rw [hs, hd, hq] at hx
  have D0 := Ratio.D_pos w
  have N0 := Ratio.N_pos p
  have hDm : c.D % 2 ^ 64 = c.D := Int.emod_eq_of_lt D0.le hD
  obtain ⟨-, rfl⟩ := castNum_u64 hu w p hv hx
  rw [hDm]
  have e' : (c.N : ℝ) / c.D = q.ty.size β / t.size β := by rw [← e, Ratio.val_eq]; push_cast; rfl
  have hsz := g2.size_pos hβ
  have Dr : (0 : ℝ) < c.D := by exact_mod_cast D0
  have ham : q.amount β / t.size β = ((v * c.N : Int) : ℝ) / c.D := by
    rw [Qty.amount_eq, hq]
    simp only [Num.q, Rat.cast_intCast]
    rw [mul_div_assoc, ← e']; push_cast; ring
  refine ⟨e', rfl, ?_⟩
  rintro rfl
  have P0 : 0 ≤ v * c.N := mul_nonneg v0 N0.le
  have a0 := Int.emod_nonneg (v * c.N) (by norm_num : (2 ^ 64 : Int) ≠ 0)
  have a1 := Int.emod_lt_of_pos (v * c.N) (by norm_num : (0 : Int) < 2 ^ 64)
  have hw : IntTy.u64.wrap ((v * c.N % 2 ^ 64) / c.D) = (v * c.N % 2 ^ 64) / c.D := by
    apply IntTy.wrap_of_in
    rw [IntTy.in_unsigned rfl]
    exact ⟨Int.ediv_nonneg a0 D0.le, lt_of_le_of_lt (Int.ediv_le_self _ a0) a1⟩
  have fl : ⌊q.amount β / t.size β⌋ = v * c.N / c.D := by
    rw [ham]
    rw [Int.floor_eq_iff]
    have h1 := Int.emod_add_mul_ediv (v * c.N) c.D
    have h2 := Int.emod_nonneg (v * c.N) D0.ne'
    have h3 := Int.emod_lt_of_pos (v * c.N) D0
    rw [le_div_iff₀ Dr, div_lt_iff₀ Dr]
    constructor
    · have : v * c.N / c.D * c.D ≤ v * c.N := by linarith
      exact_mod_cast this
    · have : v * c.N < (v * c.N / c.D + 1) * c.D := by linarith
      exact_mod_cast this
  have small : 2 ^ 64 ≤ v * c.N → v * c.N % 2 ^ 64 + 2 ^ 64 ≤ v * c.N := by
    intro hb
    have h1 := Int.emod_add_mul_ediv (v * c.N) (2 ^ 64)
    have h2 : 1 ≤ v * c.N / 2 ^ 64 := by rw [Int.le_ediv_iff_mul_le (by norm_num)]; linarith
    have := mul_le_mul_of_nonneg_left h2 (by norm_num : (0 : Int) ≤ 2 ^ 64)
    linarith
  rw [hw, fl]
  refine ⟨⟨fun h => ?_, fun h => ?_⟩, fun hb => ?_⟩
  · by_contra hn
    have hs := small (not_lt.mp hn)
    have h' : v * c.N % 2 ^ 64 / c.D = v * c.N / c.D := by simpa using h
    have : v * c.N % 2 ^ 64 / c.D + 1 ≤ v * c.N / c.D := by
      rw [Int.le_ediv_iff_mul_le D0, add_mul, one_mul]
      have := Int.ediv_mul_le (v * c.N % 2 ^ 64) D0.ne'
      linarith
    omega
  · rw [Int.emod_eq_of_lt P0 h]
  · have hs := small hb
    rw [Qty.amount_eq β ⟨t, _⟩]
    have hqa : q.amount β = ((v * c.N : Int) : ℝ) / c.D * t.size β := by rw [← ham]; field_simp
    rw [hqa]
    simp only [Num.q, Rat.cast_intCast]
    rw [← add_mul]
    refine mul_le_mul_of_nonneg_right ?_ hsz.le
    rw [le_div_iff₀ Dr, add_mul, div_mul_cancel₀ _ Dr.ne']
    have h1 := Int.ediv_mul_le (v * c.N % 2 ^ 64) D0.ne'
    have h2 : (v * c.N % 2 ^ 64 / c.D) * c.D + 2 ^ 64 ≤ v * c.N := by linarith
    exact_mod_cast h2

theorem exKms_u64_ratio : castRatio exEnv.est (exKms (.int .u64)).dim (exKms (.int .u64)).unit (exMetres (.int .u64)).dim (exMetres (.int .u64)).unit = .ok ⟨1, 1, 3⟩ := by decide +kernel

/-- Hypotheses of `C91_cast`: 18446744073709552 km in metres exceed 2^64 by 384. -/
example : (exKms (.int .u64)).Good exEnv ∧ (exMetres (.int .u64)).Good exEnv ∧ IntTy.u64.In 18446744073709552 ∧ (⟨1, 1, 3⟩ : Ratio).D < 2 ^ 64 ∧
    quantityCast exEnv (exMetres (.int .u64)) ⟨exKms (.int .u64), .i 18446744073709552⟩ = .ok ⟨exMetres (.int .u64), .i 384⟩ ∧
    quantityCast exEnv (exMetres (.int .u64)) ⟨exKms (.int .u64), .i 18446744073709551⟩ = .ok ⟨exMetres (.int .u64), .i 18446744073709551000⟩ :=
  ⟨exKms_good _ _, exMetres_good _ _, by decide, by decide, by decide +kernel, by decide +kernel⟩

def exInchUnit : MUnit := ⟨.scaled ⟨254, 1, -4⟩ "metre", ⟨254, 1, -4⟩, "metre", [], false, "", none⟩
def exTenthMm : MUnit := ⟨.scaled ⟨1, 1, -4⟩ "metre", ⟨1, 1, -4⟩, "metre", [], false, "", none⟩
def exBinary : MUnit := ⟨.scaled ⟨1152921504606846976, 1, 0⟩ "metre", ⟨1152921504606846976, 1, 0⟩, "metre", [], false, "", none⟩

/-- C91: the unchanged code gives wrong results although the exact result fits: 3689348814741911 m of `std::uint64_t` are 145249953336295708 inches, the cast gives 26; a cast from
units of a tenth of a millimetre to units of 2^60 m divides by zero, because the divisor `2^60 * 10^4` is reduced to 0. -/
theorem C91_cast_wraps_though_fits :
    quantityCast exEnv ⟨.base exL, exInchUnit, .int .u64⟩ ⟨exMetres (.int .u64), .i 3689348814741911⟩ = .ok ⟨⟨.base exL, exInchUnit, .int .u64⟩, .i 26⟩ ∧
    (∀ β, Sizes β → ⌊(⟨exMetres (.int .u64), .i 3689348814741911⟩ : Qty).amount β / (⟨.base exL, exInchUnit, .int .u64⟩ : QTy).size β⌋ = 145249953336295708) ∧
    quantityCast exEnv ⟨.base exL, exBinary, .int .u64⟩ ⟨⟨.base exL, exTenthMm, .int .u64⟩, .i 5⟩ = .error .divZero := by
  refine ⟨by decide +kernel, fun β hβ => ?_, by decide +kernel⟩
  have hp := hβ "metre"
  have hs : (⟨.base exL, exInchUnit, .int .u64⟩ : QTy).size β = 254 / 10000 * β "metre" := by
    unfold QTy.size
    rw [Dim.size_base exL_good.unit]
    norm_num [exL, exInchUnit, Ratio.val]
  rw [hs, Qty.amount_eq, exMetres_size]
  simp only [Num.q]
  rw [mul_div_mul_right _ _ hp.ne', Int.floor_eq_iff]
  norm_num

/-! ## Sums and differences -/

/-- The computed ratio of a conversion to `t` in the 64-bit unsigned type has the denominator one. -/
def WholeRatio (E : Env) (t : QTy) (q : Qty) : Prop :=
  ∀ c, castRatio E.est q.ty.dim q.ty.unit t.dim t.unit = .ok c → q.ty.rep = .int .u64 ∨ t.rep = .int .u64 → c.D = 1

/-- Two amounts agree up to a multiple of the range of the unsigned numbers of a unit. -/
def Modulo (ty : IntTy) (size x y : ℝ) : Prop := ∃ k : ℤ, x = y + k * (2 ^ ty.bits * size)

theorem Modulo.symm {ty : IntTy} {s x y : ℝ} (h : Modulo ty s x y) : Modulo ty s y x := by
  obtain ⟨k, hk⟩ := h; exact ⟨-k, by rw [hk]; push_cast; ring⟩

theorem Modulo.trans {ty : IntTy} {s x y z : ℝ} (h : Modulo ty s x y) (h' : Modulo ty s y z) : Modulo ty s x z := by
  obtain ⟨k, hk⟩ := h; obtain ⟨l, hl⟩ := h'; exact ⟨k + l, by rw [hk, hl]; push_cast; ring⟩

theorem Modulo.add {ty : IntTy} {s x y x' y' : ℝ} (h : Modulo ty s x y) (h' : Modulo ty s x' y') : Modulo ty s (x + x') (y + y') := by
  obtain ⟨k, hk⟩ := h; obtain ⟨l, hl⟩ := h'; exact ⟨k + l, by rw [hk, hl]; push_cast; ring⟩

theorem Modulo.sub {ty : IntTy} {s x y x' y' : ℝ} (h : Modulo ty s x y) (h' : Modulo ty s x' y') : Modulo ty s (x - x') (y - y') := by
  obtain ⟨k, hk⟩ := h; obtain ⟨l, hl⟩ := h'; exact ⟨k - l, by rw [hk, hl]; push_cast; ring⟩

theorem Modulo.refl {ty : IntTy} {s x : ℝ} : Modulo ty s x x := ⟨0, by simp⟩

/-- A coarser range. -/
theorem Modulo.coarse {ty : IntTy} {s s' x y : ℝ} (h : Modulo ty s x y) (hs : ∃ k : ℤ, s = k * s') : Modulo ty s' x y := by
  obtain ⟨k, hk⟩ := h; obtain ⟨l, hl⟩ := hs; exact ⟨k * l, by rw [hk, hl]; push_cast; ring⟩

/-- Two amounts in the range that agree modulo the range are equal. -/
theorem Modulo.unique {ty : IntTy} {s x y : ℝ} (hs : 0 < s) (h : Modulo ty s x y) (x0 : 0 ≤ x) (x1 : x < 2 ^ ty.bits * s) (y0 : 0 ≤ y)
    (y1 : y < 2 ^ ty.bits * s) : x = y := by
  obtain ⟨k, hk⟩ := h
  have hp : 0 < 2 ^ ty.bits * s := by positivity
  have h1 : (k : ℝ) < 1 := by
    by_contra hn
    have := mul_le_mul_of_nonneg_right (not_lt.mp hn) hp.le
    linarith
  have h2 : (-1 : ℝ) < k := by
    by_contra hn
    have := mul_le_mul_of_nonneg_right (not_lt.mp hn) hp.le
    linarith
  have h1' : k < 1 := by exact_mod_cast h1
  have h2' : -1 < k := by exact_mod_cast h2
  have : k = 0 := by omega
  rw [hk, this]; simp

theorem IntTy.bits_le (t : IntTy) : t.bits ≤ 64 := by cases t <;> decide

theorem convertQty_mod {E : Env} {β : String → ℝ} (hβ : Sizes β) {t : QTy} {q r : Qty} {ty : IntTy} (g1 : q.ty.Good E) (g2 : t.Good E)
    (hco : Coherent β q.ty.dim t.dim) (hq : q.num.Typed q.ty.rep) (ht : t.rep = .int ty) (hw : WholeRatio E t q)
    (h : convertQty E t q = .ok r) : r.ty = t ∧ ∃ y, r.num = .i y ∧ ty.In y ∧ Modulo ty (t.size β) (y * t.size β) (q.amount β) := by
  have hsz := g2.size_pos hβ
  rcases convertQty_cases h with ⟨he, rfl⟩ | ⟨-, hsafe, hcast⟩
  · refine ⟨he, ?_⟩
    rw [he, ht] at hq
    cases hn : r.num with
    | f x => rw [hn] at hq; obtain ⟨f, hf⟩ := hq; cases hf
    | i y =>
      rw [hn] at hq
      obtain ⟨ty', e, hin⟩ := hq
      cases e
      refine ⟨y, rfl, hin, 0, ?_⟩
      rw [Qty.amount_eq, hn, he]; simp [Num.q]
  · obtain ⟨-, hfl, k, hk⟩ := safeCastable_int hβ g1 g2 (by rw [ht]; rfl) hsafe
    obtain ⟨heq, c, x, hc, hx, rfl⟩ := quantityCast_eq_ok hcast
    refine ⟨rfl, ?_⟩
    obtain ⟨w, p, e⟩ := castRatio_size hβ g1 g2 (C17_symmetric _ _ heq) hco hc
    rw [Ratio.val_eq] at e
    push_cast at e
    cases hn : q.num with
    | f z => rw [hn] at hq; obtain ⟨f, hf⟩ := hq; rw [hf] at hfl; cases hfl
    | i v =>
      rw [hn] at hq
      obtain ⟨s, hs, hv⟩ := hq
      rw [hs, ht, hn] at hx
      have hD := Ratio.D_pos w
      have hDr : (0 : ℝ) < c.D := by exact_mod_cast hD
      have hNk : (c.N : ℝ) = k * c.D := by
        rw [hk, mul_div_assoc, div_self hsz.ne', mul_one] at e
        rw [div_eq_iff hDr.ne'] at e; exact e
      have hNk' : c.N = k * c.D := by exact_mod_cast hNk
      have ham : q.amount β = (v * k : Int) * t.size β := by
        rw [Qty.amount_eq, hn, hk]; simp only [Num.q]; push_cast; ring
      by_cases h64 : s = .u64 ∨ ty = .u64
      · obtain ⟨-, rfl⟩ := castNum_u64 h64 w p hv hx
        have hD1 := hw c hc (by rcases h64 with h | h <;> [left; right] <;> simp [hs, ht, h])
        rw [hD1, mul_one] at hNk'
        refine ⟨_, rfl, IntTy.wrap_in _ _, ?_⟩
        rw [hD1, hNk', show (1 : Int) % 2 ^ 64 = 1 by norm_num, Int.ediv_one]
        obtain ⟨j, hj⟩ := wrap_dvd ty (v * k % 2 ^ 64)
        have h2 := Int.emod_add_mul_ediv (v * k) (2 ^ 64)
        refine ⟨j - 2 ^ (64 - ty.bits) * (v * k / 2 ^ 64), ?_⟩
        have h3 : v * k % 2 ^ 64 = v * k - 2 ^ ty.bits * 2 ^ (64 - ty.bits) * (v * k / 2 ^ 64) := by
          rw [← pow_add, Nat.add_sub_cancel' ty.bits_le]; linarith
        rw [hj, ham]
        rw [h3]
        generalize v * k / 2 ^ 64 = m
        push_cast; ring
      · have := castNum_int w p hv (fun h => absurd h h64) hx
        subst this
        refine ⟨_, rfl, IntTy.wrap_in _ _, ?_⟩
        rw [hNk', ← mul_assoc, Int.mul_tdiv_cancel _ hD.ne']
        obtain ⟨j, hj⟩ := wrap_dvd ty (v * k)
        exact ⟨j, by rw [hj, ham]; push_cast; ring⟩

/-- The exact value of a sum or difference. -/
def sumOf (op : BinOp) (x y : ℝ) : ℝ := if op = .add then x + y else x - y

theorem Modulo.sumOf {ty : IntTy} {s x y x' y' : ℝ} (op : BinOp) (h : Modulo ty s x y) (h' : Modulo ty s x' y') :
    Modulo ty s (sumOf op x x') (sumOf op y y') := by
  unfold Verif.sumOf; split
  · exact h.add h'
  · exact h.sub h'

/-- C91: a sum or difference calculated in an unsigned type is the exact sum or difference of the amounts modulo the range of the type, expressed in the greatest common unit: also if
the operands or intermediate results do not fit.  So it is exact if and only if the exact result is not negative and in the range. -/
theorem C91_sum_partial (E : Env) (hE : E.OK) (β : String → ℝ) (hβ : Sizes β) (op : BinOp) (hop : op = .add ∨ op = .sub) (a b r : Qty) (ty : IntTy) (ga : a.Good E)
    (gb : b.Good E) (hr : Related β a.ty b.ty) (hty : a.ty.rep.arith b.ty.rep = .int ty) (hu : ty.signed = false) (wa : WholeRatio E r.ty a) (wb : WholeRatio E r.ty b)
    (h : addSub E op a b = .ok r) :
    r.Good E ∧ r.ty.rep = .int ty ∧ IsCommonSize (a.ty.size β) (b.ty.size β) (r.ty.size β) ∧ 0 ≤ r.amount β ∧ r.amount β < 2 ^ ty.bits * r.ty.size β ∧
    Modulo ty (r.ty.size β) (r.amount β) (sumOf op (a.amount β) (b.amount β)) ∧
    (r.amount β = sumOf op (a.amount β) (b.amount β) ↔ 0 ≤ sumOf op (a.amount β) (b.amount β) ∧ sumOf op (a.amount β) (b.amount β) < 2 ^ ty.bits * r.ty.size β) := by
  have hidem := Rep.arith_idem a.ty.rep b.ty.rep
  have h0 := addSub_sound hE hβ hop ga.ty gb.ty hr ga.num gb.num h
  unfold addSub at h
  simp only [bind_ok] at h
  obtain ⟨t, ht, x, hx, y, hy, z, hz, h⟩ := h
  obtain ⟨gt, hrep, -, hcs, ca, cb⟩ := commonQty_sound hE hβ ga.ty gb.ty hr ht
  unfold mkQty at h
  rw [hidem] at h
  split at h
  swap
  · cases h
  rw [hrep, convNum_self] at h
  simp only [ok_bind, Except.ok.injEq] at h
  subst h
  have hrep' : t.rep = .int ty := by rw [hrep, hty]
  obtain ⟨-, n, hn, nin, nm⟩ := convertQty_mod hβ ga.ty gt ca ga.num hrep' wa hx
  obtain ⟨-, m, hm, min, mm⟩ := convertQty_mod hβ gb.ty gt cb gb.num hrep' wb hy
  have hsz := gt.size_pos hβ
  unfold numOp at hz
  rw [hidem, convNum_self, convNum_self, hty, hn, hm] at hz
  simp only [ok_bind] at hz
  have hz' : ∃ w, z = .i w ∧ w = (if op = .add then n + m else n - m) % 2 ^ ty.bits := by
    rcases hop with rfl | rfl
    · simp only [sameOp, intOp, bind_ok, Except.ok.injEq] at hz
      obtain ⟨w, hw, rfl⟩ := hz
      exact ⟨w, rfl, IntTy.arith_unsigned hu hw⟩
    · simp only [sameOp, intOp, bind_ok, Except.ok.injEq] at hz
      obtain ⟨w, hw, rfl⟩ := hz
      exact ⟨w, rfl, IntTy.arith_unsigned hu hw⟩
  obtain ⟨w, rfl, hw⟩ := hz'
  have win : 0 ≤ w ∧ w < 2 ^ ty.bits := by
    rw [hw]; exact ⟨Int.emod_nonneg _ (by positivity), Int.emod_lt_of_pos _ (by positivity)⟩
  have ram : Qty.amount β ⟨t, .i w⟩ = w * t.size β := by rw [Qty.amount_eq]; simp [Num.q]
  have w0 : (0 : ℝ) ≤ w := by exact_mod_cast win.1
  have w1 : (w : ℝ) < 2 ^ ty.bits := by exact_mod_cast win.2
  have A0 : 0 ≤ Qty.amount β ⟨t, .i w⟩ := by rw [ram]; positivity
  have A1 : Qty.amount β ⟨t, .i w⟩ < 2 ^ ty.bits * t.size β := by rw [ram]; exact mul_lt_mul_of_pos_right w1 hsz
  have M : Modulo ty (t.size β) (Qty.amount β ⟨t, .i w⟩) (sumOf op (a.amount β) (b.amount β)) := by
    refine Modulo.trans ?_ (nm.sumOf op mm)
    have h2 := Int.emod_add_mul_ediv (if op = .add then n + m else n - m) (2 ^ ty.bits)
    rw [← hw] at h2
    refine ⟨-((if op = .add then n + m else n - m) / 2 ^ ty.bits), ?_⟩
    generalize (if op = .add then n + m else n - m) / 2 ^ ty.bits = j at h2 ⊢
    rw [ram]
    have h3 : (w : ℝ) = ((if op = .add then n + m else n - m : Int) : ℝ) - 2 ^ ty.bits * j := by
      have : w = (if op = .add then n + m else n - m) - 2 ^ ty.bits * j := by linarith
      rw [this]; push_cast; ring
    rw [h3]; unfold sumOf
    split <;> (push_cast; ring)
  refine ⟨⟨gt, by dsimp only; rw [hrep]; exact hrep ▸ h0.2.2.1⟩, hrep', hcs, A0, A1, M, fun e => ?_, fun e => M.unique hsz A0 A1 e.1 e.2⟩
  rw [← e]; exact ⟨A0, A1⟩

/-- Two units that measure each other are equal. -/
theorem size_unique {x y : ℝ} (hx : 0 < x) (hy : 0 < y) (h : ∃ k : ℤ, x = k * y) (h' : ∃ k : ℤ, y = k * x) : x = y := by
  obtain ⟨k, hk⟩ := h
  obtain ⟨l, hl⟩ := h'
  have hkl : (k : ℝ) * l = 1 := by
    have : x * (k * l) = x * 1 := by rw [mul_one]; nth_rewrite 2 [hk]; rw [hl]; ring
    exact mul_left_cancel₀ hx.ne' this
  have hk0 : 0 < k := by
    have : (0 : ℝ) < k := by
      by_contra hn
      have := mul_nonpos_of_nonpos_of_nonneg (not_lt.mp hn) hy.le
      linarith
    exact_mod_cast this
  have hkl' : k * l = 1 := by exact_mod_cast hkl
  have : k = 1 := by
    rcases Int.eq_one_or_neg_one_of_mul_eq_one hkl' with h | h
    · exact h
    · omega
  rw [hk, this]; simp

/-- C91: addition in an unsigned type is commutative, also when it wraps around. -/
theorem C91_add_comm_partial (E : Env) (hE : E.OK) (β : String → ℝ) (hβ : Sizes β) (a b r r' : Qty) (ty : IntTy) (ga : a.Good E) (gb : b.Good E) (hr : Related β a.ty b.ty)
    (hty : a.ty.rep.arith b.ty.rep = .int ty) (hu : ty.signed = false) (wa : WholeRatio E r.ty a) (wb : WholeRatio E r.ty b) (wa' : WholeRatio E r'.ty a) (wb' : WholeRatio E r'.ty b)
    (h : addSub E .add a b = .ok r) (h' : addSub E .add b a = .ok r') :
    r.amount β = r'.amount β ∧ r.ty.size β = r'.ty.size β ∧ r.num.q = r'.num.q := by
  obtain ⟨k1, -, k3, k4, k5, k6, -⟩ := C91_sum_partial E hE β hβ .add (Or.inl rfl) a b r ty ga gb hr hty hu wa wb h
  obtain ⟨m1, -, m3, m4, m5, m6, -⟩ := C91_sum_partial E hE β hβ .add (Or.inl rfl) b a r' ty gb ga hr.symm (by rw [Rep.arith_comm]; exact hty) hu wb' wa' h'
  have p1 := k1.ty.size_pos hβ
  have p2 := m1.ty.size_pos hβ
  have es : r.ty.size β = r'.ty.size β := size_unique p1 p2 (k3.greatest _ m3.right m3.left) (m3.greatest _ k3.right k3.left) 
  rw [← es] at m5 m6
  have ea : r.amount β = r'.amount β := by
    refine Modulo.unique p1 (k6.trans ?_) k4 k5 m4 m5
    have := m6.symm
    simp only [sumOf, if_true] at this ⊢
    rwa [add_comm] at this
  refine ⟨ea, es, ?_⟩
  rw [Qty.amount_eq, Qty.amount_eq, es] at ea
  exact_mod_cast mul_right_cancel₀ p2.ne' ea

/-- C91: addition in one unsigned type is associative, also when it wraps around. -/
theorem C91_add_assoc_partial (E : Env) (hE : E.OK) (β : String → ℝ) (hβ : Sizes β) (a b c ab bc l r : Qty) (ty : IntTy) (hu : ty.signed = false) (ga : a.Good E)
    (gb : b.Good E) (gc : c.Good E) (hab : Related β a.ty b.ty) (hbc : Related β b.ty c.ty) (habc : Related β ab.ty c.ty) (habc' : Related β a.ty bc.ty)
    (t1 : ab.ty.rep = .int ty) (t2 : l.ty.rep = .int ty) (t3 : bc.ty.rep = .int ty) (t4 : r.ty.rep = .int ty)
    (wa : WholeRatio E ab.ty a) (wb : WholeRatio E ab.ty b) (wab : WholeRatio E l.ty ab) (wc : WholeRatio E l.ty c)
    (wb' : WholeRatio E bc.ty b) (wc' : WholeRatio E bc.ty c) (wa' : WholeRatio E r.ty a) (wbc : WholeRatio E r.ty bc)
    (h1 : addSub E .add a b = .ok ab) (h2 : addSub E .add ab c = .ok l) (h3 : addSub E .add b c = .ok bc) (h4 : addSub E .add a bc = .ok r) :
    l.amount β = r.amount β ∧ l.ty.size β = r.ty.size β ∧ l.num.q = r.num.q := by
  have e1 := (C25_add_exact_partial E hE β hβ a b ab ga gb hab h1)
  have e3 := (C25_add_exact_partial E hE β hβ b c bc gb gc hbc h3)
  have e2 := (C25_add_exact_partial E hE β hβ ab c l e1.1 gc habc h2)
  have e4 := (C25_add_exact_partial E hE β hβ a bc r ga e3.1 habc' h4)
  obtain ⟨k1, -, k3, -, -, k6, -⟩ := C91_sum_partial E hE β hβ .add (Or.inl rfl) a b ab ty ga gb hab (e1.2.1 ▸ t1) hu wa wb h1
  obtain ⟨m1, -, m3, -, -, m6, -⟩ := C91_sum_partial E hE β hβ .add (Or.inl rfl) b c bc ty gb gc hbc (e3.2.1 ▸ t3) hu wb' wc' h3
  obtain ⟨n1, -, n3, n4, n5, n6, -⟩ := C91_sum_partial E hE β hβ .add (Or.inl rfl) ab c l ty k1 gc habc (e2.2.1 ▸ t2) hu wab wc h2
  obtain ⟨o1, -, o3, o4, o5, o6, -⟩ := C91_sum_partial E hE β hβ .add (Or.inl rfl) a bc r ty ga m1 habc' (e4.2.1 ▸ t4) hu wa' wbc h4
  have p1 := n1.ty.size_pos hβ
  have p2 := o1.ty.size_pos hβ
  have tr : ∀ {x y z : ℝ}, (∃ k : ℤ, x = k * y) → (∃ k : ℤ, y = k * z) → ∃ k : ℤ, x = k * z := by
    rintro x y z ⟨k, hk⟩ ⟨j, hj⟩; exact ⟨k * j, by rw [hk, hj]; push_cast; ring⟩
  have es : l.ty.size β = r.ty.size β := by
    refine size_unique p1 p2 ?_ ?_
    · exact n3.greatest _ (k3.greatest _ o3.left (tr m3.left o3.right)) (tr m3.right o3.right)
    · exact o3.greatest _ (tr k3.left n3.left) (m3.greatest _ (tr k3.right n3.left) n3.right)
  have k6' := k6.coarse n3.left
  have m6' := m6.coarse o3.right
  rw [← es] at o5 o6 m6'
  simp only [sumOf, if_true] at k6' m6' n6 o6
  have ea : l.amount β = r.amount β := by
    refine Modulo.unique p1 (n6.trans ((k6'.add Modulo.refl).trans ?_)) n4 n5 o4 o5
    rw [add_assoc]
    exact (o6.trans (Modulo.refl.add m6')).symm
  refine ⟨ea, es, ?_⟩
  rw [Qty.amount_eq, Qty.amount_eq, es] at ea
  exact_mod_cast mul_right_cancel₀ p2.ne' ea

/-- C91: subtracting what was added gives the first operand, also when the sum wraps around. -/
theorem C91_add_sub_partial (E : Env) (hE : E.OK) (β : String → ℝ) (hβ : Sizes β) (a b s d : Qty) (ty : IntTy) (hu : ty.signed = false) (ga : a.Good E) (gb : b.Good E)
    (hab : Related β a.ty b.ty) (hsb : Related β s.ty b.ty) (t1 : s.ty.rep = .int ty) (t2 : d.ty.rep = .int ty) (wa : WholeRatio E s.ty a) (wb : WholeRatio E s.ty b)
    (ws : WholeRatio E d.ty s) (wb' : WholeRatio E d.ty b) (a0 : 0 ≤ a.amount β) (a1 : a.amount β < 2 ^ ty.bits * s.ty.size β)
    (h1 : addSub E .add a b = .ok s) (h2 : addSub E .sub s b = .ok d) : d.amount β = a.amount β ∧ d.ty.size β = s.ty.size β := by
  have e1 := (C25_add_exact_partial E hE β hβ a b s ga gb hab h1)
  have e2 := (C25_sub_exact_partial E hE β hβ s b d e1.1 gb hsb h2)
  obtain ⟨k1, -, k3, -, -, k6, -⟩ := C91_sum_partial E hE β hβ .add (Or.inl rfl) a b s ty ga gb hab (e1.2.1 ▸ t1) hu wa wb h1
  obtain ⟨m1, -, m3, m4, m5, m6, -⟩ := C91_sum_partial E hE β hβ .sub (Or.inr rfl) s b d ty k1 gb hsb (e2.2.1 ▸ t2) hu ws wb' h2
  have p1 := k1.ty.size_pos hβ
  have p2 := m1.ty.size_pos hβ
  have es : d.ty.size β = s.ty.size β := size_unique p2 p1 (m3.greatest _ ⟨1, by simp⟩ k3.right) m3.left
  rw [es] at m5 m6
  refine ⟨?_, es⟩
  refine Modulo.unique p1 (m6.trans ?_) m4 m5 a0 a1
  simp only [sumOf, reduceCtorEq, if_true, if_false] at k6 ⊢
  have := k6.sub (Modulo.refl (x := b.amount β))
  simpa using this

/-- Conditions of the theorems for 4294968 km and 4294967295 cm of `unsigned`: the result wraps around. -/
example (β : String → ℝ) : (⟨exKms (.int .u32), .i 4294968⟩ : Qty).Good exEnv ∧ (⟨exCms (.int .u32), .i 4294967295⟩ : Qty).Good exEnv ∧
    Related β (exKms (.int .u32)) (exCms (.int .u32)) ∧ (Rep.int .u32).arith (.int .u32) = .int .u32 ∧
    WholeRatio exEnv (exCmSi (.int .u32)) ⟨exKms (.int .u32), .i 4294968⟩ ∧ WholeRatio exEnv (exCmSi (.int .u32)) ⟨exCms (.int .u32), .i 4294967295⟩ ∧
    addSub exEnv .add ⟨exKms (.int .u32), .i 4294968⟩ ⟨exCms (.int .u32), .i 4294967295⟩ = .ok ⟨exCmSi (.int .u32), .i ((429496800000 + 4294967295) % 2 ^ 32)⟩ ∧
    addSub exEnv .sub ⟨exCmSi (.int .u32), .i ((429496800000 + 4294967295) % 2 ^ 32)⟩ ⟨exCms (.int .u32), .i 4294967295⟩ =
      .ok ⟨exCmSi (.int .u32), .i (429496800000 % 2 ^ 32)⟩ := by
  refine ⟨⟨exKms_good _ _, _, rfl, by decide⟩, ⟨exCms_good _ _, _, rfl, by decide⟩, exKm_cm_related β _ _, rfl, ?_, ?_, by decide +kernel, by decide +kernel⟩
  · intro c _ h; rcases h with h | h <;> cases h
  · intro c _ h; rcases h with h | h <;> cases h

def exMetreUnit : MUnit := ⟨.scaled ⟨1, 1, 0⟩ "metre", ⟨1, 1, 0⟩, "metre", [], false, "", none⟩
def exMetreSi (r : Rep) : QTy := ⟨.base exL, exMetreUnit, r⟩

/-- In the 64-bit type: the ratios of kilometres and metres are whole; 18446744073709552 km + 10 m is 394 m in either order. -/
example : WholeRatio exEnv (exMetreSi (.int .u64)) ⟨exKms (.int .u64), .i 18446744073709552⟩ ∧ WholeRatio exEnv (exMetreSi (.int .u64)) ⟨exMetres (.int .u64), .i 10⟩ ∧
    addSub exEnv .add ⟨exKms (.int .u64), .i 18446744073709552⟩ ⟨exMetres (.int .u64), .i 10⟩ = .ok ⟨exMetreSi (.int .u64), .i 394⟩ ∧
    addSub exEnv .add ⟨exMetres (.int .u64), .i 10⟩ ⟨exKms (.int .u64), .i 18446744073709552⟩ = .ok ⟨exMetreSi (.int .u64), .i 394⟩ := by
  refine ⟨?_, ?_, by decide +kernel, by decide +kernel⟩
  · intro c h _
    have e : castRatio exEnv.est (exKms (.int .u64)).dim (exKms (.int .u64)).unit (exMetreSi (.int .u64)).dim (exMetreSi (.int .u64)).unit = .ok ⟨1, 1, 3⟩ := by decide +kernel
    simp only at h
    rw [e] at h; cases h; rfl
  · intro c h _
    have e : castRatio exEnv.est (exMetres (.int .u64)).dim (exMetres (.int .u64)).unit (exMetreSi (.int .u64)).dim (exMetreSi (.int .u64)).unit = .ok ⟨1, 1, 0⟩ := by decide +kernel
    simp only at h
    rw [e] at h; cases h; rfl

/-- C91: across different unsigned types addition is not associative: with two operands of `unsigned` and one of `std::uint64_t`, the inner sum wraps around at 2^32. -/
theorem C91_mixed_not_associative :
    ∃ a b c ab bc l r : Qty, addSub exEnv .add a b = .ok ab ∧ addSub exEnv .add ab c = .ok l ∧ addSub exEnv .add b c = .ok bc ∧ addSub exEnv .add a bc = .ok r ∧
      l.ty = r.ty ∧ l.num ≠ r.num :=
  ⟨⟨exMetres (.int .u32), .i 4294967295⟩, ⟨exMetres (.int .u32), .i 1⟩, ⟨exMetres (.int .u64), .i 1⟩, ⟨exMetres (.int .u32), .i 0⟩, ⟨exMetres (.int .u64), .i 2⟩,
    ⟨exMetres (.int .u64), .i 1⟩, ⟨exMetres (.int .u64), .i 4294967297⟩, by decide +kernel⟩

/-! ## Comparisons -/

/-- C91: `==` of quantities of integers, signed or not, answers whether the amounts agree modulo the range of the common type in the common unit. -/
theorem C91_equal_partial (E : Env) (hE : E.OK) (β : String → ℝ) (hβ : Sizes β) (a b : Qty) (t : QTy) (ty : IntTy) (res : Bool) (ga : a.Good E) (gb : b.Good E)
    (hr : Related β a.ty b.ty) (hty : a.ty.rep.common b.ty.rep = .int ty) (ht : commonQty E a.ty b.ty (a.ty.rep.common b.ty.rep) = .ok t)
    (wa : WholeRatio E t a) (wb : WholeRatio E t b) (h : eqQty E a b = .ok res) :
    IsCommonSize (a.ty.size β) (b.ty.size β) (t.size β) ∧ (res = true ↔ Modulo ty (t.size β) (a.amount β) (b.amount β)) := by
  unfold eqQty at h
  simp only [bind_ok, Except.ok.injEq] at h
  obtain ⟨t', ht', x, hx, y, hy, rfl⟩ := h
  rw [ht] at ht'; cases ht'
  obtain ⟨gt, hrep, -, hcs, ca, cb⟩ := commonQty_sound hE hβ ga.ty gb.ty hr ht
  rw [hty] at hrep
  obtain ⟨-, n, hn, nin, nm⟩ := convertQty_mod hβ ga.ty gt ca ga.num hrep wa hx
  obtain ⟨-, m, hm, min, mm⟩ := convertQty_mod hβ gb.ty gt cb gb.num hrep wb hy
  have hsz := gt.size_pos hβ
  refine ⟨hcs, ?_⟩
  rw [hn, hm, decide_eq_true_eq]
  simp only [Num.q, Int.cast_inj]
  constructor
  · rintro rfl
    exact nm.symm.trans mm
  · intro hab
    obtain ⟨k, hk⟩ := (nm.trans hab).trans mm.symm
    have hk' : n = m + k * 2 ^ ty.bits := by
      have : (n : ℝ) * t.size β = (m + k * 2 ^ ty.bits) * t.size β := by rw [hk]; ring
      exact_mod_cast mul_right_cancel₀ hsz.ne' this
    have sp := ty.span
    unfold IntTy.In at nin min
    have hp : (0 : Int) < 2 ^ ty.bits := by positivity
    have k1 : k < 1 := by
      by_contra hn'
      have := mul_le_mul_of_nonneg_right (not_lt.mp hn') hp.le
      omega
    have k2 : -1 < k := by
      by_contra hn'
      have := mul_le_mul_of_nonneg_right (not_lt.mp hn') hp.le
      omega
    have : k = 0 := by omega
    rw [hk', this]; simp

/-- C91: `<=>` of quantities of integers compares the amounts reduced modulo the range of the common type in the common unit, to the values of that type. -/
theorem C91_order_partial (E : Env) (hE : E.OK) (β : String → ℝ) (hβ : Sizes β) (a b : Qty) (t : QTy) (ty : IntTy) (o : Ordering) (ga : a.Good E) (gb : b.Good E)
    (hr : Related β a.ty b.ty) (hty : a.ty.rep.common b.ty.rep = .int ty) (ht : commonQty E a.ty b.ty (a.ty.rep.common b.ty.rep) = .ok t)
    (wa : WholeRatio E t a) (wb : WholeRatio E t b) (h : compareQty E a b = .ok o) :
    ∃ x y : Int, ty.In x ∧ ty.In y ∧ Modulo ty (t.size β) (x * t.size β) (a.amount β) ∧ Modulo ty (t.size β) (y * t.size β) (b.amount β) ∧
      (o = .lt ↔ x < y) ∧ (o = .eq ↔ x = y) ∧ (o = .gt ↔ y < x) := by
  unfold compareQty at h
  split at h
  swap
  · cases h
  simp only [bind_ok, Except.ok.injEq] at h
  obtain ⟨t', ht', x, hx, y, hy, rfl⟩ := h
  rw [ht] at ht'; cases ht'
  obtain ⟨gt, hrep, -, -, ca, cb⟩ := commonQty_sound hE hβ ga.ty gb.ty hr ht
  rw [hty] at hrep
  obtain ⟨-, n, hn, nin, nm⟩ := convertQty_mod hβ ga.ty gt ca ga.num hrep wa hx
  obtain ⟨-, m, hm, min, mm⟩ := convertQty_mod hβ gb.ty gt cb gb.num hrep wb hy
  refine ⟨n, m, nin, min, nm, mm, ?_⟩
  have := numCompare_scale x.num y.num (k := 1) one_pos
  rw [hn, hm] at this ⊢
  simp only [Num.q, mul_one] at this
  refine ⟨this.1.trans (by exact_mod_cast Iff.rfl), this.2.1.trans (by exact_mod_cast Iff.rfl), this.2.2.trans (by exact_mod_cast Iff.rfl)⟩

/-- C91: the unchanged code compares wrongly: in `std::uint8_t`, 1 km equals 232 m and is less than 233 m; in `std::int8_t`, 1 km is less than 0 m; in `std::uint64_t`,
18446744073709552 km are less than 1000 m. -/
theorem C91_comparisons_wrap :
    eqQty exEnv ⟨exKms (.int .u8), .i 1⟩ ⟨exMetres (.int .u8), .i 232⟩ = .ok true ∧
    compareQty exEnv ⟨exKms (.int .u8), .i 1⟩ ⟨exMetres (.int .u8), .i 233⟩ = .ok .lt ∧
    compareQty exEnv ⟨exKms (.int .i8), .i 1⟩ ⟨exMetres (.int .i8), .i 0⟩ = .ok .lt ∧
    compareQty exEnv ⟨exKms (.int .u64), .i 18446744073709552⟩ ⟨exMetres (.int .u64), .i 1000⟩ = .ok .lt ∧
    (∀ β, Sizes β → (⟨exMetres (.int .u8), .i 233⟩ : Qty).amount β < (⟨exKms (.int .u8), .i 1⟩ : Qty).amount β ∧
      (⟨exMetres (.int .i8), .i 0⟩ : Qty).amount β < (⟨exKms (.int .i8), .i 1⟩ : Qty).amount β ∧
      (⟨exMetres (.int .u64), .i 1000⟩ : Qty).amount β < (⟨exKms (.int .u64), .i 18446744073709552⟩ : Qty).amount β) := by
  refine ⟨by decide +kernel, by decide +kernel, by decide +kernel, by decide +kernel, fun β hβ => ?_⟩
  have := hβ "metre"
  simp only [Qty.amount_eq, exMetres_size, exKms_size, Num.q]
  refine ⟨?_, ?_, ?_⟩ <;> (push_cast; linarith)

end Verif
