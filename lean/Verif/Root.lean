import Verif.RatioLemmas

/-!
# `units/bits/pow.h`, `units/bits/root.h` and the powers and roots of `units/ratio.h`
-/

namespace Verif

open Ratio

/-- `detail::ipow10`, src/core/include/units/bits/pow.h:30-40: `exp` multiplications by ten. -/
def ipow10Loop : Nat → Int → C Int
  | 0, result => .ok result
  | k + 1, result => do
    let r ← mul64 result 10
    ipow10Loop k r

/-- `detail::ipow10`, src/core/include/units/bits/pow.h:30-40. -/
def ipow10 (exp : Int) : C Int := do
  cassert (exp ≥ 0)
  ipow10Loop exp.toNat 1

/-- `detail::pow_impl<N, std::intmax_t>` for `N ≥ 0`, src/core/include/units/bits/pow.h:61-75. -/
def powImplInt (n : Nat) (v : Int) : C Int :=
  if n = 0 then .ok 1
  else if n = 1 then .ok v
  else if n % 2 = 0 then do
    let w ← mul64 v v
    powImplInt (n / 2) w
  else do
    let w ← mul64 v v
    let p ← powImplInt ((n - 1) / 2) w
    mul64 v p
termination_by n
decreasing_by all_goals omega

/-- `detail::pow_impl<N, ratio>` for `N ≥ 0`, src/core/include/units/bits/pow.h:61-75. -/
def powImpl (n : Nat) (v : Ratio) : C Ratio :=
  if n = 0 then .ok Ratio.one
  else if n = 1 then .ok v
  else if n % 2 = 0 then do
    let w ← mul v v
    powImpl (n / 2) w
  else do
    let w ← mul v v
    let p ← powImpl ((n - 1) / 2) w
    mul v p
termination_by n
decreasing_by all_goals omega

/-- The floating point root estimate: `static_cast<std::intmax_t>(pow_function((double) v, 1.0 / N))`,
src/core/include/units/bits/root.h:46-47 with the functions of lines 65-82.  Left arbitrary here; the
theorems state what they need of it. -/
abbrev RootEstimate := (n : Nat) → (v : Int) → Int

/-- `detail::iroot_impl<N>`, src/core/include/units/bits/root.h:34-59. -/
def iroot (est : RootEstimate) (n : Nat) (v : Int) : C Int :=
  if n = 1 then .ok v
  else do
    expects (v ≥ 0)
    if v = 0 then .ok 0
    else do
      let root := est n v
      let up ← add64 root 1
      let p ← powImplInt n up
      if v = p then .ok up
      else do
        let q ← powImplInt n root
        if v < q then sub64 root 1
        else .ok root

/-- `detail::make_exp_align`, src/core/include/units/ratio.h:94-109. -/
def makeExpAlign (r : Ratio) (alignment : Int) : C (Int × Int × Int) := do
  expects (alignment > 0)
  let rem ← mod64 r.exp alignment
  if rem = 0 then .ok (r.num, r.den, r.exp)
  else if r.exp > 0 then do
    let t ← ipow10 rem
    let n ← mul64 r.num t
    let e ← sub64 r.exp rem
    .ok (n, r.den, e)
  else do
    let m ← neg64 rem
    let t ← ipow10 m
    let d ← mul64 r.den t
    let e ← sub64 r.exp rem
    .ok (r.num, d, e)

/-- `detail::root<N>`, src/core/include/units/ratio.h:111-125. -/
def rootR (est : RootEstimate) (n : Nat) (r : Ratio) : C Ratio :=
  if n = 1 then .ok r
  else if r.num = 0 then make 0 1 0
  else do
    let (a, b, e) ← makeExpAlign r n
    let x ← iroot est n a
    let y ← iroot est n b
    let e' ← div64 e n
    make x y e'

/-- `pow<Num, Den>(ratio)`, src/core/include/units/ratio.h:127-152. -/
def powR (est : RootEstimate) (num den : Int) (r : Ratio) : C Ratio :=
  if den = 0 then .error .rejected       -- `requires detail::non_zero<Den>`
  else if num = 0 then .ok Ratio.one
  else if num = den then .ok r
  else do
    let g ← sgcd num den
    let n ← div64 num g
    let n' ← abs64 n
    let d ← div64 den g
    let d' ← abs64 d
    let p ← powImpl n'.toNat r
    let res ← rootR est d'.toNat p
    let s ← mul64 num den
    if s < 0 then inverse res else .ok res

/-- `sqrt(ratio)`, src/core/include/units/ratio.h:154. -/
def sqrtR (est : RootEstimate) (r : Ratio) : C Ratio := powR est 1 2 r

/-- `cbrt(ratio)`, src/core/include/units/ratio.h:156. -/
def cbrtR (est : RootEstimate) (r : Ratio) : C Ratio := powR est 1 3 r

/-! ### Helper lemmas -/

theorem ipow10Loop_eq_ok (k : Nat) {res y : Int} (hres : 0 < res) (hI : I64 res) :
    ipow10Loop k res = .ok y ↔ I64 (res * 10 ^ k) ∧ y = res * 10 ^ k := by
  induction k generalizing res with
  | zero => simp [ipow10Loop, hI, eq_comm]
  | succ k ih =>
    simp only [ipow10Loop, bind_ok, mul64_eq_ok]
    constructor
    · rintro ⟨r, ⟨h1, rfl⟩, h2⟩
      rw [ih (by positivity) h1] at h2
      have : res * 10 * 10 ^ k = res * 10 ^ (k + 1) := by ring
      rwa [this] at h2
    · rintro ⟨h1, rfl⟩
      have hp : (1 : Int) ≤ 10 ^ k := one_le_pow₀ (by norm_num)
      have h3 : I64 (res * 10) := by
        have : res * 10 ≤ res * 10 ^ (k + 1) := by
          rw [pow_succ]; nlinarith
        unfold I64 intMin intMax at *; constructor <;> nlinarith
      refine ⟨_, ⟨h3, rfl⟩, ?_⟩
      rw [ih (by positivity) h3]
      have : res * 10 * 10 ^ k = res * 10 ^ (k + 1) := by ring
      rw [this]; exact ⟨h1, rfl⟩

theorem ipow10_eq_ok {e y : Int} :
    ipow10 e = .ok y ↔ 0 ≤ e ∧ I64 (10 ^ e.toNat) ∧ y = 10 ^ e.toNat := by
  unfold ipow10
  simp only [bind_ok, cassert_eq_ok, ipow10Loop_eq_ok _ (show (0 : Int) < 1 by norm_num)
    (show I64 1 by decide), one_mul]
  constructor
  · rintro ⟨_, h1, h2⟩; exact ⟨h1, h2⟩
  · rintro ⟨h1, h2⟩; exact ⟨(), h1, h2⟩

theorem powImplInt_sound (n : Nat) {v y : Int} (h : powImplInt n v = .ok y) : y = v ^ n := by
  induction n using Nat.strong_induction_on generalizing v y with
  | _ n ih =>
    unfold powImplInt at h
    split at h
    · rename_i h0; simp only [Except.ok.injEq] at h; rw [h0, pow_zero, h]
    · split at h
      · rename_i h1; simp only [Except.ok.injEq] at h; rw [h1, pow_one, h]
      · split at h
        · simp only [bind_ok, mul64_eq_ok] at h
          obtain ⟨w, ⟨-, rfl⟩, h⟩ := h
          rw [ih (n / 2) (by omega) h, ← pow_two, ← pow_mul]
          congr 1; omega
        · simp only [bind_ok, mul64_eq_ok] at h
          obtain ⟨w, ⟨-, rfl⟩, p, hp, -, rfl⟩ := h
          rw [ih ((n - 1) / 2) (by omega) hp, ← pow_two, ← pow_mul, ← pow_succ']
          congr 1; omega

theorem powImplInt_complete (n : Nat) {v : Int} (hv : 0 ≤ v) (h : v ^ n ≤ intMax) :
    powImplInt n v = .ok (v ^ n) := by
  induction n using Nat.strong_induction_on generalizing v with
  | _ n ih =>
    have hmin : ∀ x : Int, 0 ≤ x → x ≤ intMax → I64 x := fun x h1 h2 => by
      unfold I64 intMin intMax at *; omega
    unfold powImplInt
    split
    · rename_i h0; simp [h0]
    · split
      · rename_i h1; simp [h1]
      · rename_i h0 h1
        have hvv : v * v ≤ v ^ n := by
          rcases eq_or_lt_of_le hv with h | h
          · rw [← h]; simp [h0]
          · rw [← pow_two]; exact pow_le_pow_right₀ (by omega) (by omega)
        have hI : I64 (v * v) := hmin _ (mul_self_nonneg v) (hvv.trans h)
        split
        · have e : (v * v) ^ (n / 2) = v ^ n := by
            rw [← pow_two, ← pow_mul]; congr 1; omega
          rw [mul64, chk_of hI, ok_bind, ih (n / 2) (by omega) (mul_self_nonneg v)
            (by rw [e]; exact h), e]
        · have e : v * (v * v) ^ ((n - 1) / 2) = v ^ n := by
            rw [← pow_two, ← pow_mul, ← pow_succ']; congr 1; omega
          have hp : 0 ≤ (v * v) ^ ((n - 1) / 2) := pow_nonneg (mul_self_nonneg v) _
          have hle : (v * v) ^ ((n - 1) / 2) ≤ intMax := by
            rcases eq_or_lt_of_le hv with h' | h'
            · rw [← h']; simp only [mul_zero]
              rcases Nat.eq_zero_or_pos ((n - 1) / 2) with h'' | h''
              · rw [h'']; decide
              · rw [zero_pow h''.ne']; decide
            · refine le_trans ?_ h
              rw [← e]; nlinarith
          rw [mul64, chk_of hI, ok_bind, ih ((n - 1) / 2) (by omega) (mul_self_nonneg v) hle, ok_bind,
            mul64, e, chk_of (hmin _ (pow_nonneg hv n) h)]

theorem powImpl_sound (n : Nat) {v y : Ratio} (hv : v.WF) (h : powImpl n v = .ok y) :
    y.WF ∧ y.val = v.val ^ n := by
  induction n using Nat.strong_induction_on generalizing v y with
  | _ n ih =>
    unfold powImpl at h
    split at h
    · rename_i h0; simp only [Except.ok.injEq] at h
      rw [h0, pow_zero, ← h]; exact ⟨one_wf, one_val⟩
    · split at h
      · rename_i h1; simp only [Except.ok.injEq] at h; rw [h1, pow_one, ← h]; exact ⟨hv, rfl⟩
      · split at h
        · simp only [bind_ok] at h
          obtain ⟨w, hw, h⟩ := h
          obtain ⟨ww, wv⟩ := mul_sound hv hv hw
          obtain ⟨yw, yv⟩ := ih (n / 2) (by omega) ww h
          refine ⟨yw, ?_⟩
          rw [yv, wv, ← pow_two, ← pow_mul]
          congr 1; omega
        · simp only [bind_ok] at h
          obtain ⟨w, hw, p, hp, h⟩ := h
          obtain ⟨ww, wv⟩ := mul_sound hv hv hw
          obtain ⟨pw, pv⟩ := ih ((n - 1) / 2) (by omega) ww hp
          obtain ⟨yw, yv⟩ := mul_sound hv pw h
          refine ⟨yw, ?_⟩
          rw [yv, pv, wv, ← pow_two, ← pow_mul, ← pow_succ']
          congr 1; omega

theorem makeExpAlign_sound {r : Ratio} {k a b e : Int} (hr : r.WF) (hpos : 0 < r.num)
    (h : makeExpAlign r k = .ok (a, b, e)) :
    0 < k ∧ 0 < a ∧ 0 < b ∧ I64 a ∧ I64 b ∧ I64 e ∧ k ∣ e ∧ (a : ℚ) / b * 10 ^ e = r.val := by
  have hd := hr.denq
  have t10 : (10 : ℚ) ≠ 0 := by norm_num
  unfold makeExpAlign at h
  simp only [bind_ok, expects_eq_ok, mod64_eq_ok] at h
  obtain ⟨_, hk, rem, ⟨-, -, hrem⟩, h⟩ := h
  refine ⟨hk, ?_⟩
  split at h
  · rename_i h0
    simp only [Except.ok.injEq, Prod.mk.injEq] at h
    obtain ⟨rfl, rfl, rfl⟩ := h
    exact ⟨hpos, hr.den_pos, hr.num_range.1, hr.den_I64, hr.exp_range,
      Int.dvd_of_tmod_eq_zero (by rw [← hrem]; exact h0), rfl⟩
  · rename_i h0
    have hdv : k ∣ r.exp - rem := by
      rw [hrem]; exact Int.dvd_self_sub_of_tmod_eq rfl
    split at h
    · rename_i hexp
      simp only [bind_ok, ipow10_eq_ok, mul64_eq_ok, sub64_eq_ok, Except.ok.injEq,
        Prod.mk.injEq] at h
      obtain ⟨t, ⟨hrn, hIt, rfl⟩, _, ⟨hIa, rfl⟩, _, ⟨hIe, rfl⟩, rfl, rfl, rfl⟩ := h
      refine ⟨by positivity, hr.den_pos, hIa, hr.den_I64, hIe, hdv, ?_⟩
      unfold val
      have : (10 : ℚ) ^ r.exp = 10 ^ rem.toNat * 10 ^ (r.exp - rem) := by
        rw [← zpow_natCast, ← zpow_add₀ t10]
        congr 1; omega
      rw [this]; push_cast; field_simp
    · rename_i hexp
      simp only [bind_ok, ipow10_eq_ok, mul64_eq_ok, neg64_eq_ok, sub64_eq_ok, Except.ok.injEq,
        Prod.mk.injEq] at h
      obtain ⟨m, ⟨-, rfl⟩, t, ⟨hrn, hIt, rfl⟩, _, ⟨hIb, rfl⟩, _, ⟨hIe, rfl⟩, rfl, rfl, rfl⟩ := h
      refine ⟨hpos, mul_pos hr.den_pos (by positivity), hr.num_range.1, hIb, hIe, hdv, ?_⟩
      unfold val
      have : (10 : ℚ) ^ (r.exp - rem) = 10 ^ (-rem).toNat * 10 ^ r.exp := by
        rw [← zpow_natCast, ← zpow_add₀ t10]
        congr 1; omega
      rw [this]; push_cast; field_simp

end Verif
