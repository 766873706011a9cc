import Verif.Cpp
import Mathlib.Data.Nat.ModEq
import Mathlib.Tactic.NormNum
import Mathlib.Algebra.Order.Ring.Abs
import Mathlib.Algebra.Order.Ring.Int

/-!
# `units/bits/ratio_maths.h`

Exponent-aware integer helpers behind `units::ratio`.
-/

namespace Verif

/-- `detail::abs`, src/core/include/units/bits/ratio_maths.h:37-41. -/
def abs64 (v : Int) : C Int := if v < 0 then neg64 v else .ok v

/-- The `while (a != 0)` loop of `detail::mulmod`,
src/core/include/units/bits/ratio_maths.h:61-75. -/
def mulmodLoop (m a res b : Nat) : Nat :=
  if h : a = 0 then res
  else
    let res' := if a % 2 = 1 then
        wadd (if b ≥ wsub m res then wsub res m else res) b
      else res
    let tb := if b ≥ wsub m b then wsub b m else b
    mulmodLoop m (a / 2) res' (wadd b tb)
termination_by a
decreasing_by omega

/-- `detail::mulmod`, src/core/include/units/bits/ratio_maths.h:49-78.
`UINT64_MAX / 2u` is `2^63 - 1`; `b %= m` with `m = 0` is undefined. -/
def mulmod (a b m : Nat) : C Nat :=
  if b ≥ m then
    if m > 9223372036854775807 then .ok (mulmodLoop m a 0 (wsub b m))
    else if m = 0 then .error .divZero
    else .ok (mulmodLoop m a 0 (b % m))
  else .ok (mulmodLoop m a 0 b)

/-- The `while (e > 0)` loop of `detail::modpow`,
src/core/include/units/bits/ratio_maths.h:86-92. -/
def modpowLoop (m e result a : Nat) : C Nat :=
  if h : e = 0 then .ok result
  else do
    let result' ← (if e % 2 = 1 then mulmod result a m else .ok result)
    let a' ← mulmod a a m
    modpowLoop m (e / 2) result' a'
termination_by e
decreasing_by omega

/-- `detail::modpow`, src/core/include/units/bits/ratio_maths.h:81-94. -/
def modpow (a e m : Nat) : C Nat :=
  if m = 0 then .error .divZero else modpowLoop m e 1 (a % m)

/-- `detail::gcdpow`, src/core/include/units/bits/ratio_maths.h:97-113.
The casts to `std::uint64_t` are of non-negative values, hence value preserving; the cast of
the residue back to `std::intmax_t` is of a value smaller than `b`, hence value preserving. -/
def gcdpow (a e b : Int) : C Int := do
  cassert (a > 0)
  cassert (e ≥ 0)
  cassert (b > 0)
  let ab ← mod64 a b
  let p ← modpow 10 e.toNat b.toNat
  let r ← mulmod ab.toNat p b.toNat
  sgcd b (r : Int)

/-- `detail::gcd_frac`, src/core/include/units/bits/ratio_maths.h:123-153
(the result array is a triple; `cwap`, lines 115-120, is the exchange of the two operands). -/
def gcdFrac (n1 d1 e1 n2 d2 e2 : Int) : C (Int × Int × Int) :=
  if n1 = n2 ∧ d1 = d2 ∧ e1 = e2 then .ok (n1, d1, e1)
  else
    let go (n1 d1 e1 n2 d2 e2 : Int) : C (Int × Int × Int) := do
      let q1 ← div64 intMax n1
      cassert (q1 > d2)
      let q2 ← div64 intMax n2
      cassert (q2 > d1)
      let x ← mul64 n1 d2
      let e ← sub64 e1 e2
      let y ← mul64 n2 d1
      let num ← gcdpow x e y
      let q3 ← div64 intMax d1
      cassert (q3 > d2)
      let den ← mul64 d1 d2
      let g ← sgcd num den
      let num' ← div64 num g
      let den' ← div64 den g
      .ok (num', den', e2)
    if e2 > e1 then go n2 d2 e2 n1 d1 e1 else go n1 d1 e1 n2 d2 e2

/-- The two `while (… % 10 == 0)` loops of `detail::normalize`,
src/core/include/units/bits/ratio_maths.h:167-174; `d` is `+1` for `++exp` (numerator) and `-1`
for `--exp` (denominator).  With `n = 0` the C++ loop would not terminate. -/
def strip10 (d n e : Int) : C (Int × Int) :=
  if _h : n = 0 then .error .divergence
  else if n.tmod 10 = 0 then do
    let e' ← add64 e d
    strip10 d (n.tdiv 10) e'
  else .ok (n, e)
termination_by n.natAbs
decreasing_by
  rw [Int.natAbs_tdiv]
  exact Nat.div_lt_self (Int.natAbs_pos.mpr (by assumption)) (by norm_num)

/-- `detail::normalize`, src/core/include/units/bits/ratio_maths.h:155-175 (the three reference
parameters are returned). -/
def normalize (num den exp : Int) : C (Int × Int × Int) :=
  if num = 0 then .ok (0, 1, 0)
  else do
    let gcd ← sgcd num den
    let s ← mul64 num (if den < 0 then -1 else 1)
    let num' ← div64 s gcd
    let a ← abs64 den
    let den' ← div64 a gcd
    let (n, e) ← strip10 1 num' exp
    let (d, e') ← strip10 (-1) den' e
    .ok (n, d, e')

/-- `detail::safe_multiply`, src/core/include/units/bits/ratio_maths.h:177-192
(`c = 2^32` for a 64-bit `std::intmax_t`). -/
def safeMultiply (lhs rhs : Int) : C Int := do
  let c : Int := 4294967296
  let al ← abs64 lhs
  let ar ← abs64 rhs
  let a0 ← mod64 al c
  let a1 ← div64 al c
  let b0 ← mod64 ar c
  let b1 ← div64 ar c
  expects (a1 = 0 ∨ b1 = 0)
  let x ← mul64 a0 b1
  let y ← mul64 b0 a1
  let xy ← add64 x y
  expects (xy < 2147483648)
  let z ← mul64 b0 a0
  expects (z ≤ intMax)
  let w ← mul64 xy c
  let v ← sub64 intMax z
  expects (w ≤ v)
  mul64 lhs rhs

/-! ### Helper lemmas -/

theorem mulmodLoop_spec (m : Nat) (hm : 0 < m) (hm64 : m < two64) (a : Nat) :
    ∀ res b, res < m → b < m → mulmodLoop m a res b = (res + a * b) % m := by
  induction a using Nat.strong_induction_on with
  | _ a ih =>
    intro res b hres hb
    unfold mulmodLoop
    split
    · rename_i h; subst h; simp [Nat.mod_eq_of_lt hres]
    · rename_i h
      have w1 : wsub m res = m - res := wsub_of_le hres.le hm64
      have w2 : wsub m b = m - b := wsub_of_le hb.le hm64
      have hbb : wadd b (if b ≥ wsub m b then wsub b m else b) = (b + b) % m := by
        rw [w2]
        split
        · have : wsub b m = b + (two64 - m) := by unfold wsub two64 at *; omega
          rw [this]
          have e1 : (b + b) % m = b + b - m := by
            rw [Nat.mod_eq_sub_mod (by omega), Nat.mod_eq_of_lt (by omega)]
          rw [e1]; unfold wadd two64 at *; omega
        · rw [Nat.mod_eq_of_lt (by omega : b + b < m)]
          unfold wadd two64 at *; omega
      have hres' : (if a % 2 = 1 then
          wadd (if b ≥ wsub m res then wsub res m else res) b else res)
          = if a % 2 = 1 then (res + b) % m else res := by
        split
        · rw [w1]
          split
          · have : wsub res m = res + (two64 - m) := by unfold wsub two64 at *; omega
            rw [this]
            have e1 : (res + b) % m = res + b - m := by
              rw [Nat.mod_eq_sub_mod (by omega), Nat.mod_eq_of_lt (by omega)]
            rw [e1]; unfold wadd two64 at *; omega
          · rw [Nat.mod_eq_of_lt (by omega : res + b < m)]
            unfold wadd two64 at *; omega
        · rfl
      simp only [hbb, hres']
      rw [ih (a / 2) (by omega) _ _ (by split; exact Nat.mod_lt _ hm; exact hres)
        (Nat.mod_lt _ hm)]
      change _ ≡ _ [MOD m]
      have h1 : (a / 2) * ((b + b) % m) ≡ (a / 2) * (b + b) [MOD m] :=
        Nat.ModEq.mul_left _ (Nat.mod_modEq _ _)
      split
      · rename_i hodd
        have h2 : (res + b) % m ≡ res + b [MOD m] := Nat.mod_modEq _ _
        have h3 := h2.add h1
        have : res + b + a / 2 * (b + b) = res + a * b := by
          have : a = 2 * (a / 2) + 1 := by omega
          calc res + b + a / 2 * (b + b) = res + (2 * (a / 2) + 1) * b := by ring
            _ = res + a * b := by rw [← this]
        rwa [this] at h3
      · rename_i heven
        have h3 := (Nat.ModEq.refl res : res ≡ res [MOD m]).add h1
        have : res + a / 2 * (b + b) = res + a * b := by
          have : a = 2 * (a / 2) := by omega
          calc res + a / 2 * (b + b) = res + (2 * (a / 2)) * b := by ring
            _ = res + a * b := by rw [← this]
        rwa [this] at h3

theorem mulmod_spec {a b m : Nat} (hm : 0 < m) (hm64 : m < two64) (hb : b < two64) :
    mulmod a b m = .ok (a * b % m) := by
  unfold mulmod
  split
  · split
    · rename_i h1 h2
      have : wsub b m = b - m := wsub_of_le h1 hb
      have hlt : b - m < m := by unfold two64 at *; omega
      rw [this, mulmodLoop_spec m hm hm64 a 0 (b - m) hm hlt]
      congr 1
      have : b - m ≡ b [MOD m] := by
        have h := Nat.add_modEq_left (n := m) (a := b - m)
        rw [Nat.add_sub_cancel' h1] at h
        exact h.symm
      rw [zero_add]; exact this.mul_left a
    · rw [if_neg (by omega)]
      rw [mulmodLoop_spec m hm hm64 a 0 (b % m) hm (Nat.mod_lt _ hm)]
      congr 1
      rw [zero_add]; exact (Nat.mod_modEq b m).mul_left a
  · rename_i h
    rw [mulmodLoop_spec m hm hm64 a 0 b hm (by omega)]
    simp

theorem modpowLoop_spec (m : Nat) (hm : 0 < m) (hm64 : m < two64) (e : Nat) :
    ∀ result a, result < two64 → a < m →
      modpowLoop m e result a = .ok (if e = 0 then result else (result * a ^ e) % m) := by
  induction e using Nat.strong_induction_on with
  | _ e ih =>
    intro result a hr ha
    unfold modpowLoop
    split
    · simp_all
    · rename_i h
      have ha64 : a < two64 := lt_trans ha hm64
      have h1 : (if e % 2 = 1 then mulmod result a m else (.ok result : C Nat))
          = .ok (if e % 2 = 1 then result * a % m else result) := by
        split
        · exact mulmod_spec hm hm64 ha64
        · rfl
      rw [h1, mulmod_spec hm hm64 ha64]
      simp only [ok_bind]
      have hlt : (if e % 2 = 1 then result * a % m else result) < two64 := by
        split
        · exact lt_trans (Nat.mod_lt _ hm) hm64
        · exact hr
      rw [ih (e / 2) (by omega) _ _ hlt (Nat.mod_lt _ hm)]
      congr 1
      split
      · have : e = 1 := by omega
        subst this; simp
      · change _ ≡ _ [MOD m]
        have p1 : (a * a % m) ^ (e / 2) ≡ (a * a) ^ (e / 2) [MOD m] :=
          (Nat.mod_modEq _ _).pow _
        split
        · have p2 := (Nat.mod_modEq (result * a) m).mul p1
          have : result * a * (a * a) ^ (e / 2) = result * a ^ e := by
            have he : e = 2 * (e / 2) + 1 := by omega
            conv_rhs => rw [he, pow_succ, pow_mul]
            rw [pow_two]; ring
          rwa [this] at p2
        · have p2 := (Nat.ModEq.refl result : result ≡ result [MOD m]).mul p1
          have : result * (a * a) ^ (e / 2) = result * a ^ e := by
            have he : e = 2 * (e / 2) := by omega
            conv_rhs => rw [he, pow_mul]
            rw [pow_two]
          rwa [this] at p2

theorem modpow_spec {a e m : Nat} (hm : 0 < m) (hm64 : m < two64) :
    modpow a e m = .ok (if e = 0 then 1 else a ^ e % m) := by
  unfold modpow
  rw [if_neg (by omega), modpowLoop_spec m hm hm64 e 1 _ (by unfold two64; norm_num)
    (Nat.mod_lt _ hm)]
  congr 1
  split
  · rfl
  · rw [one_mul]; exact ((Nat.mod_modEq a m).pow e)

theorem gcdpow_eq_ok {a e b g : Int} (ha : I64 a) (hb : I64 b) :
    gcdpow a e b = .ok g ↔ 0 < a ∧ 0 ≤ e ∧ 0 < b ∧ g = (Int.gcd (a * 10 ^ e.toNat) b : Int) := by
  unfold gcdpow
  simp only [bind_ok, cassert_eq_ok]
  constructor
  · rintro ⟨_, h1, _, h2, _, h3, ab, hab, p, hp, r, hr, hg⟩
    refine ⟨h1, h2, h3, ?_⟩
    obtain ⟨a, rfl⟩ := Int.eq_ofNat_of_zero_le h1.le
    obtain ⟨b, rfl⟩ := Int.eq_ofNat_of_zero_le h3.le
    have hb0 : 0 < b := by omega
    have hb64 : b < two64 := by unfold I64 intMax two64 at *; omega
    rw [mod64_eq_ok] at hab
    rw [Int.toNat_natCast, modpow_spec hb0 hb64] at hp
    have hab' : ab = ((a % b : Nat) : Int) := by rw [hab.2.2]; rfl
    have hp64 : p < two64 := by
      cases hp; split
      · unfold two64; norm_num
      · exact lt_trans (Nat.mod_lt _ hb0) hb64
    rw [hab', Int.toNat_natCast, Int.toNat_natCast, mulmod_spec hb0 hb64 hp64] at hr
    cases hr
    rw [sgcd_eq_ok] at hg
    rw [hg.2.2]
    have key : a % b * p ≡ a * 10 ^ e.toNat [MOD b] := by
      cases hp
      split
      · rename_i h0; simp [h0, Nat.mod_modEq]
      · exact (Nat.mod_modEq _ _).mul (Nat.mod_modEq _ _)
    have h4 : Int.gcd (b : Int) ((a % b * p % b : Nat) : Int) = Nat.gcd b (a % b * p % b) := rfl
    have h5 : Int.gcd ((a : Int) * 10 ^ e.toNat) (b : Int) = Nat.gcd (a * 10 ^ e.toNat) b := by
      rw [← Int.gcd_natCast_natCast]; push_cast; rfl
    rw [h4, h5, key, Nat.gcd_comm, ← Nat.gcd_rec, Nat.gcd_comm]
  · rintro ⟨h1, h2, h3, hg⟩
    obtain ⟨a, rfl⟩ := Int.eq_ofNat_of_zero_le h1.le
    obtain ⟨b, rfl⟩ := Int.eq_ofNat_of_zero_le h3.le
    have hb0 : 0 < b := by omega
    have hb64 : b < two64 := by unfold I64 intMax two64 at *; omega
    refine ⟨(), h1, (), h2, (), h3, ((a % b : Nat) : Int), ?_,
      (if e.toNat = 0 then 1 else 10 ^ e.toNat % b), ?_,
      a % b * (if e.toNat = 0 then 1 else 10 ^ e.toNat % b) % b, ?_, ?_⟩
    · rw [mod64_eq_ok]; exact ⟨by omega, I64_tdiv ha (by omega) (by right; omega), rfl⟩
    · rw [Int.toNat_natCast]; exact modpow_spec hb0 hb64
    · rw [Int.toNat_natCast, Int.toNat_natCast]
      refine mulmod_spec hb0 hb64 ?_
      split
      · unfold two64; norm_num
      · exact lt_trans (Nat.mod_lt _ hb0) hb64
    · rw [sgcd_eq_ok]
      refine ⟨by unfold intMin; omega, by unfold intMin; omega, ?_⟩
      rw [hg]
      have key : a % b * (if e.toNat = 0 then 1 else 10 ^ e.toNat % b)
          ≡ a * 10 ^ e.toNat [MOD b] := by
        split
        · rename_i h0; simp [h0, Nat.mod_modEq]
        · exact (Nat.mod_modEq _ _).mul (Nat.mod_modEq _ _)
      rw [Int.gcd_natCast_natCast, key]
      have h5 : Int.gcd ((a : Int) * 10 ^ e.toNat) (b : Int) = Nat.gcd (a * 10 ^ e.toNat) b := by
        rw [← Int.gcd_natCast_natCast]; push_cast; rfl
      rw [h5, Nat.gcd_comm b, ← Nat.gcd_rec, Nat.gcd_comm]

theorem strip10_sound {d n e n' e' : Int} (he : I64 e) (h : strip10 d n e = .ok (n', e')) :
    ∃ k : Nat, n = n' * 10 ^ k ∧ e' = e + d * k ∧ n' ≠ 0 ∧ ¬ (10 : Int) ∣ n' ∧ I64 e' := by
  induction hn : n.natAbs using Nat.strong_induction_on generalizing n e with
  | _ k ih =>
    unfold strip10 at h
    split at h
    · simp at h
    · rename_i h0
      split at h
      · rename_i h10
        simp only [bind_ok, add64_eq_ok] at h
        obtain ⟨e1, ⟨hI, rfl⟩, h⟩ := h
        have hlt : (n.tdiv 10).natAbs < k := by
          rw [Int.natAbs_tdiv, ← hn]
          exact Nat.div_lt_self (Int.natAbs_pos.mpr h0) (by norm_num)
        obtain ⟨j, hj1, hj2, hj3, hj4, hj5⟩ := ih _ hlt hI h rfl
        refine ⟨j + 1, ?_, ?_, hj3, hj4, hj5⟩
        · have := Int.mul_tdiv_cancel_of_dvd (Int.dvd_of_tmod_eq_zero h10)
          rw [← this, hj1]; ring
        · rw [hj2]; push_cast; ring
      · rename_i h10
        simp only [Except.ok.injEq, Prod.mk.injEq] at h
        obtain ⟨rfl, rfl⟩ := h
        exact ⟨0, by simp, by simp, h0,
          fun hd => h10 (Int.tmod_eq_zero_of_dvd hd), he⟩

theorem strip10_complete {d m e : Int} (k : Nat) (hm : m ≠ 0) (h10 : ¬ (10 : Int) ∣ m)
    (hd : d = 1 ∨ d = -1) (he : I64 e) (hek : I64 (e + d * k)) :
    strip10 d (m * 10 ^ k) e = .ok (m, e + d * k) := by
  induction k generalizing e with
  | zero =>
    unfold strip10
    have : ¬ (m.tmod 10 = 0) := fun h => h10 (Int.dvd_of_tmod_eq_zero h)
    simp [hm, this]
  | succ k ih =>
    unfold strip10
    have hne : m * 10 ^ (k + 1) ≠ 0 := mul_ne_zero hm (pow_ne_zero _ (by norm_num))
    have hdv : (m * 10 ^ (k + 1)) = 10 * (m * 10 ^ k) := by ring
    rw [dif_neg hne, hdv, Int.mul_tmod_right, if_pos rfl,
      Int.mul_tdiv_cancel_left _ (by norm_num)]
    have hI : I64 (e + d) := by
      unfold I64 intMin intMax at *
      push_cast at hek
      rcases hd with rfl | rfl <;> omega
    rw [add64, chk_of hI, ok_bind, ih hI]
    · congr 2; push_cast; ring
    · have : e + d + d * (k : Int) = e + d * ((k + 1 : Nat) : Int) := by push_cast; ring
      rw [this]; exact hek

theorem abs64_eq_ok {v y : Int} (hv : I64 v) : abs64 v = .ok y ↔ v ≠ intMin ∧ y = |v| := by
  unfold abs64
  split
  · rename_i h
    rw [neg64_eq_ok, abs_of_neg h]
    unfold I64 intMin intMax at *
    constructor
    · rintro ⟨h1, h2⟩; omega
    · rintro ⟨h1, h2⟩; omega
  · rename_i h
    rw [abs_of_nonneg (by omega)]
    unfold I64 intMin intMax at *
    simp only [Except.ok.injEq]
    constructor
    · intro h; omega
    · intro h; omega

theorem safeMultiply_eq_ok {l r v : Int} (hl : I64 l) (hr : I64 r) :
    safeMultiply l r = .ok v ↔
      l ≠ intMin ∧ r ≠ intMin ∧ |l * r| ≤ intMax ∧ v = l * r := by
  unfold safeMultiply
  simp only [bind_ok, expects_eq_ok, abs64_eq_ok hl, abs64_eq_ok hr, mod64_eq_ok, div64_eq_ok,
    mul64_eq_ok, add64_eq_ok, sub64_eq_ok]
  rw [abs_mul]
  have hA := abs_nonneg l
  have hB := abs_nonneg r
  have tm : ∀ x : Int, 0 ≤ x → x.tmod 4294967296 = x % 4294967296 :=
    fun x hx => Int.tmod_eq_emod_of_nonneg hx
  have td : ∀ x : Int, 0 ≤ x → x.tdiv 4294967296 = x / 4294967296 :=
    fun x hx => Int.tdiv_eq_ediv_of_nonneg hx
  constructor
  · rintro ⟨_, ⟨hl', rfl⟩, _, ⟨hr', rfl⟩, a0, ⟨-, -, ha0⟩, a1, ⟨-, -, ha1⟩, b0, ⟨-, -, hb0⟩, b1,
      ⟨-, -, hb1⟩, _, hz, x, ⟨hx, rfl⟩, y, ⟨hy, rfl⟩, xy, ⟨hxy, rfl⟩, _, hlt, z, ⟨hz', rfl⟩, _, hzl,
      w, ⟨hw, rfl⟩, v', ⟨hv', rfl⟩, _, hfin, hlr, rfl⟩
    refine ⟨hl', hr', ?_, rfl⟩
    rw [tm _ hA] at ha0
    rw [td _ hA] at ha1
    rw [tm _ hB] at hb0
    rw [td _ hB] at hb1
    generalize |l| = A at *
    generalize |r| = B at *
    have eA : A = a0 + 4294967296 * a1 := by omega
    have eB : B = b0 + 4294967296 * b1 := by omega
    rw [eA, eB]
    have h0 : a1 * b1 = 0 := by rcases hz with h | h <;> simp [h]
    have : (a0 + 4294967296 * a1) * (b0 + 4294967296 * b1)
      = b0 * a0 + (a0 * b1 + b0 * a1) * 4294967296 + 4294967296 * 4294967296 * (a1 * b1) := by ring
    rw [this, h0]; linarith
  · rintro ⟨hl', hr', hle, rfl⟩
    have hI : I64 (l * r) := by
      rw [← abs_mul] at hle
      have := abs_le.mp hle
      unfold I64 intMin intMax at *; omega
    have hA' : |l| ≤ intMax := by
      unfold I64 intMin intMax at *; rw [abs_le]; omega
    have hB' : |r| ≤ intMax := by
      unfold I64 intMin intMax at *; rw [abs_le]; omega
    generalize |l| = A at *
    generalize |r| = B at *
    have pa0 : 0 ≤ A % 4294967296 := Int.emod_nonneg _ (by norm_num)
    have qa0 : A % 4294967296 < 4294967296 := Int.emod_lt_of_pos _ (by norm_num)
    have pa1 : 0 ≤ A / 4294967296 := Int.ediv_nonneg hA (by norm_num)
    have pb0 : 0 ≤ B % 4294967296 := Int.emod_nonneg _ (by norm_num)
    have qb0 : B % 4294967296 < 4294967296 := Int.emod_lt_of_pos _ (by norm_num)
    have pb1 : 0 ≤ B / 4294967296 := Int.ediv_nonneg hB (by norm_num)
    have eA : A = A % 4294967296 + 4294967296 * (A / 4294967296) := by omega
    have eB : B = B % 4294967296 + 4294967296 * (B / 4294967296) := by omega
    have qa1 : A / 4294967296 ≤ 2147483647 := by unfold intMax at *; omega
    have qb1 : B / 4294967296 ≤ 2147483647 := by unfold intMax at *; omega
    refine ⟨A, ⟨hl', rfl⟩, B, ⟨hr', rfl⟩, ?_⟩
    rw [tm _ hA, td _ hA, tm _ hB, td _ hB]
    generalize A % 4294967296 = a0 at *
    generalize A / 4294967296 = a1 at *
    generalize B % 4294967296 = b0 at *
    generalize B / 4294967296 = b1 at *
    have expand : A * B = b0 * a0 + (a0 * b1 + b0 * a1) * 4294967296
        + 4294967296 * 4294967296 * (a1 * b1) := by rw [eA, eB]; ring
    have n1 : 0 ≤ a0 * b1 := mul_nonneg pa0 pb1
    have n2 : 0 ≤ b0 * a1 := mul_nonneg pb0 pa1
    have n3 : 0 ≤ b0 * a0 := mul_nonneg pb0 pa0
    have n4 : 0 ≤ a1 * b1 := mul_nonneg pa1 pb1
    have ntop : A * B ≤ 9223372036854775807 := hle
    have z0 : a1 * b1 = 0 := by omega
    refine ⟨a0, ⟨by norm_num, ?_, rfl⟩, a1, ⟨by norm_num, ?_, rfl⟩,
      b0, ⟨by norm_num, ?_, rfl⟩, b1, ⟨by norm_num, ?_, rfl⟩, (), mul_eq_zero.mp z0,
      _, ⟨?_, rfl⟩, _, ⟨?_, rfl⟩, _, ⟨?_, rfl⟩, (), ?_, _, ⟨?_, rfl⟩, (), ?_, _, ⟨?_, rfl⟩,
      _, ⟨?_, rfl⟩, (), ?_, hI, rfl⟩
    all_goals (try unfold I64); try unfold intMax; try unfold intMin
    all_goals omega

end Verif
