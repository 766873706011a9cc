import Verif.Root
import Mathlib.Data.Rat.Floor

/-!
# Numbers: arithmetic types, conversions and operators of C++

The representation types of the model are the eight fixed-width integral types and the three floating
point types of an LP64 platform.  `bool`, character types, the distinction between `long` and `long long`
and user-defined representation types are not modelled.

A floating point value is the rational number it denotes; infinities and NaNs are outside the model
(`UB.nonfinite`).  The rounding of the floating point operations is a parameter `fl`; the theorems say
what they need of it (the identity stands for an exact representation type).
-/

namespace Verif

/-- The integral types. -/
inductive IntTy where
  | i8 | u8 | i16 | u16 | i32 | u32 | i64 | u64
deriving DecidableEq, Repr

/-- The floating point types `float`, `double` and `long double`. -/
inductive FltTy where
  | f32 | f64 | f80
deriving DecidableEq, Repr

/-- A representation type. -/
inductive Rep where
  | int (t : IntTy)
  | flt (f : FltTy)
deriving DecidableEq, Repr

/-- A number: the value of an integral or of a floating point object. -/
inductive Num where
  | i (x : Int)
  | f (x : ℚ)
deriving DecidableEq

/-- The value of a number. -/
def Num.q : Num → ℚ
  | .i x => x
  | .f x => x

namespace IntTy

/-- Width in bits. -/
def bits : IntTy → Nat
  | i8 | u8 => 8
  | i16 | u16 => 16
  | i32 | u32 => 32
  | i64 | u64 => 64

/-- Whether the type is signed. -/
def signed : IntTy → Bool
  | i8 | i16 | i32 | i64 => true
  | _ => false

/-- `std::numeric_limits<T>::lowest()`. -/
def lo (t : IntTy) : Int := if t.signed then -(2 ^ (t.bits - 1)) else 0

/-- `std::numeric_limits<T>::max()`. -/
def hi (t : IntTy) : Int := if t.signed then 2 ^ (t.bits - 1) - 1 else 2 ^ t.bits - 1

/-- `x` is a value of type `t`. -/
def In (t : IntTy) (x : Int) : Prop := t.lo ≤ x ∧ x ≤ t.hi

instance (t : IntTy) (x : Int) : Decidable (t.In x) := inferInstanceAs (Decidable (_ ∧ _))

/-- Conversion to `t`: the value congruent modulo `2^bits` ([conv.integral]). -/
def wrap (t : IntTy) (x : Int) : Int := (x - t.lo) % 2 ^ t.bits + t.lo

/-- The result of an arithmetic operation of type `t` with mathematical result `x`: signed overflow is
undefined, unsigned arithmetic is modular. -/
def arith (t : IntTy) (x : Int) : C Int :=
  if t.signed then (if t.In x then .ok x else .error .overflow) else .ok (t.wrap x)

/-- Integral promotion ([conv.prom]): types narrower than `int` become `int`. -/
def promote (t : IntTy) : IntTy := if t.bits < 32 then .i32 else t

/-- The usual arithmetic conversions of two promoted types ([expr.arith.conv]). -/
def usual (a b : IntTy) : IntTy :=
  if a = b then a
  else if a.signed = b.signed then (if a.bits < b.bits then b else a)
  else
    let s := if a.signed then a else b
    let u := if a.signed then b else a
    if s.bits ≤ u.bits then u else s

end IntTy

/-- The type of `a op b` for operands of these types ([expr.arith.conv]). -/
def Rep.arith : Rep → Rep → Rep
  | .int a, .int b => .int (a.promote.usual b.promote)
  | .int _, .flt f => .flt f
  | .flt f, .int _ => .flt f
  | .flt a, .flt b => .flt (match a, b with
    | .f80, _ => .f80
    | _, .f80 => .f80
    | .f64, _ => .f64
    | _, .f64 => .f64
    | .f32, .f32 => .f32)

/-- `std::common_type_t` of two arithmetic types. -/
def Rep.common (a b : Rep) : Rep := if a = b then a else a.arith b

/-- `treat_as_floating_point`, src/core/include/units/customization_points.h:40-45. -/
def Rep.floating : Rep → Bool
  | .int _ => false
  | .flt _ => true

/-- The rounding of a real result to a floating point type. -/
abbrev Rounding := FltTy → ℚ → ℚ

/-- Truncation toward zero. -/
def truncQ (x : ℚ) : Int := if 0 ≤ x then ⌊x⌋ else ⌈x⌉

/-- Conversion of a value of type `src` to type `dst` (implicit or `static_cast`).  Out of range
conversions from floating point are undefined. -/
def convNum (fl : Rounding) (src dst : Rep) (v : Num) : C Num :=
  if src = dst then .ok v
  else match dst, v with
    | .int t, .i x => .ok (.i (t.wrap x))
    | .int t, .f x => if t.In (truncQ x) then .ok (.i (truncQ x)) else .error .overflow
    | .flt f, .i x => .ok (.f (fl f x))
    | .flt f, .f x => .ok (.f (fl f x))

/-- The binary arithmetic operators used by the library. -/
inductive BinOp where
  | add | sub | mul | div | mod
deriving DecidableEq, Repr

/-- `a op b` on two values of the integral type `t`, which is not narrower than `int`. -/
def intOp (t : IntTy) : BinOp → Int → Int → C Int
  | .add, a, b => t.arith (a + b)
  | .sub, a, b => t.arith (a - b)
  | .mul, a, b => t.arith (a * b)
  | .div, a, b => if b = 0 then .error .divZero else t.arith (a.tdiv b)
  | .mod, a, b =>
    if b = 0 then .error .divZero
    else if t.signed ∧ ¬ t.In (a.tdiv b) then .error .overflow
    else .ok (a.tmod b)

/-- `a op b` on two values of a floating point type. -/
def fltOp (fl : Rounding) (f : FltTy) : BinOp → ℚ → ℚ → C ℚ
  | .add, a, b => .ok (fl f (a + b))
  | .sub, a, b => .ok (fl f (a - b))
  | .mul, a, b => .ok (fl f (a * b))
  | .div, a, b => if b = 0 then .error .nonfinite else .ok (fl f (a / b))
  | .mod, _, _ => .error .rejected

/-- `a op b` on two values of the same type. -/
def sameOp (fl : Rounding) (r : Rep) (op : BinOp) (a b : Num) : C Num :=
  match r, a, b with
  | .int t, .i x, .i y => do
    let z ← intOp t op x y
    .ok (.i z)
  | .flt f, .f x, .f y => do
    let z ← fltOp fl f op x y
    .ok (.f z)
  | _, _, _ => .error .rejected

/-- `a op b` with the usual arithmetic conversions; the result has type `ra.arith rb`. -/
def numOp (fl : Rounding) (op : BinOp) (ra rb : Rep) (a b : Num) : C Num := do
  let x ← convNum fl ra (ra.arith rb) a
  let y ← convNum fl rb (ra.arith rb) b
  sameOp fl (ra.arith rb) op x y

/-- `-a`; the result has the promoted type. -/
def numNeg (r : Rep) (a : Num) : C Num :=
  match r, a with
  | .int t, .i x => do
    let z ← t.promote.arith (-x)
    .ok (.i z)
  | .flt _, .f x => .ok (.f (-x))
  | _, _ => .error .rejected

/-- The promoted type: the type of `+a` and `-a`. -/
def Rep.promote : Rep → Rep
  | .int t => .int t.promote
  | .flt f => .flt f

/-- `detail::fpow10<Rep>`, src/core/include/units/bits/pow.h:42-59: the loop on the remaining number of
steps, dividing or multiplying by ten. -/
def fpow10Loop (fl : Rounding) (f : FltTy) (op : BinOp) : Nat → ℚ → C ℚ
  | 0, result => .ok result
  | k + 1, result => do
    let r ← fltOp fl f op result 10
    fpow10Loop fl f op k r

/-- `detail::fpow10<Rep>`, src/core/include/units/bits/pow.h:42-59. -/
def fpow10 (fl : Rounding) (f : FltTy) (exp : Int) : C ℚ :=
  if exp = 0 then .ok 1
  else if exp < 0 then fpow10Loop fl f .div exp.natAbs 1
  else fpow10Loop fl f .mul exp.natAbs 1

/-- `cast_traits<From, To>::rep_type` (and `ratio_type`) for arithmetic types,
src/core/include/units/quantity_cast.h:80-88. -/
def castRep (a b : Rep) : Rep := (a.common b).common (.int .i64)

/-- The integral branch of `quantity_cast`, src/core/include/units/quantity_cast.h:127-138, before the
final conversion; `v` has been converted to `rep_type = t`. -/
def castInt (t : IntTy) (c : Ratio) (v : Int) : C Int :=
  if c.exp > 0 then do
    let p ← ipow10 c.exp
    let n ← intOp t .mul (t.wrap c.num) (t.wrap p)
    let m ← intOp t .mul v n
    intOp t .div m (t.wrap c.den)
  else do
    let m ← intOp t .mul v (t.wrap c.num)
    let e ← neg64 c.exp
    let p ← ipow10 e
    let d ← intOp t .mul (t.wrap c.den) (t.wrap p)
    intOp t .div m d

/-- The floating point branch of `quantity_cast`, src/core/include/units/quantity_cast.h:123-126, before
the final conversion. -/
def castFlt (fl : Rounding) (f : FltTy) (c : Ratio) (v : ℚ) : C ℚ := do
  let p ← fpow10 fl f c.exp
  let a ← fltOp fl f .mul (fl f c.num) p
  let b ← fltOp fl f .div a (fl f c.den)
  fltOp fl f .mul v b

/-- The number computed by `quantity_cast`, src/core/include/units/quantity_cast.h:114-139. -/
def castNum (fl : Rounding) (src dst : Rep) (c : Ratio) (v : Num) : C Num := do
  let v' ← convNum fl src (castRep src dst) v
  match castRep src dst, v' with
  | .int t, .i x => do
    let y ← castInt t c x
    convNum fl (.int t) dst (.i y)
  | .flt f, .f x => do
    let y ← castFlt fl f c x
    convNum fl (.flt f) dst (.f y)
  | _, _ => .error .rejected

/-! ### Helper lemmas: integral types -/

/-- A value has the given type. -/
def Num.Typed (r : Rep) : Num → Prop
  | .i x => ∃ t, r = .int t ∧ t.In x
  | .f _ => ∃ f, r = .flt f

namespace IntTy

theorem bits_pos (t : IntTy) : 0 < t.bits := by cases t <;> decide

theorem span (t : IntTy) : t.hi - t.lo + 1 = 2 ^ t.bits := by cases t <;> decide

theorem wrap_in (t : IntTy) (x : Int) : t.In (t.wrap x) := by
  have h1 : (0 : Int) < 2 ^ t.bits := by positivity
  have h2 := Int.emod_nonneg (x - t.lo) h1.ne'
  have h3 := Int.emod_lt_of_pos (x - t.lo) h1
  have h4 := t.span
  unfold In wrap
  constructor <;> omega

theorem wrap_of_in {t : IntTy} {x : Int} (h : t.In x) : t.wrap x = x := by
  unfold wrap
  have h4 := t.span
  rw [Int.emod_eq_of_lt (by unfold In at h; omega) (by unfold In at h; omega)]
  omega

theorem arith_eq_ok {t : IntTy} {x y : Int} :
    t.arith x = .ok y ↔ (t.signed = true ∧ t.In x ∧ y = x) ∨ (t.signed = false ∧ y = t.wrap x) := by
  unfold arith
  cases hs : t.signed
  · simp [eq_comm]
  · by_cases hx : t.In x
    · simp [hx, eq_comm]
    · simp [hx]

theorem arith_of_in {t : IntTy} {x y : Int} (h : t.arith x = .ok y) (hx : t.signed = false → t.In x) : y = x := by
  rcases arith_eq_ok.mp h with ⟨-, -, h⟩ | ⟨h1, h⟩
  · exact h
  · rw [h, wrap_of_in (hx h1)]

theorem arith_in {t : IntTy} {x y : Int} (h : t.arith x = .ok y) : t.In y := by
  rcases arith_eq_ok.mp h with ⟨-, h, rfl⟩ | ⟨-, rfl⟩
  · exact h
  · exact wrap_in t x

theorem i64_in {x : Int} : IntTy.i64.In x ↔ I64 x := by
  unfold In I64 lo hi intMin intMax; simp [signed, bits]

end IntTy

theorem castRep_int (a b : IntTy) :
    castRep (.int a) (.int b) = .int (if a = .u64 ∨ b = .u64 then .u64 else .i64) := by
  cases a <;> cases b <;> decide

theorem castRep_flt {a b : Rep} (h : a.floating = true ∨ b.floating = true) :
    ∃ f, castRep a b = .flt f := by
  rcases a with a | a <;> rcases b with b | b
  · simp [Rep.floating] at h
  · refine ⟨b, ?_⟩; cases b <;> cases a <;> decide
  · refine ⟨a, ?_⟩; cases b <;> cases a <;> decide
  · cases a <;> cases b <;> exact ⟨_, rfl⟩

/-- Numerator and denominator of a ratio without power of ten. -/
def Ratio.N (c : Ratio) : Int := c.num * 10 ^ c.exp.toNat
/-- See `Ratio.N`. -/
def Ratio.D (c : Ratio) : Int := c.den * 10 ^ (-c.exp).toNat

theorem Ratio.val_eq (c : Ratio) : c.val = (c.N : ℚ) / c.D := by
  unfold Ratio.val Ratio.N Ratio.D
  rcases le_total 0 c.exp with h | h
  · obtain ⟨k, hk⟩ := Int.eq_ofNat_of_zero_le h
    rw [hk]
    have : (-(k : Int)).toNat = 0 := by omega
    rw [this]
    push_cast
    simp
    ring
  · obtain ⟨k, hk⟩ := Int.eq_ofNat_of_zero_le (show 0 ≤ -c.exp by omega)
    have hk' : c.exp = -(k : Int) := by omega
    rw [hk']
    have : (-(k : Int)).toNat = 0 := by omega
    rw [this, neg_neg]
    push_cast
    simp
    rw [← div_eq_mul_inv, div_div]

theorem Ratio.D_pos {c : Ratio} (h : c.WF) : 0 < c.D := by
  have := h.den_pos
  unfold Ratio.D; positivity

theorem Ratio.N_pos {c : Ratio} (h : 0 < c.num) : 0 < c.N := by
  unfold Ratio.N; positivity

/-- None of the intermediate results of the unsigned computation wraps. -/
def CastFits (t : IntTy) (c : Ratio) (v : Int) : Prop := t.In c.N ∧ t.In c.D ∧ t.In (v * c.N)

theorem tdiv_in {t : IntTy} (hs : t.signed = false) {a b : Int} (ha : t.In a) (hb : 0 < b) : t.In (a.tdiv b) := by
  unfold IntTy.In at *
  have hlo : t.lo = 0 := by unfold IntTy.lo; simp [hs]
  rw [hlo] at ha ⊢
  rw [Int.tdiv_eq_ediv_of_nonneg ha.1]
  exact ⟨Int.ediv_nonneg ha.1 hb.le, (Int.ediv_le_self _ ha.1).trans ha.2⟩

/-- The integral branch divides the exact product once. -/
theorem castInt_sound {t : IntTy} (ht : t = .i64 ∨ t = .u64) {c : Ratio} (hc : c.WF) (hp : 0 < c.num)
    {v y : Int} (hfit : t = .u64 → CastFits t c v) (h : castInt t c v = .ok y) :
    y = (v * c.N).tdiv c.D := by
  have hI : ∀ x, I64 x → 0 ≤ x → t.In x := by
    intro x hx h0
    rcases ht with rfl | rfl
    · exact IntTy.i64_in.mpr hx
    · unfold I64 intMax at hx
      unfold IntTy.In IntTy.lo IntTy.hi; simp [IntTy.signed, IntTy.bits]; omega
  have hsig : t.signed = false → t = .u64 := by rcases ht with rfl | rfl <;> simp [IntTy.signed]
  have hnum : t.wrap c.num = c.num := IntTy.wrap_of_in (hI _ hc.num_range.1 hp.le)
  have hden : t.wrap c.den = c.den := IntTy.wrap_of_in (hI _ hc.den_I64 hc.den_pos.le)
  have hDp := Ratio.D_pos hc
  unfold castInt at h
  split at h
  · rename_i he
    simp only [bind_ok, ipow10_eq_ok, intOp] at h
    obtain ⟨p, ⟨-, hpI, rfl⟩, n, hn, m, hm, h⟩ := h
    have hpw : t.wrap (10 ^ c.exp.toNat) = 10 ^ c.exp.toNat := IntTy.wrap_of_in (hI _ hpI (by positivity))
    have hN : c.num * 10 ^ c.exp.toNat = c.N := rfl
    have hD : c.den = c.D := by
      unfold Ratio.D
      have : (-c.exp).toNat = 0 := by omega
      rw [this]; simp
    rw [hnum, hpw, hN] at hn
    have hn' := IntTy.arith_of_in hn fun hs => (hfit (hsig hs)).1
    subst hn'
    have hm' := IntTy.arith_of_in hm fun hs => (hfit (hsig hs)).2.2
    subst hm'
    rw [hden, hD, if_neg hDp.ne'] at h
    exact IntTy.arith_of_in h fun hs => tdiv_in hs (hfit (hsig hs)).2.2 hDp
  · rename_i he
    simp only [bind_ok, ipow10_eq_ok, intOp, neg64_eq_ok] at h
    obtain ⟨m, hm, e, ⟨-, rfl⟩, p, ⟨-, hpI, rfl⟩, d, hd, h⟩ := h
    have hpw : t.wrap (10 ^ (-c.exp).toNat) = 10 ^ (-c.exp).toNat := IntTy.wrap_of_in (hI _ hpI (by positivity))
    have hD : c.den * 10 ^ (-c.exp).toNat = c.D := rfl
    have hN : c.num = c.N := by
      unfold Ratio.N
      have : c.exp.toNat = 0 := by omega
      rw [this]; simp
    rw [hnum, hN] at hm
    have hm' := IntTy.arith_of_in hm fun hs => (hfit (hsig hs)).2.2
    subst hm'
    rw [hden, hpw, hD] at hd
    have hd' := IntTy.arith_of_in hd fun hs => (hfit (hsig hs)).2.1
    subst hd'
    rw [if_neg hDp.ne'] at h
    exact IntTy.arith_of_in h fun hs => tdiv_in hs (hfit (hsig hs)).2.2 hDp

end Verif
