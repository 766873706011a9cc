import Verif.Quantity
import Verif.ConstexprMath

/-!
# IEEE floating point with its limits: infinities, NaNs, signed zeros and denormal numbers

`Num.lean` leaves the rounding of floating point operations open and has no limits of the exponent.  Here `quantity_cast` is
modelled on the binary formats of an x86-64 platform: `float` is binary32, `double` is binary64, and `long double` is the extended format with 64
digits.  Rounding is to nearest, ties to even (the default; the library does not change it).  The sign of a NaN, its payload and the floating point
exception flags are not modelled.
-/

namespace Verif

/-- Number of binary digits of the significand: `std::numeric_limits<T>::digits`, for the representation types of
src/core/include/units/quantity_cast.h:123-126. -/
def FltTy.prec : FltTy → Int
  | .f32 => 24
  | .f64 => 53
  | .f80 => 64

/-- All finite values are below `2^emax`: `std::numeric_limits<T>::max_exponent`, for the representation types of
src/core/include/units/quantity_cast.h:123-126. -/
def FltTy.emax : FltTy → Int
  | .f32 => 128
  | .f64 => 1024
  | .f80 => 16384

/-- The least normal number is `2^emin`: `std::numeric_limits<T>::min_exponent - 1`, for the representation types of
src/core/include/units/quantity_cast.h:123-126. -/
def FltTy.emin (f : FltTy) : Int := 2 - f.emax

/-- The exponent of the last digit of a nonnegative number rounded to format `f`; the operations of
src/core/include/units/quantity_cast.h:123-126 round this way. -/
def FltTy.lastExp (f : FltTy) (x : ℚ) : Int := max (Int.log 2 x) f.emin - (f.prec - 1)

/-- The magnitude of a result rounded to nearest, ties to even; `none` stands for infinity.  Operations of
src/core/include/units/quantity_cast.h:123-126 and src/core/include/units/bits/pow.h:42-59. -/
def FltTy.rndMag (f : FltTy) (x : ℚ) : Option ℚ :=
  let y := (roundEven (x * 2 ^ (-f.lastExp x)) : ℚ) * 2 ^ f.lastExp x
  if y < 2 ^ f.emax then some y else none

/-- A floating point value: a finite number with its sign and magnitude (zero has a sign), an infinity or a NaN: the objects of
src/core/include/units/quantity_cast.h:123-126. -/
inductive FVal where
  | fin (neg : Bool) (mag : ℚ)
  | inf (neg : Bool)
  | nan
deriving DecidableEq

namespace FVal

/-- The number a finite value stands for (0 for the others). -/
def q : FVal → ℚ
  | fin true m => -m
  | fin false m => m
  | _ => 0

/-- The value with a given sign and exact magnitude, rounded: the results of the operators of src/core/include/units/quantity_cast.h:123-126. -/
def round (f : FltTy) (neg : Bool) (m : ℚ) : FVal :=
  match f.rndMag m with
  | some y => fin neg y
  | none => inf neg

/-- `a * b`, src/core/include/units/quantity_cast.h:124-125. -/
def mul (f : FltTy) : FVal → FVal → FVal
  | nan, _ => nan
  | _, nan => nan
  | inf s, inf t => inf (s != t)
  | inf s, fin t b => if b = 0 then nan else inf (s != t)
  | fin s a, inf t => if a = 0 then nan else inf (s != t)
  | fin s a, fin t b => round f (s != t) (a * b)

/-- `a / b`, src/core/include/units/quantity_cast.h:125. -/
def div (f : FltTy) : FVal → FVal → FVal
  | nan, _ => nan
  | _, nan => nan
  | inf _, inf _ => nan
  | inf s, fin t _ => inf (s != t)
  | fin s _, inf t => fin (s != t) 0
  | fin s a, fin t b => if b = 0 then (if a = 0 then nan else inf (s != t)) else round f (s != t) (a / b)

/-- Conversion of an integer, src/core/include/units/quantity_cast.h:124-125. -/
def ofInt (f : FltTy) (z : Int) : FVal := round f (z < 0) |(z : ℚ)|

/-- Conversion between floating point types, src/core/include/units/quantity_cast.h:124. -/
def conv (f : FltTy) : FVal → FVal
  | fin s a => round f s a
  | v => v

/-- Conversion to an integral type, src/core/include/units/quantity_cast.h:124: undefined unless the truncated value fits. -/
def toInt (t : IntTy) : FVal → C Int
  | fin s a => if t.In (truncQ (fin s a).q) then .ok (truncQ (fin s a).q) else .error .overflow
  | _ => .error .overflow

/-- A value of type `f`. -/
def In (f : FltTy) : FVal → Prop
  | fin _ m => 0 ≤ m ∧ f.rndMag m = some m
  | _ => True

end FVal

/-- A number: the value of an integral or of a floating point object. -/
inductive FNum where
  | i (x : Int)
  | f (x : FVal)
deriving DecidableEq

/-- The number it stands for. -/
def FNum.q : FNum → ℚ
  | .i x => x
  | .f x => x.q

/-- A value has the given type. -/
def FNum.Typed (r : Rep) : FNum → Prop
  | .i x => ∃ t, r = .int t ∧ t.In x
  | .f x => ∃ f, r = .flt f ∧ x.In f

/-- Conversion of a value of type `src` to type `dst`, src/core/include/units/quantity_cast.h:124, 129, 134. -/
def convI (src dst : Rep) (v : FNum) : C FNum :=
  if src = dst then .ok v
  else match dst, v with
    | .int t, .i x => .ok (.i (t.wrap x))
    | .int t, .f x => do
      let z ← x.toInt t
      .ok (.i z)
    | .flt f, .i x => .ok (.f (FVal.ofInt f x))
    | .flt f, .f x => .ok (.f (x.conv f))

/-- The loop of `detail::fpow10<Rep>`, src/core/include/units/bits/pow.h:48-56, on the remaining number of steps. -/
def fpow10LoopI (step : FVal → FVal → FVal) (ten : FVal) : Nat → FVal → FVal
  | 0, result => result
  | k + 1, result => fpow10LoopI step ten k (step result ten)

/-- `detail::fpow10<Rep>`, src/core/include/units/bits/pow.h:42-59. -/
def fpow10I (f : FltTy) (exp : Int) : FVal :=
  if exp = 0 then FVal.ofInt f 1
  else if exp < 0 then fpow10LoopI (FVal.div f) (FVal.ofInt f 10) exp.natAbs (FVal.ofInt f 1)
  else fpow10LoopI (FVal.mul f) (FVal.ofInt f 10) exp.natAbs (FVal.ofInt f 1)

/-- The floating point branch of `quantity_cast`, src/core/include/units/quantity_cast.h:123-126, before
the final conversion. -/
def castFltI (f : FltTy) (c : Ratio) (v : FVal) : FVal :=
  FVal.mul f v (FVal.div f (FVal.mul f (FVal.ofInt f c.num) (fpow10I f c.exp)) (FVal.ofInt f c.den))

/-- The number computed by `quantity_cast`, src/core/include/units/quantity_cast.h:114-139. -/
def castNumI (src dst : Rep) (c : Ratio) (v : FNum) : C FNum := do
  let v' ← convI src (castRep src dst) v
  match castRep src dst, v' with
  | .int t, .i x => do
    let y ← castInt t c x
    convI (.int t) dst (.i y)
  | .flt f, .f x => convI (.flt f) dst (.f (castFltI f c x))
  | _, _ => .error .rejected

/-- A quantity with an IEEE number: its type and `number_`, src/core/include/units/quantity.h:110-112. -/
structure QtyI where
  ty : QTy
  num : FNum
deriving DecidableEq

/-- The amount of a quantity. -/
noncomputable def QtyI.amount (β : String → ℝ) (q : QtyI) : ℝ := (q.num.q : ℝ) * q.ty.size β

/-- `quantity_cast`, src/core/include/units/quantity_cast.h:114-139. -/
def quantityCastI (est : RootEstimate) (t : QTy) (q : QtyI) : C QtyI := do
  let eqv ← dimEquivalent t.dim q.ty.dim
  if eqv then do
    let c ← castRatio est q.ty.dim q.ty.unit t.dim t.unit
    let x ← castNumI q.ty.rep t.rep c q.num
    .ok ⟨t, x⟩
  else .error .rejected

end Verif
