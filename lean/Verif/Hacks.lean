import Verif.Num

/-!
# `units/bits/external/hacks.h`: comparison of integers of different types

The functions of this header that are not mere aliases.  The integral types are the ones of `Verif.Num`.
-/

namespace Verif

/-- `std::make_unsigned_t`. -/
def IntTy.unsigned : IntTy → IntTy
  | .i8 | .u8 => .u8
  | .i16 | .u16 => .u16
  | .i32 | .u32 => .u32
  | .i64 | .u64 => .u64

/-- The built-in `t == u`: both operands are converted to the common arithmetic type. -/
def builtinEq (T U : IntTy) (t u : Int) : Bool :=
  let c := T.promote.usual U.promote
  c.wrap t == c.wrap u

/-- The built-in `t < u`. -/
def builtinLt (T U : IntTy) (t u : Int) : Bool :=
  let c := T.promote.usual U.promote
  decide (c.wrap t < c.wrap u)

/-- `cmp_equal`, src/core/include/units/bits/external/hacks.h:155-166. -/
def cmpEqual (T U : IntTy) (t u : Int) : Bool :=
  if T.signed = U.signed then builtinEq T U t u
  else if T.signed then (if builtinLt T .i32 t 0 then false else builtinEq T.unsigned U (T.unsigned.wrap t) u)
  else (if builtinLt U .i32 u 0 then false else builtinEq T U.unsigned t (U.unsigned.wrap u))

/-- `cmp_not_equal`, src/core/include/units/bits/external/hacks.h:168-172. -/
def cmpNotEqual (T U : IntTy) (t u : Int) : Bool := !cmpEqual T U t u

/-- `cmp_less`, src/core/include/units/bits/external/hacks.h:174-185. -/
def cmpLess (T U : IntTy) (t u : Int) : Bool :=
  if T.signed = U.signed then builtinLt T U t u
  else if T.signed then (if builtinLt T .i32 t 0 then true else builtinLt T.unsigned U (T.unsigned.wrap t) u)
  else (if builtinLt U .i32 u 0 then false else builtinLt T U.unsigned t (U.unsigned.wrap u))

/-- `cmp_greater`, src/core/include/units/bits/external/hacks.h:187-191. -/
def cmpGreater (T U : IntTy) (t u : Int) : Bool := cmpLess U T u t

/-- `cmp_less_equal`, src/core/include/units/bits/external/hacks.h:193-197. -/
def cmpLessEqual (T U : IntTy) (t u : Int) : Bool := !cmpGreater T U t u

/-- `cmp_greater_equal`, src/core/include/units/bits/external/hacks.h:199-203. -/
def cmpGreaterEqual (T U : IntTy) (t u : Int) : Bool := !cmpLess T U t u

/-- `in_range`, src/core/include/units/bits/external/hacks.h:205-210. -/
def inRange (R T : IntTy) (t : Int) : Bool := cmpGreaterEqual T R t R.lo && cmpLessEqual T R t R.hi

end Verif
