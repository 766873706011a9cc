import Verif.IeeeArith
import Verif.Math

/-!
# Products, quotients, compound assignments, negation, absolute value and square roots of quantities with IEEE numbers
-/

namespace Verif

/-- The integer nearest to the square root of a nonnegative number, ties to even: the significand of the result of `std::sqrt`,
src/core/include/units/math.h:80. -/
def roundSqrt (y : ℚ) : Int :=
  let n : Int := Nat.sqrt ⌊y⌋.toNat
  if y < ((n : ℚ) + 1 / 2) ^ 2 then n
  else if ((n : ℚ) + 1 / 2) ^ 2 < y then n + 1
  else if n % 2 = 0 then n else n + 1

/-- The square root of a positive number rounded to nearest, ties to even (IEEE 754 requires `std::sqrt` to be correctly rounded),
src/core/include/units/math.h:80.  The root of a finite number is neither denormal nor too large. -/
def FltTy.sqrtMag (f : FltTy) (x : ℚ) : ℚ :=
  let e := Int.log 2 x / 2 - (f.prec - 1)
  (roundSqrt (x * 2 ^ (-(2 * e))) : ℚ) * 2 ^ e

namespace FVal

/-- `std::sqrt(a)`, src/core/include/units/math.h:80. -/
def sqrt (f : FltTy) : FVal → FVal
  | nan => nan
  | inf s => if s then nan else inf false
  | fin s a => if a = 0 then fin s 0 else if s then nan else fin false (f.sqrtMag a)

/-- `std::abs(a)`, src/core/include/units/math.h:125. -/
def abs : FVal → FVal
  | nan => nan
  | inf _ => inf false
  | fin _ a => fin false a

/-- `a op b` on two values of a floating point type, src/core/include/units/quantity.h:189-256, 325-355, 404-427; there is no `%`. -/
def op (f : FltTy) : BinOp → FVal → FVal → C FVal
  | .add, a, b => .ok (add f a b)
  | .sub, a, b => .ok (sub f a b)
  | .mul, a, b => .ok (mul f a b)
  | .div, a, b => .ok (div f a b)
  | .mod, _, _ => .error .rejected

end FVal

/-- `a op b` on two values of the same type, src/core/include/units/quantity.h:189-285, 325-375, 404-438. -/
def sameOpI (r : Rep) (op : BinOp) (a b : FNum) : C FNum :=
  match r, a, b with
  | .int t, .i x, .i y => do
    let z ← intOp t op x y
    .ok (.i z)
  | .flt f, .f x, .f y => do
    let z ← FVal.op f op x y
    .ok (.f z)
  | _, _, _ => .error .rejected

/-- `a op b` with the usual arithmetic conversions, src/core/include/units/quantity.h:189-285, 325-375, 404-438. -/
def numOpI (op : BinOp) (ra rb : Rep) (a b : FNum) : C FNum := do
  let x ← convI ra (ra.arith rb) a
  let y ← convI rb (ra.arith rb) b
  sameOpI (ra.arith rb) op x y

/-- `operator*` on quantities, src/core/include/units/quantity.h:415-420 (and `make_quantity`, lines 42-46). -/
def mulQtyI (E : Env) (a b : QtyI) : C QtyI := do
  let (d, u) ← refMultiply E a.ty.dim a.ty.unit b.ty.dim b.ty.unit
  let z ← numOpI .mul a.ty.rep b.ty.rep a.num b.num
  .ok ⟨⟨d, u, a.ty.rep.arith b.ty.rep⟩, z⟩

/-- `operator/` on quantities, src/core/include/units/quantity.h:422-428.  The precondition that the divisor is not zero is an audit
(`gsl_ExpectsAudit`), which is not checked unless asked for. -/
def divQtyI (E : Env) (a b : QtyI) : C QtyI := do
  let (d, u) ← refDivide E a.ty.dim a.ty.unit b.ty.dim b.ty.unit
  let z ← numOpI .div a.ty.rep b.ty.rep a.num b.num
  .ok ⟨⟨d, u, a.ty.rep.arith b.ty.rep⟩, z⟩

/-- `q * v` and `q / v` with a number, src/core/include/units/quantity.h:319-326, 337-345. -/
def scaleQtyI (op : BinOp) (q : QtyI) (r : Rep) (v : FNum) : C QtyI := do
  let z ← numOpI op q.ty.rep r q.num v
  .ok ⟨⟨q.ty.dim, q.ty.unit, q.ty.rep.arith r⟩, z⟩

/-- `v * q`, src/core/include/units/quantity.h:328-335. -/
def scaleQtyLeftI (r : Rep) (v : FNum) (q : QtyI) : C QtyI := do
  let z ← numOpI .mul r q.ty.rep v q.num
  .ok ⟨⟨q.ty.dim, q.ty.unit, r.arith q.ty.rep⟩, z⟩

/-- `v / q`, src/core/include/units/quantity.h:347-357. -/
def recipQtyI (E : Env) (r : Rep) (v : FNum) (q : QtyI) : C QtyI := do
  let d ← dimInvert E.dims q.ty.dim
  let i ← Ratio.inverse q.ty.unit.ratio
  let u ← downcastUnit E.units d i
  let z ← numOpI .div r q.ty.rep v q.num
  .ok ⟨⟨d, u, r.arith q.ty.rep⟩, z⟩

/-- The built-in compound assignment `x op= y`, src/core/include/units/quantity.h:189, 202, 215, 222, 230, 246. -/
def compoundI (op : BinOp) (r r2 : Rep) (a b : FNum) : C FNum := do
  let z ← numOpI op r r2 a b
  convI (r.arith r2) r z

/-- `q *= v` and `q /= v` for a number, src/core/include/units/quantity.h:226-232, 241-248. -/
def assignNumI (op : BinOp) (q : QtyI) (r : Rep) (v : FNum) : C QtyI := do
  let z ← compoundI op q.ty.rep r q.num v
  .ok ⟨q.ty, z⟩

/-- `q += r` and `q -= r` for an argument that converts to the type of `q`, src/core/include/units/quantity.h:212-224. -/
def assignQtyI (E : Env) (op : BinOp) (q r : QtyI) : C QtyI := do
  let r' ← convertQtyI E q.ty r
  let z ← compoundI op q.ty.rep q.ty.rep q.num r'.num
  .ok ⟨q.ty, z⟩

/-- `++q` and `--q`, src/core/include/units/quantity.h:186-191, 199-204: `1` is an `int`. -/
def incDecI (op : BinOp) (q : QtyI) : C QtyI := do
  let z ← compoundI op q.ty.rep (.int .i32) q.num (.i 1)
  .ok ⟨q.ty, z⟩

/-- `-q`, src/core/include/units/quantity.h:179-184. -/
def negQtyI (q : QtyI) : C QtyI :=
  match q.ty.rep, q.num with
  | .int t, .i x => do
    let z ← t.promote.arith (-x)
    .ok ⟨⟨q.ty.dim, q.ty.unit, .int t.promote⟩, .i z⟩
  | .flt f, .f x => .ok ⟨⟨q.ty.dim, q.ty.unit, .flt f⟩, .f x.neg⟩
  | _, _ => .error .rejected

/-- `abs(q)` of a floating point quantity, src/core/include/units/math.h:121-126 (for integers see `absQty`). -/
def absQtyI (q : QtyI) : C QtyI :=
  match q.num with
  | .f x => .ok ⟨q.ty, .f x.abs⟩
  | .i _ => .error .rejected

/-- `sqrt(q)`, src/core/include/units/math.h:73-81. -/
def sqrtQtyI (E : Env) (q : QtyI) : C QtyI := do
  let d ← dimPow E.dims q.ty.dim 1 2
  let p ← sqrtR E.est q.ty.unit.ratio
  let u ← downcastUnit E.units d p
  let x ← convI q.ty.rep (.flt q.ty.rep.libm) q.num
  match x with
  | .f v => do
    let y ← convI (.flt q.ty.rep.libm) q.ty.rep (.f (v.sqrt q.ty.rep.libm))
    .ok ⟨⟨d, u, q.ty.rep⟩, y⟩
  | .i _ => .error .rejected

end Verif
