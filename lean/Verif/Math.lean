import Verif.Quantity

/-!
# `units/math.h`: powers, roots, exponential, absolute value
-/

namespace Verif

open Ratio

/-- The functions of `<cmath>` used by src/core/include/units/math.h, per floating point type.  They are a
parameter of the model: the theorems say what they need of them. -/
structure Libm where
  pow : FltTy → ℚ → ℚ → C ℚ
  sqrt : FltTy → ℚ → C ℚ
  cbrt : FltTy → ℚ → C ℚ
  exp : FltTy → ℚ → C ℚ

/-- The type in which `std::sqrt(x)` and the like compute: the type of a floating point argument, `double`
for an integral one ([cmath.syn]). -/
def Rep.libm : Rep → FltTy
  | .int _ => .f64
  | .flt f => f

/-- The type in which `std::pow(x, y)` computes when `y` is a `double` ([cmath.syn]). -/
def Rep.libm2 : Rep → FltTy
  | .int _ => .f64
  | .flt .f32 => .f64
  | .flt f => f

/-- A call of a unary function of `<cmath>` with a value of type `r`. -/
def libm1 (fl : Rounding) (f : FltTy → ℚ → C ℚ) (r : Rep) (v : Num) : C Num := do
  let x ← convNum fl r (.flt r.libm) v
  let y ← f r.libm x.q
  .ok (.f y)

/-- `std::pow(v, static_cast<double>(Num) / static_cast<double>(Den))`, src/core/include/units/math.h:61. -/
def libmPow (fl : Rounding) (L : Libm) (num den : Int) (r : Rep) (v : Num) : C Num := do
  let x ← convNum fl r (.flt r.libm2) v
  let e ← fltOp fl .f64 .div (fl .f64 num) (fl .f64 den)
  let e' ← convNum fl (.flt .f64) (.flt r.libm2) (.f e)
  let y ← L.pow r.libm2 x.q e'.q
  .ok (.f y)

/-- The number one of a representation type, `rep(1)`. -/
def Rep.one : Rep → Num
  | .int _ => .i 1
  | .flt _ => .f 1

/-- `pow<Num, Den>(q)`, src/core/include/units/math.h:50-63: a plain number for `Num == 0`, otherwise a
quantity. -/
def powQty (E : Env) (L : Libm) (num den : Int) (q : Qty) : C (Num ⊕ Qty) :=
  if den = 0 then .error .rejected
  else if num = 0 then .ok (.inl q.ty.rep.one)
  else do
    let d ← dimPow E.dims q.ty.dim num den
    let p ← powR E.est num den q.ty.unit.ratio
    let u ← downcastUnit E.units d p
    let x ← libmPow E.fl L num den q.ty.rep q.num
    let y ← convNum E.fl (.flt q.ty.rep.libm2) q.ty.rep x
    .ok (.inr ⟨⟨d, u, q.ty.rep⟩, y⟩)

/-- `sqrt(q)`, src/core/include/units/math.h:73-81. -/
def sqrtQty (E : Env) (L : Libm) (q : Qty) : C Qty := do
  let d ← dimPow E.dims q.ty.dim 1 2
  let p ← sqrtR E.est q.ty.unit.ratio
  let u ← downcastUnit E.units d p
  let x ← libm1 E.fl L.sqrt q.ty.rep q.num
  let y ← convNum E.fl (.flt q.ty.rep.libm) q.ty.rep x
  .ok ⟨⟨d, u, q.ty.rep⟩, y⟩

/-- `cbrt(q)`, src/core/include/units/math.h:91-99. -/
def cbrtQty (E : Env) (L : Libm) (q : Qty) : C Qty := do
  let d ← dimPow E.dims q.ty.dim 1 3
  let p ← cbrtR E.est q.ty.unit.ratio
  let u ← downcastUnit E.units d p
  let x ← libm1 E.fl L.cbrt q.ty.rep q.num
  let y ← convNum E.fl (.flt q.ty.rep.libm) q.ty.rep x
  .ok ⟨⟨d, u, q.ty.rep⟩, y⟩

/-- `exp(q)`, src/core/include/units/math.h:109-113; the parameter is a `dimensionless<U, Rep>`,
src/core/include/units/generic/dimensionless.h:47-48. -/
def expQty (E : Env) (L : Libm) (q : Qty) : C Qty :=
  if q.ty.dim = .named dimOne then do
    let a ← quantityCast E ⟨.named dimOne, unitOne, q.ty.rep⟩ q
    let x ← libm1 E.fl L.exp q.ty.rep a.num
    let b ← mkQty E ⟨.named dimOne, unitOne, q.ty.rep⟩ (.flt q.ty.rep.libm) x
    quantityCast E ⟨.named dimOne, q.ty.unit, q.ty.rep⟩ b
  else .error .rejected

/-- `std::abs(x)` with its result type: the overloads for `int`, `long`, `long long` and the floating point
types ([c.math.abs]); with an unsigned type not narrower than `int` the call is ambiguous. -/
def stdAbs (r : Rep) (v : Num) : C (Rep × Num) :=
  match r, v with
  | .int t, .i x =>
    if t.promote.signed then do
      let y ← t.promote.arith |x|
      .ok (.int t.promote, .i y)
    else .error .rejected
  | .flt f, .f x => .ok (.flt f, .f |x|)
  | _, _ => .error .rejected

/-- `abs(q)`, src/core/include/units/math.h:121-126. -/
def absQty (E : Env) (q : Qty) : C Qty := do
  let (r, x) ← stdAbs q.ty.rep q.num
  mkQty E q.ty r x

/-- `std::numeric_limits<rep>::epsilon()`: zero for integral types, the distance from one to the next
number for floating point types (binary32, binary64 and the 80-bit extended format). -/
def Rep.epsilon : Rep → Num
  | .int _ => .i 0
  | .flt .f32 => .f (1 / 2 ^ 23)
  | .flt .f64 => .f (1 / 2 ^ 52)
  | .flt .f80 => .f (1 / 2 ^ 63)

/-- `epsilon<Q>()`, src/core/include/units/math.h:136-141. -/
def epsilonQty (E : Env) (t : QTy) : C Qty := mkQty E t t.rep t.rep.epsilon

end Verif
