import Verif.IeeeOps

/-!
# Powers, cube roots and exponentials of quantities with IEEE numbers

src/core/include/units/math.h
-/

namespace Verif

/-- The functions of `<cmath>` that IEEE 754 does not determine, called in src/core/include/units/math.h:61, 98, 112.  They are a
parameter of the model: the theorems say how accurate they have to be. -/
structure LibmI where
  pow : FltTy → FVal → FVal → FVal
  cbrt : FltTy → FVal → FVal
  exp : FltTy → FVal → FVal

/-- `rep(1)`, src/core/include/units/math.h:56. -/
def Rep.oneI : Rep → FNum
  | .int _ => .i 1
  | .flt f => .f (FVal.ofInt f 1)

/-- The exponent `static_cast<double>(Num) / static_cast<double>(Den)`, src/core/include/units/math.h:61. -/
def powExponent (num den : Int) : FVal := FVal.div .f64 (FVal.ofInt .f64 num) (FVal.ofInt .f64 den)

/-- `static_cast<rep>(std::pow(v, Num / Den))`, src/core/include/units/math.h:61; the call computes in the type of [cmath.syn], `Rep.libm2`. -/
def powNumI (L : LibmI) (num den : Int) (r : Rep) (v : FNum) : C FNum := do
  let x ← convI r (.flt r.libm2) v
  let e ← convI (.flt .f64) (.flt r.libm2) (.f (powExponent num den))
  match x, e with
  | .f x, .f e => convI (.flt r.libm2) r (.f (L.pow r.libm2 x e))
  | _, _ => .error .rejected

/-- `pow<Num, Den>(q)`, src/core/include/units/math.h:50-63. -/
def powQtyI (E : Env) (L : LibmI) (num den : Int) (q : QtyI) : C (FNum ⊕ QtyI) :=
  if den = 0 then .error .rejected
  else if num = 0 then .ok (.inl q.ty.rep.oneI)
  else do
    let d ← dimPow E.dims q.ty.dim num den
    let p ← powR E.est num den q.ty.unit.ratio
    let u ← downcastUnit E.units d p
    let y ← powNumI L num den q.ty.rep q.num
    .ok (.inr ⟨⟨d, u, q.ty.rep⟩, y⟩)

/-- `static_cast<rep>(std::cbrt(v))`, src/core/include/units/math.h:98. -/
def cbrtNumI (L : LibmI) (r : Rep) (v : FNum) : C FNum := do
  let x ← convI r (.flt r.libm) v
  match x with
  | .f x => convI (.flt r.libm) r (.f (L.cbrt r.libm x))
  | .i _ => .error .rejected

/-- `cbrt(q)`, src/core/include/units/math.h:91-99. -/
def cbrtQtyI (E : Env) (L : LibmI) (q : QtyI) : C QtyI := do
  let d ← dimPow E.dims q.ty.dim 1 3
  let p ← cbrtR E.est q.ty.unit.ratio
  let u ← downcastUnit E.units d p
  let y ← cbrtNumI L q.ty.rep q.num
  .ok ⟨⟨d, u, q.ty.rep⟩, y⟩

/-- `exp(q)` for a floating point representation, src/core/include/units/math.h:109-113; the parameter is a `dimensionless<U, Rep>`,
src/core/include/units/generic/dimensionless.h:47-48.  With an integral one the initialisation of the intermediate `dimensionless<one, Rep>`
from a `double` does not compile (`expQty`). -/
def expQtyI (E : Env) (L : LibmI) (q : QtyI) : C QtyI :=
  if q.ty.dim = .named dimOne then do
    let a ← quantityCastI E.est ⟨.named dimOne, unitOne, q.ty.rep⟩ q
    match q.ty.rep, a.num with
    | .flt f, .f x => quantityCastI E.est ⟨.named dimOne, q.ty.unit, q.ty.rep⟩ ⟨⟨.named dimOne, unitOne, q.ty.rep⟩, .f (L.exp f x)⟩
    | _, _ => .error .rejected
  else .error .rejected

end Verif
