import Verif.Ieee

/-!
# Sums and comparisons of quantities with IEEE numbers
-/

namespace Verif

namespace FVal

/-- The sign of a finite value or an infinity is changed. -/
def neg : FVal → FVal
  | fin s a => fin (!s) a
  | inf s => inf (!s)
  | nan => nan

/-- `a + b`, src/core/include/units/quantity.h:404.  The exact sum zero is positive, except for a sum of negative zeros. -/
def add (f : FltTy) : FVal → FVal → FVal
  | nan, _ => nan
  | _, nan => nan
  | inf s, inf t => if s = t then inf s else nan
  | inf s, fin _ _ => inf s
  | fin _ _, inf t => inf t
  | fin s a, fin t b =>
    let x := (fin s a).q + (fin t b).q
    if x = 0 then fin (s && t) 0 else round f (x < 0) |x|

/-- `a - b`, src/core/include/units/quantity.h:412. -/
def sub (f : FltTy) (a b : FVal) : FVal := add f a b.neg

/-- `a <=> b`, src/core/include/units/quantity.h:385, 446: `none` is `std::partial_ordering::unordered`. -/
def cmp : FVal → FVal → Option Ordering
  | nan, _ => none
  | _, nan => none
  | inf s, inf t => if s = t then some .eq else if s then some .lt else some .gt
  | inf s, fin _ _ => if s then some .lt else some .gt
  | fin _ _, inf t => if t then some .gt else some .lt
  | fin s a, fin t b =>
    if (fin s a).q < (fin t b).q then some .lt else if (fin s a).q = (fin t b).q then some .eq else some .gt

end FVal

/-- `a <=> b` on two values of one arithmetic type, src/core/include/units/quantity.h:385, 446. -/
def FNum.cmp : FNum → FNum → C (Option Ordering)
  | .i a, .i b => .ok (some (if a < b then .lt else if a = b then .eq else .gt))
  | .f a, .f b => .ok (a.cmp b)
  | _, _ => .error .rejected

/-- `a + b` or `a - b` on two values of the arithmetic type `r`, src/core/include/units/quantity.h:404, 412. -/
def addSubNumI (r : Rep) (sub : Bool) (a b : FNum) : C FNum :=
  match r, a, b with
  | .int t, .i x, .i y => do
    let z ← intOp t (if sub then .sub else .add) x y
    .ok (.i z)
  | .flt f, .f x, .f y => .ok (.f (if sub then x.sub f y else x.add f y))
  | _, _, _ => .error .rejected

/-- Initialisation of a quantity from another one: a copy, or the converting constructor of
src/core/include/units/quantity.h:155-156. -/
def convertQtyI (E : Env) (t : QTy) (q : QtyI) : C QtyI :=
  if q.ty = t then .ok q
  else do
    let safe ← safeCastable E q.ty t
    if safe then quantityCastI E.est t q else .error .rejected

/-- `operator+` and `operator-` on quantities, src/core/include/units/quantity.h:399-413. -/
def addSubI (E : Env) (sub : Bool) (a b : QtyI) : C QtyI := do
  let t ← commonQty E a.ty b.ty (a.ty.rep.arith b.ty.rep)
  let x ← convertQtyI E t a
  let y ← convertQtyI E t b
  let z ← addSubNumI t.rep sub x.num y.num
  .ok ⟨t, z⟩

/-- `operator<=>`, src/core/include/units/quantity.h:378-386, 441-447. -/
def compareQtyI (E : Env) (a b : QtyI) : C (Option Ordering) :=
  if a.ty.rep.threeWay b.ty.rep then do
    let t ← commonQty E a.ty b.ty (a.ty.rep.common b.ty.rep)
    let x ← convertQtyI E t a
    let y ← convertQtyI E t b
    x.num.cmp y.num
  else .error .rejected

/-- `operator==`, src/core/include/units/quantity.h:388, 449-455. -/
def eqQtyI (E : Env) (a b : QtyI) : C Bool := do
  let t ← commonQty E a.ty b.ty (a.ty.rep.common b.ty.rep)
  let x ← convertQtyI E t a
  let y ← convertQtyI E t b
  let o ← x.num.cmp y.num
  .ok (o == some .eq)

end Verif
