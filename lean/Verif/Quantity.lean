import Verif.Size
import Verif.Num

/-!
# `units/quantity.h`, `units/quantity_cast.h`, `units/reference.h`: quantities
-/

namespace Verif

open Ratio

/-- What an evaluation depends on besides its operands: the floating point root estimate, the children
known to the downcasting facility (dimensions and units) and the floating point rounding. -/
structure Env where
  est : RootEstimate
  dims : DimReg
  units : UnitReg
  fl : Rounding

/-- A quantity type `quantity<D, U, Rep>`, src/core/include/units/quantity.h:110-119. -/
structure QTy where
  dim : Dim
  unit : MUnit
  rep : Rep
deriving DecidableEq

/-- A quantity: its type and `number_`, src/core/include/units/quantity.h:110-112. -/
structure Qty where
  ty : QTy
  num : Num
deriving DecidableEq

/-- `units::one`, src/core/include/units/generic/dimensionless.h:33. -/
def unitOne : MUnit := ⟨.named "units::one", Ratio.one, "units::one", [.scaled Ratio.one "units::one"], true, "", none⟩

/-- `dim_one`, src/core/include/units/generic/dimensionless.h:42. -/
def dimOne : NamedDim := ⟨"units::dim_one", [], unitOne⟩

/-- `quantity(Value&& v)`, src/core/include/units/quantity.h:150-153 with `safe_convertible_to_`
(lines 55-60). -/
def mkQty (E : Env) (t : QTy) (r : Rep) (v : Num) : C Qty :=
  if t.rep.floating ∨ ¬ r.floating then do
    let x ← convNum E.fl r t.rep v
    .ok ⟨t, x⟩
  else .error .rejected

/-- `quantity_cast<To>(q)`, src/core/include/units/quantity_cast.h:114-139. -/
def quantityCast (E : Env) (t : QTy) (q : Qty) : C Qty := do
  let eqv ← dimEquivalent t.dim q.ty.dim
  if eqv then do
    let c ← castRatio E.est q.ty.dim q.ty.unit t.dim t.unit
    let x ← castNum E.fl q.ty.rep t.rep c q.num
    .ok ⟨t, x⟩
  else .error .rejected

/-- `harmonic_<QFrom, QTo>`, src/core/include/units/quantity.h:63-67. -/
def harmonic (E : Env) (src dst : QTy) : C Bool := do
  let r1 ← quantityRatio E.est src.dim src.unit
  let r2 ← quantityRatio E.est dst.dim dst.unit
  let x ← Ratio.div r1 r2
  isIntegral x

/-- `safe_castable_to_<QFrom, QTo>`, src/core/include/units/quantity.h:69-74. -/
def safeCastable (E : Env) (src dst : QTy) : C Bool := do
  let eqv ← dimEquivalent dst.dim src.dim
  if eqv then
    if dst.rep.floating then .ok true
    else if src.rep.floating then .ok false
    else harmonic E src dst
  else .ok false

/-- Initialisation of a quantity from another one: a copy, or the converting constructor of
src/core/include/units/quantity.h:155-156. -/
def convertQty (E : Env) (t : QTy) (q : Qty) : C Qty :=
  if q.ty = t then .ok q
  else do
    let safe ← safeCastable E q.ty t
    if safe then quantityCast E t q else .error .rejected

/-- `common_quantity<Q1, Q2, Rep>`, src/core/include/units/bits/common_quantity.h:45-77 with the
constraint `QuantityEquivalentTo`. -/
def commonQty (E : Env) (q1 q2 : QTy) (r : Rep) : C QTy := do
  let eqv ← dimEquivalent q2.dim q1.dim
  if eqv then do
    let (d, u) ← commonUnit E.est E.units q1.dim q1.unit q2.dim q2.unit
    .ok ⟨d, u, r⟩
  else .error .rejected

/-- `operator+` and `operator-` on quantities, src/core/include/units/quantity.h:399-413. -/
def addSub (E : Env) (op : BinOp) (a b : Qty) : C Qty := do
  let r := a.ty.rep.arith b.ty.rep
  let t ← commonQty E a.ty b.ty r
  let x ← convertQty E t a
  let y ← convertQty E t b
  let z ← numOp E.fl op r r x.num y.num
  mkQty E t (r.arith r) z

/-- Comparison of two values of one arithmetic type by the built-in `<=>`. -/
def numCompare (a b : Num) : Ordering := if a.q < b.q then .lt else if a.q = b.q then .eq else .gt

/-- `std::three_way_comparable_with` on arithmetic types, src/core/include/units/quantity.h:379, 442.  The built-in `<=>` is ill-formed if an operand
needs a narrowing conversion, other than from an integral to a floating point type ([expr.spaceship]). -/
def Rep.threeWay : Rep → Rep → Bool
  | .int a, .int b => (a.promote.usual b.promote).signed || (!a.signed && !b.signed)
  | _, _ => true

/-- `operator<=>`, src/core/include/units/quantity.h:378-386, 441-447. -/
def compareQty (E : Env) (a b : Qty) : C Ordering :=
  if a.ty.rep.threeWay b.ty.rep then do
    let t ← commonQty E a.ty b.ty (a.ty.rep.common b.ty.rep)
    let x ← convertQty E t a
    let y ← convertQty E t b
    .ok (numCompare x.num y.num)
  else .error .rejected

/-- `operator==`, src/core/include/units/quantity.h:388, 449-455. -/
def eqQty (E : Env) (a b : Qty) : C Bool := do
  let t ← commonQty E a.ty b.ty (a.ty.rep.common b.ty.rep)
  let x ← convertQty E t a
  let y ← convertQty E t b
  .ok (decide (x.num.q = y.num.q))

/-- `reference_multiply`, src/core/include/units/reference.h:38-40, 48-51. -/
def refMultiply (E : Env) (d1 : Dim) (u1 : MUnit) (d2 : Dim) (u2 : MUnit) : C (Dim × MUnit) := do
  let d ← dimMultiply E.dims d1 d2
  let a ← Ratio.div u1.ratio d1.unit.ratio
  let b ← Ratio.div u2.ratio d2.unit.ratio
  let x ← Ratio.mul a b
  let y ← Ratio.mul x d.unit.ratio
  let u ← downcastUnit E.units d y
  .ok (d, u)

/-- `reference_divide`, src/core/include/units/reference.h:42-44, 53-56. -/
def refDivide (E : Env) (d1 : Dim) (u1 : MUnit) (d2 : Dim) (u2 : MUnit) : C (Dim × MUnit) := do
  let d ← dimDivide E.dims d1 d2
  let a ← Ratio.div u1.ratio d1.unit.ratio
  let b ← Ratio.div u2.ratio d2.unit.ratio
  let x ← Ratio.div a b
  let y ← Ratio.mul x d.unit.ratio
  let u ← downcastUnit E.units d y
  .ok (d, u)

/-- `operator*` on quantities, src/core/include/units/quantity.h:415-420 (and `make_quantity`,
lines 42-46). -/
def mulQty (E : Env) (a b : Qty) : C Qty := do
  let (d, u) ← refMultiply E a.ty.dim a.ty.unit b.ty.dim b.ty.unit
  let z ← numOp E.fl .mul a.ty.rep b.ty.rep a.num b.num
  .ok ⟨⟨d, u, a.ty.rep.arith b.ty.rep⟩, z⟩

/-- `operator/` on quantities, src/core/include/units/quantity.h:422-428. -/
def divQty (E : Env) (a b : Qty) : C Qty := do
  let (d, u) ← refDivide E a.ty.dim a.ty.unit b.ty.dim b.ty.unit
  let z ← numOp E.fl .div a.ty.rep b.ty.rep a.num b.num
  .ok ⟨⟨d, u, a.ty.rep.arith b.ty.rep⟩, z⟩

/-- `q * v`, `q / v` and `q % v` with a number, src/core/include/units/quantity.h:319-326, 337-345,
359-367; `%` is not available for floating point. -/
def scaleQty (E : Env) (op : BinOp) (q : Qty) (r : Rep) (v : Num) : C Qty := do
  let z ← numOp E.fl op q.ty.rep r q.num v
  .ok ⟨⟨q.ty.dim, q.ty.unit, q.ty.rep.arith r⟩, z⟩

/-- `v * q`, src/core/include/units/quantity.h:328-335. -/
def scaleQtyLeft (E : Env) (r : Rep) (v : Num) (q : Qty) : C Qty := do
  let z ← numOp E.fl .mul r q.ty.rep v q.num
  .ok ⟨⟨q.ty.dim, q.ty.unit, r.arith q.ty.rep⟩, z⟩

/-- `v / q`, src/core/include/units/quantity.h:347-357. -/
def recipQty (E : Env) (r : Rep) (v : Num) (q : Qty) : C Qty := do
  let d ← dimInvert E.dims q.ty.dim
  let i ← Ratio.inverse q.ty.unit.ratio
  let u ← downcastUnit E.units d i
  let z ← numOp E.fl .div r q.ty.rep v q.num
  .ok ⟨⟨d, u, r.arith q.ty.rep⟩, z⟩

/-- `operator%` on quantities, src/core/include/units/quantity.h:369-376 and 430-439: equivalent
dimensions or a dimensionless divisor. -/
def modQty (E : Env) (a b : Qty) : C Qty := do
  let eqv ← dimEquivalent a.ty.dim b.ty.dim
  let dimless ← (if eqv then .ok true else dimEquivalent b.ty.dim (.named dimOne))
  if dimless ∧ ¬ a.ty.rep.floating ∧ ¬ b.ty.rep.floating then do
    let z ← numOp E.fl .mod a.ty.rep b.ty.rep a.num b.num
    .ok ⟨⟨a.ty.dim, a.ty.unit, a.ty.rep.arith b.ty.rep⟩, z⟩
  else .error .rejected

/-- The built-in compound assignment `x op= y` on arithmetic objects. -/
def compound (fl : Rounding) (op : BinOp) (r r2 : Rep) (a b : Num) : C Num := do
  let z ← numOp fl op r r2 a b
  convNum fl (r.arith r2) r z

/-- `q += r`, `q -= r` and `q %= r` for an argument that converts to the type of `q`,
src/core/include/units/quantity.h:212-224, 278-285.  (The argument is a `const quantity&`, so any other
quantity is first converted to it.)  The result is the new value of `*this`, which is also returned. -/
def assignQty (E : Env) (op : BinOp) (q r : Qty) : C Qty := do
  let r' ← convertQty E q.ty r
  if op = .mod ∧ q.ty.rep.floating then .error .rejected
  else do
    let z ← compound E.fl op q.ty.rep q.ty.rep q.num r'.num
    .ok ⟨q.ty, z⟩

/-- `q *= v`, `q /= v`, `q %= v` for a number, src/core/include/units/quantity.h:226-232, 241-248,
258-266. -/
def assignNum (E : Env) (op : BinOp) (q : Qty) (r : Rep) (v : Num) : C Qty :=
  if op = .mod ∧ (q.ty.rep.floating ∨ r.floating) then .error .rejected
  else do
    let z ← compound E.fl op q.ty.rep r q.num v
    .ok ⟨q.ty, z⟩

/-- `q *= d`, `q /= d`, `q %= d` for a dimensionless quantity in unit one,
src/core/include/units/quantity.h:233-239, 249-256, 268-276. -/
def assignDimless (E : Env) (op : BinOp) (q d : Qty) : C Qty :=
  if d.ty.dim = .named dimOne ∧ d.ty.unit = unitOne then assignNum E op q d.ty.rep d.num
  else .error .rejected

/-- `++q` and `--q`, src/core/include/units/quantity.h:186-191, 199-204: `1` is an `int`. -/
def incDec (E : Env) (op : BinOp) (q : Qty) : C Qty := do
  let z ← compound E.fl op q.ty.rep (.int .i32) q.num (.i 1)
  .ok ⟨q.ty, z⟩

/-- `q++` and `q--`, src/core/include/units/quantity.h:193-197, 206-210: the new value of the object and the
returned one. -/
def incDecPost (E : Env) (op : BinOp) (q : Qty) : C (Qty × Qty) := do
  let z ← compound E.fl op q.ty.rep (.int .i32) q.num (.i 1)
  .ok (⟨q.ty, z⟩, q)

/-- `-q`, src/core/include/units/quantity.h:179-184. -/
def negQty (q : Qty) : C Qty := do
  let z ← numNeg q.ty.rep q.num
  .ok ⟨⟨q.ty.dim, q.ty.unit, q.ty.rep.promote⟩, z⟩

/-- `q + v` and `q - v` with a number, src/core/include/units/quantity.h:289-295, 304-310 (CTAD at 392-393): only for unit one; the
result is deduced as `quantity<dim_one, one, Rep>`. -/
def addSubNum (E : Env) (op : BinOp) (q : Qty) (r : Rep) (v : Num) : C Qty :=
  if q.ty.unit = unitOne then do
    let z ← numOp E.fl op q.ty.rep r q.num v
    .ok ⟨⟨.named dimOne, unitOne, q.ty.rep.arith r⟩, z⟩
  else .error .rejected

/-- `v + q` and `v - q` with a number, src/core/include/units/quantity.h:296-302, 311-317. -/
def addSubNumLeft (E : Env) (op : BinOp) (r : Rep) (v : Num) (q : Qty) : C Qty :=
  if q.ty.unit = unitOne then do
    let z ← numOp E.fl op r q.ty.rep v q.num
    .ok ⟨⟨.named dimOne, unitOne, r.arith q.ty.rep⟩, z⟩
  else .error .rejected

/-- The implicit conversion of a number to a quantity: the constructor of src/core/include/units/quantity.h:150-153
is not explicit only for `dim_one` and `one`. -/
def implicitNum (E : Env) (t : QTy) (r : Rep) (v : Num) : C Qty :=
  if t.dim = .named dimOne ∧ t.unit = unitOne then mkQty E t r v else .error .rejected

/-- `q <=> v` with a number: the hidden friend of src/core/include/units/quantity.h:378-386 after the implicit
conversion of the number (the templates at 441-447 do not deduce). -/
def compareNumQ (E : Env) (q : Qty) (r : Rep) (v : Num) : C Ordering := do
  let b ← implicitNum E q.ty r v
  .ok (numCompare q.num b.num)

/-- `q == v` with a number: the hidden friend of src/core/include/units/quantity.h:388 after the implicit conversion. -/
def eqNumQ (E : Env) (q : Qty) (r : Rep) (v : Num) : C Bool := do
  let b ← implicitNum E q.ty r v
  .ok (decide (q.num.q = b.num.q))

/-- `q += v` and `q -= v` with a number: src/core/include/units/quantity.h:212-232 after the implicit conversion. -/
def assignImplicit (E : Env) (op : BinOp) (q : Qty) (r : Rep) (v : Num) : C Qty := do
  let b ← implicitNum E q.ty r v
  assignQty E op q b

/-- `v % q` with a number: the hidden friend of src/core/include/units/quantity.h:369-376 after the implicit conversion (the templates at
359-367 and 430-439 do not deduce). -/
def modNumLeft (E : Env) (r : Rep) (v : Num) (q : Qty) : C Qty := do
  let a ← implicitNum E q.ty r v
  modQty E a q

/-! ### Specification: physical amounts -/

/-- The physical amount a quantity denotes. -/
noncomputable def Qty.amount (β : String → ℝ) (q : Qty) : ℝ := (q.num.q : ℝ) * q.ty.dim.size β q.ty.unit

/-- The size of the unit of a quantity type. -/
noncomputable def QTy.size (β : String → ℝ) (t : QTy) : ℝ := t.dim.size β t.unit

/-- A quantity type that can be named: the constraints on its dimension and unit hold, and base units
ratios of fractional exponents (if any) have exact roots. -/
structure QTy.Good (E : Env) (t : QTy) : Prop where
  dim : t.dim.Good
  unit : t.unit.WF
  unitOf : t.unit.ref = t.dim.unit.ref
  rooted : t.dim.Rooted E.est

/-- The registries only return children of the base type asked for. -/
structure Env.OK (E : Env) : Prop where
  dims : E.dims.OK
  units : E.units.OK

theorem QTy.Good.size_pos {E : Env} {β : String → ℝ} (hβ : Sizes β) {t : QTy} (h : t.Good E) : 0 < t.size β :=
  Dim.size_pos hβ h.dim h.unit

theorem Qty.amount_eq (β : String → ℝ) (q : Qty) : q.amount β = (q.num.q : ℝ) * q.ty.size β := rfl

end Verif
