import Verif.Point
import Verif.Ieee

/-!
# `units/reference.h`, the static functions of `units/quantity.h`, and `units/chrono.h`
-/

namespace Verif

/-- `reference<D, U>`, src/core/include/units/reference.h:97-100. -/
structure Ref where
  dim : Dim
  unit : MUnit
deriving DecidableEq

/-- `reference * reference`, src/core/include/units/reference.h:105-106. -/
def mulRef (E : Env) (a b : Ref) : C Ref := do
  let (d, u) ← refMultiply E a.dim a.unit b.dim b.unit
  .ok ⟨d, u⟩

/-- `reference / reference`, src/core/include/units/reference.h:108-109. -/
def divRef (E : Env) (a b : Ref) : C Ref := do
  let (d, u) ← refDivide E a.dim a.unit b.dim b.unit
  .ok ⟨d, u⟩

/-- `number * reference`, src/core/include/units/reference.h:111-115. -/
def numTimesRef (E : Env) (r : Rep) (v : Num) (R : Ref) : C Qty := mkQty E ⟨R.dim, R.unit, r⟩ r v

/-- `reference == reference`, src/core/include/units/reference.h:119-122. -/
def eqRef (a b : Ref) : Bool := decide (a = b)

/-- The size of the unit of a reference. -/
noncomputable def Ref.size (β : String → ℝ) (R : Ref) : ℝ := R.dim.size β R.unit

/-! ### Static functions and unary plus -/

/-- `Rep(n)` for a literal `int`, as used by `quantity_values` at
src/core/include/units/customization_points.h:58-64. -/
def repOf (E : Env) (r : Rep) (n : Int) : C Num := convNum E.fl (.int .i32) r (.i n)

/-- `quantity::zero()`, src/core/include/units/quantity.h:121-125, customization_points.h:58-60. -/
def zeroQty (E : Env) (t : QTy) : C Qty := do
  let v ← repOf E t.rep 0
  mkQty E t t.rep v

/-- `quantity::one()`, src/core/include/units/quantity.h:127-131, customization_points.h:62-64. -/
def oneQty (E : Env) (t : QTy) : C Qty := do
  let v ← repOf E t.rep 1
  mkQty E t t.rep v

/-- The greatest finite value of a floating point type, `std::numeric_limits<T>::max()`, as used by `quantity_values` at
src/core/include/units/customization_points.h:66-72. -/
def FltTy.largest (f : FltTy) : ℚ := (2 ^ f.prec - 1) * 2 ^ (f.emax - f.prec)

/-- `std::numeric_limits<Rep>::lowest()`, src/core/include/units/customization_points.h:66-68. -/
def Rep.lowest : Rep → Num
  | .int i => .i i.lo
  | .flt f => .f (-f.largest)

/-- `std::numeric_limits<Rep>::max()`, src/core/include/units/customization_points.h:70-72. -/
def Rep.greatest : Rep → Num
  | .int i => .i i.hi
  | .flt f => .f f.largest

/-- `quantity::min()`, src/core/include/units/quantity.h:133-137, customization_points.h:66-68. -/
def minQty (E : Env) (t : QTy) : C Qty := mkQty E t t.rep t.rep.lowest

/-- `quantity::max()`, src/core/include/units/quantity.h:139-143, customization_points.h:70-72. -/
def maxQty (E : Env) (t : QTy) : C Qty := mkQty E t t.rep t.rep.greatest

/-- `+q`, src/core/include/units/quantity.h:172-177: the representation is that of `+number()`, that is, the
promoted one. -/
def posQty (E : Env) (q : Qty) : C Qty := do
  let v ← convNum E.fl q.ty.rep q.ty.rep.promote q.num
  mkQty E ⟨q.ty.dim, q.ty.unit, q.ty.rep.promote⟩ q.ty.rep.promote v

/-! ### `std::chrono` -/

/-- `isq::si::second`, src/systems/si/include/units/isq/si/time.h:37. -/
def siSecond : MUnit :=
  ⟨.named "units::isq::si::second", Ratio.one, "units::isq::si::second", [.scaled Ratio.one "units::isq::si::second"], true, "s",
    some "units::isq::si::prefix"⟩

/-- `isq::si::dim_time`, src/systems/si/include/units/isq/si/time.h:50 with
src/systems/isq/include/units/isq/dimensions/time.h. -/
def siTime : BaseDim := ⟨"units::isq::si::dim_time", "T", siSecond⟩

/-- A `std::chrono::duration<Rep, std::ratio<num, den>>`: its type and its tick count. -/
structure Duration where
  rep : Rep
  num : Int
  den : Int
  count : Num
deriving DecidableEq

/-- `quantity_like_traits<std::chrono::duration>::unit`, src/core/include/units/chrono.h:37-38. -/
def Duration.unit (E : Env) (d : Duration) : C MUnit := do
  let r ← Ratio.make d.num d.den 0
  downcastUnit E.units (.base siTime) r

/-- `quantity_like_type` of a duration: src/core/include/units/quantity.h:97-98 with chrono.h:36-41. -/
def Duration.like (E : Env) (d : Duration) : C QTy := do
  let u ← d.unit E
  .ok ⟨.base siTime, u, d.rep⟩

/-- The constructor of a quantity from a duration, src/core/include/units/quantity.h:158-160. -/
def fromDuration (E : Env) (t : QTy) (d : Duration) : C Qty := do
  let l ← d.like E
  let safe ← safeCastable E l t
  if safe then do
    let q ← mkQty E l d.rep d.count
    convertQty E t q
  else .error .rejected

/-- `quantity(d)` with the deduction guide of src/core/include/units/quantity.h:395-396. -/
def deduceDuration (E : Env) (d : Duration) : C Qty := do
  let l ← d.like E
  fromDuration E l d

/-- A `std::chrono::time_point<C, Duration>`: the name of the clock and `time_since_epoch()`. -/
structure TimePoint where
  clock : String
  since : Duration
deriving DecidableEq

/-- `clock_origin<C>`, src/core/include/units/chrono.h:42-43. -/
def clockOrigin (c : String) : Origin := ⟨"clock_origin<" ++ c ++ ">", .base siTime⟩

/-- The constructor of a point from a time point, src/core/include/units/quantity_point.h:85-89 with
chrono.h:47-56. -/
def fromTimePoint (E : Env) (R : Rebinds) (t : PTy) (p : TimePoint) : C Pt := do
  let e ← originEquivalent R t.origin (clockOrigin p.clock)
  if e then do
    let x ← fromDuration E t.qty p.since
    .ok ⟨t, x.num⟩
  else .error .rejected

/-- `quantity_point(p)` with the deduction guide of src/core/include/units/quantity_point.h:213-216. -/
def deduceTimePoint (E : Env) (R : Rebinds) (p : TimePoint) : C Pt := do
  let u ← p.since.unit E
  fromTimePoint E R ⟨clockOrigin p.clock, u, p.since.rep⟩ p

end Verif
