import Verif.IeeeOps
import Verif.RepOps

/-!
# The class `measurement` of the examples

`example/measurement.cpp`: a number with an uncertainty, used as the representation of quantities.  The class is modelled for any type of numbers, and as a
representation type over `double`.
-/

namespace Verif

/-- The operations the class template needs of its parameter, example/measurement.cpp:34-118: the arithmetic operators, `abs` and `hypot`. -/
structure Arith (T : Type) where
  add : T → T → T
  sub : T → T → T
  mul : T → T → T
  div : T → T → T
  hypot : T → T → T
  neg : T → T
  abs : T → T

/-- `measurement<T>`, example/measurement.cpp:34-118: the members `value_` and `uncertainty_`. -/
structure Meas (T : Type) where
  value : T
  unc : T
deriving DecidableEq

namespace Meas

variable {T : Type} (A : Arith T)

/-- `measurement(val, err)`, example/measurement.cpp:41-47. -/
def make (val err : T) : Meas T := ⟨val, A.abs err⟩

/-- `relative_uncertainty`, example/measurement.cpp:52. -/
def rel (m : Meas T) : T := A.div m.unc m.value

/-- `lower_bound`, example/measurement.cpp:53. -/
def lower (m : Meas T) : T := A.sub m.value m.unc

/-- `upper_bound`, example/measurement.cpp:54. -/
def upper (m : Meas T) : T := A.add m.value m.unc

/-- `-m`, example/measurement.cpp:56. -/
def neg (m : Meas T) : Meas T := make A (A.neg m.value) m.unc

/-- `a + b`, example/measurement.cpp:58-62. -/
def add (a b : Meas T) : Meas T := make A (A.add a.value b.value) (A.hypot a.unc b.unc)

/-- `a - b`, example/measurement.cpp:64-68. -/
def sub (a b : Meas T) : Meas T := make A (A.sub a.value b.value) (A.hypot a.unc b.unc)

/-- `a * b`, example/measurement.cpp:70-75. -/
def mul (a b : Meas T) : Meas T :=
  let val := A.mul a.value b.value
  make A val (A.mul val (A.hypot (a.rel A) (b.rel A)))

/-- `a * v`, example/measurement.cpp:77-81. -/
def scale (a : Meas T) (v : T) : Meas T :=
  let val := A.mul a.value v
  make A val (A.mul val (a.rel A))

/-- `v * b`, example/measurement.cpp:83-87. -/
def scaleLeft (v : T) (b : Meas T) : Meas T :=
  let val := A.mul b.value v
  make A val (A.mul val (b.rel A))

/-- `a / b`, example/measurement.cpp:89-94. -/
def div (a b : Meas T) : Meas T :=
  let val := A.div a.value b.value
  make A val (A.mul val (A.hypot (a.rel A) (b.rel A)))

/-- `a / v`, example/measurement.cpp:96-100. -/
def divNum (a : Meas T) (v : T) : Meas T :=
  let val := A.div a.value v
  make A val (A.mul val (a.rel A))

/-- `v / b`, example/measurement.cpp:102-106. -/
def recip (v : T) (b : Meas T) : Meas T :=
  let val := A.div v b.value
  make A val (A.mul val (b.rel A))

end Meas

/-- `double` as the parameter of `measurement`, example/measurement.cpp:125.  `std::hypot` (lines 61-93) is left open. -/
def ieeeArith (hypot : FVal → FVal → FVal) : Arith FVal where
  add := FVal.add .f64
  sub := FVal.sub .f64
  mul := FVal.mul .f64
  div := FVal.div .f64
  hypot := hypot
  neg := FVal.neg
  abs := FVal.abs

/-- The defaulted `operator<=>`, example/measurement.cpp:108: the first member that differs decides; `none` is unordered. -/
def Meas.cmp (a b : Meas FVal) : Option Ordering :=
  match a.value.cmp b.value with
  | some .eq => a.unc.cmp b.unc
  | o => o

/-- The defaulted `operator==`, example/measurement.cpp:108. -/
def Meas.eqv (a b : Meas FVal) : Bool := a.value.cmp b.value == some .eq && a.unc.cmp b.unc == some .eq

/-- A number or a measurement: the operands of example/measurement.cpp:70-106. -/
inductive MVal where
  | num (x : FNum)
  | meas (m : Meas FVal)
deriving DecidableEq

/-- A number converted to `double`: the parameters `const value_type&` of example/measurement.cpp:41, 77, 83, 96, 102. -/
def toDouble (r : Rep) (x : FNum) : C FVal := do
  let y ← convI r (.flt .f64) x
  match y with
  | .f z => .ok z
  | .i _ => .error .rejected

/-- `-x` on an arithmetic type, src/core/include/units/quantity.h:179-184. -/
def negNumI (r : Rep) (x : FNum) : C FNum :=
  match r, x with
  | .int t, .i x => do
    let z ← t.promote.arith (-x)
    .ok (.i z)
  | .flt _, .f x => .ok (.f x.neg)
  | _, _ => .error .rejected

/-- `x op y` where one of the operands is a measurement, example/measurement.cpp:58-106: there are operators for two measurements, and products and quotients
with a `double`. -/
def measOp (A : Arith FVal) (o : BinOp) : Option Rep → Option Rep → MVal → MVal → C MVal
  | some a, some b, .num x, .num y => do
    let z ← numOpI o a b x y
    .ok (.num z)
  | none, none, .meas x, .meas y => match o with
    | .add => .ok (.meas (x.add A y))
    | .sub => .ok (.meas (x.sub A y))
    | .mul => .ok (.meas (x.mul A y))
    | .div => .ok (.meas (x.div A y))
    | .mod => .error .rejected
  | none, some b, .meas x, .num y => do
    let v ← toDouble b y
    match o with
    | .mul => .ok (.meas (x.scale A v))
    | .div => .ok (.meas (x.divNum A v))
    | _ => .error .rejected
  | some a, none, .num x, .meas y => do
    let v ← toDouble a x
    match o with
    | .mul => .ok (.meas (Meas.scaleLeft A v y))
    | .div => .ok (.meas (Meas.recip A v y))
    | _ => .error .rejected
  | _, _, _, _ => .error .rejected

/-- The arithmetic types with IEEE numbers and `measurement<double>` (`none`), example/measurement.cpp:34-125.  Its constructor is explicit: there is neither a
conversion from a number nor a common type with one; there are no compound assignments. -/
abbrev measOps (A : Arith FVal) : OpSys where
  Ty := Option Rep
  Val := MVal
  intmax := some (.int .i64)
  double := some (.flt .f64)
  common
    | some a, some b => some (some (a.common b))
    | none, none => some none
    | _, _ => none
  constructible
    | some _, none => false
    | _, _ => true
  valueType
    | none => some (some (.flt .f64))
    | some _ => none
  quantityType _ := none
  depth
    | none => 1
    | some _ => 0
  depth_lt t v h := by
    cases t with
    | none => cases h; exact Nat.zero_lt_one
    | some r => cases h
  mulTy
    | some a, some b => some (some (a.arith b))
    | _, _ => some none
  divTy
    | some a, some b => some (some (a.arith b))
    | _, _ => some none
  floating
    | some r => r.floating
    | none => false
  regular _ := true
  quantity _ := false
  quantityLike _ := false
  decTy := inferInstance
  lit z := .num (.i z)
  dlit z := .num (.f (FVal.ofInt .f64 z))
  cast
    | some a, some b, .num x => do
      let y ← convI a b x
      .ok (.num y)
    | none, none, .meas m => .ok (.meas m)
    | some a, none, .num x => do
      let v ← toDouble a x
      .ok (.meas (Meas.make A v (.fin false 0)))
    | _, _, _ => .error .rejected
  mul := measOp A .mul
  div := measOp A .div
  convertible
    | some _, some _ => true
    | none, none => true
    | _, _ => false
  addTy
    | some a, some b => some (some (a.arith b))
    | none, none => some none
    | _, _ => none
  subTy
    | some a, some b => some (some (a.arith b))
    | none, none => some none
    | _, _ => none
  modTy
    | some (.int a), some (.int b) => some (some ((Rep.int a).arith (.int b)))
    | _, _ => none
  negTy
    | some a => some (some a.promote)
    | none => some none
  assignable
    | .mod, some a, some b => !a.floating && !b.floating
    | _, some _, some _ => true
    | _, _, _ => false
  eqWith
    | some _, some _ => true
    | none, none => true
    | _, _ => false
  threeWay
    | some a, some b => a.threeWay b
    | none, none => true
    | _, _ => false
  add := measOp A .add
  sub := measOp A .sub
  mod := measOp A .mod
  neg
    | some a, .num x => do
      let z ← negNumI a x
      .ok (.num z)
    | none, .meas m => .ok (.meas (m.neg A))
    | _, _ => .error .rejected
  assign
    | o, some a, some b, .num x, .num y => do
      let z ← compoundI o a b x y
      .ok (.num z)
    | _, _, _, _, _ => .error .rejected
  eqv
    | some _, .num x, .num y => do
      let o ← x.cmp y
      .ok (o == some .eq)
    | none, .meas x, .meas y => .ok (x.eqv y)
    | _, _, _ => .error .rejected
  cmp
    | some _, .num x, .num y => x.cmp y
    | none, .meas x, .meas y => .ok (x.cmp y)
    | _, _, _ => .error .rejected

end Verif
