import Verif.Representation

/-!
# The operators of `quantity` for representation types supplied by the user

`units/quantity.h`: construction, conversion and the operators for an arbitrary representation, as functions of what the compiler knows about
the types involved and of what their operators do.
-/

namespace Verif

/-- What the operators of `quantity` ask of the types involved, beyond `TypeSys`.  It parametrises src/core/include/units/quantity.h:49-91, 110-455. -/
structure OpSys extends TypeSys where
  /-- `std::convertible_to<T, U>`. -/
  convertible : Ty → Ty → Bool
  /-- The types of `t + u`, `t - u` and `t % u`, if the expressions are valid. -/
  addTy : Ty → Ty → Option Ty
  subTy : Ty → Ty → Option Ty
  modTy : Ty → Ty → Option Ty
  /-- The type of `-t`. -/
  negTy : Ty → Option Ty
  /-- Whether `t op= u` is valid (and gives `T&`). -/
  assignable : BinOp → Ty → Ty → Bool
  /-- `std::equality_comparable_with` and `std::three_way_comparable_with`. -/
  eqWith : Ty → Ty → Bool
  threeWay : Ty → Ty → Bool
  add : Ty → Ty → Val → Val → C Val
  sub : Ty → Ty → Val → Val → C Val
  mod : Ty → Ty → Val → Val → C Val
  neg : Ty → Val → C Val
  /-- `x op= y`: the new value of `x`. -/
  assign : BinOp → Ty → Ty → Val → Val → C Val
  /-- `x == y` and `x <=> y` for two objects of one type. -/
  eqv : Ty → Val → Val → C Bool
  cmp : Ty → Val → Val → C (Option Ordering)

namespace OpSys

variable (S : OpSys)

/-- `std::invoke_result_t<Func, T, U>` for the function objects used in src/core/include/units/quantity.h:288-455. -/
def opTy : BinOp → S.Ty → S.Ty → Option S.Ty
  | .add => S.addTy
  | .sub => S.subTy
  | .mul => S.mulTy
  | .div => S.divTy
  | .mod => S.modTy

/-- The operators of the representation. -/
def op : BinOp → S.Ty → S.Ty → S.Val → S.Val → C S.Val
  | .add => S.add
  | .sub => S.sub
  | .mul => S.mul
  | .div => S.div
  | .mod => S.mod

/-- `quantity_value_for_`, src/core/include/units/quantity.h:76-79: the type of the result, if there is one and it is a representation. -/
def valueFor (o : BinOp) (t u : S.Ty) : Option S.Ty :=
  match S.opTy o t u with
  | some r => if S.representation r then some r else none
  | none => none

/-- `safe_convertible_to_`, src/core/include/units/quantity.h:54-59. -/
def safeConvertible (src dst : S.Ty) : Bool :=
  !S.quantity src && !S.quantity dst && S.convertible src dst && (S.treatFloating dst || !S.treatFloating src)

/-- `invoke_result_convertible_to_<T, Func, U, V>`, src/core/include/units/quantity.h:81-85: the type of the result. -/
def resultFrom (t : S.Ty) (o : BinOp) (u v : S.Ty) : Option S.Ty :=
  match S.valueFor o u v with
  | some r => if S.representation t && S.safeConvertible t r then some r else none
  | none => none

/-- `x op y` of two values, src/core/include/units/quantity.h:399-439. -/
def value (o : BinOp) (x y : S.Ty × S.Val) : C (S.Ty × S.Val) :=
  match S.opTy o x.1 y.1 with
  | none => .error .rejected
  | some t => do
    let z ← S.op o x.1 y.1 x.2 y.2
    .ok (t, z)

end OpSys

/-- `quantity<D, U, Rep>`, src/core/include/units/quantity.h:110-119, for any representation. -/
structure QTyG (S : OpSys) where
  dim : Dim
  unit : MUnit
  rep : S.Ty

/-- A quantity: its type and `number_`, src/core/include/units/quantity.h:110-112. -/
structure QtyG (S : OpSys) where
  ty : QTyG S
  num : S.Val

/-- Two types of quantities are the same type. -/
def QTyG.same {S : OpSys} (a b : QTyG S) : Bool := decide (a.dim = b.dim) && decide (a.unit = b.unit) && decide (a.rep = b.rep)

section
variable {S : OpSys} (E : Env)

/-- `quantity(Value&& v)`, src/core/include/units/quantity.h:150-153. -/
def mkG (t : QTyG S) (x : S.Ty × S.Val) : C (QtyG S) :=
  if S.safeConvertible x.1 t.rep then do
    let y ← S.cast x.1 t.rep x.2
    .ok ⟨t, y⟩
  else .error .rejected

/-- `quantity_cast<To>(q)`, src/core/include/units/quantity_cast.h:114-139. -/
def quantityCastG (t : QTyG S) (q : QtyG S) : C (QtyG S) := do
  let eqv ← dimEquivalent t.dim q.ty.dim
  if eqv then do
    let c ← castRatio E.est q.ty.dim q.ty.unit t.dim t.unit
    let x ← S.castG q.ty.rep t.rep c q.num
    .ok ⟨t, x⟩
  else .error .rejected

/-- `harmonic_<QFrom, QTo>`, src/core/include/units/quantity.h:63-67. -/
def harmonicG (src dst : QTyG S) : C Bool := do
  let r1 ← quantityRatio E.est src.dim src.unit
  let r2 ← quantityRatio E.est dst.dim dst.unit
  let x ← Ratio.div r1 r2
  Ratio.isIntegral x

/-- `safe_castable_to_<QFrom, QTo>`, src/core/include/units/quantity.h:69-74. -/
def safeCastableG (src dst : QTyG S) : C Bool := do
  let eqv ← dimEquivalent dst.dim src.dim
  if eqv && S.scalableWith src.rep dst.rep then
    if S.treatFloating dst.rep then .ok true
    else if S.treatFloating src.rep then .ok false
    else harmonicG E src dst
  else .ok false

/-- Initialisation of a quantity from another one: a copy, or the converting constructor of src/core/include/units/quantity.h:155-156. -/
def convertG (t : QTyG S) (q : QtyG S) : C (QtyG S) :=
  if q.ty.same t then .ok q
  else do
    let safe ← safeCastableG E q.ty t
    if safe then quantityCastG E t q else .error .rejected

/-- `common_quantity<Q1, Q2, Rep>`, src/core/include/units/bits/common_quantity.h:45-77. -/
def commonQtyG (q1 q2 : QTyG S) (r : S.Ty) : C (QTyG S) := do
  let eqv ← dimEquivalent q2.dim q1.dim
  if eqv && S.representation r then do
    let (d, u) ← commonUnit E.est E.units q1.dim q1.unit q2.dim q2.unit
    .ok ⟨d, u, r⟩
  else .error .rejected

/-- `operator+` and `operator-` on quantities, src/core/include/units/quantity.h:399-413. -/
def addSubG (o : BinOp) (a b : QtyG S) : C (QtyG S) :=
  match S.valueFor o a.ty.rep b.ty.rep with
  | none => .error .rejected
  | some r => do
    let t ← commonQtyG E a.ty b.ty r
    let x ← convertG E t a
    let y ← convertG E t b
    let z ← S.value o (t.rep, x.num) (t.rep, y.num)
    mkG t z

/-- `operator*` on quantities, src/core/include/units/quantity.h:415-420 (and `make_quantity`, lines 42-46). -/
def mulG (a b : QtyG S) : C (QtyG S) :=
  match S.valueFor .mul a.ty.rep b.ty.rep with
  | none => .error .rejected
  | some r => do
    let (d, u) ← refMultiply E a.ty.dim a.ty.unit b.ty.dim b.ty.unit
    let z ← S.op .mul a.ty.rep b.ty.rep a.num b.num
    .ok ⟨⟨d, u, r⟩, z⟩

/-- `operator/` on quantities, src/core/include/units/quantity.h:422-428. -/
def divG (a b : QtyG S) : C (QtyG S) :=
  match S.valueFor .div a.ty.rep b.ty.rep with
  | none => .error .rejected
  | some r => do
    let (d, u) ← refDivide E a.ty.dim a.ty.unit b.ty.dim b.ty.unit
    let z ← S.op .div a.ty.rep b.ty.rep a.num b.num
    .ok ⟨⟨d, u, r⟩, z⟩

/-- `q * v`, `q / v` and `q % v` with a value that is not a quantity, src/core/include/units/quantity.h:319-326, 337-345, 359-367. -/
def scaleG (o : BinOp) (q : QtyG S) (v : S.Ty × S.Val) : C (QtyG S) :=
  if S.quantity v.1 || (decide (o = .mod) && (S.treatFloating q.ty.rep || S.treatFloating v.1)) then .error .rejected
  else match S.resultFrom q.ty.rep o q.ty.rep v.1 with
    | none => .error .rejected
    | some r => do
      let z ← S.op o q.ty.rep v.1 q.num v.2
      .ok ⟨⟨q.ty.dim, q.ty.unit, r⟩, z⟩

/-- `v * q`, src/core/include/units/quantity.h:328-335. -/
def scaleLeftG (v : S.Ty × S.Val) (q : QtyG S) : C (QtyG S) :=
  if S.quantity v.1 then .error .rejected
  else match S.resultFrom q.ty.rep .mul v.1 q.ty.rep with
    | none => .error .rejected
    | some r => do
      let z ← S.op .mul v.1 q.ty.rep v.2 q.num
      .ok ⟨⟨q.ty.dim, q.ty.unit, r⟩, z⟩

/-- `v / q`, src/core/include/units/quantity.h:347-357. -/
def recipG (v : S.Ty × S.Val) (q : QtyG S) : C (QtyG S) :=
  if S.quantity v.1 then .error .rejected
  else match S.resultFrom q.ty.rep .div v.1 q.ty.rep with
    | none => .error .rejected
    | some r => do
      let d ← dimInvert E.dims q.ty.dim
      let i ← Ratio.inverse q.ty.unit.ratio
      let u ← downcastUnit E.units d i
      let z ← S.op .div v.1 q.ty.rep v.2 q.num
      .ok ⟨⟨d, u, r⟩, z⟩

/-- `operator%` on quantities: the hidden friend of src/core/include/units/quantity.h:369-376 for two quantities of one type, else the template
of lines 430-439. -/
def modG (a b : QtyG S) : C (QtyG S) :=
  if S.treatFloating a.ty.rep || S.treatFloating b.ty.rep then .error .rejected
  else if a.ty.same b.ty then
    match S.resultFrom a.ty.rep .mod a.ty.rep a.ty.rep with
    | some r => do
      let z ← S.op .mod a.ty.rep a.ty.rep a.num b.num
      .ok ⟨⟨a.ty.dim, a.ty.unit, r⟩, z⟩
    | none => match S.valueFor .mod a.ty.rep b.ty.rep with
      | none => .error .rejected
      | some r => do
        let z ← S.op .mod a.ty.rep b.ty.rep a.num b.num
        .ok ⟨⟨a.ty.dim, a.ty.unit, r⟩, z⟩
  else match S.valueFor .mod a.ty.rep b.ty.rep with
    | none => .error .rejected
    | some r => do
      let eqv ← dimEquivalent a.ty.dim b.ty.dim
      let ok ← (if eqv then .ok true else dimEquivalent b.ty.dim (.named dimOne))
      if ok then do
        let z ← S.op .mod a.ty.rep b.ty.rep a.num b.num
        .ok ⟨⟨a.ty.dim, a.ty.unit, r⟩, z⟩
      else .error .rejected

/-- `-q`, src/core/include/units/quantity.h:179-184; the type `quantity<D, U, decltype(-number())>` needs a representation. -/
def negG (q : QtyG S) : C (QtyG S) :=
  match S.negTy q.ty.rep with
  | none => .error .rejected
  | some r =>
    if S.representation r then do
      let z ← S.neg q.ty.rep q.num
      .ok ⟨⟨q.ty.dim, q.ty.unit, r⟩, z⟩
    else .error .rejected

/-- `q += r`, `q -= r` and `q %= r`, src/core/include/units/quantity.h:212-224, 278-285: the argument is a `const quantity&`, any other quantity is
first converted to it. -/
def assignG (o : BinOp) (q r : QtyG S) : C (QtyG S) := do
  let r' ← convertG E q.ty r
  if (decide (o = .mod) && S.treatFloating q.ty.rep) || !S.assignable o q.ty.rep q.ty.rep then .error .rejected
  else do
    let z ← S.assign o q.ty.rep q.ty.rep q.num r'.num
    .ok ⟨q.ty, z⟩

/-- `q *= v`, `q /= v` and `q %= v`, src/core/include/units/quantity.h:226-232, 241-248, 258-266. -/
def assignNumG (o : BinOp) (q : QtyG S) (v : S.Ty × S.Val) : C (QtyG S) :=
  if (decide (o = .mod) && (S.treatFloating q.ty.rep || S.treatFloating v.1)) || !S.assignable o q.ty.rep v.1 then .error .rejected
  else do
    let z ← S.assign o q.ty.rep v.1 q.num v.2
    .ok ⟨q.ty, z⟩

/-- `operator==`: the hidden friend of src/core/include/units/quantity.h:388 for two quantities of one type, else the template of lines
449-455. -/
def eqG (a b : QtyG S) : C Bool :=
  if a.ty.same b.ty then S.eqv a.ty.rep a.num b.num
  else if S.eqWith a.ty.rep b.ty.rep then
    match S.common a.ty.rep b.ty.rep with
    | none => .error .rejected
    | some r => do
      let t ← commonQtyG E a.ty b.ty r
      let x ← convertG E t a
      let y ← convertG E t b
      S.eqv t.rep x.num y.num
  else .error .rejected

/-- `operator<=>`: the hidden friend of src/core/include/units/quantity.h:378-386 for two quantities of one type, else the template of lines
441-447. -/
def compareG (a b : QtyG S) : C (Option Ordering) :=
  if S.threeWay a.ty.rep b.ty.rep then
    if a.ty.same b.ty then S.cmp a.ty.rep a.num b.num
    else match S.common a.ty.rep b.ty.rep with
      | none => .error .rejected
      | some r => do
        let t ← commonQtyG E a.ty b.ty r
        let x ← convertG E t a
        let y ← convertG E t b
        S.cmp t.rep x.num y.num
  else .error .rejected

end

/-- The arithmetic types with their operators; what they do is in `Verif.Num`. -/
abbrev builtinOps (fl : Rounding) : OpSys where
  toTypeSys := builtin fl
  convertible _ _ := true
  addTy a b := some (a.arith b)
  subTy a b := some (a.arith b)
  modTy
    | .int a, .int b => some ((Rep.int a).arith (.int b))
    | _, _ => none
  negTy a := some a.promote
  assignable
    | .mod, a, b => !a.floating && !b.floating
    | _, _, _ => true
  eqWith _ _ := true
  threeWay := Rep.threeWay
  add := numOp fl .add
  sub := numOp fl .sub
  mod := numOp fl .mod
  neg := numNeg
  assign := compound fl
  eqv _ x y := .ok (decide (x.q = y.q))
  cmp _ x y := .ok (some (numCompare x y))

/-- The arithmetic types and the class `min_expl<>` of test/unit_test/static/custom_rep_test_min_expl.cpp:43-85 (`none`), which has `*`, `/` and `==` and
no other operator, and no conversion. -/
abbrev minExpl (fl : Rounding) : OpSys where
  toTypeSys := myRep fl true
  convertible
    | some _, some _ => true
    | none, none => true
    | _, _ => false
  addTy
    | some a, some b => (builtinOps fl).addTy a b |>.map some
    | _, _ => none
  subTy
    | some a, some b => (builtinOps fl).subTy a b |>.map some
    | _, _ => none
  modTy
    | some a, some b => (builtinOps fl).modTy a b |>.map some
    | _, _ => none
  negTy
    | some a => (builtinOps fl).negTy a |>.map some
    | none => none
  assignable
    | o, some a, some b => (builtinOps fl).assignable o a b
    | _, _, _ => false
  eqWith
    | some _, some _ => true
    | none, none => true
    | _, _ => false
  threeWay
    | some a, some b => a.threeWay b
    | _, _ => false
  add
    | some a, some b, x, y => numOp fl .add a b x y
    | _, _, _, _ => .error .rejected
  sub
    | some a, some b, x, y => numOp fl .sub a b x y
    | _, _, _, _ => .error .rejected
  mod
    | some a, some b, x, y => numOp fl .mod a b x y
    | _, _, _, _ => .error .rejected
  neg
    | some a, x => numNeg a x
    | none, _ => .error .rejected
  assign
    | o, some a, some b, x, y => compound fl o a b x y
    | _, _, _, _, _ => .error .rejected
  eqv _ x y := .ok (decide (x.q = y.q))
  cmp
    | some _, x, y => .ok (some (numCompare x y))
    | none, _, _ => .error .rejected

/-- The arithmetic types `(r, false)` and the class template `min_impl<r>` of test/unit_test/static/custom_rep_test_min_impl.cpp:36-60, `(r, true)`: a
wrapper with implicit conversions from and to a number, `value_type` and no operators, so the operators are those of the numbers. -/
abbrev minImpl (fl : Rounding) : OpSys where
  Ty := Rep × Bool
  Val := Num
  intmax := (.int .i64, false)
  double := (.flt .f64, false)
  common a b := some (a.1.common b.1, false)
  constructible _ _ := true
  valueType
    | (r, true) => some (r, false)
    | (_, false) => none
  quantityType _ := none
  depth a := a.2.toNat
  depth_lt a b h := by
    obtain ⟨r, _ | _⟩ := a
    · cases h
    · cases h; exact Nat.zero_lt_one
  mulTy a b := some (a.1.arith b.1, false)
  divTy a b := some (a.1.arith b.1, false)
  floating a := !a.2 && a.1.floating
  regular _ := true
  quantity _ := false
  quantityLike _ := false
  decTy := inferInstance
  lit z := .i z
  dlit z := .f z
  cast a b := convNum fl a.1 b.1
  mul a b := numOp fl .mul a.1 b.1
  div a b := numOp fl .div a.1 b.1
  convertible _ _ := true
  addTy a b := some (a.1.arith b.1, false)
  subTy a b := some (a.1.arith b.1, false)
  modTy a b := ((builtinOps fl).modTy a.1 b.1).map fun r => (r, false)
  negTy a := some (a.1.promote, false)
  assignable
    | o, (a, false), (b, _) => (builtinOps fl).assignable o a b
    | _, (_, true), _ => false
  eqWith _ _ := true
  threeWay a b := a.1.threeWay b.1
  add a b := numOp fl .add a.1 b.1
  sub a b := numOp fl .sub a.1 b.1
  mod a b := numOp fl .mod a.1 b.1
  neg a := numNeg a.1
  assign o a b := compound fl o a.1 b.1
  eqv _ x y := .ok (decide (x.q = y.q))
  cmp _ x y := .ok (some (numCompare x y))

end Verif
