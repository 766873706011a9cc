import Verif.Quantity

/-!
# Representation types supplied by the user

`units/bits/basic_concepts.h`, `units/customization_points.h`, `units/quantity_cast.h`: the concepts for representation types and
`quantity_cast` for an arbitrary representation, as functions of what the compiler knows about the types involved and of what their
operators do.
-/

namespace Verif

/-- What the compiler knows about a set of types, and what their conversions and operators do.  Values carry no type; the operators are told
the types of their operands.  It parametrises src/core/include/units/bits/basic_concepts.h:396-462 and
src/core/include/units/quantity_cast.h:80-139.  Simplification: a type is not its own `value_type`, directly or indirectly (the library does
not compile otherwise, src/core/include/units/customization_points.h:43-45). -/
structure TypeSys where
  Ty : Type
  Val : Type
  /-- `std::intmax_t` and `double`. -/
  intmax : Ty
  double : Ty
  /-- `std::common_type_t<T, U>`, if there is one. -/
  common : Ty → Ty → Option Ty
  /-- `std::constructible_from<T, U>`. -/
  constructible : Ty → Ty → Bool
  /-- `typename T::value_type` and `typename T::quantity_type`, if there are any. -/
  valueType : Ty → Option Ty
  quantityType : Ty → Option Ty
  depth : Ty → Nat
  depth_lt : ∀ t v, valueType t = some v → depth v < depth t
  /-- The types of `t * u` and `t / u`, if the expressions are valid. -/
  mulTy : Ty → Ty → Option Ty
  divTy : Ty → Ty → Option Ty
  /-- `std::is_floating_point_v<T>` or a specialisation of `treat_as_floating_point` by the user. -/
  floating : Ty → Bool
  regular : Ty → Bool
  /-- `Quantity<T>` and `QuantityLike<T>`. -/
  quantity : Ty → Bool
  quantityLike : Ty → Bool
  decTy : DecidableEq Ty
  /-- A value of type `std::intmax_t`, and of type `double`. -/
  lit : Int → Val
  dlit : Int → Val
  /-- `static_cast<U>(x)` for `x` of type `T`. -/
  cast : Ty → Ty → Val → C Val
  /-- `x * y` and `x / y`. -/
  mul : Ty → Ty → Val → Val → C Val
  div : Ty → Ty → Val → Val → C Val

namespace TypeSys

variable (S : TypeSys)

instance : DecidableEq S.Ty := S.decTy

/-- `common_type_with_`, src/core/include/units/bits/basic_concepts.h:396-400. -/
def commonWith (t u : S.Ty) : Bool :=
  match S.common t u, S.common u t with
  | some a, some b => decide (a = b) && S.constructible a t && S.constructible a u
  | _, _ => false

/-- `scalable_number_`, src/core/include/units/bits/basic_concepts.h:402-405. -/
def scalableNumber (t u : S.Ty) : Bool := (S.mulTy t u).isSome && (S.divTy t u).isSome

/-- `castable_number_`, src/core/include/units/bits/basic_concepts.h:407-410. -/
def castableNumber (t : S.Ty) : Bool :=
  S.commonWith t S.intmax && (match S.common t S.intmax with
    | some c => S.scalableNumber c c
    | none => false)

/-- `scalable_`, src/core/include/units/bits/basic_concepts.h:412-415. -/
def scalable (t : S.Ty) : Bool :=
  S.castableNumber t || (match S.valueType t with
    | some v => S.castableNumber v && (match S.common v S.intmax with
      | some c => S.scalableNumber t c
      | none => false)
    | none => false)

/-- `scalable_with_`, src/core/include/units/bits/basic_concepts.h:417-420. -/
def scalableWith (t u : S.Ty) : Bool :=
  S.commonWith t u && (match S.common t u with
    | some c => S.scalable c
    | none => false)

/-- `wrapped_quantity_`, src/core/include/units/bits/basic_concepts.h:425-445, following `value_type` at most the given number of times.
Simplification: of a type with both members `value_type` counts (the compiler finds two specialisations, neither better). -/
def wrappedIn : Nat → S.Ty → Bool
  | k, t => match S.valueType t with
    | some v => S.quantity v || S.quantityLike v || (match k with
      | 0 => false
      | k + 1 => wrappedIn k v)
    | none => match S.quantityType t with
      | some q => S.quantity q
      | none => false

/-- `wrapped_quantity_`, src/core/include/units/bits/basic_concepts.h:425-445. -/
def wrapped (t : S.Ty) : Bool := S.wrappedIn (S.depth t) t

/-- `Representation`, src/core/include/units/bits/basic_concepts.h:452-458. -/
def representation (t : S.Ty) : Bool :=
  !S.quantity t && !S.quantityLike t && !S.wrapped t && S.regular t && S.scalable t

/-- `treat_as_floating_point`, src/core/include/units/customization_points.h:40-45, following `value_type` at most the given number of times. -/
def treatFloatingIn : Nat → S.Ty → Bool
  | k, t => match S.valueType t with
    | some v => match k with
      | 0 => false
      | k + 1 => treatFloatingIn k v
    | none => S.floating t

/-- `treat_as_floating_point`, src/core/include/units/customization_points.h:40-45. -/
def treatFloating (t : S.Ty) : Bool := S.treatFloatingIn (S.depth t) t

/-- `cast_traits<From, To>`: `ratio_type` and `rep_type`, src/core/include/units/quantity_cast.h:80-98; `none` where neither specialisation
applies. -/
def castTraits (src dst : S.Ty) : Option (S.Ty × S.Ty) :=
  match S.common src dst with
  | none => none
  | some c =>
    if S.commonWith c S.intmax then (S.common c S.intmax).map fun r => (r, r)
    else if S.scalableNumber c S.intmax then
      match S.valueType c with
      | some v => if S.commonWith v S.intmax then (S.common v S.intmax).map fun r => (r, c) else none
      | none => none
    else none

/-- The constraints of `quantity_cast` on the representations, src/core/include/units/quantity_cast.h:114-115. -/
def castAccepts (src dst : S.Ty) : Bool :=
  S.scalableWith src dst && (match S.common dst src with
    | some c => S.constructible dst c
    | none => false)

/-- An expression of a type with its value: the operands of src/core/include/units/quantity_cast.h:123-138. -/
def as (t : S.Ty) (x : S.Ty × S.Val) : C (S.Ty × S.Val) := do
  let y ← S.cast x.1 t x.2
  .ok (t, y)

/-- `x * y`, src/core/include/units/quantity_cast.h:124-135. -/
def times (x y : S.Ty × S.Val) : C (S.Ty × S.Val) :=
  match S.mulTy x.1 y.1 with
  | none => .error .rejected
  | some t => do
    let z ← S.mul x.1 y.1 x.2 y.2
    .ok (t, z)

/-- `x / y`, src/core/include/units/quantity_cast.h:125-136. -/
def over (x y : S.Ty × S.Val) : C (S.Ty × S.Val) :=
  match S.divTy x.1 y.1 with
  | none => .error .rejected
  | some t => do
    let z ← S.div x.1 y.1 x.2 y.2
    .ok (t, z)

/-- The loops of `detail::fpow10<Rep>`, src/core/include/units/bits/pow.h:47-57: `result = result op Rep(10.0)`, the remaining number of
times. -/
def fpow10LoopG (op : S.Ty × S.Val → S.Ty × S.Val → C (S.Ty × S.Val)) (t : S.Ty) : Nat → S.Ty × S.Val → C (S.Ty × S.Val)
  | 0, result => .ok result
  | k + 1, result => do
    let ten ← S.as t (S.double, S.dlit 10)
    let x ← op result ten
    let y ← S.as t x
    fpow10LoopG op t k y

/-- `detail::fpow10<Rep>`, src/core/include/units/bits/pow.h:42-59. -/
def fpow10G (t : S.Ty) (exp : Int) : C (S.Ty × S.Val) := do
  let one ← S.as t (S.double, S.dlit 1)
  if exp = 0 then .ok one
  else if exp < 0 then S.fpow10LoopG S.over t exp.natAbs one
  else S.fpow10LoopG S.times t exp.natAbs one

/-- `static_cast<ratio_type>(n)` of a number of type `std::intmax_t`, src/core/include/units/quantity_cast.h:125-136. -/
def ratioNum (t : S.Ty) (n : Int) : C (S.Ty × S.Val) := S.as t (S.intmax, S.lit n)

/-- The number computed by `quantity_cast`, src/core/include/units/quantity_cast.h:114-139, for any representation; `c` is the ratio of the
units. -/
def castG (src dst : S.Ty) (c : Ratio) (v : S.Val) : C S.Val :=
  if S.castAccepts src dst then
    match S.castTraits src dst with
    | none => .error .rejected
    | some (rt, rp) => do
      let x ← S.as rp (src, v)
      let y ← (if S.treatFloating rp then do
          let n ← S.ratioNum rt c.num
          let p ← S.fpow10G rt c.exp
          let a ← S.times n p
          let d ← S.ratioNum rt c.den
          let b ← S.over a d
          S.times x b
        else if c.exp > 0 then do
          let n ← S.ratioNum rt c.num
          let e ← ipow10 c.exp
          let p ← S.ratioNum rt e
          let a ← S.times n p
          let m ← S.times x a
          let d ← S.ratioNum rt c.den
          S.over m d
        else do
          let n ← S.ratioNum rt c.num
          let m ← S.times x n
          let d ← S.ratioNum rt c.den
          let e ← neg64 c.exp
          let p ← ipow10 e
          let q ← S.ratioNum rt p
          let a ← S.times d q
          S.over m a)
      let z ← S.as dst y
      .ok z.2
  else .error .rejected

end TypeSys

/-- The arithmetic types, src/core/include/units/customization_points.h:40-41; what they do is in `Verif.Num`. -/
abbrev builtin (fl : Rounding) : TypeSys where
  Ty := Rep
  Val := Num
  intmax := .int .i64
  double := .flt .f64
  common a b := some (a.common b)
  constructible _ _ := true
  valueType _ := none
  quantityType _ := none
  depth _ := 0
  depth_lt _ _ h := by cases h
  mulTy a b := some (a.arith b)
  divTy a b := some (a.arith b)
  floating := Rep.floating
  regular _ := true
  quantity _ := false
  quantityLike _ := false
  decTy := inferInstance
  lit z := .i z
  dlit z := .f z
  cast := convNum fl
  mul := numOp fl .mul
  div := numOp fl .div

/-- The arithmetic types and the class `my_rep` (here `none`) of docs/use_cases/custom_representation_types.rst:33-59, which is `min_expl<>` of
test/unit_test/static/custom_rep_test_min_expl.cpp:43-85: a number of type `std::intmax_t` with an explicit constructor, `*` and `/`.  `sp` says whether
`std::common_type` is specialised for it and `std::intmax_t`, as in the test and not in the documentation. -/
abbrev myRep (fl : Rounding) (sp : Bool) : TypeSys where
  Ty := Option Rep
  Val := Num
  intmax := some (.int .i64)
  double := some (.flt .f64)
  common
    | some a, some b => some (some (a.common b))
    | none, none => some none
    | none, some r => if sp && decide (r = .int .i64) then some none else none
    | some r, none => if sp && decide (r = .int .i64) then some none else none
  constructible
    | some _, none => false
    | _, _ => true
  valueType _ := none
  quantityType _ := none
  depth _ := 0
  depth_lt _ _ h := by cases h
  mulTy
    | some a, some b => some (some (a.arith b))
    | none, none => some none
    | _, _ => none
  divTy
    | some a, some b => some (some (a.arith b))
    | none, none => some none
    | _, _ => none
  floating
    | some r => r.floating
    | none => false
  regular _ := true
  quantity _ := false
  quantityLike _ := false
  decTy := inferInstance
  lit z := .i z
  dlit z := .f z
  cast
    | some a, some b, x => convNum fl a b x
    | some a, none, x => convNum fl a (.int .i64) x
    | none, none, x => .ok x
    | none, some _, _ => .error .rejected
  mul
    | some a, some b, x, y => numOp fl .mul a b x y
    | none, none, x, y => numOp fl .mul (.int .i64) (.int .i64) x y
    | _, _, _, _ => .error .rejected
  div
    | some a, some b, x, y => numOp fl .div a b x y
    | none, none, x, y => numOp fl .div (.int .i64) (.int .i64) x y
    | _, _, _, _ => .error .rejected

/-- How a vector type of the user multiplies a vector by a number: the elements get the type of the product (as in the library used by
example/references/linear_algebra.cpp), or they keep their type, or only numbers of the type of the elements are accepted. -/
inductive VecMode where
  | promoting | keeping | strict
deriving DecidableEq, Repr

/-- Numbers and vectors of numbers of some types. -/
inductive VTy (T : Type) where
  | sc (t : T)
  | vec (t : T)
deriving DecidableEq

inductive VVal (V : Type) where
  | sc (v : V)
  | vec (vs : List V)
deriving DecidableEq

/-- The type of the elements of a vector with elements of type `a` multiplied or divided by a number of type `b`; `r` is the type of the product of two
numbers. -/
def VecMode.elem (m : VecMode) {T : Type} [DecidableEq T] (a b : T) (r : Option T) : Option T :=
  match m with
  | .promoting => r
  | .keeping => r.map fun _ => a
  | .strict => if a = b then r.map fun _ => a else none

/-- Vectors of any length over the types of a system, with a member `value_type`: a representation as in example/references/linear_algebra.cpp:63-70.  The common type
of two vector types has elements of the common type; conversions and products with numbers work element by element. -/
abbrev vecSys (S : TypeSys) (m : VecMode) : TypeSys where
  Ty := VTy S.Ty
  Val := VVal S.Val
  intmax := .sc S.intmax
  double := .sc S.double
  common
    | .sc a, .sc b => (S.common a b).map .sc
    | .vec a, .vec b => (S.common a b).map .vec
    | _, _ => none
  constructible
    | .sc a, .sc b => S.constructible a b
    | .vec a, .vec b => S.constructible a b
    | _, _ => false
  valueType
    | .sc a => (S.valueType a).map .sc
    | .vec a => some (.sc a)
  quantityType
    | .sc a => (S.quantityType a).map .sc
    | .vec _ => none
  depth
    | .sc a => S.depth a
    | .vec a => S.depth a + 1
  depth_lt t v h := by
    cases t with
    | sc a =>
      cases hv : S.valueType a with
      | none => simp [hv] at h
      | some w =>
        simp only [hv, Option.map_some, Option.some.injEq] at h
        subst h
        exact S.depth_lt a w hv
    | vec a => cases h; exact Nat.lt_succ_self _
  mulTy
    | .sc a, .sc b => (S.mulTy a b).map .sc
    | .vec a, .sc b => (m.elem a b (S.mulTy a b)).map .vec
    | _, _ => none
  divTy
    | .sc a, .sc b => (S.divTy a b).map .sc
    | .vec a, .sc b => (m.elem a b (S.divTy a b)).map .vec
    | _, _ => none
  floating
    | .sc a => S.floating a
    | .vec _ => false
  regular
    | .sc a => S.regular a
    | .vec a => S.regular a
  quantity
    | .sc a => S.quantity a
    | .vec _ => false
  quantityLike
    | .sc a => S.quantityLike a
    | .vec _ => false
  decTy := inferInstance
  lit z := .sc (S.lit z)
  dlit z := .sc (S.dlit z)
  cast
    | .sc a, .sc b, .sc x => do
      let y ← S.cast a b x
      .ok (.sc y)
    | .vec a, .vec b, .vec xs => do
      let ys ← xs.mapM (S.cast a b)
      .ok (.vec ys)
    | _, _, _ => .error .rejected
  mul
    | .sc a, .sc b, .sc x, .sc y => do
      let z ← S.mul a b x y
      .ok (.sc z)
    | .vec a, .sc b, .vec xs, .sc y => do
      let zs ← xs.mapM fun x => do
        let z ← S.mul a b x y
        match S.mulTy a b, m.elem a b (S.mulTy a b) with
        | some t, some e => if m = .promoting then .ok z else S.cast t e z
        | _, _ => .error .rejected
      .ok (.vec zs)
    | _, _, _, _ => .error .rejected
  div
    | .sc a, .sc b, .sc x, .sc y => do
      let z ← S.div a b x y
      .ok (.sc z)
    | .vec a, .sc b, .vec xs, .sc y => do
      let zs ← xs.mapM fun x => do
        let z ← S.div a b x y
        match S.divTy a b, m.elem a b (S.divTy a b) with
        | some t, some e => if m = .promoting then .ok z else S.cast t e z
        | _, _ => .error .rejected
      .ok (.vec zs)
    | _, _, _, _ => .error .rejected

end Verif
