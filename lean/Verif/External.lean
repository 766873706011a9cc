import Verif.Reference

/-!
# Quantity-like and point-like types of other libraries

`quantity_like_traits` and `quantity_point_like_traits` of units/customization_points.h as a program specializes them, the concepts `QuantityLike` and
`QuantityPointLike` of units/bits/basic_concepts.h, and the constructors and deduction guides that use them.  Simplifications: the members `dimension`, `unit`
and `rep`, if present, are a dimension, a unit and an arithmetic type (so that `number` converts to it), and `relative` returns an object of a type of the
other library.
-/

namespace Verif

/-- A specialization of `quantity_like_traits`, src/core/include/units/customization_points.h:75-86, with the members it has; `number` is the type that the
function returns. -/
structure LikeTraits where
  dim : Option Dim
  unit : Option MUnit
  rep : Option Rep
  number : Option Rep
deriving DecidableEq

/-- An object of a type of another library: the specialization for its type, if there is one, and what `number` returns for it. -/
structure Ext where
  traits : Option LikeTraits
  value : Num
deriving DecidableEq

/-- `QuantityLike`, src/core/include/units/bits/basic_concepts.h:463-473. -/
def Ext.quantityLike (x : Ext) : Bool :=
  match x.traits with
  | some T => T.dim.isSome && T.unit.isSome && T.rep.isSome && T.number.isSome
  | none => false

/-- `quantity_like_type`, src/core/include/units/quantity.h:97-98, with the constraint of `quantity` on its unit (line 110); also the type that is deduced, lines
395-396. -/
def Ext.like (x : Ext) : C QTy :=
  match x.quantityLike, x.traits with
  | true, some ⟨some d, some u, some r, _⟩ => if u.ref = d.unit.ref then .ok ⟨d, u, r⟩ else .error .rejected
  | _, _ => .error .rejected

/-- The type that `number` returns. -/
def Ext.numberRep (x : Ext) : C Rep :=
  match x.traits with
  | some ⟨_, _, _, some r⟩ => .ok r
  | _ => .error .rejected

/-- The constructor of a quantity from an object of another library, src/core/include/units/quantity.h:158-160. -/
def fromExt (E : Env) (t : QTy) (x : Ext) : C Qty := do
  let l ← x.like
  let safe ← safeCastable E l t
  if safe then do
    let r ← x.numberRep
    let q ← mkQty E l r x.value
    convertQty E t q
  else .error .rejected

/-- `quantity(x)` with the deduction guide of src/core/include/units/quantity.h:395-396. -/
def deduceExt (E : Env) (x : Ext) : C Qty := do
  let l ← x.like
  fromExt E l x

/-- A specialization of `quantity_point_like_traits`, src/core/include/units/customization_points.h:88-99, with the members it has; `relative` is what the function
returns for the object at hand. -/
structure PointLikeTraits where
  dim : Option Dim
  origin : Option Origin
  unit : Option MUnit
  rep : Option Rep
  relative : Option Ext
deriving DecidableEq

/-- A point of another library: the specialization for its type, and whether the program also specializes `detail::is_quantity_point_like`, as
src/core/include/units/chrono.h:56-61 does for time points. -/
structure ExtPoint where
  traits : Option PointLikeTraits
  byHand : Bool
deriving DecidableEq

/-- `QuantityPointLike`, src/core/include/units/bits/basic_concepts.h:475-485. -/
def ExtPoint.pointLike (p : ExtPoint) : Bool :=
  p.byHand ||
    match p.traits with
    | some T => T.dim.isSome && T.unit.isSome && T.rep.isSome && (match T.relative with
      | some x => x.quantityLike
      | none => false)
    | none => false

/-- The constructor of a point from a point of another library, src/core/include/units/quantity_point.h:85-89. -/
def fromExtPoint (E : Env) (R : Rebinds) (t : PTy) (p : ExtPoint) : C Pt :=
  match p.pointLike, p.traits with
  | true, some ⟨_, some o, _, _, some x⟩ => do
    let e ← originEquivalent R t.origin o
    if e then do
      let q ← fromExt E t.qty x
      .ok ⟨t, q.num⟩
    else .error .rejected
  | _, _ => .error .rejected

/-- `quantity_point(p)` with the deduction guide of src/core/include/units/quantity_point.h:213-216, with the constraint of `quantity_point` on its unit (line 59). -/
def deduceExtPoint (E : Env) (R : Rebinds) (p : ExtPoint) : C Pt :=
  match p.pointLike, p.traits with
  | true, some ⟨_, some o, some u, some r, _⟩ => if u.ref = o.dim.unit.ref then fromExtPoint E R ⟨o, u, r⟩ p else .error .rejected
  | _, _ => .error .rejected

/-- A duration as an object of another library, src/core/include/units/chrono.h:34-40. -/
def Duration.ext (E : Env) (d : Duration) : C Ext := do
  let u ← d.unit E
  .ok ⟨some ⟨some (.base siTime), some u, some d.rep, some d.rep⟩, d.count⟩

/-- A time point as a point of another library, src/core/include/units/chrono.h:45-61. -/
def TimePoint.ext (E : Env) (byHand : Bool) (p : TimePoint) : C ExtPoint := do
  let u ← p.since.unit E
  let x ← p.since.ext E
  .ok ⟨some ⟨none, some (clockOrigin p.clock), some u, some p.since.rep, some x⟩, byHand⟩

end Verif
