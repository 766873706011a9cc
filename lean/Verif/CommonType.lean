import Verif.EquivType

/-!
# Common types of quantity points, and of points of a kind

The specialisations of `std::common_type` at the end of src/core/include/units/bits/common_quantity.h, the implicit
conversions of points, and the concepts of bits/quantity_of.h that constrain them.  Those of quantities and of
quantity kinds are `commonTypeQty` and `commonTypeKind`.
-/

namespace Verif

/-- Implicit conversion between point types, src/core/include/units/quantity_point.h:81-83: `QuantityPointOf`
(src/core/include/units/bits/quantity_of.h:92-93) and a conversion of the quantity types. -/
def pointCastable (E : Env) (R : Rebinds) (a b : PTy) : C Bool := do
  let e ← originEquivalent R a.origin b.origin
  if e then convertibleTo (safeCastable E) a.qty b.qty else .ok false

/-- `std::common_type` of points, src/core/include/units/bits/common_quantity.h:98-106: there is none unless
`QuantityPointEquivalentTo` (src/core/include/units/bits/quantity_of.h:100-101); the origin of the first point is
rebound to the dimension of the common quantity.  The class template needs `UnitOf` (quantity_point.h:59-60), and what is
ill-formed inside the specialisation is an error and not the absence of a type. -/
def commonTypePoint (E : Env) (R : Rebinds) (a b : PTy) : C (Option PTy) := do
  let e ← originEquivalent R b.origin a.origin
  if e then do
    let x ← commonTypeQty E a.qty b.qty
    match x with
    | none => .error .rejected
    | some t =>
      match rebindOrigin R a.origin t.dim with
      | none => .error .rejected
      | some o => if t.unit.ref = o.dim.unit.ref then .ok (some ⟨o, t.unit, t.rep⟩) else .error .rejected
  else .ok none

/-- `common_quantity_point<QP1, QP2>`, src/core/include/units/bits/common_quantity.h:79-80: constrained by
`QuantityPointEquivalentTo`. -/
def commonQuantityPoint (E : Env) (R : Rebinds) (a b : PTy) : C PTy := do
  let x ← commonTypePoint E R a b
  match x with
  | none => .error .rejected
  | some t => .ok t

/-- `std::equality_comparable_with<QP1, QP2>`, and `std::three_way_comparable_with<QP1, QP2>` up to the comparison
itself: what generic code asks of two types of points. -/
def comparablePoint (E : Env) (R : Rebinds) (a b : PTy) : C Bool := commonRefWith (pointCastable E R) (commonTypePoint E R) a b

/-- `common_quantity_kind<QK1, QK2>`, src/core/include/units/bits/common_quantity.h:82-83: constrained by
`QuantityKindEquivalentTo` (src/core/include/units/bits/quantity_of.h:109-110, 117-118). -/
def commonQuantityKind (E : Env) (a b : KTy) : C KTy := do
  let x ← commonTypeKind E a b
  match x with
  | none => .error .rejected
  | some t => .ok t

/-- Implicit conversion between types of points of a kind, src/core/include/units/quantity_point_kind.h:75-77:
`QuantityPointKindOf` (src/core/include/units/bits/quantity_of.h:126-127) and a conversion of the kind types. -/
def pkCastable (E : Env) (R : Rebinds) (a b : PKTy) : C Bool := do
  let e ← pkindEquivalent R a.pk b.pk
  if e then convertibleTo (kindCastable E) a.kty b.kty else .ok false

/-- `std::common_type` of points of a kind, src/core/include/units/bits/common_quantity.h:116-122: there is none unless
`QuantityPointKindEquivalentTo` (src/core/include/units/bits/quantity_of.h:134-136); the point kind of the first one,
with the unit of the common kind.  The class template needs `UnitOf` (quantity_point_kind.h:43-44). -/
def commonTypePk (E : Env) (R : Rebinds) (a b : PKTy) : C (Option PKTy) := do
  let e ← pkindEquivalent R b.pk a.pk
  if e then do
    let x ← commonTypeKind E a.kty b.kty
    match x with
    | none => .error .rejected
    | some t => if t.unit.ref = a.pk.kind.dim.unit.ref then .ok (some ⟨a.pk, t.unit, t.rep⟩) else .error .rejected
  else .ok none

/-- `common_quantity_point_kind<QPK1, QPK2>`, src/core/include/units/bits/common_quantity.h:85-86: constrained by
`QuantityPointKindEquivalentTo`. -/
def commonQuantityPk (E : Env) (R : Rebinds) (a b : PKTy) : C PKTy := do
  let x ← commonTypePk E R a b
  match x with
  | none => .error .rejected
  | some t => .ok t

end Verif
