import Verif.Quantity

/-!
# When two types may be compared

`std::three_way_comparable_with` and `std::equality_comparable_with`, which constrain the comparisons of points,
kinds and point kinds: src/core/include/units/quantity_point.h:189, 196, quantity_kind.h:283, 366, 373,
quantity_point_kind.h:171, 178.  Both need `std::common_reference_with<const T&, const U&>`, so that besides the
comparison itself there must be one common type, the same in both orders.
-/

namespace Verif

/-- `std::common_reference_t<const T&, const U&>` for class types ([meta.trans.other]): a type with itself; else
the type of `false ? t : u`, which exists when exactly one of the types converts implicitly to the other; else
`std::common_type_t<T, U>`.  `conv` says whether the first type converts implicitly to the second one and
`common` is the specialisation of `std::common_type`. -/
def commonRef {α : Type} [DecidableEq α] (conv : α → α → C Bool) (common : α → α → C (Option α)) (a b : α) :
    C (Option α) :=
  if a = b then .ok (some a)
  else do
    let ab ← conv a b
    let ba ← conv b a
    if ab && !ba then .ok (some b)
    else if ba && !ab then .ok (some a)
    else common a b

/-- `std::convertible_to<T, U>`: a copy or an implicit conversion. -/
def convertibleTo {α : Type} [DecidableEq α] (conv : α → α → C Bool) (a b : α) : C Bool :=
  if a = b then .ok true else conv a b

/-- `std::common_reference_with<const T&, const U&>` ([concept.commonref]). -/
def commonRefWith {α : Type} [DecidableEq α] (conv : α → α → C Bool) (common : α → α → C (Option α)) (a b : α) :
    C Bool := do
  let x ← commonRef conv common a b
  let y ← commonRef conv common b a
  match x, y with
  | some t, some s =>
    if t = s then do
      let p ← convertibleTo conv a t
      let q ← convertibleTo conv b t
      .ok (p && q)
    else .ok false
  | _, _ => .ok false

/-- `std::common_type` of quantities, src/core/include/units/bits/common_quantity.h:92-96: there is none unless
`QuantityEquivalentTo`. -/
def commonTypeQty (E : Env) (a b : QTy) : C (Option QTy) := do
  let e ← dimEquivalent b.dim a.dim
  if e then do
    let t ← commonQty E a b (a.rep.common b.rep)
    .ok (some t)
  else .ok none

/-- `std::equality_comparable_with<Q1, Q2>`, and `std::three_way_comparable_with<Q1, Q2>` up to the comparison
`<=>` itself, which `compareQty` accepts or not.  The other requirements (each type and the common type comparable
with itself, and the comparisons in both orders) hold whenever this one and the comparison do. -/
def comparableQty (E : Env) (a b : QTy) : C Bool := commonRefWith (safeCastable E) (commonTypeQty E) a b

end Verif
