import Verif.Kind

/-!
# `units::equivalent` on quantities, quantity points and their kinds

src/core/include/units/bits/equivalent.h:110-132
-/

namespace Verif

/-- `equivalent_impl<Q1, Q2>` for quantities, src/core/include/units/bits/equivalent.h:36-38, 112-115.  The units are looked at only if the
dimensions are equivalent (`std::conjunction`). -/
def qtyEquivalent (a b : QTy) : C Bool :=
  if a = b then .ok true
  else do
    let e ← dimEquivalent a.dim b.dim
    if e then equivalentUnit a.unit a.dim b.unit b.dim else .ok false

/-- `equivalent_impl<QP1, QP2>` for quantity points, src/core/include/units/bits/equivalent.h:36-38, 117-119. -/
def ptEquivalent (R : Rebinds) (a b : PTy) : C Bool :=
  if a = b then .ok true
  else do
    let e ← qtyEquivalent a.qty b.qty
    if e then originEquivalent R a.origin b.origin else .ok false

/-- `equivalent_impl<QK1, QK2>` for quantity kinds, src/core/include/units/bits/equivalent.h:36-38, 121-123. -/
def kdEquivalent (a b : KTy) : C Bool :=
  if a = b then .ok true
  else do
    let e ← kindEquivalent a.kind b.kind
    if e then qtyEquivalent a.qty b.qty else .ok false

/-- `equivalent_impl<QPK1, QPK2>` for quantity point kinds, src/core/include/units/bits/equivalent.h:36-38, 125-127; `quantity_kind_type` and
`origin` are src/core/include/units/quantity_point_kind.h:47-49. -/
def pkEquivalent (R : Rebinds) (a b : PKTy) : C Bool :=
  if a = b then .ok true
  else do
    let e ← kdEquivalent a.kty b.kty
    if e then originEquivalent R a.pk.origin b.pk.origin else .ok false

end Verif
