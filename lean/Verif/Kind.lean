import Verif.Point

/-!
# Quantity kinds and quantity point kinds

src/core/include/units/kind.h, quantity_kind.h, quantity_point_kind.h, quantity_cast.h, bits/equivalent.h
-/

namespace Verif

/-! ### Kinds -/

/-- A type satisfying `Kind`: a child of `_kind_base<base, dim>` (made with `kind` or `derived_kind`), or that
class itself (`id = none`), src/core/include/units/kind.h:35-39, 58-63 and bits/basic_concepts.h:262-281. -/
structure Kind where
  id : Option String
  base : String
  dim : Dim
  deriving DecidableEq

/-- The child that downcasting finds for `_kind_base<base, dim>`. -/
abbrev KindReg := String → Dim → Option Kind

/-- `downcast_kind`, src/core/include/units/kind.h:50-52. -/
def downcastKind (κ : KindReg) (base : String) (d : Dim) : Kind :=
  match κ base d with
  | some k => k
  | none => ⟨none, base, d⟩

/-- `equivalent` for kinds, src/core/include/units/bits/equivalent.h:99-102. -/
def kindEquivalent (a b : Kind) : C Bool :=
  if a.base = b.base then dimEquivalent a.dim b.dim else .ok false

/-- `quantity_kind<K, U, Rep>`, src/core/include/units/quantity_kind.h:78-86. -/
structure KTy where
  kind : Kind
  unit : MUnit
  rep : Rep
  deriving DecidableEq

/-- `quantity_type`, src/core/include/units/quantity_kind.h:82. -/
def KTy.qty (t : KTy) : QTy := ⟨t.kind.dim, t.unit, t.rep⟩

/-- A quantity kind: its type and the number of its member `q_`, src/core/include/units/quantity_kind.h:89. -/
structure Kd where
  ty : KTy
  num : Num
  deriving DecidableEq

/-- `common()`, src/core/include/units/quantity_kind.h:111-114. -/
def Kd.common (k : Kd) : Qty := ⟨k.ty.qty, k.num⟩

/-- The explicit constructor from a quantity, src/core/include/units/quantity_kind.h:96-102: the class template
needs `UnitOf` (line 75), and the quantity is converted to `quantity_type`. -/
def constructKind (E : Env) (t : KTy) (q : Qty) : C Kd :=
  if t.unit.ref = t.kind.dim.unit.ref then do
    let x ← convertQty E t.qty q
    .ok ⟨t, x.num⟩
  else .error .rejected

/-- `make_quantity_kind_fn<K>`, src/core/include/units/quantity_kind.h:39-46. -/
def makeKind (E : Env) (K : Kind) (q : Qty) : C Kd := constructKind E ⟨K, q.ty.unit, q.ty.rep⟩ q

/-- `downcasted_kind_fn<K>`, src/core/include/units/quantity_kind.h:48-55. -/
def downcastedKind (E : Env) (κ : KindReg) (base : String) (q : Qty) : C Kd := makeKind E (downcastKind κ base q.ty.dim) q

/-- The converting constructor, src/core/include/units/quantity_kind.h:104-106 (and the copy constructor). -/
def convertKind (E : Env) (t : KTy) (k : Kd) : C Kd :=
  if k.ty = t then .ok k
  else do
    let e ← kindEquivalent k.ty.kind t.kind
    if e then do
      let x ← convertQty E t.qty k.common
      .ok ⟨t, x.num⟩
    else .error .rejected

/-- `+` and `-` on quantity kinds, src/core/include/units/quantity_kind.h:291-303. -/
def addSubKind (E : Env) (op : BinOp) (a b : Kd) : C Kd := do
  let e ← kindEquivalent b.ty.kind a.ty.kind
  if e then do
    let r ← addSub E op a.common b.common
    makeKind E a.ty.kind r
  else .error .rejected

/-- `qk * q` and `qk / q`, src/core/include/units/quantity_kind.h:305-310, 326-332. -/
def mulDivKindQty (E : Env) (κ : KindReg) (mul : Bool) (k : Kd) (q : Qty) : C Kd := do
  let r ← (if mul then mulQty E k.common q else divQty E k.common q)
  downcastedKind E κ k.ty.kind.base r

/-- `q * qk` and `q / qk`, src/core/include/units/quantity_kind.h:312-317, 334-340. -/
def mulDivQtyKind (E : Env) (κ : KindReg) (mul : Bool) (q : Qty) (k : Kd) : C Kd := do
  let r ← (if mul then mulQty E q k.common else divQty E q k.common)
  downcastedKind E κ k.ty.kind.base r

/-- `qk1 * qk2` and `qk1 / qk2`, src/core/include/units/quantity_kind.h:319-324, 342-347: the kinds must be related
(lines 57-65). -/
def mulDivKinds (E : Env) (κ : KindReg) (mul : Bool) (a b : Kd) : C Kd :=
  if a.ty.kind.base = b.ty.kind.base then do
    let r ← (if mul then mulQty E a.common b.common else divQty E a.common b.common)
    downcastedKind E κ a.ty.kind.base r
  else .error .rejected

/-- `qk * v`, `qk / v`, `qk % v` with a number, src/core/include/units/quantity_kind.h:244-249, 258-264, 274-280. -/
def scaleKind (E : Env) (op : BinOp) (k : Kd) (r : Rep) (v : Num) : C Kd := do
  let x ← scaleQty E op k.common r v
  makeKind E k.ty.kind x

/-- `v * qk`, src/core/include/units/quantity_kind.h:251-256. -/
def scaleKindLeft (E : Env) (r : Rep) (v : Num) (k : Kd) : C Kd := do
  let x ← scaleQtyLeft E r v k.common
  makeKind E k.ty.kind x

/-- `v / qk`, src/core/include/units/quantity_kind.h:266-272. -/
def recipKind (E : Env) (κ : KindReg) (r : Rep) (v : Num) (k : Kd) : C Kd := do
  let x ← recipQty E r v k.common
  downcastedKind E κ k.ty.kind.base x

/-- `qk % d` with a dimensionless quantity, src/core/include/units/quantity_kind.h:349-355. -/
def modKindQty (E : Env) (k : Kd) (d : Qty) : C Kd := do
  let e ← dimEquivalent d.ty.dim (.named dimOne)
  if e then do
    let x ← modQty E k.common d
    makeKind E k.ty.kind x
  else .error .rejected

/-- `qk1 % qk2`, src/core/include/units/quantity_kind.h:357-363. -/
def modKinds (E : Env) (a b : Kd) : C Kd := do
  let e ← kindEquivalent b.ty.kind a.ty.kind
  if e then do
    let x ← modQty E a.common b.common
    makeKind E a.ty.kind x
  else .error .rejected

/-- Implicit conversion between kind types, src/core/include/units/quantity_kind.h:104-106. -/
def kindCastable (E : Env) (a b : KTy) : C Bool := do
  let e ← kindEquivalent a.kind b.kind
  if e then convertibleTo (safeCastable E) a.qty b.qty else .ok false

/-- `std::common_type` of kinds, src/core/include/units/bits/common_quantity.h:109-114: the kind of the first one.
The class template needs `UnitOf` (quantity_kind.h:75). -/
def commonTypeKind (E : Env) (a b : KTy) : C (Option KTy) := do
  let e ← kindEquivalent b.kind a.kind
  if e then do
    let t ← commonQty E a.qty b.qty (a.rep.common b.rep)
    if t.unit.ref = a.kind.dim.unit.ref then .ok (some ⟨a.kind, t.unit, t.rep⟩) else .error .rejected
  else .ok none

/-- `qk1 <=> qk2`, src/core/include/units/quantity_kind.h:282-286, 365-370. -/
def compareKinds (E : Env) (a b : Kd) : C Ordering := do
  let e ← kindEquivalent b.ty.kind a.ty.kind
  if e then do
    let c ← comparableQty E a.ty.qty b.ty.qty
    if c then compareQty E a.common b.common else .error .rejected
  else .error .rejected

/-- `qk1 == qk2`, src/core/include/units/quantity_kind.h:288, 372-377. -/
def eqKinds (E : Env) (a b : Kd) : C Bool := do
  let e ← kindEquivalent b.ty.kind a.ty.kind
  if e then do
    let c ← comparableQty E a.ty.qty b.ty.qty
    if c then eqQty E a.common b.common else .error .rejected
  else .error .rejected

/-- `qk1 += qk2` and `qk1 -= qk2`, src/core/include/units/quantity_kind.h:178-190: the argument is first converted
to the type of the object. -/
def assignKind (E : Env) (op : BinOp) (a b : Kd) : C Kd := do
  let b' ← convertKind E a.ty b
  let x ← assignQty E op a.common b'.common
  .ok ⟨a.ty, x.num⟩

/-- `qk *= v`, `qk /= v`, `qk %= v`, src/core/include/units/quantity_kind.h:192-198, 207-214, 223-230 with a
number. -/
def assignKindNum (E : Env) (op : BinOp) (a : Kd) (r : Rep) (v : Num) : C Kd := do
  let x ← assignNum E op a.common r v
  .ok ⟨a.ty, x.num⟩

/-- `qk *= d`, `qk /= d`, `qk %= d` for a quantity of dimension and unit one,
src/core/include/units/quantity_kind.h:192-198, 207-214, 223-230. -/
def assignKindQty (E : Env) (op : BinOp) (a : Kd) (d : Qty) : C Kd := do
  let x ← assignDimless E op a.common d
  .ok ⟨a.ty, x.num⟩

/-- `qk *= d` and `qk /= d` for the dimensionless kind of the same family,
src/core/include/units/quantity_kind.h:199-205, 215-221. -/
def assignKindDimless (E : Env) (κ : KindReg) (op : BinOp) (a d : Kd) : C Kd :=
  if d.ty.kind = downcastKind κ a.ty.kind.base (.named dimOne) ∧ d.ty.unit = unitOne then do
    let x ← assignDimless E op a.common d.common
    .ok ⟨a.ty, x.num⟩
  else .error .rejected

/-- `qk1 %= qk2`, src/core/include/units/quantity_kind.h:232-240: an equivalent kind, or the dimensionless kind of
the family.  A divisor of dimension and unit one, unless it has the type of the object, is taken by the
template of src/core/include/units/quantity.h:268-276, any other by lines 278-285. -/
def assignKindMod (E : Env) (κ : KindReg) (a b : Kd) : C Kd := do
  let e ← kindEquivalent a.ty.kind b.ty.kind
  if e = true ∨ b.ty.kind = downcastKind κ a.ty.kind.base (.named dimOne) then do
    let x ← (if b.ty.kind.dim = .named dimOne ∧ b.ty.unit = unitOne ∧ b.ty.qty ≠ a.ty.qty then
        assignDimless E .mod a.common b.common
      else assignQty E .mod a.common b.common)
    .ok ⟨a.ty, x.num⟩
  else .error .rejected

/-- `++qk` and `--qk`, src/core/include/units/quantity_kind.h:152-157, 165-170. -/
def incDecKind (E : Env) (op : BinOp) (k : Kd) : C Kd := do
  let x ← incDec E op k.common
  .ok ⟨k.ty, x.num⟩

/-- `qk++` and `qk--`, src/core/include/units/quantity_kind.h:159-163, 172-176: the new value and the returned one. -/
def incDecKindPost (E : Env) (op : BinOp) (k : Kd) : C (Kd × Kd) := do
  let (x, y) ← incDecPost E op k.common
  let z ← constructKind E k.ty y
  .ok (⟨k.ty, x.num⟩, z)

/-- `-qk`, src/core/include/units/quantity_kind.h:146-150. -/
def negKind (E : Env) (k : Kd) : C Kd := do
  let x ← negQty k.common
  makeKind E k.ty.kind x

/-! ### Casts of kinds -/

/-- What may be given to `quantity_kind_cast`. -/
inductive KindSpec where
  | type (t : KTy)
  | kind (K : Kind)
  | qty (s : CastSpec)
  | kindUnit (K : Kind) (u : MUnit)

/-- `quantity_kind_cast`, src/core/include/units/quantity_cast.h:290-307 (one argument), 324-329 (a kind and a
unit). -/
def kindCast (E : Env) (s : KindSpec) (k : Kd) : C Kd :=
  match s with
  | .type t => do
    let x ← quantityCast E t.qty k.common
    constructKind E t x
  | .kind K => constructKind E ⟨K, k.ty.unit, k.ty.rep⟩ k.common
  | .qty s => do
    let x ← quantityCastBy E s k.common
    makeKind E k.ty.kind x
  | .kindUnit K u => do
    let e ← dimEquivalent K.dim k.ty.kind.dim
    if e ∧ u.ref = K.dim.unit.ref then do
      let x ← quantityCast E ⟨K.dim, u, k.ty.rep⟩ k.common
      constructKind E ⟨K, u, k.ty.rep⟩ x
    else .error .rejected

/-! ### Point kinds -/

/-- A type satisfying `PointKind`: a child of `_point_kind_base<kind, origin>`, or that class itself
(`id = none`), src/core/include/units/kind.h:41-46, 65-66. -/
structure PKind where
  id : Option String
  kind : Kind
  origin : Origin
  deriving DecidableEq

/-- The constraint on origins in `PointKind`, src/core/include/units/bits/basic_concepts.h:295-301. -/
def PKind.OK (k : PKind) : Prop := k.origin.dim = k.kind.dim

/-- The child that downcasting finds for `_point_kind_base<kind, origin>`. -/
abbrev PKindReg := Kind → Origin → Option PKind

/-- `downcast_point_kind`, src/core/include/units/kind.h:54-56. -/
def downcastPKind (ρ : PKindReg) (k : Kind) (o : Origin) : PKind :=
  match ρ k o with
  | some p => p
  | none => ⟨none, k, o⟩

/-- `equivalent` for point kinds, src/core/include/units/bits/equivalent.h:104-107. -/
def pkindEquivalent (R : Rebinds) (a b : PKind) : C Bool := do
  let e ← kindEquivalent a.kind b.kind
  if e then originEquivalent R a.origin b.origin else .ok false

/-- `quantity_point_kind<PK, U, Rep>`, src/core/include/units/quantity_point_kind.h:43-54. -/
structure PKTy where
  pk : PKind
  unit : MUnit
  rep : Rep
  deriving DecidableEq

/-- `quantity_kind_type`, src/core/include/units/quantity_point_kind.h:49. -/
def PKTy.kty (t : PKTy) : KTy := ⟨t.pk.kind, t.unit, t.rep⟩

/-- A quantity point kind, src/core/include/units/quantity_point_kind.h:57. -/
structure Pk where
  ty : PKTy
  num : Num
  deriving DecidableEq

/-- `relative()`, src/core/include/units/quantity_point_kind.h:82-85. -/
def Pk.rel (p : Pk) : Kd := ⟨p.ty.kty, p.num⟩

/-- The deduction guide, src/core/include/units/quantity_point_kind.h:186-188: the origin is dynamic. -/
def deducePk (ρ : PKindReg) (k : Kd) : Pk :=
  ⟨⟨downcastPKind ρ k.ty.kind (dynamicOrigin k.ty.kind.dim), k.ty.unit, k.ty.rep⟩, k.num⟩

/-- The explicit constructor from a kind, src/core/include/units/quantity_point_kind.h:64-66. -/
def constructPkKind (E : Env) (t : PKTy) (k : Kd) : C Pk := do
  let x ← convertKind E t.kty k
  .ok ⟨t, x.num⟩

/-- The converting constructor, src/core/include/units/quantity_point_kind.h:75-77. -/
def convertPk (E : Env) (R : Rebinds) (t : PKTy) (p : Pk) : C Pk :=
  if p.ty = t then .ok p
  else do
    let e ← pkindEquivalent R p.ty.pk t.pk
    if e then do
      let x ← convertKind E t.kty p.rel
      .ok ⟨t, x.num⟩
    else .error .rejected

/-- `p + qk` and `p - qk`, src/core/include/units/quantity_point_kind.h:142-147, 156-161. -/
def addSubPk (E : Env) (ρ : PKindReg) (op : BinOp) (p : Pk) (k : Kd) : C Pk := do
  let r ← addSubKind E op p.rel k
  .ok (deducePk ρ r)

/-- `qk + p`, src/core/include/units/quantity_point_kind.h:149-154. -/
def addPkLeft (E : Env) (ρ : PKindReg) (k : Kd) (p : Pk) : C Pk := do
  let r ← addSubKind E .add k p.rel
  .ok (deducePk ρ r)

/-- `p1 - p2`, src/core/include/units/quantity_point_kind.h:163-168. -/
def subPks (E : Env) (R : Rebinds) (a b : Pk) : C Kd := do
  let e ← pkindEquivalent R b.ty.pk a.ty.pk
  if e then addSubKind E .sub a.rel b.rel else .error .rejected

/-- `std::three_way_comparable_with` and `std::equality_comparable_with` on kind types, up to the comparison
itself, src/core/include/units/quantity_point_kind.h:171, 178. -/
def comparableKind (E : Env) (a b : KTy) : C Bool := commonRefWith (kindCastable E) (commonTypeKind E) a b

/-- `p1 <=> p2`, src/core/include/units/quantity_point_kind.h:170-175. -/
def comparePks (E : Env) (R : Rebinds) (a b : Pk) : C Ordering := do
  let e ← pkindEquivalent R b.ty.pk a.ty.pk
  if e then do
    let c ← comparableKind E a.ty.kty b.ty.kty
    if c then compareKinds E a.rel b.rel else .error .rejected
  else .error .rejected

/-- `p1 == p2`, src/core/include/units/quantity_point_kind.h:177-182. -/
def eqPks (E : Env) (R : Rebinds) (a b : Pk) : C Bool := do
  let e ← pkindEquivalent R b.ty.pk a.ty.pk
  if e then do
    let c ← comparableKind E a.ty.kty b.ty.kty
    if c then eqKinds E a.rel b.rel else .error .rejected
  else .error .rejected

/-- `p += qk` and `p -= qk`, src/core/include/units/quantity_point_kind.h:125-137: the argument is converted to
`quantity_kind_type`. -/
def assignPk (E : Env) (op : BinOp) (p : Pk) (k : Kd) : C Pk := do
  let k' ← convertKind E p.ty.kty k
  let x ← assignKind E op p.rel k'
  .ok ⟨p.ty, x.num⟩

/-- `++p` and `--p`, src/core/include/units/quantity_point_kind.h:99-104, 112-117. -/
def incDecPk (E : Env) (op : BinOp) (p : Pk) : C Pk := do
  let x ← incDecKind E op p.rel
  .ok ⟨p.ty, x.num⟩

/-- What may be given to `quantity_point_kind_cast`. -/
inductive PkSpec where
  | type (t : PKTy)
  | pkind (k : PKind)
  | kind (s : KindSpec)
  | pkindUnit (k : PKind) (u : MUnit)

/-- `quantity_point_kind_cast`, src/core/include/units/quantity_cast.h:349-363 (one argument), 381-386 (a point kind
and a unit). -/
def pkCast (E : Env) (R : Rebinds) (ρ : PKindReg) (s : PkSpec) (p : Pk) : C Pk :=
  match s with
  | .type t => castTo t
  | .pkind k =>
    if p.ty.unit.ref = k.kind.dim.unit.ref then do
      let x ← kindCast E (.kind k.kind) p.rel
      .ok (deducePk ρ x)
    else .error .rejected
  | .kind s => do
    let x ← kindCast E s p.rel
    .ok (deducePk ρ x)
  | .pkindUnit k u => do
    let e ← dimEquivalent k.kind.dim p.ty.pk.kind.dim
    if e ∧ u.ref = k.kind.dim.unit.ref then castTo ⟨k, u, p.ty.rep⟩ else .error .rejected
where
  /-- The first branch, src/core/include/units/quantity_cast.h:350-352, 358. -/
  castTo (t : PKTy) : C Pk := do
    let e ← originEquivalent R p.ty.pk.origin t.pk.origin
    if e then do
      let x ← kindCast E (.type t.kty) p.rel
      constructPkKind E t x
    else .error .rejected

/-! ### Specification -/

/-- The physical amount of a quantity kind. -/
noncomputable def Kd.amount (β : String → ℝ) (k : Kd) : ℝ := k.common.amount β

/-- The distance of a point from its origin. -/
noncomputable def Pk.pos (β : String → ℝ) (p : Pk) : ℝ := p.rel.amount β

end Verif
