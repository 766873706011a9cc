import Verif.Comparable

/-!
# Casts by specification and quantity points

src/core/include/units/quantity_cast.h, quantity_point.h, point_origin.h, bits/basic_concepts.h
-/

namespace Verif

/-! ### Overloads of `quantity_cast` -/

/-- What may be given to `quantity_cast`: a quantity type, a dimension, a unit, a dimension and a unit, or a
representation type. -/
inductive CastSpec where
  | qty (t : QTy)
  | dim (d : Dim)
  | unit (u : MUnit)
  | dimUnit (d : Dim) (u : MUnit)
  | rep (r : Rep)

/-- The target type of a cast, src/core/include/units/quantity_cast.h:153-158 (dimension), 172-177 (unit),
195-200 (dimension and unit), 214-219 (representation). -/
def castTarget (E : Env) (s : CastSpec) (t : QTy) : C QTy :=
  match s with
  | .qty t' => .ok t'
  | .dim d => do
    let e ← dimEquivalent d t.dim
    if e then do
      let u ← downcastUnit E.units d t.unit.ratio
      .ok ⟨d, u, t.rep⟩
    else .error .rejected
  | .unit u => if u.ref = t.dim.unit.ref then .ok ⟨t.dim, u, t.rep⟩ else .error .rejected
  | .dimUnit d u => do
    let e ← dimEquivalent d t.dim
    if e ∧ u.ref = d.unit.ref then .ok ⟨d, u, t.rep⟩ else .error .rejected
  | .rep r => .ok ⟨t.dim, t.unit, r⟩

/-- `quantity_cast<Spec>(q)`, src/core/include/units/quantity_cast.h:114-219. -/
def quantityCastBy (E : Env) (s : CastSpec) (q : Qty) : C Qty := do
  let t ← castTarget E s q.ty
  quantityCast E t q

/-! ### Origins -/

/-- A type satisfying `PointOrigin`, src/core/include/units/bits/basic_concepts.h:208-226: its identity and its
dimension.  The specialisations of one class template share the name. -/
structure Origin where
  name : String
  dim : Dim
  deriving DecidableEq

/-- `dynamic_origin<D>`, src/core/include/units/quantity_point.h:44-48. -/
def dynamicOrigin (d : Dim) : Origin := ⟨"dynamic_origin", d⟩

/-- The member templates `rebind` that user-defined origins have. -/
abbrev Rebinds := Origin → Dim → Option Origin

/-- `rebind_point_origin_dimension`, src/core/include/units/bits/basic_concepts.h:230-241. -/
def rebindOrigin (R : Rebinds) (o : Origin) (d : Dim) : Option Origin :=
  if o.dim = d then some o
  else if o.name = "dynamic_origin" then some (dynamicOrigin d)
  else R o d

/-- `RebindablePointOriginFor`, src/core/include/units/bits/basic_concepts.h:248-252. -/
def rebindable (R : Rebinds) (o : Origin) (d : Dim) : Bool :=
  match rebindOrigin R o d with
  | some o' => decide (o'.dim = d)
  | none => false

/-- `equivalent` for origins, src/core/include/units/bits/equivalent.h:36-38, 84-94. -/
def originEquivalent (R : Rebinds) (a b : Origin) : C Bool :=
  if a = b then .ok true
  else if rebindable R a b.dim ∧ rebindable R b a.dim ∧ rebindOrigin R b a.dim = some a ∧ rebindOrigin R a b.dim = some b then
    dimEquivalent a.dim b.dim
  else .ok false

/-! ### Points -/

/-- `quantity_point<O, U, Rep>`, src/core/include/units/quantity_point.h:59-67. -/
structure PTy where
  origin : Origin
  unit : MUnit
  rep : Rep
  deriving DecidableEq

/-- `quantity_type`, src/core/include/units/quantity_point.h:63. -/
def PTy.qty (t : PTy) : QTy := ⟨t.origin.dim, t.unit, t.rep⟩

/-- A point: its type and the number of its member `q_`, src/core/include/units/quantity_point.h:70. -/
structure Pt where
  ty : PTy
  num : Num
  deriving DecidableEq

/-- `relative()`, src/core/include/units/quantity_point.h:94-97. -/
def Pt.rel (p : Pt) : Qty := ⟨p.ty.qty, p.num⟩

/-- `quantity_point(T&&)` for a quantity, src/core/include/units/quantity_point.h:77-79: the constraint
`UnitOf` on the class template (line 60) and the conversion to `quantity_type`. -/
def mkPoint (E : Env) (t : PTy) (q : Qty) : C Pt :=
  if t.unit.ref = t.origin.dim.unit.ref then do
    let x ← convertQty E t.qty q
    .ok ⟨t, x.num⟩
  else .error .rejected

/-- `quantity_point(T&&)` for a number, src/core/include/units/quantity_point.h:77-79. -/
def mkPointNum (E : Env) (t : PTy) (r : Rep) (v : Num) : C Pt := do
  let x ← mkQty E t.qty r v
  .ok ⟨t, x.num⟩

/-- The deduction guide for a quantity, src/core/include/units/quantity_point.h:206-207. -/
def deducePoint (q : Qty) : Pt := ⟨⟨dynamicOrigin q.ty.dim, q.ty.unit, q.ty.rep⟩, q.num⟩

/-- The converting constructor, src/core/include/units/quantity_point.h:81-83 (and the copy constructor). -/
def convertPoint (E : Env) (R : Rebinds) (t : PTy) (p : Pt) : C Pt :=
  if p.ty = t then .ok p
  else do
    let e ← originEquivalent R p.ty.origin t.origin
    if e then do
      let x ← convertQty E t.qty p.rel
      .ok ⟨t, x.num⟩
    else .error .rejected

/-- `p + q` and `p - q`, src/core/include/units/quantity_point.h:154-162, 171-179. -/
def addSubPoint (E : Env) (R : Rebinds) (op : BinOp) (p : Pt) (q : Qty) : C Pt := do
  let r ← addSub E op p.rel q
  match rebindOrigin R p.ty.origin r.ty.dim with
  | some o => mkPoint E ⟨o, r.ty.unit, r.ty.rep⟩ r
  | none => .error .rejected

/-- `q + p`, src/core/include/units/quantity_point.h:164-169. -/
def addPointLeft (E : Env) (R : Rebinds) (q : Qty) (p : Pt) : C Pt := addSubPoint E R .add p q

/-- `p1 - p2`, src/core/include/units/quantity_point.h:181-186. -/
def subPoints (E : Env) (R : Rebinds) (a b : Pt) : C Qty := do
  let e ← originEquivalent R b.ty.origin a.ty.origin
  if e then addSub E .sub a.rel b.rel else .error .rejected

/-- `p1 <=> p2`, src/core/include/units/quantity_point.h:188-193. -/
def comparePoints (E : Env) (R : Rebinds) (a b : Pt) : C Ordering := do
  let e ← originEquivalent R b.ty.origin a.ty.origin
  if e then do
    let c ← comparableQty E a.ty.qty b.ty.qty
    if c then compareQty E a.rel b.rel else .error .rejected
  else .error .rejected

/-- `p1 == p2`, src/core/include/units/quantity_point.h:195-200. -/
def eqPoints (E : Env) (R : Rebinds) (a b : Pt) : C Bool := do
  let e ← originEquivalent R b.ty.origin a.ty.origin
  if e then do
    let c ← comparableQty E a.ty.qty b.ty.qty
    if c then eqQty E a.rel b.rel else .error .rejected
  else .error .rejected

/-- `p += q` and `p -= q`, src/core/include/units/quantity_point.h:137-149 (an argument of another type is
converted to `quantity_type` first). -/
def assignPoint (E : Env) (op : BinOp) (p : Pt) (q : Qty) : C Pt := do
  let q' ← convertQty E p.ty.qty q
  let x ← assignQty E op p.rel q'
  .ok ⟨p.ty, x.num⟩

/-- `++p` and `--p`, src/core/include/units/quantity_point.h:111-116, 124-129. -/
def incDecPoint (E : Env) (op : BinOp) (p : Pt) : C Pt := do
  let x ← incDec E op p.rel
  .ok ⟨p.ty, x.num⟩

/-- `p++` and `p--`, src/core/include/units/quantity_point.h:118-122, 131-135: the new value and the returned
one. -/
def incDecPointPost (E : Env) (op : BinOp) (p : Pt) : C (Pt × Pt) := do
  let (x, y) ← incDecPost E op p.rel
  let z ← mkPoint E p.ty y
  .ok (⟨p.ty, x.num⟩, z)

/-- What may be given to `quantity_point_cast`. -/
inductive PointSpec where
  | point (t : PTy)
  | qty (s : CastSpec)
  | dimUnit (d : Dim) (u : MUnit)

/-- `quantity_point_cast<Spec>(p)`, src/core/include/units/quantity_cast.h:237-249 (a point type or anything for
`quantity_cast`), 266-271 (dimension and unit).  The result is built with class template argument
deduction. -/
def pointCast (E : Env) (R : Rebinds) (s : PointSpec) (p : Pt) : C Pt :=
  match s with
  | .point t => castTo t
  | .qty s => do
    let q ← quantityCastBy E s p.rel
    .ok (deducePoint q)
  | .dimUnit d u => do
    let e ← dimEquivalent d p.ty.origin.dim
    if e ∧ u.ref = d.unit.ref ∧ rebindable R p.ty.origin d then
      match rebindOrigin R p.ty.origin d with
      | some o => castTo ⟨o, u, p.ty.rep⟩
      | none => .error .rejected
    else .error .rejected
where
  /-- The first branch, src/core/include/units/quantity_cast.h:240-246. -/
  castTo (t : PTy) : C Pt := do
    let e ← originEquivalent R p.ty.origin t.origin
    if e then do
      let q ← quantityCast E t.qty p.rel
      .ok (deducePoint q)
    else .error .rejected

/-! ### Specification -/

/-- The distance of a point from its origin. -/
noncomputable def Pt.pos (β : String → ℝ) (p : Pt) : ℝ := p.rel.amount β

end Verif
