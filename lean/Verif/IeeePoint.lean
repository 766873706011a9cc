import Verif.IeeeOps
import Verif.Kind

/-!
# Quantity points and quantity kinds with IEEE numbers

src/core/include/units/quantity_point.h, quantity_kind.h, quantity_cast.h
-/

namespace Verif

/-! ### Points -/

/-- A point: its type and the number of its member `q_`, src/core/include/units/quantity_point.h:70. -/
structure PtI where
  ty : PTy
  num : FNum
  deriving DecidableEq

/-- `relative()`, src/core/include/units/quantity_point.h:94-97. -/
def PtI.rel (p : PtI) : QtyI := ⟨p.ty.qty, p.num⟩

/-- `quantity_point(T&&)` for a quantity, src/core/include/units/quantity_point.h:60, 77-79. -/
def mkPointI (E : Env) (t : PTy) (q : QtyI) : C PtI :=
  if t.unit.ref = t.origin.dim.unit.ref then do
    let x ← convertQtyI E t.qty q
    .ok ⟨t, x.num⟩
  else .error .rejected

/-- The converting constructor, src/core/include/units/quantity_point.h:81-83 (and the copy constructor). -/
def convertPointI (E : Env) (R : Rebinds) (t : PTy) (p : PtI) : C PtI :=
  if p.ty = t then .ok p
  else do
    let e ← originEquivalent R p.ty.origin t.origin
    if e then do
      let x ← convertQtyI E t.qty p.rel
      .ok ⟨t, x.num⟩
    else .error .rejected

/-- `p + q` and `p - q`, src/core/include/units/quantity_point.h:154-162, 171-179. -/
def addSubPointI (E : Env) (R : Rebinds) (sub : Bool) (p : PtI) (q : QtyI) : C PtI := do
  let r ← addSubI E sub p.rel q
  match rebindOrigin R p.ty.origin r.ty.dim with
  | some o => mkPointI E ⟨o, r.ty.unit, r.ty.rep⟩ r
  | none => .error .rejected

/-- `p1 - p2`, src/core/include/units/quantity_point.h:181-186. -/
def subPointsI (E : Env) (R : Rebinds) (a b : PtI) : C QtyI := do
  let e ← originEquivalent R b.ty.origin a.ty.origin
  if e then addSubI E true a.rel b.rel else .error .rejected

/-- `p1 <=> p2`, src/core/include/units/quantity_point.h:188-193. -/
def comparePointsI (E : Env) (R : Rebinds) (a b : PtI) : C (Option Ordering) := do
  let e ← originEquivalent R b.ty.origin a.ty.origin
  if e then do
    let c ← comparableQty E a.ty.qty b.ty.qty
    if c then compareQtyI E a.rel b.rel else .error .rejected
  else .error .rejected

/-- `p1 == p2`, src/core/include/units/quantity_point.h:195-200. -/
def eqPointsI (E : Env) (R : Rebinds) (a b : PtI) : C Bool := do
  let e ← originEquivalent R b.ty.origin a.ty.origin
  if e then do
    let c ← comparableQty E a.ty.qty b.ty.qty
    if c then eqQtyI E a.rel b.rel else .error .rejected
  else .error .rejected

/-- `p += q` and `p -= q`, src/core/include/units/quantity_point.h:137-149 (an argument of another type is
converted to `quantity_type` first). -/
def assignPointI (E : Env) (op : BinOp) (p : PtI) (q : QtyI) : C PtI := do
  let q' ← convertQtyI E p.ty.qty q
  let x ← assignQtyI E op p.rel q'
  .ok ⟨p.ty, x.num⟩

/-- `++p` and `--p`, src/core/include/units/quantity_point.h:111-116, 124-129. -/
def incDecPointI (op : BinOp) (p : PtI) : C PtI := do
  let x ← incDecI op p.rel
  .ok ⟨p.ty, x.num⟩

/-! ### Kinds -/

/-- A quantity kind: its type and the number of its member `q_`, src/core/include/units/quantity_kind.h:89. -/
structure KdI where
  ty : KTy
  num : FNum
  deriving DecidableEq

/-- `common()`, src/core/include/units/quantity_kind.h:111-114. -/
def KdI.common (k : KdI) : QtyI := ⟨k.ty.qty, k.num⟩

/-- The explicit constructor from a quantity, src/core/include/units/quantity_kind.h:75, 96-102. -/
def constructKindI (E : Env) (t : KTy) (q : QtyI) : C KdI :=
  if t.unit.ref = t.kind.dim.unit.ref then do
    let x ← convertQtyI E t.qty q
    .ok ⟨t, x.num⟩
  else .error .rejected

/-- `make_quantity_kind_fn<K>`, src/core/include/units/quantity_kind.h:39-46. -/
def makeKindI (E : Env) (K : Kind) (q : QtyI) : C KdI := constructKindI E ⟨K, q.ty.unit, q.ty.rep⟩ q

/-- `downcasted_kind_fn<K>`, src/core/include/units/quantity_kind.h:48-55. -/
def downcastedKindI (E : Env) (κ : KindReg) (base : String) (q : QtyI) : C KdI := makeKindI E (downcastKind κ base q.ty.dim) q

/-- `+` and `-` on quantity kinds, src/core/include/units/quantity_kind.h:291-303. -/
def addSubKindI (E : Env) (sub : Bool) (a b : KdI) : C KdI := do
  let e ← kindEquivalent b.ty.kind a.ty.kind
  if e then do
    let r ← addSubI E sub a.common b.common
    makeKindI E a.ty.kind r
  else .error .rejected

/-- `qk * q` and `qk / q`, src/core/include/units/quantity_kind.h:305-310, 326-332. -/
def mulDivKindQtyI (E : Env) (κ : KindReg) (mul : Bool) (k : KdI) (q : QtyI) : C KdI := do
  let r ← (if mul then mulQtyI E k.common q else divQtyI E k.common q)
  downcastedKindI E κ k.ty.kind.base r

/-- `qk1 * qk2` and `qk1 / qk2`, src/core/include/units/quantity_kind.h:57-65, 319-324, 342-347. -/
def mulDivKindsI (E : Env) (κ : KindReg) (mul : Bool) (a b : KdI) : C KdI :=
  if a.ty.kind.base = b.ty.kind.base then do
    let r ← (if mul then mulQtyI E a.common b.common else divQtyI E a.common b.common)
    downcastedKindI E κ a.ty.kind.base r
  else .error .rejected

/-- `qk * v` and `qk / v` with a number, src/core/include/units/quantity_kind.h:244-249, 258-264. -/
def scaleKindI (E : Env) (op : BinOp) (k : KdI) (r : Rep) (v : FNum) : C KdI := do
  let x ← scaleQtyI op k.common r v
  makeKindI E k.ty.kind x

/-- `-qk`, src/core/include/units/quantity_kind.h:146-150. -/
def negKindI (E : Env) (k : KdI) : C KdI := do
  let x ← negQtyI k.common
  makeKindI E k.ty.kind x

/-- `qk1 <=> qk2`, src/core/include/units/quantity_kind.h:282-286, 365-370. -/
def compareKindsI (E : Env) (a b : KdI) : C (Option Ordering) := do
  let e ← kindEquivalent b.ty.kind a.ty.kind
  if e then do
    let c ← comparableQty E a.ty.qty b.ty.qty
    if c then compareQtyI E a.common b.common else .error .rejected
  else .error .rejected

/-- `qk1 == qk2`, src/core/include/units/quantity_kind.h:288, 372-377. -/
def eqKindsI (E : Env) (a b : KdI) : C Bool := do
  let e ← kindEquivalent b.ty.kind a.ty.kind
  if e then do
    let c ← comparableQty E a.ty.qty b.ty.qty
    if c then eqQtyI E a.common b.common else .error .rejected
  else .error .rejected

/-! ### Specification -/

/-- The distance of a point from its origin. -/
noncomputable def PtI.pos (β : String → ℝ) (p : PtI) : ℝ := p.rel.amount β

end Verif
