import Verif.Kind
import Verif.Reference

/-!
# Constructors and implicit conversions of quantities, points, kinds and point kinds

src/core/include/units/quantity.h:144-160, quantity_point.h:72-89, quantity_kind.h:91-106, quantity_point_kind.h:59-77
-/

namespace Verif

/-- An argument of a constructor: a number, a `std::chrono` duration or time point, or an object of one of the class templates; the types that
`T` stands for at src/core/include/units/quantity.h:150-160, quantity_point.h:77-89, quantity_kind.h:96-106 and quantity_point_kind.h:63-77. -/
inductive Val where
  | num (r : Rep) (v : Num)
  | dur (d : Duration)
  | time (t : TimePoint)
  | qty (q : Qty)
  | pt (p : Pt)
  | kd (k : Kd)
  | pk (p : Pk)
deriving DecidableEq

/-- The constructors of `quantity`, src/core/include/units/quantity.h:145-160. -/
def constructQty (E : Env) (t : QTy) : Val → C Qty
  | .num r v => mkQty E t r v
  | .dur d => fromDuration E t d
  | .qty q => convertQty E t q
  | _ => .error .rejected

/-- The constructors of `quantity_point`, src/core/include/units/quantity_point.h:73-89.  The class template needs `UnitOf` (line 59). -/
def constructPt (E : Env) (R : Rebinds) (t : PTy) (x : Val) : C Pt :=
  if t.unit.ref = t.origin.dim.unit.ref then
    match x with
    | .pt p => convertPoint E R t p
    | .time p => fromTimePoint E R t p
    | x => do
      let q ← constructQty E t.qty x
      .ok ⟨t, q.num⟩
  else .error .rejected

/-- The constructors of `quantity_kind`, src/core/include/units/quantity_kind.h:92-106: a number is accepted for a dimensionless kind only. -/
def constructKd (E : Env) (t : KTy) (x : Val) : C Kd :=
  if t.unit.ref = t.kind.dim.unit.ref then
    match x with
    | .kd k => convertKind E t k
    | .num r v => do
      let e ← dimEquivalent t.kind.dim (.named dimOne)
      if e then do
        let q ← constructQty E t.qty (.num r v)
        .ok ⟨t, q.num⟩
      else .error .rejected
    | x => do
      let q ← constructQty E t.qty x
      .ok ⟨t, q.num⟩
  else .error .rejected

/-- The constructors of `quantity_point_kind`, src/core/include/units/quantity_point_kind.h:60-77.  A point is converted implicitly to the parameter
type `quantity_point<origin, U, Rep>` of lines 68-69. -/
def constructPk (E : Env) (R : Rebinds) (t : PKTy) (x : Val) : C Pk :=
  if t.unit.ref = t.pk.kind.dim.unit.ref then
    match x with
    | .pk p => convertPk E R t p
    | .pt p => do
      let y ← convertPoint E R ⟨t.pk.origin, t.unit, t.rep⟩ p
      let k ← constructKd E t.kty (.qty y.rel)
      .ok ⟨t, k.num⟩
    | .time p => do
      let _ ← constructPt E R ⟨t.pk.origin, t.unit, t.rep⟩ (.time p)
      let k ← constructKd E t.kty (.dur p.since)
      .ok ⟨t, k.num⟩
    | x => do
      let k ← constructKd E t.kty x
      .ok ⟨t, k.num⟩
  else .error .rejected

/-- A type that can be constructed. -/
inductive Ty where
  | qty (t : QTy)
  | pt (t : PTy)
  | kd (t : KTy)
  | pk (t : PKTy)
deriving DecidableEq

/-- `T(x)`: direct initialisation, src/core/include/units/quantity.h:145-160, quantity_point.h:73-89, quantity_kind.h:92-106,
quantity_point_kind.h:60-77. -/
def construct (E : Env) (R : Rebinds) (t : Ty) (x : Val) : C Val :=
  match t with
  | .qty t => do
    let q ← constructQty E t x
    .ok (.qty q)
  | .pt t => do
    let p ← constructPt E R t x
    .ok (.pt p)
  | .kd t => do
    let k ← constructKd E t x
    .ok (.kd k)
  | .pk t => do
    let p ← constructPk E R t x
    .ok (.pk p)

/-- The implicit conversions `T t = x`: the constructors that are not `explicit`, src/core/include/units/quantity.h:150-156 (for a number only with
`dim_one` and `one`), quantity_point.h:81-83, quantity_kind.h:104-106, quantity_point_kind.h:75-77. -/
def convert (E : Env) (R : Rebinds) (t : Ty) (x : Val) : C Val :=
  match t, x with
  | .qty t, .num r v => do
    let q ← implicitNum E t r v
    .ok (.qty q)
  | .qty t, .qty q => do
    let q ← convertQty E t q
    .ok (.qty q)
  | .pt t, .pt p =>
    if t.unit.ref = t.origin.dim.unit.ref then do
      let p ← convertPoint E R t p
      .ok (.pt p)
    else .error .rejected
  | .kd t, .kd k =>
    if t.unit.ref = t.kind.dim.unit.ref then do
      let k ← convertKind E t k
      .ok (.kd k)
    else .error .rejected
  | .pk t, .pk p =>
    if t.unit.ref = t.pk.kind.dim.unit.ref then do
      let p ← convertPk E R t p
      .ok (.pk p)
    else .error .rejected
  | _, _ => .error .rejected

/-! ### Class template argument deduction -/

/-- The deduction guides of `quantity`, src/core/include/units/quantity.h:392-396, and the copy deduction candidate. -/
def deduceQty (E : Env) : Val → C Qty
  | .num r v => mkQty E ⟨.named dimOne, unitOne, r⟩ r v
  | .dur d => deduceDuration E d
  | .qty q => .ok q
  | _ => .error .rejected

/-- The deduction guides of `quantity_point`, src/core/include/units/quantity_point.h:203-216, and the copy deduction candidate. -/
def deducePt (E : Env) (R : Rebinds) : Val → C Pt
  | .num r v => constructPt E R ⟨dynamicOrigin (.named dimOne), unitOne, r⟩ (.num r v)
  | .dur d => do
    let l ← d.like E
    constructPt E R ⟨dynamicOrigin l.dim, l.unit, l.rep⟩ (.dur d)
  | .qty q => constructPt E R ⟨dynamicOrigin q.ty.dim, q.ty.unit, q.ty.rep⟩ (.qty q)
  | .time p => deduceTimePoint E R p
  | .pt p => .ok p
  | _ => .error .rejected

/-! ### Special values -/

/-- The members of `quantity_values`, src/core/include/units/customization_points.h:57-73. -/
inductive Special where
  | zero | one | min | max
deriving DecidableEq

/-- `quantity::zero()`, `one()`, `min()` and `max()`, src/core/include/units/quantity.h:121-143. -/
def specialQty (E : Env) (t : QTy) : Special → C Qty
  | .zero => zeroQty E t
  | .one => oneQty E t
  | .min => minQty E t
  | .max => maxQty E t

/-- The same functions of kinds (src/core/include/units/quantity_kind.h:116-138), points (quantity_point.h:99-109) and point kinds
(quantity_point_kind.h:87-97): the wrapper of that of the quantity.  Points have no zero and no one. -/
def special (E : Env) (R : Rebinds) (t : Ty) (s : Special) : C Val :=
  match t with
  | .qty t => do
    let q ← specialQty E t s
    .ok (.qty q)
  | .kd t => do
    let q ← specialQty E t.qty s
    construct E R (.kd t) (.qty q)
  | .pt t => do
    let q ← point t.qty
    construct E R (.pt t) (.qty q)
  | .pk t => do
    let q ← point t.kty.qty
    let k ← construct E R (.kd t.kty) (.qty q)
    construct E R (.pk t) k
where
  /-- `min()` and `max()` only, src/core/include/units/quantity_point.h:99-109. -/
  point (t : QTy) : C Qty :=
    match s with
    | .min => minQty E t
    | .max => maxQty E t
    | _ => .error .rejected

/-- `+k` of a kind, src/core/include/units/quantity_kind.h:140-144: the kind itself. -/
def posKind (k : Kd) : Kd := k

/-! ### Specification -/

/-- The template a value is made from. -/
inductive Cls where
  | plain | chrono | qty | pt | kd | pk
deriving DecidableEq

/-- The template a value is made from. -/
def Val.cls : Val → Cls
  | .num _ _ => .plain
  | .dur _ => .chrono
  | .time _ => .chrono
  | .qty _ => .qty
  | .pt _ => .pt
  | .kd _ => .kd
  | .pk _ => .pk

end Verif
