import Verif.Conformance
import Verif.Construct
import Verif.Comparable

/-!
# Replaying the static tests of quantities, points, kinds and point kinds

An extension of `Verif.Conformance` to the four class templates and `std::chrono`.  The kinds, point kinds and origins that a test declares are
in `Decls`.  The results are tests of the model and not properties of the library.
-/

namespace Verif.Conformance

open Systems

/-- A dimension as written in a test. -/
inductive DX where
  | nm (n : Nm)
  /-- `unknown_dimension<exponent<…>…>` -/
  | unknown (es : List (Nm × Int × Int))

/-- An origin as written in a test. -/
inductive OX where
  | dyn (d : DX)
  | clock (c : String)
  /-- an origin declared by the test -/
  | user (n : String) (d : DX)

/-- A kind as written in a test. -/
inductive KX where
  | nm (n : String)
  /-- `downcast_kind<k, d>` -/
  | down (k : String) (d : DX)

/-- A type as written in a test. -/
inductive TY where
  | rep (r : Rep)
  | alias (q : Nm) (u : UX) (r : Rep)
  | qty (d : DX) (u : UX) (r : Rep)
  | kd (k : KX) (u : UX) (r : Rep)
  | pt (o : OX) (u : UX) (r : Rep)
  | pk (p : String) (u : UX) (r : Rep)
  | dur (r : Rep) (num den : Int)
  | time (clock : String) (r : Rep) (num den : Int)
  | ref (d : DX) (u : UX)

/-- What a test gives to a cast. -/
inductive SX where
  | ty (t : TY)
  | unit (u : UX)
  | dim (d : DX)
  | dimUnit (d : DX) (u : UX)
  | kind (k : KX)
  | kindUnit (k : KX) (u : UX)
  | pkind (p : String)
  | pkindUnit (p : String) (u : UX)

/-- An expression of a test. -/
inductive Y where
  | num (r : Rep) (v : ℚ)
  | lit (suffix : Nm) (integral : Bool) (v : ℚ)
  | ref (n : Nm)
  /-- a `std::chrono` literal -/
  | dur (r : Rep) (num den : Int) (v : ℚ)
  | time (clock : String) (d : Y)
  /-- an object of the type whose number is `v`: `T{}`, or a parameter of a `requires` expression -/
  | obj (t : TY) (v : ℚ)
  | make (t : TY) (x : Y)
  /-- `construct_from_only<T>(x)`: `T(x)`, and no implicit conversion -/
  | makeOnly (t : TY) (x : Y)
  /-- `construct_and_convert_from<T>(x)`: `T(x)`, and the implicit conversion gives the same -/
  | makeBoth (t : TY) (x : Y)
  | deduceQty (x : Y)
  | deducePt (x : Y)
  | deduceKd (x : Y)
  | deducePk (x : Y)
  | special (t : TY) (s : Special)
  /-- `std::numeric_limits<r>::max()` or `lowest()` -/
  | limit (r : Rep) (max : Bool)
  | op (o : BinOp) (x y : Y)
  | neg (x : Y)
  | pos (x : Y)
  /-- `x = y` -/
  | assign (x y : Y)
  /-- `x op= y` -/
  | assignOp (o : BinOp) (x y : Y)
  /-- `++x` or `--x` -/
  | pre (o : BinOp) (x : Y)
  /-- the value of `x++` or `x--` -/
  | post (o : BinOp) (x : Y)
  /-- the object after `x++` or `x--` -/
  | postNew (o : BinOp) (x : Y)
  | cast (s : SX) (x : Y)
  | number (x : Y)
  | common (x : Y)
  | relative (x : Y)
  | pow (num den : Int) (x : Y)
  | sqrt (x : Y)
  | cbrt (x : Y)
  | abs (x : Y)

/-- The value of an expression. -/
inductive W where
  | val (v : Val)
  | ref (R : Ref)
deriving DecidableEq

/-- The value of a type. -/
inductive T where
  | rep (r : Rep)
  | ty (t : Ty)
  | dur (r : Rep) (num den : Int)
  | time (clock : String) (r : Rep) (num den : Int)
  | ref (R : Ref)
deriving DecidableEq

/-- A declaration of a test. -/
inductive Decl' where
  /-- `struct n : kind<n, d>` -/
  | kind (n : String) (d : DX)
  /-- `struct n : derived_kind<n, d, base>` -/
  | derived (n : String) (base : String) (d : DX)
  /-- `struct n : point_kind<self, k, o>` -/
  | pkind (n self : String) (k : String) (o : Option OX)

/-- The declarations of a test, and what the shipped headers declare. -/
structure Cx where
  S : Sys
  kinds : List (String × Kind)
  pkinds : List (String × String × PKind)
  /-- origins with a member template `rebind` -/
  rebinds : List String

/-- The environment. -/
def Cx.E (c : Cx) : Env := envOf c.S

/-- `downcast_kind`, src/core/include/units/kind.h:50-52. -/
def Cx.κ (c : Cx) : KindReg := fun b d => (c.kinds.find? fun k => decide (k.2.base = b) && decide (k.2.dim = d)).map (·.2)

/-- `downcast_point_kind`, src/core/include/units/kind.h:54-56. -/
def Cx.ρ (c : Cx) : PKindReg := fun k o =>
  (c.pkinds.find? fun p => decide (p.1 = p.2.1) && decide (p.2.2.kind = k) && decide (p.2.2.origin = o)).map (·.2.2)

/-- `rebind` of the origins of the test. -/
def Cx.R (c : Cx) : Rebinds := fun o d => if o.name ∈ c.rebinds then some ⟨o.name, d⟩ else none

/-- A dimension. -/
def DX.eval (S : Sys) : DX → C Dim
  | .nm n => do
    let d ← resolveDim S.names [⟨"", 0⟩] n
    .ok d.dim
  | .unknown es => do
    let l ← mapC (fun (e : Nm × Int × Int) => do
      let d ← resolveDim S.names [⟨"", 0⟩] e.1
      match d.dim with
      | .base b => .ok (⟨b, e.2.1, e.2.2⟩ : Exp)
      | _ => .error .rejected) es
    .ok (.unknown l)

/-- An origin. -/
def OX.eval (S : Sys) : OX → C Origin
  | .dyn d => do
    let d ← d.eval S
    .ok (dynamicOrigin d)
  | .clock c => .ok (clockOrigin c)
  | .user n d => do
    let d ← d.eval S
    .ok ⟨n, d⟩

/-- A kind. -/
def KX.eval (c : Cx) : KX → C Kind
  | .nm n =>
    match c.kinds.find? (·.1 == n) with
    | some k => .ok k.2
    | none => .error .rejected
  | .down n d => do
    let d ← d.eval c.S
    match c.kinds.find? (·.1 == n) with
    | some k => .ok (downcastKind c.κ k.2.base d)
    | none => .error .rejected

/-- A point kind. -/
def Cx.pkind (c : Cx) (n : String) : C PKind :=
  match c.pkinds.find? (·.1 == n) with
  | some k => .ok k.2.2
  | none => .error .rejected

/-- A unit that is a unit of the dimension (the constraint `UnitOf`). -/
def unitIn (S : Sys) (d : Dim) (u : UX) : C MUnit := do
  let u ← u.eval S
  if u.ref = d.unit.ref then .ok u else .error .rejected

/-- A type; the constraints of the class templates. -/
def TY.eval (c : Cx) : TY → C T
  | .rep r => .ok (.rep r)
  | .alias q u r => do
    let d ← resolveQuantity c.S.names [⟨"", 0⟩] q
    let u ← unitIn c.S d.dim u
    .ok (.ty (.qty ⟨d.dim, u, r⟩))
  | .qty d u r => do
    let d ← d.eval c.S
    let u ← unitIn c.S d u
    .ok (.ty (.qty ⟨d, u, r⟩))
  | .kd k u r => do
    let k ← k.eval c
    let u ← unitIn c.S k.dim u
    .ok (.ty (.kd ⟨k, u, r⟩))
  | .pt o u r => do
    let o ← o.eval c.S
    let u ← unitIn c.S o.dim u
    .ok (.ty (.pt ⟨o, u, r⟩))
  | .pk p u r => do
    let p ← c.pkind p
    let u ← unitIn c.S p.kind.dim u
    .ok (.ty (.pk ⟨p, u, r⟩))
  | .dur r a b => .ok (.dur r a b)
  | .time k r a b => .ok (.time k r a b)
  | .ref d u => do
    let d ← d.eval c.S
    let u ← unitIn c.S d u
    .ok (.ref ⟨d, u⟩)

/-- The object of a type whose number is `v`. -/
def T.obj (v : ℚ) : T → W
  | .rep r => .val (.num r (litNum r v))
  | .ty (.qty t) => .val (.qty ⟨t, litNum t.rep v⟩)
  | .ty (.pt t) => .val (.pt ⟨t, litNum t.rep v⟩)
  | .ty (.kd t) => .val (.kd ⟨t, litNum t.rep v⟩)
  | .ty (.pk t) => .val (.pk ⟨t, litNum t.rep v⟩)
  | .dur r a b => .val (.dur ⟨r, a, b, litNum r v⟩)
  | .time k r a b => .val (.time ⟨k, ⟨r, a, b, litNum r v⟩⟩)
  | .ref R => .ref R

/-- The type of a value. -/
def W.type : W → T
  | .val (.num r _) => .rep r
  | .val (.qty q) => .ty (.qty q.ty)
  | .val (.pt p) => .ty (.pt p.ty)
  | .val (.kd k) => .ty (.kd k.ty)
  | .val (.pk p) => .ty (.pk p.ty)
  | .val (.dur d) => .dur d.rep d.num d.den
  | .val (.time t) => .time t.clock t.since.rep t.since.num t.since.den
  | .ref R => .ref R

/-- A result that is a value. -/
def ofQty (x : C Qty) : C W := do
  let q ← x
  .ok (.val (.qty q))

/-- A result that is a value. -/
def ofKd (x : C Kd) : C W := do
  let q ← x
  .ok (.val (.kd q))

/-- A result that is a value. -/
def ofPt (x : C Pt) : C W := do
  let q ← x
  .ok (.val (.pt q))

/-- A result that is a value. -/
def ofPk (x : C Pk) : C W := do
  let q ← x
  .ok (.val (.pk q))

/-- The binary operators: overload resolution between the operators of src/core/include/units/quantity.h:287-447, quantity_point.h:154-186,
quantity_kind.h:242-346, quantity_point_kind.h:142-168 and reference.h:54-84. -/
def binaryW (c : Cx) (o : BinOp) : W → W → C W
  | .val (.num r v), .val (.num s w) => do
    let z ← numOp c.E.fl o r s v w
    .ok (.val (.num (r.arith s) z))
  | .val (.num r v), .val (.qty q) => ofQty <|
    match o with
    | .mul => scaleQtyLeft c.E r v q
    | .div => recipQty c.E r v q
    | .mod => modNumLeft c.E r v q
    | o => addSubNumLeft c.E o r v q
  | .val (.qty q), .val (.num r v) => ofQty <|
    match o with
    | .add => addSubNum c.E .add q r v
    | .sub => addSubNum c.E .sub q r v
    | o => scaleQty c.E o q r v
  | .val (.qty p), .val (.qty q) => ofQty <|
    match o with
    | .mul => mulQty c.E p q
    | .div => divQty c.E p q
    | .mod => modQty c.E p q
    | o => addSub c.E o p q
  | .val (.kd a), .val (.kd b) => ofKd <|
    match o with
    | .mul => mulDivKinds c.E c.κ true a b
    | .div => mulDivKinds c.E c.κ false a b
    | .mod => modKinds c.E a b
    | o => addSubKind c.E o a b
  | .val (.kd a), .val (.num r v) => ofKd <|
    match o with
    | .add => .error .rejected
    | .sub => .error .rejected
    | o => scaleKind c.E o a r v
  | .val (.num r v), .val (.kd a) => ofKd <|
    match o with
    | .mul => scaleKindLeft c.E r v a
    | .div => recipKind c.E c.κ r v a
    | _ => .error .rejected
  | .val (.kd a), .val (.qty q) => ofKd <|
    match o with
    | .mul => mulDivKindQty c.E c.κ true a q
    | .div => mulDivKindQty c.E c.κ false a q
    | .mod => modKindQty c.E a q
    | _ => .error .rejected
  | .val (.qty q), .val (.kd a) => ofKd <|
    match o with
    | .mul => mulDivQtyKind c.E c.κ true q a
    | .div => mulDivQtyKind c.E c.κ false q a
    | _ => .error .rejected
  | .val (.pt p), .val (.qty q) =>
    match o with
    | .add => ofPt (addSubPoint c.E c.R .add p q)
    | .sub => ofPt (addSubPoint c.E c.R .sub p q)
    | _ => .error .rejected
  | .val (.qty q), .val (.pt p) =>
    match o with
    | .add => ofPt (addPointLeft c.E c.R q p)
    | _ => .error .rejected
  | .val (.pt p), .val (.pt q) =>
    match o with
    | .sub => ofQty (subPoints c.E c.R p q)
    | _ => .error .rejected
  | .val (.pk p), .val (.kd k) =>
    match o with
    | .add => ofPk (addSubPk c.E c.ρ .add p k)
    | .sub => ofPk (addSubPk c.E c.ρ .sub p k)
    | _ => .error .rejected
  | .val (.kd k), .val (.pk p) =>
    match o with
    | .add => ofPk (addPkLeft c.E c.ρ k p)
    | _ => .error .rejected
  | .val (.pk p), .val (.pk q) =>
    match o with
    | .sub => ofKd (subPks c.E c.R p q)
    | _ => .error .rejected
  | .val (.num r v), .ref R =>
    match o with
    | .mul => ofQty (numTimesRef c.E r v R)
    | _ => .error .rejected
  | .ref R, .ref S =>
    match o with
    | .mul => do
      let R ← mulRef c.E R S
      .ok (.ref R)
    | .div => do
      let R ← divRef c.E R S
      .ok (.ref R)
    | _ => .error .rejected
  | _, _ => .error .rejected

/-- Compound assignment: overload resolution between src/core/include/units/quantity.h:212-285, quantity_point.h:137-149,
quantity_kind.h:178-240 and quantity_point_kind.h:125-137. -/
def assignW (c : Cx) (o : BinOp) : W → W → C W
  | .val (.qty p), .val (.qty q) => ofQty <|
    match o with
    | .mul => assignDimless c.E .mul p q
    | .div => assignDimless c.E .div p q
    | .mod =>
      if q.ty.dim = .named dimOne ∧ q.ty.unit = unitOne ∧ q.ty ≠ p.ty then assignDimless c.E .mod p q else assignQty c.E .mod p q
    | o => assignQty c.E o p q
  | .val (.qty p), .val (.num r v) => ofQty <|
    match o with
    | .add => assignImplicit c.E .add p r v
    | .sub => assignImplicit c.E .sub p r v
    | o => assignNum c.E o p r v
  | .val (.pt p), .val (.qty q) =>
    match o with
    | .add => ofPt (assignPoint c.E .add p q)
    | .sub => ofPt (assignPoint c.E .sub p q)
    | _ => .error .rejected
  | .val (.kd a), .val (.kd b) => ofKd <|
    match o with
    | .mul => assignKindDimless c.E c.κ .mul a b
    | .div => assignKindDimless c.E c.κ .div a b
    | .mod => assignKindMod c.E c.κ a b
    | o => assignKind c.E o a b
  | .val (.kd a), .val (.num r v) => ofKd <|
    match o with
    | .add => .error .rejected
    | .sub => .error .rejected
    | o => assignKindNum c.E o a r v
  | .val (.kd a), .val (.qty q) => ofKd <|
    match o with
    | .add => .error .rejected
    | .sub => .error .rejected
    | o => assignKindQty c.E o a q
  | .val (.pk p), .val (.kd k) =>
    match o with
    | .add => ofPk (assignPk c.E .add p k)
    | .sub => ofPk (assignPk c.E .sub p k)
    | _ => .error .rejected
  | .val (.num r v), .val (.num s w) => do
    let z ← compound c.E.fl o r s v w
    .ok (.val (.num r z))
  | _, _ => .error .rejected

/-- `++x` and `--x`. -/
def preW (c : Cx) (o : BinOp) : W → C W
  | .val (.qty q) => ofQty (incDec c.E o q)
  | .val (.pt p) => ofPt (incDecPoint c.E o p)
  | .val (.kd k) => ofKd (incDecKind c.E o k)
  | .val (.pk p) => ofPk (incDecPk c.E o p)
  | _ => .error .rejected

/-- `x++` and `x--`: the object afterwards and the result.  For point kinds src/core/include/units/quantity_point_kind.h:106-110, 119-123. -/
def postW (c : Cx) (o : BinOp) : W → C (W × W)
  | .val (.qty q) => do
    let r ← incDecPost c.E o q
    .ok (.val (.qty r.1), .val (.qty r.2))
  | .val (.pt p) => do
    let r ← incDecPointPost c.E o p
    .ok (.val (.pt r.1), .val (.pt r.2))
  | .val (.kd k) => do
    let r ← incDecKindPost c.E o k
    .ok (.val (.kd r.1), .val (.kd r.2))
  | .val (.pk p) => do
    let r ← incDecKindPost c.E o p.rel
    let q ← construct c.E c.R (.pk p.ty) (.kd r.2)
    .ok (.val (.pk ⟨p.ty, r.1.num⟩), .val q)
  | _ => .error .rejected

/-- The type that is given to a constructor. -/
def T.asTy : T → C Ty
  | .ty t => .ok t
  | _ => .error .rejected

/-- A value that is given to a constructor. -/
def W.asVal : W → C Val
  | .val v => .ok v
  | _ => .error .rejected

/-- `T(x)`, also for arithmetic types. -/
def constructW (c : Cx) (t : T) (x : W) : C W := do
  let v ← x.asVal
  match t, v with
  | .rep r, .num s w => do
    let z ← convNum c.E.fl s r w
    .ok (.val (.num r z))
  | .time k r a b, .dur d => if d.rep = r ∧ d.num = a ∧ d.den = b then .ok (.val (.time ⟨k, d⟩)) else .error .rejected
  | t, v => do
    let t ← t.asTy
    let v ← construct c.E c.R t v
    .ok (.val v)

/-- `T t = x`. -/
def convertW (c : Cx) (t : T) (x : W) : C W := do
  let v ← x.asVal
  let t ← t.asTy
  let v ← convert c.E c.R t v
  .ok (.val v)

/-- The result does not compile. -/
def isRejected {α : Type} : C α → Bool
  | .error .rejected => true
  | _ => false

/-- What `quantity_cast` is given. -/
def SX.qty (c : Cx) : SX → C CastSpec
  | .ty t => do
    match ← t.eval c with
    | .rep r => .ok (.rep r)
    | .ty (.qty t) => .ok (.qty t)
    | _ => .error .rejected
  | .unit u => do
    let u ← u.eval c.S
    .ok (.unit u)
  | .dim d => do
    let d ← d.eval c.S
    .ok (.dim d)
  | .dimUnit d u => do
    let d ← d.eval c.S
    let u ← u.eval c.S
    .ok (.dimUnit d u)
  | _ => .error .rejected

/-- What `quantity_kind_cast` is given. -/
def SX.kindSpec (c : Cx) (s : SX) : C KindSpec :=
  match s with
  | .kind k => do
    let k ← k.eval c
    .ok (.kind k)
  | .kindUnit k u => do
    let k ← k.eval c
    let u ← u.eval c.S
    .ok (.kindUnit k u)
  | .dimUnit _ _ => .error .rejected
  | .ty t => do
    match ← t.eval c with
    | .ty (.kd t) => .ok (.type t)
    | _ => do
      let s ← SX.qty c (.ty t)
      .ok (.qty s)
  | s => do
    let s ← s.qty c
    .ok (.qty s)

/-- What `quantity_point_kind_cast` is given. -/
def SX.pkSpec (c : Cx) (s : SX) : C PkSpec :=
  match s with
  | .pkind p => do
    let p ← c.pkind p
    .ok (.pkind p)
  | .pkindUnit p u => do
    let p ← c.pkind p
    let u ← u.eval c.S
    .ok (.pkindUnit p u)
  | .kindUnit _ _ => .error .rejected
  | .ty t => do
    match ← t.eval c with
    | .ty (.pk t) => .ok (.type t)
    | _ => do
      let s ← SX.kindSpec c (.ty t)
      .ok (.kind s)
  | s => do
    let s ← s.kindSpec c
    .ok (.kind s)

/-- The four casts. -/
def castW (c : Cx) (s : SX) : W → C W
  | .val (.qty q) => do
    let s ← s.qty c
    ofQty (quantityCastBy c.E s q)
  | .val (.pt p) =>
    match s with
    | .dimUnit d u => do
      let d ← d.eval c.S
      let u ← u.eval c.S
      ofPt (pointCast c.E c.R (.dimUnit d u) p)
    | .ty t => do
      match ← t.eval c with
      | .ty (.pt t) => ofPt (pointCast c.E c.R (.point t) p)
      | _ => do
        let s ← SX.qty c (.ty t)
        ofPt (pointCast c.E c.R (.qty s) p)
    | s => do
      let s ← s.qty c
      ofPt (pointCast c.E c.R (.qty s) p)
  | .val (.kd k) => do
    let s ← s.kindSpec c
    ofKd (kindCast c.E s k)
  | .val (.pk p) => do
    let s ← s.pkSpec c
    ofPk (pkCast c.E c.R c.ρ s p)
  | _ => .error .rejected

/-- The root of a small power, otherwise 1. -/
def smallRoot (k : Nat) (n : Nat) : Nat := ((List.range 100).find? fun r => decide (r ^ k = n)).getD 1

/-- Some functions of `<cmath>`: exact for powers of small numbers, as used in the tests. -/
def someLibm : Libm where
  pow _ x y := .ok (if y.num < 0 then 1 else mkRat (smallRoot y.den (x.num.natAbs ^ y.num.toNat)) (smallRoot y.den (x.den ^ y.num.toNat)))
  sqrt _ x := .ok (mkRat (smallRoot 2 x.num.natAbs) (smallRoot 2 x.den))
  cbrt _ x := .ok (mkRat (smallRoot 3 x.num.natAbs) (smallRoot 3 x.den))
  exp _ _ := .ok 1

/-- A quantity operand. -/
def W.asQty : W → C Qty
  | .val (.qty q) => .ok q
  | _ => .error .rejected

/-- `x == y`, `x < y` and the like. -/
def compareW (c : Cx) (k : Cmp) (x y : W) : C Bool :=
  match k with
  | .eq => eq x y
  | .ne => do
    let b ← eq x y
    .ok !b
  | k => do
    let o ← cmp x y
    .ok (k.holds o)
where
  /-- `==` -/
  eq : W → W → C Bool
    | .val (.num r v), .val (.num s w) => do
      let x ← convNum c.E.fl r (r.arith s) v
      let y ← convNum c.E.fl s (r.arith s) w
      .ok (numCompare x y == .eq)
    | .val (.qty p), .val (.qty q) => eqQty c.E p q
    | .val (.qty p), .val (.num r v) => eqNumQ c.E p r v
    | .val (.num r v), .val (.qty p) => eqNumQ c.E p r v
    | .val (.pt p), .val (.pt q) => eqPoints c.E c.R p q
    | .val (.kd p), .val (.kd q) => eqKinds c.E p q
    | .val (.pk p), .val (.pk q) => eqPks c.E c.R p q
    | .ref a, .ref b => .ok (eqRef a b)
    | _, _ => .error .rejected
  /-- `<=>` -/
  cmp : W → W → C Ordering
    | .val (.num r v), .val (.num s w) => do
      let x ← convNum c.E.fl r (r.arith s) v
      let y ← convNum c.E.fl s (r.arith s) w
      .ok (numCompare x y)
    | .val (.qty p), .val (.qty q) => compareQty c.E p q
    | .val (.qty p), .val (.num r v) => compareNumQ c.E p r v
    | .val (.num r v), .val (.qty p) => do
      let o ← compareNumQ c.E p r v
      .ok o.swap
    | .val (.pt p), .val (.pt q) => comparePoints c.E c.R p q
    | .val (.kd p), .val (.kd q) => compareKinds c.E p q
    | .val (.pk p), .val (.pk q) => comparePks c.E c.R p q
    | _, _ => .error .rejected

/-- The value of an expression. -/
def Y.eval (c : Cx) : Y → C W
  | .num r v => .ok (.val (.num r (litNum r v)))
  | .lit s i v => do
    match ← X.eval c.S (.lit s i v) with
    | .qty q => .ok (.val (.qty q))
    | _ => .error .rejected
  | .ref n => do
    match ← X.eval c.S (.ref n) with
    | .ref R => .ok (.ref R)
    | _ => .error .rejected
  | .dur r a b v => .ok (.val (.dur ⟨r, a, b, litNum r v⟩))
  | .time k d => do
    match ← d.eval c with
    | .val (.dur d) => .ok (.val (.time ⟨k, d⟩))
    | _ => .error .rejected
  | .obj t v => do
    let t ← t.eval c
    .ok (t.obj v)
  | .make t x => do
    let t ← t.eval c
    let v ← x.eval c
    constructW c t v
  | .makeOnly t x => do
    let t ← t.eval c
    let v ← x.eval c
    if isRejected (convertW c t v) then constructW c t v else .error .assertion
  | .makeBoth t x => do
    let t ← t.eval c
    let v ← x.eval c
    let a ← constructW c t v
    let b ← convertW c t v
    let e ← compareW c .eq a b
    if e then .ok a else .error .assertion
  | .deduceQty x => do
    let v ← (← x.eval c).asVal
    ofQty (Verif.deduceQty c.E v)
  | .deducePt x => do
    let v ← (← x.eval c).asVal
    ofPt (Verif.deducePt c.E c.R v)
  | .deduceKd x => do
    match ← x.eval c with
    | .val (.kd k) => .ok (.val (.kd k))
    | _ => .error .rejected
  | .deducePk x => do
    match ← x.eval c with
    | .val (.kd k) => .ok (.val (.pk (Verif.deducePk c.ρ k)))
    | .val (.pk p) => .ok (.val (.pk p))
    | _ => .error .rejected
  | .special t s => do
    let t ← (← t.eval c).asTy
    let v ← Verif.special c.E c.R t s
    .ok (.val v)
  | .limit r m => .ok (.val (.num r (if m then r.greatest else r.lowest)))
  | .op o x y => do
    let v ← x.eval c
    let w ← y.eval c
    binaryW c o v w
  | .neg x => do
    match ← x.eval c with
    | .val (.num r v) => do
      let z ← numNeg r v
      .ok (.val (.num r.promote z))
    | .val (.qty q) => ofQty (negQty q)
    | .val (.kd k) => ofKd (negKind c.E k)
    | _ => .error .rejected
  | .pos x => do
    match ← x.eval c with
    | .val (.qty q) => ofQty (posQty c.E q)
    | .val (.kd k) => .ok (.val (.kd (posKind k)))
    | _ => .error .rejected
  | .assign x y => do
    let v ← x.eval c
    let w ← y.eval c
    convertW c v.type w
  | .assignOp o x y => do
    let v ← x.eval c
    let w ← y.eval c
    assignW c o v w
  | .pre o x => do
    let v ← x.eval c
    preW c o v
  | .post o x => do
    let v ← x.eval c
    let r ← postW c o v
    .ok r.2
  | .postNew o x => do
    let v ← x.eval c
    let r ← postW c o v
    .ok r.1
  | .cast s x => do
    let v ← x.eval c
    castW c s v
  | .number x => do
    let q ← (← x.eval c).asQty
    .ok (.val (.num q.ty.rep q.num))
  | .common x => do
    match ← x.eval c with
    | .val (.kd k) => .ok (.val (.qty k.common))
    | _ => .error .rejected
  | .relative x => do
    match ← x.eval c with
    | .val (.pt p) => .ok (.val (.qty p.rel))
    | .val (.pk p) => .ok (.val (.kd p.rel))
    | _ => .error .rejected
  | .pow a b x => do
    let q ← (← x.eval c).asQty
    match ← powQty c.E someLibm a b q with
    | .inl v => .ok (.val (.num q.ty.rep v))
    | .inr r => .ok (.val (.qty r))
  | .sqrt x => do
    let q ← (← x.eval c).asQty
    ofQty (sqrtQty c.E someLibm q)
  | .cbrt x => do
    let q ← (← x.eval c).asQty
    ofQty (cbrtQty c.E someLibm q)
  | .abs x => do
    let q ← (← x.eval c).asQty
    ofQty (absQty c.E q)

/-- A static assertion. -/
inductive Check2 where
  | cmp (k : Cmp) (x y : Y)
  | not (a : Check2)
  | both (a b : Check2)
  /-- `same(x, y)` of test_tools.h -/
  | same (x y : Y)
  /-- `is_same_v<decltype(x), decltype(y)>` -/
  | sameType (x y : Y)
  /-- `is_same_v<decltype(x), T>` -/
  | type (x : Y) (t : TY)
  /-- the expression does not compile -/
  | rejected (x : Y)
  /-- the comparison does not compile -/
  | noCmp (k : Cmp) (x y : Y)
  /-- `constructible_from<T>(x)` -/
  | constructible (t : TY) (x : Y)
  /-- `convertible_from<T>(x)` -/
  | convertible (t : TY) (x : Y)
  /-- the type cannot be named -/
  | badType (t : TY)
  /-- `std::equality_comparable_with` on the types of the samples (for points and point kinds: `==` compiles) -/
  | eqWith (x y : Y)
  /-- `std::three_way_comparable_with` -/
  | cmpWith (x y : Y)
  /-- `QuantityKindOf<T, K>` -/
  | kindOf (t : TY) (k : KX)
  /-- `QuantityPointKindOf<T, PK>` -/
  | pkindOf (t : TY) (p : String)
  /-- `QuantityPoint<T>`, … -/
  | isCls (t : TY) (k : Cls)

/-- The result is `true`. -/
def isTrue : C Bool → Bool
  | .ok b => b
  | .error _ => false

/-- The types of both values satisfy the concept of the standard library, up to the comparison. -/
def comparableW (c : Cx) : W → W → C Bool
  | .val (.qty p), .val (.qty q) => comparableQty c.E p.ty q.ty
  | .val (.kd p), .val (.kd q) => comparableKind c.E p.ty q.ty
  | _, _ => .ok true

/-- Whether a static assertion holds. -/
def Check2.eval (c : Cx) : Check2 → Bool
  | .cmp k x y => isTrue do
    let v ← x.eval c
    let w ← y.eval c
    compareW c k v w
  | .not a => !a.eval c
  | .both a b => a.eval c && b.eval c
  | .same x y => isTrue do
    let v ← x.eval c
    let w ← y.eval c
    let e ← compareW c .eq v w
    .ok (e && decide (v.type = w.type))
  | .sameType x y => isTrue do
    let v ← x.eval c
    let w ← y.eval c
    .ok (decide (v.type = w.type))
  | .type x t => isTrue do
    let v ← x.eval c
    let t ← t.eval c
    .ok (decide (v.type = t))
  | .rejected x => isRejected (x.eval c)
  | .noCmp k x y =>
    match x.eval c, y.eval c with
    | .ok v, .ok w => isRejected (compareW c k v w)
    | _, _ => false
  | .constructible t x =>
    match t.eval c, x.eval c with
    | .ok t, .ok v => !isRejected (constructW c t v)
    | _, _ => false
  | .convertible t x =>
    match t.eval c, x.eval c with
    | .ok t, .ok v => !isRejected (convertW c t v)
    | _, _ => false
  | .badType t => isRejected (t.eval c)
  | .eqWith x y => isTrue do
    let v ← x.eval c
    let w ← y.eval c
    let b ← comparableW c v w
    .ok (b && !isRejected (compareW c .eq v w) && !isRejected (compareW c .eq w v))
  | .cmpWith x y => isTrue do
    let v ← x.eval c
    let w ← y.eval c
    let b ← comparableW c v w
    .ok (b && !isRejected (compareW c .eq v w) && !isRejected (compareW c .lt v w) && !isRejected (compareW c .lt w v))
  | .kindOf t k => isTrue do
    let t ← t.eval c
    let k ← k.eval c
    match t with
    | .ty (.kd t) => kindEquivalent t.kind k
    | _ => .ok false
  | .pkindOf t p => isTrue do
    let t ← t.eval c
    let p ← c.pkind p
    match t with
    | .ty (.pk t) => pkindEquivalent c.R t.pk p
    | _ => .ok false
  | .isCls t k => isTrue do
    let t ← t.eval c
    match T.obj 0 t with
    | .val v => .ok (decide (v.cls = k))
    | _ => .ok false

/-- The declarations of a test. -/
def declare (S : Sys) (rebinds : List String) (ds : List Decl') : C Cx :=
  ds.foldl (fun (acc : C Cx) d => do
    let c ← acc
    match d with
    | .kind n d => do
      let d ← d.eval S
      .ok { c with kinds := (n, ⟨some n, n, d⟩) :: c.kinds }
    | .derived n b d => do
      let d ← d.eval S
      let k ← KX.eval c (.nm b)
      .ok { c with kinds := (n, ⟨some n, k.base, d⟩) :: c.kinds }
    | .pkind n self k o => do
      let k ← KX.eval c (.nm k)
      let o ← (match o with
        | some o => o.eval S
        | none => .ok (dynamicOrigin k.dim))
      .ok { c with pkinds := (n, self, ⟨some n, k, o⟩) :: c.pkinds }) (.ok ⟨S, [], [], rebinds⟩)

/-- The assertions of a test that do not hold in the model. -/
def failures2 (hs : List Nm) (rebinds : List String) (ds : List Decl') (cs : List (Nat × Check2)) : Option (List Nat) :=
  match (do let S ← includeAll hs; declare S rebinds ds : C Cx) with
  | .ok c => some ((cs.filter fun x => !(x.2.eval c)).map (·.1))
  | .error _ => none

end Verif.Conformance
