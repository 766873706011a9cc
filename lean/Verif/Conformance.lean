import Verif.SystemsSpec
import Verif.Reference
import Verif.Math
import Verif.Ieee
import Verif.Text

/-!
# Replaying the static tests of the library

The static assertions of /repo/test/unit_test/static are evaluated in the model.  This checks that the model is faithful; the results
(`Verif.Conformance…`) are tests of the model and not properties of the library.

An expression of a test is a term of `X`, evaluated in the translation unit that includes the headers of the test.  Names are fully qualified
(the translation does the work of the using-directives of the tests).
-/

namespace Verif.Conformance

open Systems

/-- The rounding to nearest, ties to even; src/core/include/units/quantity_cast.h:123-126 on the formats of `Verif.Ieee`.  Simplification: no
infinities. -/
def nearest : Rounding := fun f x =>
  match f.rndMag |x| with
  | some y => if x < 0 then -y else y
  | none => x

/-- The numbers of two lists of exponents agree (to avoid comparisons of names; not library code). -/
def sameShape : List Exp → List Exp → Bool
  | [], [] => true
  | a :: as, b :: bs => decide (a.num = b.num) && decide (a.den = b.den) && sameShape as bs
  | _, _ => false

/-- The children known to the downcasting facility in a translation unit, src/core/include/units/bits/external/downcasting.h:42-89. -/
def envOf (S : Sys) : Env where
  est := est
  dims es := (S.dimDefs.find? fun d => sameShape d.2 es && decide (d.2 = es)).bind fun d =>
    match d.1.dim with
    | .named n => some n
    | _ => none
  units r ref := (S.unitDefs.find? fun u => decide (u.2.1 = r) && decide (u.2.2 = ref)).map fun u => u.1.unit
  fl := nearest

/-- `#include` of several headers. -/
def includeAll (ps : List Nm) : C Sys :=
  ps.foldl (fun (acc : C Sys) p => do
    let S ← acc
    load headers 40 S p.code) (.ok .empty)

/-- A unit as written in a test. -/
inductive UX where
  | nm (n : Nm)
  | scaled (num den exp : Int) (u : UX)
  /-- `unknown_coherent_unit` -/
  | unknown

/-- A quantity type as written in a test: an alias template such as `length` with a unit and a representation, or a dimension and a unit. -/
inductive TX where
  | alias (q : Nm) (u : UX) (r : Rep)
  | dim (d : Nm) (u : UX) (r : Rep)

/-- An expression of a test. -/
inductive X where
  /-- a literal of an arithmetic type -/
  | num (r : Rep) (v : ℚ)
  /-- `v_q_suffix`; the literal is integral or floating -/
  | lit (suffix : Nm) (integral : Bool) (v : ℚ)
  | ref (n : Nm)
  /-- `T(x)` -/
  | make (t : TX) (x : X)
  | op (o : BinOp) (x y : X)
  | neg (x : X)
  | cast (t : TX) (x : X)
  | castUnit (u : UX) (x : X)
  | castDim (d : Nm) (x : X)
  | castRep (r : Rep) (x : X)
  /-- `x.number()` -/
  | number (x : X)

/-- The value of an expression. -/
inductive V where
  | num (r : Rep) (v : Num)
  | qty (q : Qty)
  | ref (R : Ref)

/-- A unit type. -/
def UX.eval (S : Sys) : UX → C MUnit
  | .nm n => do
    let u ← resolveUnit S.names [⟨"", 0⟩] n
    .ok u.unit
  | .scaled a b e u => do
    let u ← u.eval S
    let r ← Ratio.make a b e
    let r ← Ratio.mul r u.ratio
    match (envOf S).units r u.ref with
    | some v => .ok v
    | none => scaledUnit r u.ref
  | .unknown => .ok unknownCoherentUnit

/-- A quantity type; the constraint `UnitOf`. -/
def TX.eval (S : Sys) : TX → C QTy
  | .alias q u r => do
    let d ← resolveQuantity S.names [⟨"", 0⟩] q
    let u ← u.eval S
    if unitOf u d.dim then .ok ⟨d.dim, u, r⟩ else .error .rejected
  | .dim d u r => do
    let d ← resolveDim S.names [⟨"", 0⟩] d
    let u ← u.eval S
    if unitOf u d.dim then .ok ⟨d.dim, u, r⟩ else .error .rejected

/-- The value of a literal of an arithmetic type. -/
def litNum (r : Rep) (v : ℚ) : Num :=
  match r with
  | .int _ => .i v.num
  | .flt f => .f (nearest f v)

/-- A quantity operand. -/
def V.asQty : V → C Qty
  | .qty q => .ok q
  | _ => .error .rejected

/-- The operators. -/
def binary (E : Env) (o : BinOp) : V → V → C V
  | .num r v, .num s w => do
    let z ← numOp E.fl o r s v w
    .ok (.num (r.arith s) z)
  | .num r v, .qty q => do
    let z ← match o with
      | .mul => scaleQtyLeft E r v q
      | .div => recipQty E r v q
      | .mod => .error .rejected
      | o => addSubNumLeft E o r v q
    .ok (.qty z)
  | .qty q, .num r v => do
    let z ← match o with
      | .add => addSubNum E .add q r v
      | .sub => addSubNum E .sub q r v
      | o => scaleQty E o q r v
    .ok (.qty z)
  | .qty p, .qty q => do
    let z ← match o with
      | .mul => mulQty E p q
      | .div => divQty E p q
      | .mod => modQty E p q
      | o => addSub E o p q
    .ok (.qty z)
  | .num r v, .ref R =>
    match o with
    | .mul => do
      let q ← numTimesRef E r v R
      .ok (.qty q)
    | _ => .error .rejected
  | .ref R, .ref T =>
    match o with
    | .mul => do
      let R ← mulRef E R T
      .ok (.ref R)
    | .div => do
      let R ← divRef E R T
      .ok (.ref R)
    | _ => .error .rejected
  | _, _ => .error .rejected

/-- The value of an expression. -/
def X.eval (S : Sys) : X → C V
  | .num r v => .ok (.num r (litNum r v))
  | .lit s i v => do
    match ← resolve S.names [⟨"", 0⟩] s with
    | .literal (some (d, u)) f =>
      if i then do
        let q ← mkQty (envOf S) ⟨d.dim, u.unit, .int .i64⟩ (.int .i64) (litNum (.int .i64) v)
        .ok (.qty q)
      else match f with
        | some (d, u) => do
          let q ← mkQty (envOf S) ⟨d.dim, u.unit, .flt .f80⟩ (.flt .f80) (litNum (.flt .f80) v)
          .ok (.qty q)
        | none => .error .rejected
    | _ => .error .rejected
  | .ref n => do
    match ← resolve S.names [⟨"", 0⟩] n with
    | .reference d u => .ok (.ref ⟨d.dim, u.unit⟩)
    | _ => .error .rejected
  | .make t x => do
    let t ← t.eval S
    let v ← x.eval S
    match v with
    | .num r v => do
      let q ← mkQty (envOf S) t r v
      .ok (.qty q)
    | .qty q => do
      let q ← convertQty (envOf S) t q
      .ok (.qty q)
    | _ => .error .rejected
  | .op o x y => do
    let v ← x.eval S
    let w ← y.eval S
    binary (envOf S) o v w
  | .neg x => do
    match ← x.eval S with
    | .num r v => do
      let z ← numNeg r v
      .ok (.num r.promote z)
    | .qty q => do
      let q ← negQty q
      .ok (.qty q)
    | _ => .error .rejected
  | .cast t x => do
    let t ← t.eval S
    let q ← (← x.eval S).asQty
    let q ← quantityCastBy (envOf S) (.qty t) q
    .ok (.qty q)
  | .castUnit u x => do
    let u ← u.eval S
    let q ← (← x.eval S).asQty
    let q ← quantityCastBy (envOf S) (.unit u) q
    .ok (.qty q)
  | .castDim d x => do
    let d ← resolveDim S.names [⟨"", 0⟩] d
    let q ← (← x.eval S).asQty
    let q ← quantityCastBy (envOf S) (.dim d.dim) q
    .ok (.qty q)
  | .castRep r x => do
    let q ← (← x.eval S).asQty
    let q ← quantityCastBy (envOf S) (.rep r) q
    .ok (.qty q)
  | .number x => do
    let q ← (← x.eval S).asQty
    .ok (.num q.ty.rep q.num)

/-- The comparison operators. -/
inductive Cmp where
  | eq | ne | lt | le | gt | ge

/-- The result of a comparison that can be ordered. -/
def Cmp.holds : Cmp → Ordering → Bool
  | .eq, o => o == .eq
  | .ne, o => o != .eq
  | .lt, o => o == .lt
  | .le, o => o != .gt
  | .gt, o => o == .gt
  | .ge, o => o != .lt

/-- `x op y`. -/
def compareV (E : Env) (c : Cmp) : V → V → C Bool
  | .num r v, .num s w => do
    let x ← convNum E.fl r (r.arith s) v
    let y ← convNum E.fl s (r.arith s) w
    .ok (c.holds (numCompare x y))
  | .qty p, .qty q =>
    match c with
    | .eq => eqQty E p q
    | .ne => do
      let b ← eqQty E p q
      .ok !b
    | c => do
      let o ← compareQty E p q
      .ok (c.holds o)
  | .qty p, .num r v =>
    match c with
    | .eq => eqNumQ E p r v
    | .ne => do
      let b ← eqNumQ E p r v
      .ok !b
    | c => do
      let o ← compareNumQ E p r v
      .ok (c.holds o)
  | .ref a, .ref b =>
    match c with
    | .eq => .ok (eqRef a b)
    | .ne => .ok !(eqRef a b)
    | _ => .error .rejected
  | _, _ => .error .rejected

/-- What printing needs of a unit, src/core/include/units/bits/unit_text.h:150-152: a unit has a symbol if it is named or derived. -/
def textUnit (S : Sys) (u : MUnit) : TUnit :=
  let e := S.unitDefs.find? fun e => decide (e.1.unit.id = u.id)
  let ref := S.unitDefs.find? fun e => decide (e.1.unit.id = .named u.ref)
  ⟨u.ratio, (if u.named ∨ u.symbol ≠ "" then some ⟨u.symbol.toList, (e.map (·.1.ascii)).getD "" |>.toList⟩ else none), u.named,
    ref.bind (·.1.unit.family)⟩

/-- What printing needs of a dimension; the first argument limits the depth of the recipes. -/
def textDim (S : Sys) : Nat → Dim → TDim
  | 0, d => .base "" (textUnit S d.unit)
  | _ + 1, .base b => .base b.name (textUnit S b.unit)
  | k + 1, .named n =>
    let r := (S.dimDefs.find? fun d => decide (d.1.name = n.name)).elim [] (·.1.recipe)
    .derived n.name (textUnit S n.coherent) (r.foldr (fun i acc => .cons (textDim S k i.dim) i.num i.den acc) .nil)
  | _ + 1, .unknown _ => .base "" (textUnit S unknownCoherentUnit)

/-- The registered prefixes. -/
def prefixesOf (S : Sys) : PrefixReg := fun f r =>
  S.log.findSome? fun e =>
    match e.ent with
    | .pre p a => if p.family = f ∧ p.ratio = r then some ⟨p.family, ⟨p.symbol.toList, a.toList⟩, p.ratio⟩ else none
    | _ => none

/-- A static assertion. -/
inductive Check where
  | cmp (c : Cmp) (x y : X)
  | both (a b : Check)
  /-- `u::symbol == basic_symbol_text(std, ascii)` -/
  | symbol (u : Nm) (std ascii : String)
  /-- `detail::unit_text<d, u>() == basic_symbol_text(std, ascii)` -/
  | unitText (d u : Nm) (std ascii : String)
  /-- `detail::quantity_ratio<T> == ratio(num, den, exp)` -/
  | ratio (t : TX) (num den exp : Int)
  /-- `u::ratio / dimension_unit<d>::ratio == ratio(1)` -/
  | coherent (d u : Nm)
  /-- `is_same_v<decltype(x), decltype(y)>` -/
  | sameType (x y : X)
  /-- `is_same_v<decltype(x), T>` -/
  | type (x : X) (t : TX)
  /-- the expression does not compile -/
  | rejected (x : X)

/-- Whether a static assertion holds. -/
def Check.eval (S : Sys) : Check → Bool
  | .cmp c x y =>
    match (do let v ← x.eval S; let w ← y.eval S; compareV (envOf S) c v w : C Bool) with
    | .ok b => b
    | .error _ => false
  | .both a b => a.eval S && b.eval S
  | .symbol u s a =>
    match resolveUnit S.names [⟨"", 0⟩] u with
    | .ok e => decide (e.unit.symbol = s) && decide (e.ascii = a)
    | .error _ => false
  | .unitText d u s a =>
    match resolveDim S.names [⟨"", 0⟩] d, resolveUnit S.names [⟨"", 0⟩] u with
    | .ok d, .ok u =>
      match Verif.unitText (prefixesOf S) (textDim S 8 d.dim) (textUnit S u.unit) with
      | .ok t => decide (t.std = s.toList) && decide (t.ascii = a.toList)
      | .error _ => false
    | _, _ => false
  | .ratio t a b e =>
    match t.eval S, Ratio.make a b e with
    | .ok t, .ok r => decide (quantityRatio est t.dim t.unit = .ok r)
    | _, _ => false
  | .coherent d u =>
    match resolveDim S.names [⟨"", 0⟩] d, resolveUnit S.names [⟨"", 0⟩] u with
    | .ok d, .ok u => decide (Ratio.div u.unit.ratio d.dim.unit.ratio = .ok Ratio.one)
    | _, _ => false
  | .sameType x y =>
    match x.eval S, y.eval S with
    | .ok (.qty p), .ok (.qty q) => decide (p.ty = q.ty)
    | .ok (.num r _), .ok (.num s _) => decide (r = s)
    | .ok (.ref a), .ok (.ref b) => decide (a = b)
    | _, _ => false
  | .type x t =>
    match x.eval S, t.eval S with
    | .ok (.qty q), .ok t => decide (q.ty = t)
    | _, _ => false
  | .rejected x =>
    match x.eval S with
    | .error .rejected => true
    | _ => false

/-- The assertions of a test that do not hold in the model. -/
def failures (hs : List Nm) (cs : List (Nat × Check)) : Option (List Nat) :=
  match includeAll hs with
  | .ok S => some ((cs.filter fun c => !(c.2.eval S)).map (·.1))
  | .error _ => none

end Verif.Conformance
