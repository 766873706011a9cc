import Verif.Conformance
import Verif.RepOps

/-!
# The static tests of custom representation types, replayed in the model (generated by tools/gen_conformance_rep.py)

The number of each check is the line of the assertion in the test.  The results are tests of the model and not properties of the library.
-/

namespace Verif.Conformance

open Systems

set_option maxRecDepth 100000

/-- The value of an expression of a test: a value of a representation, or a quantity. -/
inductive XG (S : OpSys) where
  | val (t : S.Ty) (v : S.Val)
  | qty (q : QtyG S)

section
variable {S : OpSys} (E : Env)

/-- `quantity<D, U, Rep>(x)`. -/
def makeG (t : QTyG S) : XG S → C (QtyG S)
  | .val r v => mkG t (r, v)
  | .qty q => convertG E t q

/-- The implicit conversion to `quantity<D, U, Rep>`. -/
def implicitG (t : QTyG S) : XG S → C (QtyG S)
  | .val r v => if t.dim = .named dimOne ∧ t.unit = unitOne then mkG t (r, v) else .error .rejected
  | .qty q => convertG E t q

/-- `x op y`. -/
def binaryG (o : BinOp) (x y : C (XG S)) : C (XG S) := do
  let x ← x
  let y ← y
  match o, x, y with
  | _, .val t v, .val u w => do
    let z ← S.value o (t, v) (u, w)
    .ok (.val z.1 z.2)
  | .add, .qty a, .qty b => do
    let q ← addSubG E .add a b
    .ok (.qty q)
  | .sub, .qty a, .qty b => do
    let q ← addSubG E .sub a b
    .ok (.qty q)
  | .mul, .qty a, .qty b => do
    let q ← mulG E a b
    .ok (.qty q)
  | .div, .qty a, .qty b => do
    let q ← divG E a b
    .ok (.qty q)
  | .mod, .qty a, .qty b => do
    let q ← modG a b
    .ok (.qty q)
  | .mul, .val t v, .qty b => do
    let q ← scaleLeftG (t, v) b
    .ok (.qty q)
  | .div, .val t v, .qty b => do
    let q ← recipG E (t, v) b
    .ok (.qty q)
  | .mul, .qty a, .val t v => do
    let q ← scaleG .mul a (t, v)
    .ok (.qty q)
  | .div, .qty a, .val t v => do
    let q ← scaleG .div a (t, v)
    .ok (.qty q)
  | .mod, .qty a, .val t v => do
    let q ← scaleG .mod a (t, v)
    .ok (.qty q)
  | _, _, _ => .error .rejected

/-- `x op= y`. -/
def assignXG (o : BinOp) (x y : C (XG S)) : C (XG S) := do
  let x ← x
  let y ← y
  match x, y with
  | .qty a, .qty b => do
    let q ← assignG E o a b
    .ok (.qty q)
  | .qty a, .val t v => do
    let q ← assignNumG o a (t, v)
    .ok (.qty q)
  | _, _ => .error .rejected

/-- `-x`. -/
def negXG (x : C (XG S)) : C (XG S) := do
  let x ← x
  match x with
  | .qty a => do
    let q ← negG a
    .ok (.qty q)
  | _ => .error .rejected

/-- `x == y`. -/
def eqXG (x y : C (XG S)) : C Bool := do
  let x ← x
  let y ← y
  match x, y with
  | .qty a, .qty b => eqG E a b
  | .qty a, y => do
    let b ← implicitG E a.ty y
    eqG E a b
  | _, _ => .error .rejected

/-- `x <=> y`, which `<`, `>`, `<=` and `>=` are rewritten to. -/
def cmpXG (x y : C (XG S)) : C (Option Ordering) := do
  let x ← x
  let y ← y
  match x, y with
  | .qty a, .qty b => compareG E a b
  | _, _ => .error .rejected

end

/-- Accepted by the compiler. -/
def compiles {α : Type} (x : C α) : Bool :=
  match x with
  | .error .rejected => false
  | _ => true

/-- The dimension and the unit of `length<u>` or `dimensionless<u>`. -/
def typeG {S : OpSys} (s : Sys) (length : Bool) (u : Nm) (r : S.Ty) : C (QTyG S) := do
  let d ← resolveDim s.names [⟨"", 0⟩] (if length then n!"units::isq::si::dim_length" else n!"units::dim_one")
  let u ← resolveUnit s.names [⟨"", 0⟩] u
  .ok ⟨d.dim, u.unit, r⟩

/-- A check of a test. -/
inductive CheckG (S : OpSys) where
  | rep (t : S.Ty)
  | notRep (t : S.Ty)
  | constructible (b : Bool) (t : C (QTyG S)) (x : C (XG S))
  | convertible (b : Bool) (t : C (QTyG S)) (x : C (XG S))
  | eq (x y : C (XG S))
  | bad (x : C (XG S))
  | badEq (x y : C (XG S))
  | badCmp (x y : C (XG S))

/-- The outcome of a check. -/
def CheckG.eval {S : OpSys} (E : Env) : CheckG S → Bool
  | .rep t => S.representation t
  | .notRep t => !S.representation t
  | .constructible b t x => match (do let t ← t; let x ← x; .ok (t, x) : C (QTyG S × XG S)) with
    | .ok (t, x) => compiles (makeG E t x) == b
    | _ => false
  | .convertible b t x => match (do let t ← t; let x ← x; .ok (t, x) : C (QTyG S × XG S)) with
    | .ok (t, x) => compiles (implicitG E t x) == b
    | _ => false
  | .eq x y => match eqXG E x y with
    | .ok b => b
    | _ => false
  | .bad x => !compiles x
  | .badEq x y => !compiles (eqXG E x y)
  | .badCmp x y => !compiles (cmpXG E x y)

/-- The lines of the checks that do not hold. -/
def failuresG {S : OpSys} (cs : Sys → List (Nat × CheckG S)) : Option (List Nat) :=
  match includeAll [n!"generic/dimensionless.h", n!"isq/si/length.h"] with
  | .ok s => some (((cs s).filter fun x => !(x.2.eval (envOf s))).map (·.1))
  | .error _ => none

/-- `min_expl<Mode>`: one of the operations removed, test/unit_test/static/custom_rep_test_min_expl.cpp:42-85. -/
abbrev minExplMode (mode : Nat) : TypeSys :=
  { myRep nearest true with
    regular := fun t => decide (t ≠ none) || !decide (mode ∈ [1, 3, 4, 5, 6, 7])
    constructible := fun t u => (myRep nearest true).constructible t u && !(decide (mode = 2 ∧ t = none) && u.isSome)
    mulTy := fun t u => if mode = 8 ∧ t = none then none else (myRep nearest true).mulTy t u
    divTy := fun t u => if mode = 9 ∧ t = none then none else (myRep nearest true).divTy t u }

/-- /repo/test/unit_test/static/custom_rep_test_min_expl.cpp. -/
def testMinExpl (s : Sys) : List (Nat × CheckG (minExpl nearest)) :=
  let E := envOf s
  [
  (91, .constructible true (typeG s true n!"units::isq::si::metre" none) (.ok (.val none (.i 1)))),
  (92, .convertible false (typeG s true n!"units::isq::si::metre" none) (.ok (.val none (.i 1)))),
  (95, .constructible false (typeG s true n!"units::isq::si::metre" none) (.ok (.val (some (.int .i32)) (.i 1)))),
  (96, .convertible false (typeG s true n!"units::isq::si::metre" none) (.ok (.val (some (.int .i32)) (.i 1)))),
  (99, .constructible true (typeG s false n!"units::one" none) (.ok (.val none (.i 1)))),
  (100, .convertible true (typeG s false n!"units::one" none) (.ok (.val none (.i 1)))),
  (103, .constructible false (typeG s false n!"units::one" none) (.ok (.val (some (.int .i32)) (.i 1)))),
  (104, .convertible false (typeG s false n!"units::one" none) (.ok (.val (some (.int .i32)) (.i 1)))),
  (107, .constructible true (typeG s false n!"units::percent" none) (.ok (.val none (.i 1)))),
  (108, .convertible false (typeG s false n!"units::percent" none) (.ok (.val none (.i 1)))),
  (111, .constructible true (typeG s true n!"units::isq::si::metre" none) (do let t ← (typeG s true n!"units::isq::si::metre" none); .ok (.qty ⟨t, (.i 1)⟩))),
  (112, .convertible true (typeG s true n!"units::isq::si::metre" none) (do let t ← (typeG s true n!"units::isq::si::metre" none); .ok (.qty ⟨t, (.i 1)⟩))),
  (115, .constructible false (typeG s true n!"units::isq::si::metre" none) (do let t ← (typeG s true n!"units::isq::si::metre" (some (.int .i32))); .ok (.qty ⟨t, (.i 1)⟩))),
  (116, .convertible false (typeG s true n!"units::isq::si::metre" none) (do let t ← (typeG s true n!"units::isq::si::metre" (some (.int .i32))); .ok (.qty ⟨t, (.i 1)⟩))),
  (119, .constructible true (typeG s true n!"units::isq::si::metre" none) (do let t ← (typeG s true n!"units::isq::si::kilometre" none); .ok (.qty ⟨t, (.i 1)⟩))),
  (120, .convertible true (typeG s true n!"units::isq::si::metre" none) (do let t ← (typeG s true n!"units::isq::si::kilometre" none); .ok (.qty ⟨t, (.i 1)⟩))),
  (123, .constructible false (typeG s true n!"units::isq::si::kilometre" none) (do let t ← (typeG s true n!"units::isq::si::metre" none); .ok (.qty ⟨t, (.i 1)⟩))),
  (124, .convertible false (typeG s true n!"units::isq::si::kilometre" none) (do let t ← (typeG s true n!"units::isq::si::metre" none); .ok (.qty ⟨t, (.i 1)⟩))),
  (127, .constructible false (typeG s true n!"units::isq::si::metre" none) (.ok (.val (some (.int .i32)) (.i 1)))),
  (128, .convertible false (typeG s true n!"units::isq::si::metre" none) (.ok (.val (some (.int .i32)) (.i 1)))),
  (130, .constructible false (typeG s true n!"units::isq::si::metre" none) (do let t ← (typeG s true n!"units::isq::si::metre" (some (.int .i32))); .ok (.qty ⟨t, (.i 1)⟩))),
  (131, .convertible false (typeG s true n!"units::isq::si::metre" none) (do let t ← (typeG s true n!"units::isq::si::metre" (some (.int .i32))); .ok (.qty ⟨t, (.i 1)⟩))),
  (133, .constructible false (typeG s true n!"units::isq::si::metre" (some (.int .i32))) (.ok (.val none (.i 1)))),
  (134, .convertible false (typeG s true n!"units::isq::si::metre" (some (.int .i32))) (.ok (.val none (.i 1)))),
  (136, .constructible false (typeG s true n!"units::isq::si::metre" (some (.int .i32))) (do let t ← (typeG s true n!"units::isq::si::metre" none); .ok (.qty ⟨t, (.i 1)⟩))),
  (137, .convertible false (typeG s true n!"units::isq::si::metre" (some (.int .i32))) (do let t ← (typeG s true n!"units::isq::si::metre" none); .ok (.qty ⟨t, (.i 1)⟩))),
  (139, .constructible false (typeG s true n!"units::isq::si::metre" none) (do let t ← (typeG s false n!"units::one" (some (.flt .f64))); .ok (.qty ⟨t, (.f (10 / 10))⟩))),
  (140, .convertible false (typeG s true n!"units::isq::si::metre" none) (do let t ← (typeG s false n!"units::one" (some (.flt .f64))); .ok (.qty ⟨t, (.f (10 / 10))⟩))),
  (142, .constructible false (typeG s true n!"units::isq::si::metre" (some (.int .i32))) (do let t ← (typeG s false n!"units::one" none); .ok (.qty ⟨t, (.i 1)⟩))),
  (143, .convertible false (typeG s true n!"units::isq::si::metre" (some (.int .i32))) (do let t ← (typeG s false n!"units::one" none); .ok (.qty ⟨t, (.i 1)⟩))),
  (146, .rep none),
  (165, .bad (negXG (do let t ← (typeG s true n!"units::isq::si::metre" none); .ok (.qty ⟨t, (.i 1)⟩)))),
  (171, .bad (assignXG E .add (do let t ← (typeG s true n!"units::isq::si::metre" none); .ok (.qty ⟨t, (.i 1)⟩)) (do let t ← (typeG s true n!"units::isq::si::metre" none); .ok (.qty ⟨t, (.i 1)⟩)))),
  (172, .bad (assignXG E .sub (do let t ← (typeG s true n!"units::isq::si::metre" none); .ok (.qty ⟨t, (.i 1)⟩)) (do let t ← (typeG s true n!"units::isq::si::metre" none); .ok (.qty ⟨t, (.i 1)⟩)))),
  (173, .bad (assignXG E .mul (do let t ← (typeG s true n!"units::isq::si::metre" none); .ok (.qty ⟨t, (.i 1)⟩)) (.ok (.val none (.i 1))))),
  (174, .bad (assignXG E .div (do let t ← (typeG s true n!"units::isq::si::metre" none); .ok (.qty ⟨t, (.i 1)⟩)) (.ok (.val none (.i 1))))),
  (175, .bad (assignXG E .mod (do let t ← (typeG s true n!"units::isq::si::metre" none); .ok (.qty ⟨t, (.i 1)⟩)) (.ok (.val none (.i 1))))),
  (176, .bad (assignXG E .mod (do let t ← (typeG s true n!"units::isq::si::metre" none); .ok (.qty ⟨t, (.i 1)⟩)) (do let t ← (typeG s true n!"units::isq::si::metre" none); .ok (.qty ⟨t, (.i 1)⟩)))),
  (178, .bad (binaryG E .add (do let t ← (typeG s true n!"units::isq::si::metre" none); .ok (.qty ⟨t, (.i 1)⟩)) (do let t ← (typeG s true n!"units::isq::si::metre" none); .ok (.qty ⟨t, (.i 1)⟩)))),
  (179, .bad (binaryG E .sub (do let t ← (typeG s true n!"units::isq::si::metre" none); .ok (.qty ⟨t, (.i 1)⟩)) (do let t ← (typeG s true n!"units::isq::si::metre" none); .ok (.qty ⟨t, (.i 1)⟩)))),
  (180, .bad (binaryG E .mod (do let t ← (typeG s true n!"units::isq::si::metre" none); .ok (.qty ⟨t, (.i 1)⟩)) (.ok (.val none (.i 1))))),
  (181, .bad (binaryG E .mod (do let t ← (typeG s true n!"units::isq::si::metre" none); .ok (.qty ⟨t, (.i 1)⟩)) (do let t ← (typeG s true n!"units::isq::si::metre" none); .ok (.qty ⟨t, (.i 1)⟩)))),
  (182, .badCmp (do let t ← (typeG s true n!"units::isq::si::metre" none); .ok (.qty ⟨t, (.i 1)⟩)) (do let t ← (typeG s true n!"units::isq::si::metre" none); .ok (.qty ⟨t, (.i 1)⟩))),
  (183, .badCmp (do let t ← (typeG s true n!"units::isq::si::metre" none); .ok (.qty ⟨t, (.i 1)⟩)) (do let t ← (typeG s true n!"units::isq::si::metre" none); .ok (.qty ⟨t, (.i 1)⟩))),
  (184, .badCmp (do let t ← (typeG s true n!"units::isq::si::metre" none); .ok (.qty ⟨t, (.i 1)⟩)) (do let t ← (typeG s true n!"units::isq::si::metre" none); .ok (.qty ⟨t, (.i 1)⟩))),
  (185, .badCmp (do let t ← (typeG s true n!"units::isq::si::metre" none); .ok (.qty ⟨t, (.i 1)⟩)) (do let t ← (typeG s true n!"units::isq::si::metre" none); .ok (.qty ⟨t, (.i 1)⟩))),
  (187, .bad (binaryG E .add (do let t ← (typeG s true n!"units::isq::si::metre" none); .ok (.qty ⟨t, (.i 1)⟩)) (do let t ← (typeG s true n!"units::isq::si::metre" (some (.int .i32))); .ok (.qty ⟨t, (.i 1)⟩)))),
  (188, .bad (binaryG E .sub (do let t ← (typeG s true n!"units::isq::si::metre" none); .ok (.qty ⟨t, (.i 1)⟩)) (do let t ← (typeG s true n!"units::isq::si::metre" (some (.int .i32))); .ok (.qty ⟨t, (.i 1)⟩)))),
  (189, .bad (binaryG E .mod (do let t ← (typeG s true n!"units::isq::si::metre" none); .ok (.qty ⟨t, (.i 1)⟩)) (.ok (.val (some (.int .i32)) (.i 1))))),
  (190, .bad (binaryG E .mod (do let t ← (typeG s true n!"units::isq::si::metre" none); .ok (.qty ⟨t, (.i 1)⟩)) (do let t ← (typeG s true n!"units::isq::si::metre" (some (.int .i32))); .ok (.qty ⟨t, (.i 1)⟩)))),
  (191, .badEq (do let t ← (typeG s true n!"units::isq::si::metre" none); .ok (.qty ⟨t, (.i 1)⟩)) (do let t ← (typeG s true n!"units::isq::si::metre" (some (.int .i32))); .ok (.qty ⟨t, (.i 1)⟩))),
  (192, .badEq (do let t ← (typeG s true n!"units::isq::si::metre" none); .ok (.qty ⟨t, (.i 1)⟩)) (do let t ← (typeG s true n!"units::isq::si::metre" (some (.int .i32))); .ok (.qty ⟨t, (.i 1)⟩))),
  (193, .badCmp (do let t ← (typeG s true n!"units::isq::si::metre" none); .ok (.qty ⟨t, (.i 1)⟩)) (do let t ← (typeG s true n!"units::isq::si::metre" (some (.int .i32))); .ok (.qty ⟨t, (.i 1)⟩))),
  (194, .badCmp (do let t ← (typeG s true n!"units::isq::si::metre" none); .ok (.qty ⟨t, (.i 1)⟩)) (do let t ← (typeG s true n!"units::isq::si::metre" (some (.int .i32))); .ok (.qty ⟨t, (.i 1)⟩))),
  (195, .badCmp (do let t ← (typeG s true n!"units::isq::si::metre" none); .ok (.qty ⟨t, (.i 1)⟩)) (do let t ← (typeG s true n!"units::isq::si::metre" (some (.int .i32))); .ok (.qty ⟨t, (.i 1)⟩))),
  (196, .badCmp (do let t ← (typeG s true n!"units::isq::si::metre" none); .ok (.qty ⟨t, (.i 1)⟩)) (do let t ← (typeG s true n!"units::isq::si::metre" (some (.int .i32))); .ok (.qty ⟨t, (.i 1)⟩))),
  (203, .eq (do let t ← (typeG s true n!"units::isq::si::kilometre" none); let x ← (.ok (.val none (.i 2))); let q ← makeG E t x; .ok (.qty q)) (do let t ← (typeG s true n!"units::isq::si::metre" none); let x ← (.ok (.val none (.i 2000))); let q ← makeG E t x; .ok (.qty q))),
  (204, .eq (binaryG E .mul (do let t ← (typeG s true n!"units::isq::si::metre" none); let x ← (.ok (.val none (.i 123))); let q ← makeG E t x; .ok (.qty q)) (.ok (.val none (.i 2)))) (do let t ← (typeG s true n!"units::isq::si::metre" none); let x ← (.ok (.val none (.i 246))); let q ← makeG E t x; .ok (.qty q))),
  (205, .eq (binaryG E .mul (do let t ← (typeG s true n!"units::isq::si::metre" none); let x ← (.ok (.val none (.i 123))); let q ← makeG E t x; .ok (.qty q)) (do let t ← typeG s false n!"units::one" none; let x ← (.ok (.val none (.i 2))); let q ← makeG E t x; .ok (.qty q))) (do let t ← (typeG s true n!"units::isq::si::metre" none); let x ← (.ok (.val none (.i 246))); let q ← makeG E t x; .ok (.qty q))),
  (206, .eq (binaryG E .mul (.ok (.val none (.i 2))) (do let t ← (typeG s true n!"units::isq::si::metre" none); let x ← (.ok (.val none (.i 123))); let q ← makeG E t x; .ok (.qty q))) (do let t ← (typeG s true n!"units::isq::si::metre" none); let x ← (.ok (.val none (.i 246))); let q ← makeG E t x; .ok (.qty q))),
  (207, .eq (binaryG E .mul (do let t ← typeG s false n!"units::one" none; let x ← (.ok (.val none (.i 2))); let q ← makeG E t x; .ok (.qty q)) (do let t ← (typeG s true n!"units::isq::si::metre" none); let x ← (.ok (.val none (.i 123))); let q ← makeG E t x; .ok (.qty q))) (do let t ← (typeG s true n!"units::isq::si::metre" none); let x ← (.ok (.val none (.i 246))); let q ← makeG E t x; .ok (.qty q))),
  (208, .eq (binaryG E .div (do let t ← (typeG s true n!"units::isq::si::metre" none); let x ← (.ok (.val none (.i 246))); let q ← makeG E t x; .ok (.qty q)) (.ok (.val none (.i 2)))) (do let t ← (typeG s true n!"units::isq::si::metre" none); let x ← (.ok (.val none (.i 123))); let q ← makeG E t x; .ok (.qty q))),
  (209, .eq (binaryG E .div (do let t ← (typeG s true n!"units::isq::si::metre" none); let x ← (.ok (.val none (.i 246))); let q ← makeG E t x; .ok (.qty q)) (do let t ← typeG s false n!"units::one" none; let x ← (.ok (.val none (.i 2))); let q ← makeG E t x; .ok (.qty q))) (do let t ← (typeG s true n!"units::isq::si::metre" none); let x ← (.ok (.val none (.i 123))); let q ← makeG E t x; .ok (.qty q))),
  (210, .eq (binaryG E .div (do let t ← (typeG s true n!"units::isq::si::metre" none); let x ← (.ok (.val none (.i 246))); let q ← makeG E t x; .ok (.qty q)) (do let t ← (typeG s true n!"units::isq::si::metre" none); let x ← (.ok (.val none (.i 2))); let q ← makeG E t x; .ok (.qty q))) (do let t ← typeG s false n!"units::one" none; let x ← (.ok (.val none (.i 123))); let q ← makeG E t x; .ok (.qty q))),
  (211, .eq (binaryG E .div (do let t ← (typeG s true n!"units::isq::si::metre" none); let x ← (.ok (.val none (.i 246))); let q ← makeG E t x; .ok (.qty q)) (do let t ← (typeG s true n!"units::isq::si::metre" none); let x ← (.ok (.val none (.i 2))); let q ← makeG E t x; .ok (.qty q))) (.ok (.val none (.i 123))))]

#guard failuresG testMinExpl = some []

/-- /repo/test/unit_test/static/custom_rep_test_min_impl.cpp. -/
def testMinImpl (s : Sys) : List (Nat × CheckG (minImpl nearest)) :=
  let E := envOf s
  [
  (63, .rep ((.int .i32, true))),
  (64, .rep ((.flt .f64, true))),
  (67, .constructible true (typeG s true n!"units::isq::si::metre" ((.int .i32, true))) (.ok (.val ((.int .i32, true)) (.i 1)))),
  (68, .convertible false (typeG s true n!"units::isq::si::metre" ((.int .i32, true))) (.ok (.val ((.int .i32, true)) (.i 1)))),
  (70, .constructible true (typeG s true n!"units::isq::si::metre" ((.flt .f64, true))) (.ok (.val ((.flt .f64, true)) (.f (10 / 10))))),
  (71, .convertible false (typeG s true n!"units::isq::si::metre" ((.flt .f64, true))) (.ok (.val ((.flt .f64, true)) (.f (10 / 10))))),
  (73, .constructible true (typeG s true n!"units::isq::si::metre" ((.flt .f64, true))) (.ok (.val ((.int .i32, true)) (.i 1)))),
  (74, .convertible false (typeG s true n!"units::isq::si::metre" ((.flt .f64, true))) (.ok (.val ((.int .i32, true)) (.i 1)))),
  (76, .constructible false (typeG s true n!"units::isq::si::metre" ((.int .i32, true))) (.ok (.val ((.flt .f64, true)) (.f (10 / 10))))),
  (77, .convertible false (typeG s true n!"units::isq::si::metre" ((.int .i32, true))) (.ok (.val ((.flt .f64, true)) (.f (10 / 10))))),
  (80, .constructible true (typeG s true n!"units::isq::si::metre" ((.int .i32, true))) (.ok (.val ((.int .i32, false)) (.i 1)))),
  (81, .convertible false (typeG s true n!"units::isq::si::metre" ((.int .i32, true))) (.ok (.val ((.int .i32, false)) (.i 1)))),
  (83, .constructible true (typeG s true n!"units::isq::si::metre" ((.flt .f64, true))) (.ok (.val ((.flt .f64, false)) (.f (10 / 10))))),
  (84, .convertible false (typeG s true n!"units::isq::si::metre" ((.flt .f64, true))) (.ok (.val ((.flt .f64, false)) (.f (10 / 10))))),
  (86, .constructible true (typeG s true n!"units::isq::si::metre" ((.flt .f64, true))) (.ok (.val ((.int .i32, false)) (.i 1)))),
  (87, .convertible false (typeG s true n!"units::isq::si::metre" ((.flt .f64, true))) (.ok (.val ((.int .i32, false)) (.i 1)))),
  (89, .constructible false (typeG s true n!"units::isq::si::metre" ((.int .i32, true))) (.ok (.val ((.flt .f64, false)) (.f (10 / 10))))),
  (90, .convertible false (typeG s true n!"units::isq::si::metre" ((.int .i32, true))) (.ok (.val ((.flt .f64, false)) (.f (10 / 10))))),
  (93, .constructible true (typeG s false n!"units::one" ((.int .i32, true))) (.ok (.val ((.int .i32, true)) (.i 1)))),
  (94, .convertible true (typeG s false n!"units::one" ((.int .i32, true))) (.ok (.val ((.int .i32, true)) (.i 1)))),
  (96, .constructible true (typeG s false n!"units::one" ((.flt .f64, true))) (.ok (.val ((.flt .f64, true)) (.f (10 / 10))))),
  (97, .convertible true (typeG s false n!"units::one" ((.flt .f64, true))) (.ok (.val ((.flt .f64, true)) (.f (10 / 10))))),
  (99, .constructible true (typeG s false n!"units::one" ((.flt .f64, true))) (.ok (.val ((.int .i32, true)) (.i 1)))),
  (100, .convertible true (typeG s false n!"units::one" ((.flt .f64, true))) (.ok (.val ((.int .i32, true)) (.i 1)))),
  (102, .constructible false (typeG s false n!"units::one" ((.int .i32, true))) (.ok (.val ((.flt .f64, true)) (.f (10 / 10))))),
  (103, .convertible false (typeG s false n!"units::one" ((.int .i32, true))) (.ok (.val ((.flt .f64, true)) (.f (10 / 10))))),
  (106, .constructible true (typeG s false n!"units::one" ((.int .i32, true))) (.ok (.val ((.int .i32, false)) (.i 1)))),
  (107, .convertible true (typeG s false n!"units::one" ((.int .i32, true))) (.ok (.val ((.int .i32, false)) (.i 1)))),
  (109, .constructible true (typeG s false n!"units::one" ((.flt .f64, true))) (.ok (.val ((.flt .f64, false)) (.f (10 / 10))))),
  (110, .convertible true (typeG s false n!"units::one" ((.flt .f64, true))) (.ok (.val ((.flt .f64, false)) (.f (10 / 10))))),
  (112, .constructible true (typeG s false n!"units::one" ((.flt .f64, true))) (.ok (.val ((.int .i32, false)) (.i 1)))),
  (113, .convertible true (typeG s false n!"units::one" ((.flt .f64, true))) (.ok (.val ((.int .i32, false)) (.i 1)))),
  (115, .constructible false (typeG s false n!"units::one" ((.int .i32, true))) (.ok (.val ((.flt .f64, false)) (.f (10 / 10))))),
  (116, .convertible false (typeG s false n!"units::one" ((.int .i32, true))) (.ok (.val ((.flt .f64, false)) (.f (10 / 10))))),
  (119, .constructible true (typeG s false n!"units::percent" ((.int .i32, true))) (.ok (.val ((.int .i32, true)) (.i 1)))),
  (120, .convertible false (typeG s false n!"units::percent" ((.int .i32, true))) (.ok (.val ((.int .i32, true)) (.i 1)))),
  (122, .constructible true (typeG s false n!"units::percent" ((.flt .f64, true))) (.ok (.val ((.flt .f64, true)) (.f (10 / 10))))),
  (123, .convertible false (typeG s false n!"units::percent" ((.flt .f64, true))) (.ok (.val ((.flt .f64, true)) (.f (10 / 10))))),
  (125, .constructible true (typeG s false n!"units::percent" ((.flt .f64, true))) (.ok (.val ((.int .i32, true)) (.i 1)))),
  (126, .convertible false (typeG s false n!"units::percent" ((.flt .f64, true))) (.ok (.val ((.int .i32, true)) (.i 1)))),
  (128, .constructible false (typeG s false n!"units::percent" ((.int .i32, true))) (.ok (.val ((.flt .f64, true)) (.f (10 / 10))))),
  (129, .convertible false (typeG s false n!"units::percent" ((.int .i32, true))) (.ok (.val ((.flt .f64, true)) (.f (10 / 10))))),
  (132, .constructible true (typeG s true n!"units::isq::si::metre" ((.int .i32, false))) (.ok (.val ((.int .i32, true)) (.i 1)))),
  (133, .convertible false (typeG s true n!"units::isq::si::metre" ((.int .i32, false))) (.ok (.val ((.int .i32, true)) (.i 1)))),
  (135, .constructible true (typeG s true n!"units::isq::si::metre" ((.flt .f64, false))) (.ok (.val ((.flt .f64, true)) (.f (10 / 10))))),
  (136, .convertible false (typeG s true n!"units::isq::si::metre" ((.flt .f64, false))) (.ok (.val ((.flt .f64, true)) (.f (10 / 10))))),
  (138, .constructible true (typeG s true n!"units::isq::si::metre" ((.flt .f64, false))) (.ok (.val ((.int .i32, true)) (.i 1)))),
  (139, .convertible false (typeG s true n!"units::isq::si::metre" ((.flt .f64, false))) (.ok (.val ((.int .i32, true)) (.i 1)))),
  (141, .constructible false (typeG s true n!"units::isq::si::metre" ((.int .i32, false))) (.ok (.val ((.flt .f64, true)) (.f (10 / 10))))),
  (142, .convertible false (typeG s true n!"units::isq::si::metre" ((.int .i32, false))) (.ok (.val ((.flt .f64, true)) (.f (10 / 10))))),
  (145, .constructible true (typeG s true n!"units::isq::si::metre" ((.int .i32, false))) (.ok (.val ((.int .i32, true)) (.i 1)))),
  (146, .convertible false (typeG s true n!"units::isq::si::metre" ((.int .i32, false))) (.ok (.val ((.int .i32, true)) (.i 1)))),
  (148, .constructible true (typeG s true n!"units::isq::si::metre" ((.flt .f64, false))) (.ok (.val ((.flt .f64, true)) (.f (10 / 10))))),
  (149, .convertible false (typeG s true n!"units::isq::si::metre" ((.flt .f64, false))) (.ok (.val ((.flt .f64, true)) (.f (10 / 10))))),
  (151, .constructible true (typeG s true n!"units::isq::si::metre" ((.flt .f64, false))) (.ok (.val ((.int .i32, true)) (.i 1)))),
  (152, .convertible false (typeG s true n!"units::isq::si::metre" ((.flt .f64, false))) (.ok (.val ((.int .i32, true)) (.i 1)))),
  (154, .constructible false (typeG s true n!"units::isq::si::metre" ((.int .i32, false))) (.ok (.val ((.flt .f64, true)) (.f (10 / 10))))),
  (155, .convertible false (typeG s true n!"units::isq::si::metre" ((.int .i32, false))) (.ok (.val ((.flt .f64, true)) (.f (10 / 10))))),
  (158, .constructible true (typeG s false n!"units::one" ((.int .i32, false))) (.ok (.val ((.int .i32, true)) (.i 1)))),
  (159, .convertible true (typeG s false n!"units::one" ((.int .i32, false))) (.ok (.val ((.int .i32, true)) (.i 1)))),
  (161, .constructible true (typeG s false n!"units::one" ((.flt .f64, false))) (.ok (.val ((.flt .f64, true)) (.f (10 / 10))))),
  (162, .convertible true (typeG s false n!"units::one" ((.flt .f64, false))) (.ok (.val ((.flt .f64, true)) (.f (10 / 10))))),
  (164, .constructible true (typeG s false n!"units::one" ((.flt .f64, false))) (.ok (.val ((.int .i32, true)) (.i 1)))),
  (165, .convertible true (typeG s false n!"units::one" ((.flt .f64, false))) (.ok (.val ((.int .i32, true)) (.i 1)))),
  (167, .constructible false (typeG s false n!"units::one" ((.int .i32, false))) (.ok (.val ((.flt .f64, true)) (.f (10 / 10))))),
  (168, .convertible false (typeG s false n!"units::one" ((.int .i32, false))) (.ok (.val ((.flt .f64, true)) (.f (10 / 10))))),
  (171, .constructible true (typeG s false n!"units::percent" ((.int .i32, false))) (.ok (.val ((.int .i32, true)) (.i 1)))),
  (172, .convertible false (typeG s false n!"units::percent" ((.int .i32, false))) (.ok (.val ((.int .i32, true)) (.i 1)))),
  (174, .constructible true (typeG s false n!"units::percent" ((.flt .f64, false))) (.ok (.val ((.flt .f64, true)) (.f (10 / 10))))),
  (175, .convertible false (typeG s false n!"units::percent" ((.flt .f64, false))) (.ok (.val ((.flt .f64, true)) (.f (10 / 10))))),
  (177, .constructible true (typeG s false n!"units::percent" ((.flt .f64, false))) (.ok (.val ((.int .i32, true)) (.i 1)))),
  (178, .convertible false (typeG s false n!"units::percent" ((.flt .f64, false))) (.ok (.val ((.int .i32, true)) (.i 1)))),
  (180, .constructible false (typeG s false n!"units::percent" ((.int .i32, false))) (.ok (.val ((.flt .f64, true)) (.f (10 / 10))))),
  (181, .convertible false (typeG s false n!"units::percent" ((.int .i32, false))) (.ok (.val ((.flt .f64, true)) (.f (10 / 10))))),
  (185, .constructible true (typeG s true n!"units::isq::si::metre" ((.int .i32, true))) (do let t ← (typeG s true n!"units::isq::si::metre" ((.int .i32, true))); .ok (.qty ⟨t, (.i 1)⟩))),
  (186, .convertible true (typeG s true n!"units::isq::si::metre" ((.int .i32, true))) (do let t ← (typeG s true n!"units::isq::si::metre" ((.int .i32, true))); .ok (.qty ⟨t, (.i 1)⟩))),
  (188, .constructible true (typeG s true n!"units::isq::si::metre" ((.flt .f64, true))) (do let t ← (typeG s true n!"units::isq::si::metre" ((.flt .f64, true))); .ok (.qty ⟨t, (.f (10 / 10))⟩))),
  (189, .convertible true (typeG s true n!"units::isq::si::metre" ((.flt .f64, true))) (do let t ← (typeG s true n!"units::isq::si::metre" ((.flt .f64, true))); .ok (.qty ⟨t, (.f (10 / 10))⟩))),
  (191, .constructible true (typeG s true n!"units::isq::si::metre" ((.flt .f64, true))) (do let t ← (typeG s true n!"units::isq::si::metre" ((.int .i32, true))); .ok (.qty ⟨t, (.i 1)⟩))),
  (192, .convertible true (typeG s true n!"units::isq::si::metre" ((.flt .f64, true))) (do let t ← (typeG s true n!"units::isq::si::metre" ((.int .i32, true))); .ok (.qty ⟨t, (.i 1)⟩))),
  (194, .constructible false (typeG s true n!"units::isq::si::metre" ((.int .i32, true))) (do let t ← (typeG s true n!"units::isq::si::metre" ((.flt .f64, true))); .ok (.qty ⟨t, (.f (10 / 10))⟩))),
  (195, .convertible false (typeG s true n!"units::isq::si::metre" ((.int .i32, true))) (do let t ← (typeG s true n!"units::isq::si::metre" ((.flt .f64, true))); .ok (.qty ⟨t, (.f (10 / 10))⟩))),
  (198, .constructible true (typeG s true n!"units::isq::si::metre" ((.int .i32, true))) (do let t ← (typeG s true n!"units::isq::si::metre" ((.int .i32, false))); .ok (.qty ⟨t, (.i 1)⟩))),
  (199, .convertible true (typeG s true n!"units::isq::si::metre" ((.int .i32, true))) (do let t ← (typeG s true n!"units::isq::si::metre" ((.int .i32, false))); .ok (.qty ⟨t, (.i 1)⟩))),
  (201, .constructible true (typeG s true n!"units::isq::si::metre" ((.flt .f64, true))) (do let t ← (typeG s true n!"units::isq::si::metre" ((.flt .f64, false))); .ok (.qty ⟨t, (.f (10 / 10))⟩))),
  (202, .convertible true (typeG s true n!"units::isq::si::metre" ((.flt .f64, true))) (do let t ← (typeG s true n!"units::isq::si::metre" ((.flt .f64, false))); .ok (.qty ⟨t, (.f (10 / 10))⟩))),
  (204, .constructible true (typeG s true n!"units::isq::si::metre" ((.flt .f64, true))) (do let t ← (typeG s true n!"units::isq::si::metre" ((.int .i32, false))); .ok (.qty ⟨t, (.i 1)⟩))),
  (205, .convertible true (typeG s true n!"units::isq::si::metre" ((.flt .f64, true))) (do let t ← (typeG s true n!"units::isq::si::metre" ((.int .i32, false))); .ok (.qty ⟨t, (.i 1)⟩))),
  (207, .constructible false (typeG s true n!"units::isq::si::metre" ((.int .i32, true))) (do let t ← (typeG s true n!"units::isq::si::metre" ((.flt .f64, false))); .ok (.qty ⟨t, (.f (10 / 10))⟩))),
  (208, .convertible false (typeG s true n!"units::isq::si::metre" ((.int .i32, true))) (do let t ← (typeG s true n!"units::isq::si::metre" ((.flt .f64, false))); .ok (.qty ⟨t, (.f (10 / 10))⟩))),
  (211, .constructible true (typeG s true n!"units::isq::si::metre" ((.int .i32, false))) (do let t ← (typeG s true n!"units::isq::si::metre" ((.int .i32, true))); .ok (.qty ⟨t, (.i 1)⟩))),
  (212, .convertible true (typeG s true n!"units::isq::si::metre" ((.int .i32, false))) (do let t ← (typeG s true n!"units::isq::si::metre" ((.int .i32, true))); .ok (.qty ⟨t, (.i 1)⟩))),
  (214, .constructible true (typeG s true n!"units::isq::si::metre" ((.flt .f64, false))) (do let t ← (typeG s true n!"units::isq::si::metre" ((.flt .f64, true))); .ok (.qty ⟨t, (.f (10 / 10))⟩))),
  (215, .convertible true (typeG s true n!"units::isq::si::metre" ((.flt .f64, false))) (do let t ← (typeG s true n!"units::isq::si::metre" ((.flt .f64, true))); .ok (.qty ⟨t, (.f (10 / 10))⟩))),
  (217, .constructible true (typeG s true n!"units::isq::si::metre" ((.flt .f64, false))) (do let t ← (typeG s true n!"units::isq::si::metre" ((.int .i32, true))); .ok (.qty ⟨t, (.i 1)⟩))),
  (218, .convertible true (typeG s true n!"units::isq::si::metre" ((.flt .f64, false))) (do let t ← (typeG s true n!"units::isq::si::metre" ((.int .i32, true))); .ok (.qty ⟨t, (.i 1)⟩))),
  (220, .constructible false (typeG s true n!"units::isq::si::metre" ((.int .i32, false))) (do let t ← (typeG s true n!"units::isq::si::metre" ((.flt .f64, true))); .ok (.qty ⟨t, (.f (10 / 10))⟩))),
  (221, .convertible false (typeG s true n!"units::isq::si::metre" ((.int .i32, false))) (do let t ← (typeG s true n!"units::isq::si::metre" ((.flt .f64, true))); .ok (.qty ⟨t, (.f (10 / 10))⟩))),
  (225, .eq (binaryG E .add (do let t ← (typeG s true n!"units::isq::si::metre" ((.int .i32, true))); let x ← (.ok (.val ((.int .i32, false)) (.i 1))); let q ← makeG E t x; .ok (.qty q)) (do let t ← (typeG s true n!"units::isq::si::metre" ((.int .i32, true))); let x ← (.ok (.val ((.int .i32, false)) (.i 1))); let q ← makeG E t x; .ok (.qty q))) (do let t ← (typeG s true n!"units::isq::si::metre" ((.int .i32, true))); let x ← (.ok (.val ((.int .i32, false)) (.i 2))); let q ← makeG E t x; .ok (.qty q))),
  (226, .eq (binaryG E .add (do let t ← (typeG s true n!"units::isq::si::metre" ((.int .i32, true))); let x ← (.ok (.val ((.int .i32, false)) (.i 1))); let q ← makeG E t x; .ok (.qty q)) (do let t ← (typeG s true n!"units::isq::si::metre" ((.flt .f64, true))); let x ← (.ok (.val ((.flt .f64, false)) (.f (15 / 10)))); let q ← makeG E t x; .ok (.qty q))) (do let t ← (typeG s true n!"units::isq::si::metre" ((.flt .f64, true))); let x ← (.ok (.val ((.flt .f64, false)) (.f (25 / 10)))); let q ← makeG E t x; .ok (.qty q))),
  (227, .eq (binaryG E .add (do let t ← (typeG s true n!"units::isq::si::metre" ((.int .i32, false))); let x ← (.ok (.val ((.int .i32, false)) (.i 1))); let q ← makeG E t x; .ok (.qty q)) (do let t ← (typeG s true n!"units::isq::si::metre" ((.int .i32, true))); let x ← (.ok (.val ((.int .i32, false)) (.i 1))); let q ← makeG E t x; .ok (.qty q))) (do let t ← (typeG s true n!"units::isq::si::metre" ((.int .i32, true))); let x ← (.ok (.val ((.int .i32, false)) (.i 2))); let q ← makeG E t x; .ok (.qty q))),
  (228, .eq (binaryG E .add (do let t ← (typeG s true n!"units::isq::si::metre" ((.int .i32, false))); let x ← (.ok (.val ((.int .i32, false)) (.i 1))); let q ← makeG E t x; .ok (.qty q)) (do let t ← (typeG s true n!"units::isq::si::metre" ((.flt .f64, true))); let x ← (.ok (.val ((.flt .f64, false)) (.f (15 / 10)))); let q ← makeG E t x; .ok (.qty q))) (do let t ← (typeG s true n!"units::isq::si::metre" ((.flt .f64, true))); let x ← (.ok (.val ((.flt .f64, false)) (.f (25 / 10)))); let q ← makeG E t x; .ok (.qty q))),
  (229, .eq (binaryG E .add (do let t ← (typeG s true n!"units::isq::si::metre" ((.int .i32, true))); let x ← (.ok (.val ((.int .i32, false)) (.i 1))); let q ← makeG E t x; .ok (.qty q)) (do let t ← (typeG s true n!"units::isq::si::metre" ((.int .i32, false))); let x ← (.ok (.val ((.int .i32, false)) (.i 1))); let q ← makeG E t x; .ok (.qty q))) (do let t ← (typeG s true n!"units::isq::si::metre" ((.int .i32, true))); let x ← (.ok (.val ((.int .i32, false)) (.i 2))); let q ← makeG E t x; .ok (.qty q))),
  (230, .eq (binaryG E .add (do let t ← (typeG s true n!"units::isq::si::metre" ((.int .i32, true))); let x ← (.ok (.val ((.int .i32, false)) (.i 1))); let q ← makeG E t x; .ok (.qty q)) (do let t ← (typeG s true n!"units::isq::si::metre" ((.flt .f64, false))); let x ← (.ok (.val ((.flt .f64, false)) (.f (15 / 10)))); let q ← makeG E t x; .ok (.qty q))) (do let t ← (typeG s true n!"units::isq::si::metre" ((.flt .f64, true))); let x ← (.ok (.val ((.flt .f64, false)) (.f (25 / 10)))); let q ← makeG E t x; .ok (.qty q))),
  (231, .eq (binaryG E .add (do let t ← (typeG s true n!"units::isq::si::metre" ((.int .i32, true))); let x ← (.ok (.val ((.int .i32, false)) (.i 1))); let q ← makeG E t x; .ok (.qty q)) (do let t ← (typeG s true n!"units::isq::si::metre" ((.int .i32, true))); let x ← (.ok (.val ((.int .i32, false)) (.i 1))); let q ← makeG E t x; .ok (.qty q))) (do let t ← (typeG s true n!"units::isq::si::metre" ((.int .i32, false))); let x ← (.ok (.val ((.int .i32, false)) (.i 2))); let q ← makeG E t x; .ok (.qty q))),
  (232, .eq (binaryG E .add (do let t ← (typeG s true n!"units::isq::si::metre" ((.int .i32, true))); let x ← (.ok (.val ((.int .i32, false)) (.i 1))); let q ← makeG E t x; .ok (.qty q)) (do let t ← (typeG s true n!"units::isq::si::metre" ((.flt .f64, true))); let x ← (.ok (.val ((.flt .f64, false)) (.f (15 / 10)))); let q ← makeG E t x; .ok (.qty q))) (do let t ← (typeG s true n!"units::isq::si::metre" ((.flt .f64, false))); let x ← (.ok (.val ((.flt .f64, false)) (.f (25 / 10)))); let q ← makeG E t x; .ok (.qty q))),
  (234, .eq (binaryG E .add (do let t ← (typeG s true n!"units::isq::si::kilometre" ((.int .i32, true))); let x ← (.ok (.val ((.int .i32, false)) (.i 1))); let q ← makeG E t x; .ok (.qty q)) (do let t ← (typeG s true n!"units::isq::si::metre" ((.int .i32, true))); let x ← (.ok (.val ((.int .i32, false)) (.i 1))); let q ← makeG E t x; .ok (.qty q))) (do let t ← (typeG s true n!"units::isq::si::metre" ((.int .i32, true))); let x ← (.ok (.val ((.int .i32, false)) (.i 1001))); let q ← makeG E t x; .ok (.qty q))),
  (235, .eq (binaryG E .add (do let t ← (typeG s true n!"units::isq::si::kilometre" ((.int .i32, true))); let x ← (.ok (.val ((.int .i32, false)) (.i 1))); let q ← makeG E t x; .ok (.qty q)) (do let t ← (typeG s true n!"units::isq::si::metre" ((.flt .f64, true))); let x ← (.ok (.val ((.flt .f64, false)) (.f (15 / 10)))); let q ← makeG E t x; .ok (.qty q))) (do let t ← (typeG s true n!"units::isq::si::metre" ((.flt .f64, true))); let x ← (.ok (.val ((.flt .f64, false)) (.f (10015 / 10)))); let q ← makeG E t x; .ok (.qty q))),
  (236, .eq (binaryG E .add (do let t ← (typeG s true n!"units::isq::si::kilometre" ((.int .i32, false))); let x ← (.ok (.val ((.int .i32, false)) (.i 1))); let q ← makeG E t x; .ok (.qty q)) (do let t ← (typeG s true n!"units::isq::si::metre" ((.int .i32, true))); let x ← (.ok (.val ((.int .i32, false)) (.i 1))); let q ← makeG E t x; .ok (.qty q))) (do let t ← (typeG s true n!"units::isq::si::metre" ((.int .i32, true))); let x ← (.ok (.val ((.int .i32, false)) (.i 1001))); let q ← makeG E t x; .ok (.qty q))),
  (237, .eq (binaryG E .add (do let t ← (typeG s true n!"units::isq::si::kilometre" ((.int .i32, false))); let x ← (.ok (.val ((.int .i32, false)) (.i 1))); let q ← makeG E t x; .ok (.qty q)) (do let t ← (typeG s true n!"units::isq::si::metre" ((.flt .f64, true))); let x ← (.ok (.val ((.flt .f64, false)) (.f (15 / 10)))); let q ← makeG E t x; .ok (.qty q))) (do let t ← (typeG s true n!"units::isq::si::metre" ((.flt .f64, true))); let x ← (.ok (.val ((.flt .f64, false)) (.f (10015 / 10)))); let q ← makeG E t x; .ok (.qty q))),
  (238, .eq (binaryG E .add (do let t ← (typeG s true n!"units::isq::si::kilometre" ((.int .i32, true))); let x ← (.ok (.val ((.int .i32, false)) (.i 1))); let q ← makeG E t x; .ok (.qty q)) (do let t ← (typeG s true n!"units::isq::si::metre" ((.int .i32, false))); let x ← (.ok (.val ((.int .i32, false)) (.i 1))); let q ← makeG E t x; .ok (.qty q))) (do let t ← (typeG s true n!"units::isq::si::metre" ((.int .i32, true))); let x ← (.ok (.val ((.int .i32, false)) (.i 1001))); let q ← makeG E t x; .ok (.qty q))),
  (239, .eq (binaryG E .add (do let t ← (typeG s true n!"units::isq::si::kilometre" ((.int .i32, true))); let x ← (.ok (.val ((.int .i32, false)) (.i 1))); let q ← makeG E t x; .ok (.qty q)) (do let t ← (typeG s true n!"units::isq::si::metre" ((.flt .f64, false))); let x ← (.ok (.val ((.flt .f64, false)) (.f (15 / 10)))); let q ← makeG E t x; .ok (.qty q))) (do let t ← (typeG s true n!"units::isq::si::metre" ((.flt .f64, true))); let x ← (.ok (.val ((.flt .f64, false)) (.f (10015 / 10)))); let q ← makeG E t x; .ok (.qty q))),
  (240, .eq (binaryG E .add (do let t ← (typeG s true n!"units::isq::si::kilometre" ((.int .i32, true))); let x ← (.ok (.val ((.int .i32, false)) (.i 1))); let q ← makeG E t x; .ok (.qty q)) (do let t ← (typeG s true n!"units::isq::si::metre" ((.int .i32, true))); let x ← (.ok (.val ((.int .i32, false)) (.i 1))); let q ← makeG E t x; .ok (.qty q))) (do let t ← (typeG s true n!"units::isq::si::metre" ((.int .i32, false))); let x ← (.ok (.val ((.int .i32, false)) (.i 1001))); let q ← makeG E t x; .ok (.qty q))),
  (241, .eq (binaryG E .add (do let t ← (typeG s true n!"units::isq::si::kilometre" ((.int .i32, true))); let x ← (.ok (.val ((.int .i32, false)) (.i 1))); let q ← makeG E t x; .ok (.qty q)) (do let t ← (typeG s true n!"units::isq::si::metre" ((.flt .f64, true))); let x ← (.ok (.val ((.flt .f64, false)) (.f (15 / 10)))); let q ← makeG E t x; .ok (.qty q))) (do let t ← (typeG s true n!"units::isq::si::metre" ((.flt .f64, false))); let x ← (.ok (.val ((.flt .f64, false)) (.f (10015 / 10)))); let q ← makeG E t x; .ok (.qty q))),
  (243, .eq (binaryG E .add (do let t ← (typeG s true n!"units::isq::si::metre" ((.int .i32, true))); let x ← (.ok (.val ((.int .i32, false)) (.i 1))); let q ← makeG E t x; .ok (.qty q)) (do let t ← (typeG s true n!"units::isq::si::kilometre" ((.int .i32, true))); let x ← (.ok (.val ((.int .i32, false)) (.i 1))); let q ← makeG E t x; .ok (.qty q))) (do let t ← (typeG s true n!"units::isq::si::metre" ((.int .i32, true))); let x ← (.ok (.val ((.int .i32, false)) (.i 1001))); let q ← makeG E t x; .ok (.qty q))),
  (244, .eq (binaryG E .add (do let t ← (typeG s true n!"units::isq::si::metre" ((.int .i32, true))); let x ← (.ok (.val ((.int .i32, false)) (.i 1))); let q ← makeG E t x; .ok (.qty q)) (do let t ← (typeG s true n!"units::isq::si::kilometre" ((.flt .f64, true))); let x ← (.ok (.val ((.flt .f64, false)) (.f (15 / 10)))); let q ← makeG E t x; .ok (.qty q))) (do let t ← (typeG s true n!"units::isq::si::metre" ((.flt .f64, true))); let x ← (.ok (.val ((.int .i32, false)) (.i 1501))); let q ← makeG E t x; .ok (.qty q))),
  (245, .eq (binaryG E .add (do let t ← (typeG s true n!"units::isq::si::metre" ((.int .i32, false))); let x ← (.ok (.val ((.int .i32, false)) (.i 1))); let q ← makeG E t x; .ok (.qty q)) (do let t ← (typeG s true n!"units::isq::si::kilometre" ((.int .i32, true))); let x ← (.ok (.val ((.int .i32, false)) (.i 1))); let q ← makeG E t x; .ok (.qty q))) (do let t ← (typeG s true n!"units::isq::si::metre" ((.int .i32, true))); let x ← (.ok (.val ((.int .i32, false)) (.i 1001))); let q ← makeG E t x; .ok (.qty q))),
  (246, .eq (binaryG E .add (do let t ← (typeG s true n!"units::isq::si::metre" ((.int .i32, false))); let x ← (.ok (.val ((.int .i32, false)) (.i 1))); let q ← makeG E t x; .ok (.qty q)) (do let t ← (typeG s true n!"units::isq::si::kilometre" ((.flt .f64, true))); let x ← (.ok (.val ((.flt .f64, false)) (.f (15 / 10)))); let q ← makeG E t x; .ok (.qty q))) (do let t ← (typeG s true n!"units::isq::si::metre" ((.flt .f64, true))); let x ← (.ok (.val ((.int .i32, false)) (.i 1501))); let q ← makeG E t x; .ok (.qty q))),
  (247, .eq (binaryG E .add (do let t ← (typeG s true n!"units::isq::si::metre" ((.int .i32, true))); let x ← (.ok (.val ((.int .i32, false)) (.i 1))); let q ← makeG E t x; .ok (.qty q)) (do let t ← (typeG s true n!"units::isq::si::kilometre" ((.int .i32, false))); let x ← (.ok (.val ((.int .i32, false)) (.i 1))); let q ← makeG E t x; .ok (.qty q))) (do let t ← (typeG s true n!"units::isq::si::metre" ((.int .i32, true))); let x ← (.ok (.val ((.int .i32, false)) (.i 1001))); let q ← makeG E t x; .ok (.qty q))),
  (248, .eq (binaryG E .add (do let t ← (typeG s true n!"units::isq::si::metre" ((.int .i32, true))); let x ← (.ok (.val ((.int .i32, false)) (.i 1))); let q ← makeG E t x; .ok (.qty q)) (do let t ← (typeG s true n!"units::isq::si::kilometre" ((.flt .f64, false))); let x ← (.ok (.val ((.flt .f64, false)) (.f (15 / 10)))); let q ← makeG E t x; .ok (.qty q))) (do let t ← (typeG s true n!"units::isq::si::metre" ((.flt .f64, true))); let x ← (.ok (.val ((.int .i32, false)) (.i 1501))); let q ← makeG E t x; .ok (.qty q))),
  (249, .eq (binaryG E .add (do let t ← (typeG s true n!"units::isq::si::metre" ((.int .i32, true))); let x ← (.ok (.val ((.int .i32, false)) (.i 1))); let q ← makeG E t x; .ok (.qty q)) (do let t ← (typeG s true n!"units::isq::si::kilometre" ((.int .i32, true))); let x ← (.ok (.val ((.int .i32, false)) (.i 1))); let q ← makeG E t x; .ok (.qty q))) (do let t ← (typeG s true n!"units::isq::si::metre" ((.int .i32, false))); let x ← (.ok (.val ((.int .i32, false)) (.i 1001))); let q ← makeG E t x; .ok (.qty q))),
  (250, .eq (binaryG E .add (do let t ← (typeG s true n!"units::isq::si::metre" ((.int .i32, true))); let x ← (.ok (.val ((.int .i32, false)) (.i 1))); let q ← makeG E t x; .ok (.qty q)) (do let t ← (typeG s true n!"units::isq::si::kilometre" ((.flt .f64, true))); let x ← (.ok (.val ((.flt .f64, false)) (.f (15 / 10)))); let q ← makeG E t x; .ok (.qty q))) (do let t ← (typeG s true n!"units::isq::si::metre" ((.flt .f64, false))); let x ← (.ok (.val ((.int .i32, false)) (.i 1501))); let q ← makeG E t x; .ok (.qty q))),
  (252, .eq (binaryG E .sub (do let t ← (typeG s true n!"units::isq::si::metre" ((.int .i32, true))); let x ← (.ok (.val ((.int .i32, false)) (.i 2))); let q ← makeG E t x; .ok (.qty q)) (do let t ← (typeG s true n!"units::isq::si::metre" ((.int .i32, true))); let x ← (.ok (.val ((.int .i32, false)) (.i 1))); let q ← makeG E t x; .ok (.qty q))) (do let t ← (typeG s true n!"units::isq::si::metre" ((.int .i32, true))); let x ← (.ok (.val ((.int .i32, false)) (.i 1))); let q ← makeG E t x; .ok (.qty q))),
  (253, .eq (binaryG E .sub (do let t ← (typeG s true n!"units::isq::si::metre" ((.int .i32, true))); let x ← (.ok (.val ((.int .i32, false)) (.i 2))); let q ← makeG E t x; .ok (.qty q)) (do let t ← (typeG s true n!"units::isq::si::metre" ((.flt .f64, true))); let x ← (.ok (.val ((.flt .f64, false)) (.f (15 / 10)))); let q ← makeG E t x; .ok (.qty q))) (do let t ← (typeG s true n!"units::isq::si::metre" ((.flt .f64, true))); let x ← (.ok (.val ((.flt .f64, false)) (.f (5 / 10)))); let q ← makeG E t x; .ok (.qty q))),
  (254, .eq (binaryG E .sub (do let t ← (typeG s true n!"units::isq::si::metre" ((.int .i32, false))); let x ← (.ok (.val ((.int .i32, false)) (.i 2))); let q ← makeG E t x; .ok (.qty q)) (do let t ← (typeG s true n!"units::isq::si::metre" ((.int .i32, true))); let x ← (.ok (.val ((.int .i32, false)) (.i 1))); let q ← makeG E t x; .ok (.qty q))) (do let t ← (typeG s true n!"units::isq::si::metre" ((.int .i32, true))); let x ← (.ok (.val ((.int .i32, false)) (.i 1))); let q ← makeG E t x; .ok (.qty q))),
  (255, .eq (binaryG E .sub (do let t ← (typeG s true n!"units::isq::si::metre" ((.int .i32, false))); let x ← (.ok (.val ((.int .i32, false)) (.i 2))); let q ← makeG E t x; .ok (.qty q)) (do let t ← (typeG s true n!"units::isq::si::metre" ((.flt .f64, true))); let x ← (.ok (.val ((.flt .f64, false)) (.f (15 / 10)))); let q ← makeG E t x; .ok (.qty q))) (do let t ← (typeG s true n!"units::isq::si::metre" ((.flt .f64, true))); let x ← (.ok (.val ((.flt .f64, false)) (.f (5 / 10)))); let q ← makeG E t x; .ok (.qty q))),
  (256, .eq (binaryG E .sub (do let t ← (typeG s true n!"units::isq::si::metre" ((.int .i32, true))); let x ← (.ok (.val ((.int .i32, false)) (.i 2))); let q ← makeG E t x; .ok (.qty q)) (do let t ← (typeG s true n!"units::isq::si::metre" ((.int .i32, false))); let x ← (.ok (.val ((.int .i32, false)) (.i 1))); let q ← makeG E t x; .ok (.qty q))) (do let t ← (typeG s true n!"units::isq::si::metre" ((.int .i32, true))); let x ← (.ok (.val ((.int .i32, false)) (.i 1))); let q ← makeG E t x; .ok (.qty q))),
  (257, .eq (binaryG E .sub (do let t ← (typeG s true n!"units::isq::si::metre" ((.int .i32, true))); let x ← (.ok (.val ((.int .i32, false)) (.i 2))); let q ← makeG E t x; .ok (.qty q)) (do let t ← (typeG s true n!"units::isq::si::metre" ((.flt .f64, false))); let x ← (.ok (.val ((.flt .f64, false)) (.f (15 / 10)))); let q ← makeG E t x; .ok (.qty q))) (do let t ← (typeG s true n!"units::isq::si::metre" ((.flt .f64, true))); let x ← (.ok (.val ((.flt .f64, false)) (.f (5 / 10)))); let q ← makeG E t x; .ok (.qty q))),
  (258, .eq (binaryG E .sub (do let t ← (typeG s true n!"units::isq::si::metre" ((.int .i32, true))); let x ← (.ok (.val ((.int .i32, false)) (.i 2))); let q ← makeG E t x; .ok (.qty q)) (do let t ← (typeG s true n!"units::isq::si::metre" ((.int .i32, true))); let x ← (.ok (.val ((.int .i32, false)) (.i 1))); let q ← makeG E t x; .ok (.qty q))) (do let t ← (typeG s true n!"units::isq::si::metre" ((.int .i32, false))); let x ← (.ok (.val ((.int .i32, false)) (.i 1))); let q ← makeG E t x; .ok (.qty q))),
  (259, .eq (binaryG E .sub (do let t ← (typeG s true n!"units::isq::si::metre" ((.int .i32, true))); let x ← (.ok (.val ((.int .i32, false)) (.i 2))); let q ← makeG E t x; .ok (.qty q)) (do let t ← (typeG s true n!"units::isq::si::metre" ((.flt .f64, true))); let x ← (.ok (.val ((.flt .f64, false)) (.f (15 / 10)))); let q ← makeG E t x; .ok (.qty q))) (do let t ← (typeG s true n!"units::isq::si::metre" ((.flt .f64, false))); let x ← (.ok (.val ((.flt .f64, false)) (.f (5 / 10)))); let q ← makeG E t x; .ok (.qty q))),
  (261, .eq (binaryG E .sub (do let t ← (typeG s true n!"units::isq::si::kilometre" ((.int .i32, true))); let x ← (.ok (.val ((.int .i32, false)) (.i 2))); let q ← makeG E t x; .ok (.qty q)) (do let t ← (typeG s true n!"units::isq::si::metre" ((.int .i32, true))); let x ← (.ok (.val ((.int .i32, false)) (.i 1))); let q ← makeG E t x; .ok (.qty q))) (do let t ← (typeG s true n!"units::isq::si::metre" ((.int .i32, true))); let x ← (.ok (.val ((.int .i32, false)) (.i 1999))); let q ← makeG E t x; .ok (.qty q))),
  (262, .eq (binaryG E .sub (do let t ← (typeG s true n!"units::isq::si::kilometre" ((.int .i32, true))); let x ← (.ok (.val ((.int .i32, false)) (.i 2))); let q ← makeG E t x; .ok (.qty q)) (do let t ← (typeG s true n!"units::isq::si::metre" ((.flt .f64, true))); let x ← (.ok (.val ((.flt .f64, false)) (.f (15 / 10)))); let q ← makeG E t x; .ok (.qty q))) (do let t ← (typeG s true n!"units::isq::si::metre" ((.flt .f64, true))); let x ← (.ok (.val ((.flt .f64, false)) (.f (19985 / 10)))); let q ← makeG E t x; .ok (.qty q))),
  (263, .eq (binaryG E .sub (do let t ← (typeG s true n!"units::isq::si::kilometre" ((.int .i32, false))); let x ← (.ok (.val ((.int .i32, false)) (.i 2))); let q ← makeG E t x; .ok (.qty q)) (do let t ← (typeG s true n!"units::isq::si::metre" ((.int .i32, true))); let x ← (.ok (.val ((.int .i32, false)) (.i 1))); let q ← makeG E t x; .ok (.qty q))) (do let t ← (typeG s true n!"units::isq::si::metre" ((.int .i32, true))); let x ← (.ok (.val ((.int .i32, false)) (.i 1999))); let q ← makeG E t x; .ok (.qty q))),
  (264, .eq (binaryG E .sub (do let t ← (typeG s true n!"units::isq::si::kilometre" ((.int .i32, false))); let x ← (.ok (.val ((.int .i32, false)) (.i 2))); let q ← makeG E t x; .ok (.qty q)) (do let t ← (typeG s true n!"units::isq::si::metre" ((.flt .f64, true))); let x ← (.ok (.val ((.flt .f64, false)) (.f (15 / 10)))); let q ← makeG E t x; .ok (.qty q))) (do let t ← (typeG s true n!"units::isq::si::metre" ((.flt .f64, true))); let x ← (.ok (.val ((.flt .f64, false)) (.f (19985 / 10)))); let q ← makeG E t x; .ok (.qty q))),
  (265, .eq (binaryG E .sub (do let t ← (typeG s true n!"units::isq::si::kilometre" ((.int .i32, true))); let x ← (.ok (.val ((.int .i32, false)) (.i 2))); let q ← makeG E t x; .ok (.qty q)) (do let t ← (typeG s true n!"units::isq::si::metre" ((.int .i32, false))); let x ← (.ok (.val ((.int .i32, false)) (.i 1))); let q ← makeG E t x; .ok (.qty q))) (do let t ← (typeG s true n!"units::isq::si::metre" ((.int .i32, true))); let x ← (.ok (.val ((.int .i32, false)) (.i 1999))); let q ← makeG E t x; .ok (.qty q))),
  (266, .eq (binaryG E .sub (do let t ← (typeG s true n!"units::isq::si::kilometre" ((.int .i32, true))); let x ← (.ok (.val ((.int .i32, false)) (.i 2))); let q ← makeG E t x; .ok (.qty q)) (do let t ← (typeG s true n!"units::isq::si::metre" ((.flt .f64, false))); let x ← (.ok (.val ((.flt .f64, false)) (.f (15 / 10)))); let q ← makeG E t x; .ok (.qty q))) (do let t ← (typeG s true n!"units::isq::si::metre" ((.flt .f64, true))); let x ← (.ok (.val ((.flt .f64, false)) (.f (19985 / 10)))); let q ← makeG E t x; .ok (.qty q))),
  (267, .eq (binaryG E .sub (do let t ← (typeG s true n!"units::isq::si::kilometre" ((.int .i32, true))); let x ← (.ok (.val ((.int .i32, false)) (.i 2))); let q ← makeG E t x; .ok (.qty q)) (do let t ← (typeG s true n!"units::isq::si::metre" ((.int .i32, true))); let x ← (.ok (.val ((.int .i32, false)) (.i 1))); let q ← makeG E t x; .ok (.qty q))) (do let t ← (typeG s true n!"units::isq::si::metre" ((.int .i32, false))); let x ← (.ok (.val ((.int .i32, false)) (.i 1999))); let q ← makeG E t x; .ok (.qty q))),
  (268, .eq (binaryG E .sub (do let t ← (typeG s true n!"units::isq::si::kilometre" ((.int .i32, true))); let x ← (.ok (.val ((.int .i32, false)) (.i 2))); let q ← makeG E t x; .ok (.qty q)) (do let t ← (typeG s true n!"units::isq::si::metre" ((.flt .f64, true))); let x ← (.ok (.val ((.flt .f64, false)) (.f (15 / 10)))); let q ← makeG E t x; .ok (.qty q))) (do let t ← (typeG s true n!"units::isq::si::metre" ((.flt .f64, false))); let x ← (.ok (.val ((.flt .f64, false)) (.f (19985 / 10)))); let q ← makeG E t x; .ok (.qty q))),
  (270, .eq (binaryG E .sub (do let t ← (typeG s true n!"units::isq::si::metre" ((.int .i32, true))); let x ← (.ok (.val ((.int .i32, false)) (.i 2000))); let q ← makeG E t x; .ok (.qty q)) (do let t ← (typeG s true n!"units::isq::si::kilometre" ((.int .i32, true))); let x ← (.ok (.val ((.int .i32, false)) (.i 1))); let q ← makeG E t x; .ok (.qty q))) (do let t ← (typeG s true n!"units::isq::si::metre" ((.int .i32, true))); let x ← (.ok (.val ((.int .i32, false)) (.i 1000))); let q ← makeG E t x; .ok (.qty q))),
  (271, .eq (binaryG E .sub (do let t ← (typeG s true n!"units::isq::si::metre" ((.int .i32, true))); let x ← (.ok (.val ((.int .i32, false)) (.i 2000))); let q ← makeG E t x; .ok (.qty q)) (do let t ← (typeG s true n!"units::isq::si::kilometre" ((.flt .f64, true))); let x ← (.ok (.val ((.flt .f64, false)) (.f (15 / 10)))); let q ← makeG E t x; .ok (.qty q))) (do let t ← (typeG s true n!"units::isq::si::metre" ((.flt .f64, true))); let x ← (.ok (.val ((.int .i32, false)) (.i 500))); let q ← makeG E t x; .ok (.qty q))),
  (272, .eq (binaryG E .sub (do let t ← (typeG s true n!"units::isq::si::metre" ((.int .i32, false))); let x ← (.ok (.val ((.int .i32, false)) (.i 2000))); let q ← makeG E t x; .ok (.qty q)) (do let t ← (typeG s true n!"units::isq::si::kilometre" ((.int .i32, true))); let x ← (.ok (.val ((.int .i32, false)) (.i 1))); let q ← makeG E t x; .ok (.qty q))) (do let t ← (typeG s true n!"units::isq::si::metre" ((.int .i32, true))); let x ← (.ok (.val ((.int .i32, false)) (.i 1000))); let q ← makeG E t x; .ok (.qty q))),
  (273, .eq (binaryG E .sub (do let t ← (typeG s true n!"units::isq::si::metre" ((.int .i32, false))); let x ← (.ok (.val ((.int .i32, false)) (.i 2000))); let q ← makeG E t x; .ok (.qty q)) (do let t ← (typeG s true n!"units::isq::si::kilometre" ((.flt .f64, true))); let x ← (.ok (.val ((.flt .f64, false)) (.f (15 / 10)))); let q ← makeG E t x; .ok (.qty q))) (do let t ← (typeG s true n!"units::isq::si::metre" ((.flt .f64, true))); let x ← (.ok (.val ((.int .i32, false)) (.i 500))); let q ← makeG E t x; .ok (.qty q))),
  (274, .eq (binaryG E .sub (do let t ← (typeG s true n!"units::isq::si::metre" ((.int .i32, true))); let x ← (.ok (.val ((.int .i32, false)) (.i 2000))); let q ← makeG E t x; .ok (.qty q)) (do let t ← (typeG s true n!"units::isq::si::kilometre" ((.int .i32, false))); let x ← (.ok (.val ((.int .i32, false)) (.i 1))); let q ← makeG E t x; .ok (.qty q))) (do let t ← (typeG s true n!"units::isq::si::metre" ((.int .i32, true))); let x ← (.ok (.val ((.int .i32, false)) (.i 1000))); let q ← makeG E t x; .ok (.qty q))),
  (275, .eq (binaryG E .sub (do let t ← (typeG s true n!"units::isq::si::metre" ((.int .i32, true))); let x ← (.ok (.val ((.int .i32, false)) (.i 2000))); let q ← makeG E t x; .ok (.qty q)) (do let t ← (typeG s true n!"units::isq::si::kilometre" ((.flt .f64, false))); let x ← (.ok (.val ((.flt .f64, false)) (.f (15 / 10)))); let q ← makeG E t x; .ok (.qty q))) (do let t ← (typeG s true n!"units::isq::si::metre" ((.flt .f64, true))); let x ← (.ok (.val ((.int .i32, false)) (.i 500))); let q ← makeG E t x; .ok (.qty q))),
  (276, .eq (binaryG E .sub (do let t ← (typeG s true n!"units::isq::si::metre" ((.int .i32, true))); let x ← (.ok (.val ((.int .i32, false)) (.i 2000))); let q ← makeG E t x; .ok (.qty q)) (do let t ← (typeG s true n!"units::isq::si::kilometre" ((.int .i32, true))); let x ← (.ok (.val ((.int .i32, false)) (.i 1))); let q ← makeG E t x; .ok (.qty q))) (do let t ← (typeG s true n!"units::isq::si::metre" ((.int .i32, false))); let x ← (.ok (.val ((.int .i32, false)) (.i 1000))); let q ← makeG E t x; .ok (.qty q))),
  (277, .eq (binaryG E .sub (do let t ← (typeG s true n!"units::isq::si::metre" ((.int .i32, true))); let x ← (.ok (.val ((.int .i32, false)) (.i 2000))); let q ← makeG E t x; .ok (.qty q)) (do let t ← (typeG s true n!"units::isq::si::kilometre" ((.flt .f64, true))); let x ← (.ok (.val ((.flt .f64, false)) (.f (15 / 10)))); let q ← makeG E t x; .ok (.qty q))) (do let t ← (typeG s true n!"units::isq::si::metre" ((.flt .f64, false))); let x ← (.ok (.val ((.int .i32, false)) (.i 500))); let q ← makeG E t x; .ok (.qty q))),
  (279, .eq (binaryG E .mul (do let t ← (typeG s true n!"units::isq::si::metre" ((.int .i32, true))); let x ← (.ok (.val ((.int .i32, false)) (.i 123))); let q ← makeG E t x; .ok (.qty q)) (.ok (.val ((.flt .f64, true)) (.f (15 / 10))))) (do let t ← (typeG s true n!"units::isq::si::metre" ((.flt .f64, true))); let x ← (.ok (.val ((.flt .f64, false)) (.f (1845 / 10)))); let q ← makeG E t x; .ok (.qty q))),
  (280, .eq (binaryG E .mul (do let t ← (typeG s true n!"units::isq::si::metre" ((.int .i32, true))); let x ← (.ok (.val ((.int .i32, false)) (.i 123))); let q ← makeG E t x; .ok (.qty q)) (.ok (.val ((.flt .f64, false)) (.f (15 / 10))))) (do let t ← (typeG s true n!"units::isq::si::metre" ((.flt .f64, true))); let x ← (.ok (.val ((.flt .f64, false)) (.f (1845 / 10)))); let q ← makeG E t x; .ok (.qty q))),
  (281, .eq (binaryG E .mul (do let t ← (typeG s true n!"units::isq::si::metre" ((.int .i32, false))); let x ← (.ok (.val ((.int .i32, false)) (.i 123))); let q ← makeG E t x; .ok (.qty q)) (.ok (.val ((.flt .f64, true)) (.f (15 / 10))))) (do let t ← (typeG s true n!"units::isq::si::metre" ((.flt .f64, true))); let x ← (.ok (.val ((.flt .f64, false)) (.f (1845 / 10)))); let q ← makeG E t x; .ok (.qty q))),
  (283, .eq (binaryG E .mul (do let t ← (typeG s true n!"units::isq::si::metre" ((.int .i32, true))); let x ← (.ok (.val ((.int .i32, false)) (.i 123))); let q ← makeG E t x; .ok (.qty q)) (do let t ← typeG s false n!"units::one" ((.flt .f64, true)); let x ← (.ok (.val ((.flt .f64, true)) (.f (15 / 10)))); let q ← makeG E t x; .ok (.qty q))) (do let t ← (typeG s true n!"units::isq::si::metre" ((.flt .f64, true))); let x ← (.ok (.val ((.flt .f64, false)) (.f (1845 / 10)))); let q ← makeG E t x; .ok (.qty q))),
  (284, .eq (binaryG E .mul (do let t ← (typeG s true n!"units::isq::si::metre" ((.int .i32, true))); let x ← (.ok (.val ((.int .i32, false)) (.i 123))); let q ← makeG E t x; .ok (.qty q)) (do let t ← typeG s false n!"units::one" ((.flt .f64, false)); let x ← (.ok (.val ((.flt .f64, false)) (.f (15 / 10)))); let q ← makeG E t x; .ok (.qty q))) (do let t ← (typeG s true n!"units::isq::si::metre" ((.flt .f64, true))); let x ← (.ok (.val ((.flt .f64, false)) (.f (1845 / 10)))); let q ← makeG E t x; .ok (.qty q))),
  (285, .eq (binaryG E .mul (do let t ← (typeG s true n!"units::isq::si::metre" ((.int .i32, false))); let x ← (.ok (.val ((.int .i32, false)) (.i 123))); let q ← makeG E t x; .ok (.qty q)) (do let t ← typeG s false n!"units::one" ((.flt .f64, true)); let x ← (.ok (.val ((.flt .f64, true)) (.f (15 / 10)))); let q ← makeG E t x; .ok (.qty q))) (do let t ← (typeG s true n!"units::isq::si::metre" ((.flt .f64, true))); let x ← (.ok (.val ((.flt .f64, false)) (.f (1845 / 10)))); let q ← makeG E t x; .ok (.qty q))),
  (287, .eq (binaryG E .mul (.ok (.val ((.flt .f64, true)) (.f (15 / 10)))) (do let t ← (typeG s true n!"units::isq::si::metre" ((.int .i32, true))); let x ← (.ok (.val ((.int .i32, false)) (.i 123))); let q ← makeG E t x; .ok (.qty q))) (do let t ← (typeG s true n!"units::isq::si::metre" ((.flt .f64, true))); let x ← (.ok (.val ((.flt .f64, false)) (.f (1845 / 10)))); let q ← makeG E t x; .ok (.qty q))),
  (288, .eq (binaryG E .mul (.ok (.val ((.flt .f64, true)) (.f (15 / 10)))) (do let t ← (typeG s true n!"units::isq::si::metre" ((.int .i32, false))); let x ← (.ok (.val ((.int .i32, false)) (.i 123))); let q ← makeG E t x; .ok (.qty q))) (do let t ← (typeG s true n!"units::isq::si::metre" ((.flt .f64, true))); let x ← (.ok (.val ((.flt .f64, false)) (.f (1845 / 10)))); let q ← makeG E t x; .ok (.qty q))),
  (289, .eq (binaryG E .mul (.ok (.val ((.flt .f64, false)) (.f (15 / 10)))) (do let t ← (typeG s true n!"units::isq::si::metre" ((.int .i32, true))); let x ← (.ok (.val ((.int .i32, false)) (.i 123))); let q ← makeG E t x; .ok (.qty q))) (do let t ← (typeG s true n!"units::isq::si::metre" ((.flt .f64, true))); let x ← (.ok (.val ((.flt .f64, false)) (.f (1845 / 10)))); let q ← makeG E t x; .ok (.qty q))),
  (291, .eq (binaryG E .mul (do let t ← typeG s false n!"units::one" ((.flt .f64, true)); let x ← (.ok (.val ((.flt .f64, true)) (.f (15 / 10)))); let q ← makeG E t x; .ok (.qty q)) (do let t ← (typeG s true n!"units::isq::si::metre" ((.int .i32, true))); let x ← (.ok (.val ((.int .i32, false)) (.i 123))); let q ← makeG E t x; .ok (.qty q))) (do let t ← (typeG s true n!"units::isq::si::metre" ((.flt .f64, true))); let x ← (.ok (.val ((.flt .f64, false)) (.f (1845 / 10)))); let q ← makeG E t x; .ok (.qty q))),
  (292, .eq (binaryG E .mul (do let t ← typeG s false n!"units::one" ((.flt .f64, true)); let x ← (.ok (.val ((.flt .f64, true)) (.f (15 / 10)))); let q ← makeG E t x; .ok (.qty q)) (do let t ← (typeG s true n!"units::isq::si::metre" ((.int .i32, false))); let x ← (.ok (.val ((.int .i32, false)) (.i 123))); let q ← makeG E t x; .ok (.qty q))) (do let t ← (typeG s true n!"units::isq::si::metre" ((.flt .f64, true))); let x ← (.ok (.val ((.flt .f64, false)) (.f (1845 / 10)))); let q ← makeG E t x; .ok (.qty q))),
  (293, .eq (binaryG E .mul (do let t ← typeG s false n!"units::one" ((.flt .f64, false)); let x ← (.ok (.val ((.flt .f64, false)) (.f (15 / 10)))); let q ← makeG E t x; .ok (.qty q)) (do let t ← (typeG s true n!"units::isq::si::metre" ((.int .i32, true))); let x ← (.ok (.val ((.int .i32, false)) (.i 123))); let q ← makeG E t x; .ok (.qty q))) (do let t ← (typeG s true n!"units::isq::si::metre" ((.flt .f64, true))); let x ← (.ok (.val ((.flt .f64, false)) (.f (1845 / 10)))); let q ← makeG E t x; .ok (.qty q))),
  (295, .eq (binaryG E .div (do let t ← (typeG s true n!"units::isq::si::metre" ((.int .i32, true))); let x ← (.ok (.val ((.int .i32, false)) (.i 123))); let q ← makeG E t x; .ok (.qty q)) (.ok (.val ((.flt .f64, true)) (.f (20 / 10))))) (do let t ← (typeG s true n!"units::isq::si::metre" ((.flt .f64, true))); let x ← (.ok (.val ((.flt .f64, false)) (.f (615 / 10)))); let q ← makeG E t x; .ok (.qty q))),
  (296, .eq (binaryG E .div (do let t ← (typeG s true n!"units::isq::si::metre" ((.int .i32, true))); let x ← (.ok (.val ((.int .i32, false)) (.i 123))); let q ← makeG E t x; .ok (.qty q)) (.ok (.val ((.flt .f64, false)) (.f (20 / 10))))) (do let t ← (typeG s true n!"units::isq::si::metre" ((.flt .f64, true))); let x ← (.ok (.val ((.flt .f64, false)) (.f (615 / 10)))); let q ← makeG E t x; .ok (.qty q))),
  (297, .eq (binaryG E .div (do let t ← (typeG s true n!"units::isq::si::metre" ((.int .i32, false))); let x ← (.ok (.val ((.int .i32, false)) (.i 123))); let q ← makeG E t x; .ok (.qty q)) (.ok (.val ((.flt .f64, true)) (.f (20 / 10))))) (do let t ← (typeG s true n!"units::isq::si::metre" ((.flt .f64, true))); let x ← (.ok (.val ((.flt .f64, false)) (.f (615 / 10)))); let q ← makeG E t x; .ok (.qty q))),
  (299, .eq (binaryG E .div (do let t ← (typeG s true n!"units::isq::si::metre" ((.int .i32, true))); let x ← (.ok (.val ((.int .i32, false)) (.i 123))); let q ← makeG E t x; .ok (.qty q)) (do let t ← typeG s false n!"units::one" ((.flt .f64, true)); let x ← (.ok (.val ((.flt .f64, true)) (.f (20 / 10)))); let q ← makeG E t x; .ok (.qty q))) (do let t ← (typeG s true n!"units::isq::si::metre" ((.flt .f64, true))); let x ← (.ok (.val ((.flt .f64, false)) (.f (615 / 10)))); let q ← makeG E t x; .ok (.qty q))),
  (300, .eq (binaryG E .div (do let t ← (typeG s true n!"units::isq::si::metre" ((.int .i32, true))); let x ← (.ok (.val ((.int .i32, false)) (.i 123))); let q ← makeG E t x; .ok (.qty q)) (do let t ← typeG s false n!"units::one" ((.flt .f64, false)); let x ← (.ok (.val ((.flt .f64, false)) (.f (20 / 10)))); let q ← makeG E t x; .ok (.qty q))) (do let t ← (typeG s true n!"units::isq::si::metre" ((.flt .f64, true))); let x ← (.ok (.val ((.flt .f64, false)) (.f (615 / 10)))); let q ← makeG E t x; .ok (.qty q))),
  (301, .eq (binaryG E .div (do let t ← (typeG s true n!"units::isq::si::metre" ((.int .i32, false))); let x ← (.ok (.val ((.int .i32, false)) (.i 123))); let q ← makeG E t x; .ok (.qty q)) (do let t ← typeG s false n!"units::one" ((.flt .f64, true)); let x ← (.ok (.val ((.flt .f64, true)) (.f (20 / 10)))); let q ← makeG E t x; .ok (.qty q))) (do let t ← (typeG s true n!"units::isq::si::metre" ((.flt .f64, true))); let x ← (.ok (.val ((.flt .f64, false)) (.f (615 / 10)))); let q ← makeG E t x; .ok (.qty q))),
  (303, .eq (binaryG E .div (do let t ← (typeG s true n!"units::isq::si::metre" ((.int .i32, true))); let x ← (.ok (.val ((.int .i32, false)) (.i 123))); let q ← makeG E t x; .ok (.qty q)) (do let t ← (typeG s true n!"units::isq::si::metre" ((.flt .f64, true))); let x ← (.ok (.val ((.flt .f64, false)) (.f (20 / 10)))); let q ← makeG E t x; .ok (.qty q))) (.ok (.val ((.flt .f64, false)) (.f (615 / 10))))),
  (304, .eq (binaryG E .div (do let t ← (typeG s true n!"units::isq::si::metre" ((.int .i32, true))); let x ← (.ok (.val ((.int .i32, false)) (.i 123))); let q ← makeG E t x; .ok (.qty q)) (do let t ← (typeG s true n!"units::isq::si::metre" ((.flt .f64, false))); let x ← (.ok (.val ((.flt .f64, false)) (.f (20 / 10)))); let q ← makeG E t x; .ok (.qty q))) (.ok (.val ((.flt .f64, false)) (.f (615 / 10))))),
  (305, .eq (binaryG E .div (do let t ← (typeG s true n!"units::isq::si::metre" ((.int .i32, false))); let x ← (.ok (.val ((.int .i32, false)) (.i 123))); let q ← makeG E t x; .ok (.qty q)) (do let t ← (typeG s true n!"units::isq::si::metre" ((.flt .f64, true))); let x ← (.ok (.val ((.flt .f64, false)) (.f (20 / 10)))); let q ← makeG E t x; .ok (.qty q))) (.ok (.val ((.flt .f64, false)) (.f (615 / 10))))),
  (307, .eq (binaryG E .mod (do let t ← (typeG s true n!"units::isq::si::metre" ((.int .i32, true))); let x ← (.ok (.val ((.int .i32, false)) (.i 123))); let q ← makeG E t x; .ok (.qty q)) (.ok (.val ((.int .i32, true)) (.i 100)))) (do let t ← (typeG s true n!"units::isq::si::metre" ((.int .i32, false))); let x ← (.ok (.val ((.int .i32, false)) (.i 23))); let q ← makeG E t x; .ok (.qty q))),
  (308, .eq (binaryG E .mod (do let t ← (typeG s true n!"units::isq::si::metre" ((.int .i32, true))); let x ← (.ok (.val ((.int .i32, false)) (.i 123))); let q ← makeG E t x; .ok (.qty q)) (.ok (.val ((.int .i32, false)) (.i 100)))) (do let t ← (typeG s true n!"units::isq::si::metre" ((.int .i32, false))); let x ← (.ok (.val ((.int .i32, false)) (.i 23))); let q ← makeG E t x; .ok (.qty q))),
  (309, .eq (binaryG E .mod (do let t ← (typeG s true n!"units::isq::si::metre" ((.int .i32, false))); let x ← (.ok (.val ((.int .i32, false)) (.i 123))); let q ← makeG E t x; .ok (.qty q)) (.ok (.val ((.int .i32, true)) (.i 100)))) (do let t ← (typeG s true n!"units::isq::si::metre" ((.int .i32, false))); let x ← (.ok (.val ((.int .i32, false)) (.i 23))); let q ← makeG E t x; .ok (.qty q))),
  (311, .eq (binaryG E .mod (do let t ← (typeG s true n!"units::isq::si::metre" ((.int .i32, true))); let x ← (.ok (.val ((.int .i32, false)) (.i 123))); let q ← makeG E t x; .ok (.qty q)) (do let t ← typeG s false n!"units::one" ((.int .i32, true)); let x ← (.ok (.val ((.int .i32, true)) (.i 100))); let q ← makeG E t x; .ok (.qty q))) (do let t ← (typeG s true n!"units::isq::si::metre" ((.int .i32, false))); let x ← (.ok (.val ((.int .i32, false)) (.i 23))); let q ← makeG E t x; .ok (.qty q))),
  (312, .eq (binaryG E .mod (do let t ← (typeG s true n!"units::isq::si::metre" ((.int .i32, true))); let x ← (.ok (.val ((.int .i32, false)) (.i 123))); let q ← makeG E t x; .ok (.qty q)) (do let t ← typeG s false n!"units::one" ((.int .i32, false)); let x ← (.ok (.val ((.int .i32, false)) (.i 100))); let q ← makeG E t x; .ok (.qty q))) (do let t ← (typeG s true n!"units::isq::si::metre" ((.int .i32, false))); let x ← (.ok (.val ((.int .i32, false)) (.i 23))); let q ← makeG E t x; .ok (.qty q))),
  (313, .eq (binaryG E .mod (do let t ← (typeG s true n!"units::isq::si::metre" ((.int .i32, false))); let x ← (.ok (.val ((.int .i32, false)) (.i 123))); let q ← makeG E t x; .ok (.qty q)) (do let t ← typeG s false n!"units::one" ((.int .i32, true)); let x ← (.ok (.val ((.int .i32, true)) (.i 100))); let q ← makeG E t x; .ok (.qty q))) (do let t ← (typeG s true n!"units::isq::si::metre" ((.int .i32, false))); let x ← (.ok (.val ((.int .i32, false)) (.i 23))); let q ← makeG E t x; .ok (.qty q)))]

#guard failuresG testMinImpl = some []

/- Lines 147-159 of custom_rep_test_min_expl.cpp. -/
#guard !(minExplMode 1).representation none
#guard !(minExplMode 2).representation none
#guard !(minExplMode 3).representation none
#guard !(minExplMode 4).representation none
#guard !(minExplMode 5).representation none
#guard !(minExplMode 6).representation none
#guard !(minExplMode 7).representation none
#guard !(minExplMode 8).representation none
#guard !(minExplMode 9).representation none

end Verif.Conformance
