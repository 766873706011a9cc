import Verif.RepOps

/-!
# Linear algebra with quantities

`example/references/linear_algebra.cpp` (and the two other versions of it): quantities whose representation is a vector, and vectors whose elements are
quantities.  The linear algebra library is not part of the repository.  It is modelled by what the example relies on: conversions, sums,
differences, negation and products with and quotients by numbers work element by element, and the product of two vectors is the sum of the products
of their elements from the first to the last (a library that starts at zero adds one more sum).  Matrices are like vectors of all their elements in
what is done element by element.
-/

namespace Verif

/-- Element by element, for vectors of one size. -/
def zipC {α β γ : Type} (f : α → β → C γ) : List α → List β → C (List γ)
  | [], [] => .ok []
  | x :: xs, y :: ys => do
    let z ← f x y
    let zs ← zipC f xs ys
    .ok (z :: zs)
  | _, _ => .error .rejected

/-- The sum of the products of the elements, from the partial sum `acc` on. -/
def dotFrom {α β γ : Type} (mul : α → β → C γ) (add : γ → γ → C γ) : γ → List α → List β → C γ
  | acc, [], [] => .ok acc
  | acc, x :: xs, y :: ys => do
    let p ← mul x y
    let s ← add acc p
    dotFrom mul add s xs ys
  | _, _, _ => .error .rejected

/-- The product of two vectors. -/
def dotC {α β γ : Type} (mul : α → β → C γ) (add : γ → γ → C γ) : List α → List β → C γ
  | x :: xs, y :: ys => do
    let p ← mul x y
    dotFrom mul add p xs ys
  | _, _ => .error .rejected

/-- The type of a product with vectors, example/references/linear_algebra.cpp:101-102, 114-117, 241-244, 256-259. -/
def laMulTy : VTy Rep → VTy Rep → Option (VTy Rep)
  | .sc a, .sc b => some (.sc (a.arith b))
  | .vec a, .sc b => some (.vec (a.arith b))
  | .sc a, .vec b => some (.vec (a.arith b))
  | .vec a, .vec b => some (.sc (a.arith b))

/-- A product with vectors, example/references/linear_algebra.cpp:101-102, 114-117, 241-244, 256-259. -/
def laMul (fl : Rounding) : VTy Rep → VTy Rep → VVal Num → VVal Num → C (VVal Num)
  | .sc a, .sc b, .sc x, .sc y => do
    let z ← numOp fl .mul a b x y
    .ok (.sc z)
  | .vec a, .sc b, .vec xs, .sc y => do
    let zs ← xs.mapM fun x => numOp fl .mul a b x y
    .ok (.vec zs)
  | .sc a, .vec b, .sc x, .vec ys => do
    let zs ← ys.mapM fun y => numOp fl .mul a b x y
    .ok (.vec zs)
  | .vec a, .vec b, .vec xs, .vec ys => do
    let z ← dotC (numOp fl .mul a b) (numOp fl .add (a.arith b) (a.arith b)) xs ys
    .ok (.sc z)
  | _, _, _, _ => .error .rejected

/-- A sum or difference of numbers or vectors, example/references/linear_algebra.cpp:84-86, 222-224. -/
def laSum (fl : Rounding) (o : BinOp) : VTy Rep → VTy Rep → VVal Num → VVal Num → C (VVal Num)
  | .sc a, .sc b, .sc x, .sc y => do
    let z ← numOp fl o a b x y
    .ok (.sc z)
  | .vec a, .vec b, .vec xs, .vec ys => do
    let zs ← zipC (numOp fl o a b) xs ys
    .ok (.vec zs)
  | _, _, _, _ => .error .rejected

/-- The type of a sum or difference. -/
def laSumTy : VTy Rep → VTy Rep → Option (VTy Rep)
  | .sc a, .sc b => some (.sc (a.arith b))
  | .vec a, .vec b => some (.vec (a.arith b))
  | _, _ => none

/-- Numbers and vectors of numbers as representations, example/references/linear_algebra.cpp:63-70, 209-213; vectors have no order. -/
abbrev laOps (fl : Rounding) : OpSys where
  toTypeSys := { vecSys (builtin fl) .promoting with
    mulTy := laMulTy
    mul := laMul fl }
  convertible
    | .sc _, .sc _ => true
    | .vec _, .vec _ => true
    | _, _ => false
  addTy := laSumTy
  subTy := laSumTy
  modTy
    | .sc (.int a), .sc (.int b) => some (.sc ((Rep.int a).arith (.int b)))
    | _, _ => none
  negTy
    | .sc a => some (.sc a.promote)
    | .vec a => some (.vec a.promote)
  assignable
    | .mod, .sc a, .sc b => !a.floating && !b.floating
    | _, .sc _, .sc _ => true
    | .add, .vec _, .vec _ => true
    | .sub, .vec _, .vec _ => true
    | .mul, .vec _, .sc _ => true
    | .div, .vec _, .sc _ => true
    | _, _, _ => false
  eqWith
    | .sc _, .sc _ => true
    | .vec _, .vec _ => true
    | _, _ => false
  threeWay
    | .sc a, .sc b => a.threeWay b
    | _, _ => false
  add := laSum fl .add
  sub := laSum fl .sub
  mod
    | .sc a, .sc b, .sc x, .sc y => do
      let z ← numOp fl .mod a b x y
      .ok (.sc z)
    | _, _, _, _ => .error .rejected
  neg
    | .sc a, .sc x => do
      let z ← numNeg a x
      .ok (.sc z)
    | .vec a, .vec xs => do
      let zs ← xs.mapM (numNeg a)
      .ok (.vec zs)
    | _, _ => .error .rejected
  assign
    | o, .sc a, .sc b, .sc x, .sc y => do
      let z ← compound fl o a b x y
      .ok (.sc z)
    | o, .vec a, .vec b, .vec xs, .vec ys => do
      let zs ← zipC (compound fl o a b) xs ys
      .ok (.vec zs)
    | o, .vec a, .sc b, .vec xs, .sc y => do
      let zs ← xs.mapM fun x => compound fl o a b x y
      .ok (.vec zs)
    | _, _, _, _, _ => .error .rejected
  eqv
    | .sc _, .sc x, .sc y => .ok (decide (x.q = y.q))
    | .vec _, .vec xs, .vec ys => do
      let bs ← zipC (fun x y => .ok (decide (x.q = y.q))) xs ys
      .ok (bs.all id)
    | _, _, _ => .error .rejected
  cmp
    | .sc _, .sc x, .sc y => .ok (some (numCompare x y))
    | _, _, _ => .error .rejected

/-- The type of a quantity of vectors, `length_v<U, Rep>`, example/references/linear_algebra.cpp:209-213. -/
def QTy.vec (fl : Rounding) (t : QTy) : QTyG (laOps fl) := ⟨t.dim, t.unit, .vec t.rep⟩

/-- A quantity of vectors, example/references/linear_algebra.cpp:219-221. -/
def qtyOfVec (fl : Rounding) (t : QTy) (xs : List Num) : QtyG (laOps fl) := ⟨t.vec fl, .vec xs⟩

/-- A quantity of a number among them, such as `2. * m`, example/references/linear_algebra.cpp:102. -/
def qtyOfNum (fl : Rounding) (t : QTy) (x : Num) : QtyG (laOps fl) := ⟨⟨t.dim, t.unit, .sc t.rep⟩, .sc x⟩

/-- A vector of quantities of one type, `vector<si::length<U>>`, example/references/linear_algebra.cpp:76-78. -/
def vecOfQty (t : QTy) (xs : List Num) : List Qty := xs.map fun x => ⟨t, x⟩

end Verif
