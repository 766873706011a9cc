import Verif.IeeeLinear

/-!
# Quantities of vectors with IEEE numbers

The second half of example/references/linear_algebra.cpp, with vectors of `double`.  The linear algebra library is modelled as in `LinearAlgebra.lean` and matrices are given by
their rows.
-/

namespace Verif

variable (E : Env)

/-- A quantity of a vector of doubles, example/references/linear_algebra.cpp:208-212: the type, with that of the elements for the representation, and the elements of `number_`,
src/core/include/units/quantity.h:110-112. -/
structure VecQtyI where
  ty : QTy
  nums : List FVal
deriving DecidableEq

/-- The number computed by `quantity_cast` for a vector of doubles, src/core/include/units/quantity_cast.h:90-98, 122-126: the vector times the factor, which is a `double`. -/
def castVecNumI (c : Ratio) (xs : List FVal) : List FVal :=
  let factor := FVal.div .f64 (FVal.mul .f64 (FVal.ofInt .f64 c.num) (fpow10I .f64 c.exp)) (FVal.ofInt .f64 c.den)
  xs.map fun x => x.mul .f64 factor

/-- `quantity_cast` of a quantity of a vector, example/references/linear_algebra.cpp:228; src/core/include/units/quantity_cast.h:114-139. -/
def castVecQtyI (t : QTy) (q : VecQtyI) : C VecQtyI := do
  let eqv ← dimEquivalent t.dim q.ty.dim
  if eqv then do
    let c ← castRatio E.est q.ty.dim q.ty.unit t.dim t.unit
    .ok ⟨t, castVecNumI c q.nums⟩
  else .error .rejected

/-- Initialisation of a quantity of a vector from another one, src/core/include/units/quantity.h:155-156. -/
def convertVecQtyI (t : QTy) (q : VecQtyI) : C VecQtyI :=
  if q.ty = t then .ok q
  else do
    let safe ← safeCastable E q.ty t
    if safe then castVecQtyI E t q else .error .rejected

/-- `v + u` and `v - u`, example/references/linear_algebra.cpp:226-227; src/core/include/units/quantity.h:399-413. -/
def addVecQtyI (sub : Bool) (a b : VecQtyI) : C VecQtyI := do
  let t ← commonQty E a.ty b.ty (a.ty.rep.arith b.ty.rep)
  let x ← convertVecQtyI E t a
  let y ← convertVecQtyI E t b
  let z ← zipC (fun p q => .ok (if sub then p.sub .f64 q else p.add .f64 q)) x.nums y.nums
  .ok ⟨t, z⟩

/-- `v * u`, example/references/linear_algebra.cpp:241, 255; src/core/include/units/quantity.h:415-420: the representation of the product is a number. -/
def mulVecQtyI (a b : VecQtyI) : C QtyI := do
  let (d, u) ← refMultiply E a.ty.dim a.ty.unit b.ty.dim b.ty.unit
  let z ← dotC (fun x y => .ok (x.mul .f64 y)) (fun x y => .ok (x.add .f64 y)) a.nums b.nums
  .ok ⟨⟨d, u, .flt .f64⟩, .f z⟩

/-- `2. * m * v` and `2. * N * u`, a quantity of a double times a quantity of a vector, example/references/linear_algebra.cpp:242, 256; src/core/include/units/quantity.h:415-420. -/
def scaleVecQtyI (t : QTy) (x : FVal) (b : VecQtyI) : C VecQtyI := do
  let (d, u) ← refMultiply E t.dim t.unit b.ty.dim b.ty.unit
  .ok ⟨⟨d, u, .flt .f64⟩, b.nums.map fun y => x.mul .f64 y⟩

/-- `2 * u`, an integer times a quantity of a vector, example/references/linear_algebra.cpp:257; src/core/include/units/quantity.h:328-335. -/
def intVecQtyI (n : ℤ) (b : VecQtyI) : VecQtyI := ⟨b.ty, b.nums.map fun y => (FVal.ofInt .f64 n).mul .f64 y⟩

/-- The product of two vectors of doubles, example/references/linear_algebra.cpp:241, as the library computes it. -/
def dotNumI (xs ys : List FVal) : C FVal := dotC (fun x y => .ok (x.mul .f64 y)) (fun x y => .ok (x.add .f64 y)) xs ys

/-- `v * u`, a quantity of a matrix times a quantity of a vector, example/references/linear_algebra.cpp:313; src/core/include/units/quantity.h:415-420. -/
def mulMatVecQtyI (a : QTy) (rows : List (List FVal)) (b : VecQtyI) : C VecQtyI := do
  let (d, u) ← refMultiply E a.dim a.unit b.ty.dim b.ty.unit
  let z ← rows.mapM fun row => dotNumI row b.nums
  .ok ⟨⟨d, u, .flt .f64⟩, z⟩

/-- `v * u`, a quantity of a vector times a quantity of a matrix of `n` columns, example/references/linear_algebra.cpp:327; src/core/include/units/quantity.h:415-420. -/
def mulVecMatQtyI (n : ℕ) (a : VecQtyI) (b : QTy) (rows : List (List FVal)) : C VecQtyI := do
  let (d, u) ← refMultiply E a.ty.dim a.ty.unit b.dim b.unit
  let z ← (matColumns n rows).mapM fun col => dotNumI a.nums col
  .ok ⟨⟨d, u, .flt .f64⟩, z⟩

/-- A quantity of a matrix of doubles, given by its rows, example/references/linear_algebra.cpp:281-282; src/core/include/units/quantity.h:110-112. -/
structure MatQtyI where
  ty : QTy
  rows : List (List FVal)
deriving DecidableEq

/-- Initialisation of a quantity of a matrix from another one, src/core/include/units/quantity.h:155-156; src/core/include/units/quantity_cast.h:90-98, 114-139: the matrix times the factor. -/
def convertMatQtyI (t : QTy) (q : MatQtyI) : C MatQtyI :=
  if q.ty = t then .ok q
  else do
    let safe ← safeCastable E q.ty t
    if safe then do
      let eqv ← dimEquivalent t.dim q.ty.dim
      if eqv then do
        let c ← castRatio E.est q.ty.dim q.ty.unit t.dim t.unit
        .ok ⟨t, q.rows.map (castVecNumI c)⟩
      else .error .rejected
    else .error .rejected

/-- `v + u` and `v + t` of matrices, example/references/linear_algebra.cpp:296-297; src/core/include/units/quantity.h:399-413. -/
def addMatQtyI (sub : Bool) (a b : MatQtyI) : C MatQtyI := do
  let t ← commonQty E a.ty b.ty (a.ty.rep.arith b.ty.rep)
  let x ← convertMatQtyI E t a
  let y ← convertMatQtyI E t b
  let z ← zipC (zipC fun p q => .ok (if sub then p.sub .f64 q else p.add .f64 q)) x.rows y.rows
  .ok ⟨t, z⟩

/-- `2. * N * u` of a matrix, example/references/linear_algebra.cpp:328; src/core/include/units/quantity.h:415-420. -/
def scaleMatQtyI (t : QTy) (x : FVal) (b : MatQtyI) : C MatQtyI := do
  let (d, u) ← refMultiply E t.dim t.unit b.ty.dim b.ty.unit
  .ok ⟨⟨d, u, .flt .f64⟩, b.rows.map fun row => row.map fun y => x.mul .f64 y⟩

/-- `2 * u` of a matrix, example/references/linear_algebra.cpp:329; src/core/include/units/quantity.h:328-335. -/
def intMatQtyI (n : ℤ) (b : MatQtyI) : MatQtyI := ⟨b.ty, b.rows.map fun row => row.map fun y => (FVal.ofInt .f64 n).mul .f64 y⟩

end Verif
