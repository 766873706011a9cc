import Verif.IeeeOps
import Verif.IeeeArith
import Verif.LinearAlgebra

/-!
# Vectors of quantities with IEEE numbers

The first half of example/references/linear_algebra.cpp.  The linear algebra library is modelled as in `LinearAlgebra.lean`.
-/

namespace Verif

variable (E : Env)

/-- A vector of quantities of one type, example/references/linear_algebra.cpp:76-78. -/
def vecOfQtyI (t : QTy) (xs : List FVal) : List QtyI := xs.map fun x => ⟨t, .f x⟩

/-- `v * u`, example/references/linear_algebra.cpp:99, 113. -/
def dotQtyI (xs ys : List QtyI) : C QtyI := dotC (mulQtyI E) (addSubI E false) xs ys

/-- `v + u` and `v - u`, example/references/linear_algebra.cpp:84-85. -/
def addVecI (sub : Bool) (xs ys : List QtyI) : C (List QtyI) := zipC (addSubI E sub) xs ys

/-- The conversion of a vector to one with elements of another type, example/references/linear_algebra.cpp:86. -/
def convVecI (t : QTy) (xs : List QtyI) : C (List QtyI) := xs.mapM (convertQtyI E t)

/-- `2. * m * v`, a quantity times a vector of quantities, example/references/linear_algebra.cpp:100, 114. -/
def scaleVecI (q : QtyI) (xs : List QtyI) : C (List QtyI) := xs.mapM (mulQtyI E q)

/-- `2 * u`, a number times a vector of quantities, example/references/linear_algebra.cpp:115. -/
def numVecI (r : Rep) (v : FNum) (xs : List QtyI) : C (List QtyI) := xs.mapM (scaleQtyLeftI r v)

/-- A matrix, given by its rows, times a vector, example/references/linear_algebra.cpp:168. -/
def matVecI (m : List (List QtyI)) (v : List QtyI) : C (List QtyI) := m.mapM fun row => dotQtyI E row v

/-- The columns of a matrix of `n` columns, given by its rows, example/references/linear_algebra.cpp:177 (what the product needs of the matrix). -/
def matColumns {α : Type} (n : ℕ) (m : List (List α)) : List (List α) := (List.range n).map fun j => m.filterMap (·[j]?)

/-- A vector times a matrix of `n` columns, example/references/linear_algebra.cpp:182. -/
def vecMatI (n : ℕ) (v : List QtyI) (m : List (List QtyI)) : C (List QtyI) := (matColumns n m).mapM fun col => dotQtyI E v col

end Verif
