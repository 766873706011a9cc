import Verif.Measurement
import Verif.Programs

/-!
# The program of the measurements

example/measurement.cpp:127-143, over quantities of `measurement<double>`.
-/

namespace Verif

/-- A quantity of measurements of the given dimension and unit, example/measurement.cpp:131-132, 141. -/
def measTy (A : Arith FVal) (d : Dim) (u : MUnit) : QTyG (measOps A) := ⟨d, u, none⟩

/-- The three quantities computed by `example`: `a * t`, the same in kilometres per hour, and `10 * length`, example/measurement.cpp:134, 138, 142. -/
def measMain (E : Env) (A : Arith FVal) (a t l : QtyG (measOps A)) : C (QtyG (measOps A) × QtyG (measOps A) × QtyG (measOps A)) := do
  let v ← mulG E a t
  let w ← quantityCastG E ⟨v.ty.dim, siKmh, v.ty.rep⟩ v
  let m ← scaleLeftG (some (.int .i32), MVal.num (.i 10)) l
  .ok (v, w, m)

end Verif
