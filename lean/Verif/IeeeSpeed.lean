import Verif.IeeeOps
import Verif.IeeeArith
import Verif.Programs

/-!
# Average speed and conversion factors with IEEE numbers

The parts of example/references/avg_speed.cpp (and example/literals/avg_speed.cpp) with `double`, and example/conversion_factor.cpp.
-/

namespace Verif

variable (E : Env)

/-- `fixed_double_si_avg_speed`, example/references/avg_speed.cpp:45-50. -/
def fixedDoubleI (d t : QtyI) : C QtyI := do
  let d' ← convertQtyI E boxLen d
  let t' ← convertQtyI E durationTy t
  let v ← divQtyI E d' t'
  convertQtyI E lightTy v

/-- `si_avg_speed`, example/references/avg_speed.cpp:52-57: deduced only for quantities of the dimensions of the SI. -/
def siAvgI (d t : QtyI) : C QtyI :=
  if d.ty.dim = .base siLength ∧ t.ty.dim = .base siTime then divQtyI E d t else .error .rejected

/-- `avg_speed`, example/references/avg_speed.cpp:59-62. -/
def avgSpeedI (d t : QtyI) : C QtyI := divQtyI E d t

/-- The speed printed, example/references/avg_speed.cpp:64-70. -/
def printedSpeedI (v : QtyI) : C QtyI := quantityCastI E.est ⟨.named siSpeed, siKmh, .flt .f64⟩ v

/-- `conversion_factor`, example/conversion_factor.cpp:30-39: the constructor of the source is given the `int` one; `target{…}` converts. -/
def conversionFactorI (target source : QTy) : C FNum := do
  let e ← dimEquivalent source.dim target.dim
  if e then do
    let rep := target.rep.common source.rep
    let s ← convI (.int .i32) rep (.i 1)
    let t ← convertQtyI E ⟨target.dim, target.unit, rep⟩ ⟨⟨source.dim, source.unit, rep⟩, s⟩
    .ok t.num
  else .error .rejected

end Verif
