import Verif.IeeeMath
import Verif.IeeeArith
import Verif.Programs

/-!
# The total energy of a particle with IEEE numbers

example/references/total_energy.cpp, where all the numbers are `double`.
-/

namespace Verif

variable (E : Env) (L : LibmI)

/-- `pow<2>(q)`, src/core/include/units/math.h:50-63. -/
def squareI (q : QtyI) : C QtyI := do
  let r ← powQtyI E L 2 1 q
  match r with
  | .inr q => .ok q
  | .inl _ => .error .rejected

/-- `total_energy`, example/references/total_energy.cpp:38-41. -/
def totalEnergyI (p m c : QtyI) : C QtyI := do
  let pc ← mulQtyI E p c
  let a ← squareI E L pc
  let cc ← squareI E L c
  let mc ← mulQtyI E m cc
  let b ← squareI E L mc
  let s ← addSubI E false a b
  sqrtQtyI E s

/-- `si_example`, example/references/total_energy.cpp:43-72: the energy, the energy from the values in SI units, and that in gigaelectronvolts. -/
def siExampleI (c ep em : QtyI) : C (QtyI × QtyI × QtyI) := do
  let p ← divQtyI E ep c
  let cc ← squareI E L c
  let m ← divQtyI E em cc
  let e ← totalEnergyI E L p m c
  let p' ← convertQtyI E momentumTy p
  let m' ← convertQtyI E boxMass m
  let e' ← totalEnergyI E L p' m' c
  let e'' ← convertQtyI E jouleTy e'
  let g ← quantityCastI E.est ⟨e''.ty.dim, siGeV, e''.ty.rep⟩ e''
  .ok (e, e'', g)

/-- `natural_example`, example/references/total_energy.cpp:74-88: `speed_of_light<>` is the number one. -/
def naturalExampleI (p m : FVal) : C QtyI :=
  totalEnergyI E L ⟨⟨.named natMomentum, natGeV, .flt .f64⟩, .f p⟩ ⟨⟨.base natMass, natGeV, .flt .f64⟩, .f m⟩
    ⟨⟨.named natSpeed, unitOne, .flt .f64⟩, .f (.fin false 1)⟩

end Verif
