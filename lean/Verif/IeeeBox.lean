import Verif.IeeeOps
import Verif.IeeeArith
import Verif.Programs

/-!
# The filling of a box with IEEE numbers

example/references/box_example.cpp, where all the numbers are `double` but the `1` of line 101.
-/

namespace Verif

variable (E : Env)

/-- `g`, example/references/box_example.cpp:45, src/systems/si/include/units/isq/si/constants.h:59-60. -/
def boxGI : QtyI := ⟨⟨.named siAcceleration, siAcceleration.coherent, .flt .f64⟩, .f (FVal.round .f64 false (980665 / 100000))⟩
/-- `air_density`, example/references/box_example.cpp:46. -/
def airDensityI : QtyI := ⟨boxDens, .f (FVal.round .f64 false (1225 / 1000))⟩

/-- `Box`, example/references/box_example.cpp:48-51. -/
structure BoxI where
  base : QtyI
  height : QtyI
  density : QtyI

/-- The constructor of `Box`, example/references/box_example.cpp:53; the arguments are converted to metres. -/
def mkBoxI (l w h : QtyI) : C BoxI := do
  let l' ← convertQtyI E boxLen l
  let w' ← convertQtyI E boxLen w
  let h' ← convertQtyI E boxLen h
  let a ← mulQtyI E l' w'
  let base ← convertQtyI E boxArea a
  .ok ⟨base, h', airDensityI⟩

/-- `filled_weight`, example/references/box_example.cpp:55-60. -/
def BoxI.filledWeight (b : BoxI) : C QtyI := do
  let v ← mulQtyI E b.base b.height
  let m ← mulQtyI E b.density v
  let f ← mulQtyI E m boxGI
  convertQtyI E boxForce f

/-- `fill_level`, example/references/box_example.cpp:62-65; the argument is converted to kilograms. -/
def BoxI.fillLevel (b : BoxI) (m : QtyI) : C QtyI := do
  let mass ← convertQtyI E boxMass m
  let x ← mulQtyI E b.height mass
  let y ← mulQtyI E x boxGI
  let w ← b.filledWeight E
  let z ← divQtyI E y w
  convertQtyI E boxLen z

/-- `spare_capacity`, example/references/box_example.cpp:67-70. -/
def BoxI.spareCapacity (b : BoxI) (m : QtyI) : C QtyI := do
  let l ← b.fillLevel E m
  let d ← addSubI E true b.height l
  let v ← mulQtyI E d b.base
  convertQtyI E boxVol v

/-- `set_contents_density`, example/references/box_example.cpp:72-76. -/
def BoxI.setContentsDensity (b : BoxI) (d : QtyI) : C BoxI := do
  let d' ← convertQtyI E boxDens d
  let c ← compareQtyI E d' airDensityI
  if c = some .gt then .ok { b with density := d' } else .error .assertion

/-- `q - v` with a number, src/core/include/units/quantity.h:304-310 (CTAD at 392-393): only for unit one. -/
def subNumI (q : QtyI) (r : Rep) (v : FNum) : C QtyI :=
  if q.ty.unit = unitOne then do
    let x ← convI q.ty.rep (q.ty.rep.arith r) q.num
    let y ← convI r (q.ty.rep.arith r) v
    let z ← addSubNumI (q.ty.rep.arith r) true x y
    .ok ⟨⟨.named dimOne, unitOne, q.ty.rep.arith r⟩, z⟩
  else .error .rejected

/-- What `main` prints about a box, example/references/box_example.cpp:96-101. -/
structure BoxReportI where
  level : QtyI
  percent : QtyI
  spare : QtyI
  flow : QtyI
  rise : QtyI
  left : QtyI

/-- `main`, example/references/box_example.cpp:89-101, for any box, contents, measured mass and time. -/
def boxMainI (l w h d m t : QtyI) : C BoxReportI := do
  let height ← quantityCastI E.est ⟨h.ty.dim, siMetre, h.ty.rep⟩ h
  let b0 ← mkBoxI E l w height
  let b ← b0.setContentsDensity E d
  let level ← b.fillLevel E m
  let part ← divQtyI E level height
  let percent ← quantityCastI E.est ⟨part.ty.dim, unitPercent, part.ty.rep⟩ part
  let spare ← b.spareCapacity E m
  let flow ← divQtyI E m t
  let rise ← divQtyI E level t
  let whole ← divQtyI E height level
  let more ← subNumI whole (.int .i32) (.i 1)
  let left ← mulQtyI E more t
  .ok ⟨level, percent, spare, flow, rise, left⟩

end Verif
