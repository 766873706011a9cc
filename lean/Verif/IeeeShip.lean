import Verif.IeeeHello
import Verif.IeeeArith

/-!
# The ships in IEEE floating point

`example/references/foot_pound_second.cpp` over the IEEE operators of quantities.
-/

namespace Verif

open Demos Systems

/-- `Ship`, example/references/foot_pound_second.cpp:44-56. -/
structure ShipI where
  length : QtyI
  draft : QtyI
  beam : QtyI
  speed : QtyI
  mass : QtyI
  mainGuns : QtyI
  shellMass : QtyI
  shellSpeed : QtyI
  power : QtyI

/-- `Ship{…}`, example/references/foot_pound_second.cpp:90-96: every member is initialised by a conversion. -/
def mkShipI (E : Env) (l d b s m g sm ss p : QtyI) : C ShipI := do
  let length ← convertQtyI E feetTy l
  let draft ← convertQtyI E feetTy d
  let beam ← convertQtyI E feetTy b
  let speed ← convertQtyI E fpsTy s
  let mass ← convertQtyI E poundTy m
  let mainGuns ← convertQtyI E inchTy g
  let shellMass ← convertQtyI E poundTy sm
  let shellSpeed ← convertQtyI E fpsTy ss
  let power ← convertQtyI E fpdTy p
  .ok ⟨length, draft, beam, speed, mass, mainGuns, shellMass, shellSpeed, power⟩

/-- `a * ft + b * in`, example/references/foot_pound_second.cpp:93, 96. -/
def feetInchesI (E : Env) (a b : FVal) : C QtyI := addSubI E false ⟨feetTy, .f a⟩ ⟨inchTy, .f b⟩

/-- `fmt_line<T1, T2>(a)`, example/references/foot_pound_second.cpp:59-63: the three quantities that are printed. -/
def fmtLineI (E : Env) (t1 t2 : QTy) (a : QtyI) : C (QtyI × QtyI × QtyI) := do
  let x ← quantityCastByI E (.qty t1) a
  let y ← quantityCastByI E (.qty t2) a
  .ok (a, x, y)

/-- `print_details`, example/references/foot_pound_second.cpp:66-81, for the number of the density of water: the lines in the order they are printed. -/
def printDetailsI (E : Env) (w : FVal) (ship : ShipI) : C (List (QtyI × QtyI × QtyI)) := do
  let R ← densityRef E
  let l1 ← fmtLineI E yardTy (siTy d_isq_si_dim_length u_metre) ship.length
  let l2 ← fmtLineI E yardTy (siTy d_isq_si_dim_length u_metre) ship.draft
  let l3 ← fmtLineI E yardTy (siTy d_isq_si_dim_length u_metre) ship.beam
  let l4 ← fmtLineI E ⟨d_isq_si_fps_dim_mass, u_fps_long_ton, .flt .f64⟩ (siTy d_isq_si_dim_mass u_tonne) ship.mass
  let l5 ← fmtLineI E ⟨d_isq_si_fps_dim_speed, u_fps_knot, .flt .f64⟩ (siTy d_isq_si_dim_speed u_kilometre_per_hour) ship.speed
  let l6 ← fmtLineI E ⟨d_isq_si_fps_dim_power, u_fps_horse_power, .flt .f64⟩ (siTy d_isq_si_dim_power u_kilowatt) ship.power
  let l7 ← fmtLineI E inchTy (siTy d_isq_si_dim_length u_millimetre) ship.mainGuns
  let l8 ← fmtLineI E ⟨d_isq_si_fps_dim_mass, u_fps_long_ton, .flt .f64⟩ (siTy d_isq_si_dim_mass u_kilogram) ship.shellMass
  let l9 ← fmtLineI E ⟨d_isq_si_fps_dim_speed, u_fps_mile_per_hour, .flt .f64⟩ (siTy d_isq_si_dim_speed u_kilometre_per_hour) ship.shellSpeed
  let v ← divQtyI E ship.mass ⟨⟨R.dim, R.unit, .flt .f64⟩, .f w⟩
  let l10 ← fmtLineI E (siTy d_isq_si_dim_volume d_isq_si_dim_volume.unit) (siTy d_isq_si_dim_volume u_litre) v
  .ok [l1, l2, l3, l4, l5, l6, l7, l8, l9, l10]

end Verif
