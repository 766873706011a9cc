import Verif.Glide
import Verif.ConstexprMath

/-!
# The small example programs

example/literals/{box_example,total_energy,capacitor_time_curve,avg_speed}.cpp and example/conversion_factor.cpp as programs over the operators of
quantities.  (example/aliases and example/references have the same functions with other spellings of the constants.)  Not modelled: printing, except for the
choice of the unit that is printed.
-/

namespace Verif

/-! ### Types -/

/-- `unit<U>` or `named_unit<U, …>`: the coherent unit of a dimension with ratio one, src/core/include/units/unit.h:76-80, 94-99.  (Whether it has a name of
its own and a family of prefixes matters only for declaring further units.) -/
def plainUnit (n s : String) : MUnit := ⟨.named n, Ratio.one, n, [], true, s, none⟩

/-- A unit with a ratio to a reference, `named_scaled_unit` and `prefixed_unit`, src/core/include/units/unit.h:115-121, 134-140. -/
def ratioUnit (n s : String) (r : Ratio) (ref : String) : MUnit := ⟨.named n, r, ref, [], true, s, none⟩

/-- `isq::si::millimetre`, src/systems/si/include/units/isq/si/length.h:45. -/
def siMillimetre : MUnit := ratioUnit "units::isq::si::millimetre" "mm" ⟨1, 1, -3⟩ "units::isq::si::metre"
/-- `isq::si::centimetre`, src/systems/si/include/units/isq/si/length.h:46. -/
def siCentimetre : MUnit := ratioUnit "units::isq::si::centimetre" "cm" ⟨1, 1, -2⟩ "units::isq::si::metre"
/-- `isq::si::international::mile`, src/systems/si-international/include/units/isq/si/international/length.h:55: 25146/15625 of a kilometre. -/
def siMile : MUnit := ratioUnit "units::isq::si::international::mile" "mi" ⟨25146, 15625, 3⟩ "units::isq::si::metre"
/-- `isq::si::international::mile_per_hour`, src/systems/si-international/include/units/isq/si/international/speed.h:37; the ratio is that of
`derived_unit`, 1397/3125 of a metre per second. -/
def siMph : MUnit := ⟨.named "units::isq::si::international::mile_per_hour", ⟨1397, 3125, 0⟩, "units::isq::si::metre_per_second", [], false, "mi/h", none⟩
/-- `isq::si::millisecond`, src/systems/si/include/units/isq/si/time.h:45. -/
def siMillisecond : MUnit := ratioUnit "units::isq::si::millisecond" "ms" ⟨1, 1, -3⟩ "units::isq::si::second"
/-- `isq::si::kilogram`, src/systems/si/include/units/isq/si/mass.h:50. -/
def siKilogram : MUnit := ratioUnit "units::isq::si::kilogram" "kg" ⟨1, 1, 3⟩ "units::isq::si::gram"
/-- `isq::si::dim_mass`, src/systems/si/include/units/isq/si/mass.h:83. -/
def siMass : BaseDim := ⟨"units::isq::si::dim_mass", "M", siKilogram⟩
/-- `isq::si::ampere`, src/systems/si/include/units/isq/si/electric_current.h:37. -/
def siAmpere : MUnit := plainUnit "units::isq::si::ampere" "A"
/-- `isq::si::dim_electric_current`, src/systems/si/include/units/isq/si/electric_current.h:59. -/
def siCurrent : BaseDim := ⟨"units::isq::si::dim_electric_current", "I", siAmpere⟩
/-- `isq::si::cgs::dim_length`, src/systems/si-cgs/include/units/isq/si/cgs/length.h:39. -/
def cgsLength : BaseDim := ⟨"units::isq::si::cgs::dim_length", "L", siCentimetre⟩

/-- `isq::si::dim_area` and `square_metre`, src/systems/si/include/units/isq/si/area.h:37-38. -/
def siArea : NamedDim := ⟨"units::isq::si::dim_area", [⟨siLength, 2, 1⟩], plainUnit "units::isq::si::square_metre" "m²"⟩
/-- `isq::si::dim_volume` and `cubic_metre`, src/systems/si/include/units/isq/si/volume.h:37-38. -/
def siVolume : NamedDim := ⟨"units::isq::si::dim_volume", [⟨siLength, 3, 1⟩], plainUnit "units::isq::si::cubic_metre" "m³"⟩
/-- `isq::si::dim_density` and `kilogram_per_metre_cub`, src/systems/si/include/units/isq/si/density.h:38-40. -/
def siDensity : NamedDim :=
  ⟨"units::isq::si::dim_density", [⟨siLength, -3, 1⟩, ⟨siMass, 1, 1⟩], plainUnit "units::isq::si::kilogram_per_metre_cub" "kg/m³"⟩
/-- `isq::si::dim_acceleration` and `metre_per_second_sq`, src/systems/si/include/units/isq/si/acceleration.h:36-37. -/
def siAcceleration : NamedDim :=
  ⟨"units::isq::si::dim_acceleration", [⟨siLength, 1, 1⟩, ⟨siTime, -2, 1⟩], plainUnit "units::isq::si::metre_per_second_sq" "m/s²"⟩
/-- `isq::si::dim_force` and `newton`, src/systems/si/include/units/isq/si/force.h:39, 61. -/
def siForce : NamedDim :=
  ⟨"units::isq::si::dim_force", [⟨siLength, 1, 1⟩, ⟨siMass, 1, 1⟩, ⟨siTime, -2, 1⟩], plainUnit "units::isq::si::newton" "N"⟩
/-- `isq::si::dim_energy` and `joule`, src/systems/si/include/units/isq/si/energy.h:38, 59. -/
def siEnergy : NamedDim :=
  ⟨"units::isq::si::dim_energy", [⟨siLength, 2, 1⟩, ⟨siMass, 1, 1⟩, ⟨siTime, -2, 1⟩], plainUnit "units::isq::si::joule" "J"⟩
/-- `isq::si::gigaelectronvolt`, src/systems/si/include/units/isq/si/energy.h:56-57: 1.602176634e-10 joule. -/
def siGeV : MUnit := ratioUnit "units::isq::si::gigaelectronvolt" "GeV" ⟨801088317, 5, -18⟩ "units::isq::si::joule"
/-- `isq::si::dim_momentum` and `kilogram_metre_per_second`, src/systems/si/include/units/isq/si/momentum.h:37-38. -/
def siMomentum : NamedDim :=
  ⟨"units::isq::si::dim_momentum", [⟨siLength, 1, 1⟩, ⟨siMass, 1, 1⟩, ⟨siTime, -1, 1⟩], plainUnit "units::isq::si::kilogram_metre_per_second" "kg⋅m/s"⟩
/-- `isq::si::dim_voltage` and `volt`, src/systems/si/include/units/isq/si/voltage.h:39, 61. -/
def siVoltage : NamedDim :=
  ⟨"units::isq::si::dim_voltage", [⟨siCurrent, -1, 1⟩, ⟨siLength, 2, 1⟩, ⟨siMass, 1, 1⟩, ⟨siTime, -3, 1⟩], plainUnit "units::isq::si::volt" "V"⟩
/-- `isq::si::picovolt` to `isq::si::millivolt`, src/systems/si/include/units/isq/si/voltage.h:44-47, by their power of ten. -/
def siVolts (n s : String) (e : Int) : MUnit := ratioUnit n s ⟨1, 1, e⟩ "units::isq::si::volt"
/-- `isq::si::picovolt`, src/systems/si/include/units/isq/si/voltage.h:44. -/
def siPicovolt : MUnit := siVolts "units::isq::si::picovolt" "pV" (-12)
/-- `isq::si::nanovolt`, src/systems/si/include/units/isq/si/voltage.h:45. -/
def siNanovolt : MUnit := siVolts "units::isq::si::nanovolt" "nV" (-9)
/-- `isq::si::microvolt`, src/systems/si/include/units/isq/si/voltage.h:46. -/
def siMicrovolt : MUnit := siVolts "units::isq::si::microvolt" "µV" (-6)
/-- `isq::si::millivolt`, src/systems/si/include/units/isq/si/voltage.h:47. -/
def siMillivolt : MUnit := siVolts "units::isq::si::millivolt" "mV" (-3)
/-- `isq::si::dim_capacitance` and `farad`, src/systems/si/include/units/isq/si/capacitance.h:39, 61. -/
def siCapacitance : NamedDim :=
  ⟨"units::isq::si::dim_capacitance", [⟨siCurrent, 2, 1⟩, ⟨siLength, -2, 1⟩, ⟨siMass, -1, 1⟩, ⟨siTime, 4, 1⟩], plainUnit "units::isq::si::farad" "F"⟩
/-- `isq::si::microfarad`, src/systems/si/include/units/isq/si/capacitance.h:46. -/
def siMicrofarad : MUnit := ratioUnit "units::isq::si::microfarad" "µF" ⟨1, 1, -6⟩ "units::isq::si::farad"
/-- `isq::si::dim_resistance` and `ohm`, src/systems/si/include/units/isq/si/resistance.h:39, 57. -/
def siResistance : NamedDim :=
  ⟨"units::isq::si::dim_resistance", [⟨siCurrent, -2, 1⟩, ⟨siLength, 2, 1⟩, ⟨siMass, 1, 1⟩, ⟨siTime, -3, 1⟩], plainUnit "units::isq::si::ohm" "Ω"⟩
/-- `isq::si::kiloohm`, src/systems/si/include/units/isq/si/resistance.h:48. -/
def siKiloohm : MUnit := ratioUnit "units::isq::si::kiloohm" "kΩ" ⟨1, 1, 3⟩ "units::isq::si::ohm"
/-- `isq::si::cgs::dim_speed` and `centimetre_per_second`, src/systems/si-cgs/include/units/isq/si/cgs/speed.h:37-38. -/
def cgsSpeed : NamedDim :=
  ⟨"units::isq::si::cgs::dim_speed", [⟨cgsLength, 1, 1⟩, ⟨siTime, -1, 1⟩], plainUnit "units::isq::si::cgs::centimetre_per_second" "cm/s"⟩
/-- `percent`, src/core/include/units/generic/dimensionless.h:38. -/
def unitPercent : MUnit := ratioUnit "units::percent" "%" ⟨1, 1, -2⟩ "units::one"

/-- `isq::natural::gigaelectronvolt`, src/systems/isq-natural/include/units/isq/natural/units.h:34-35. -/
def natGeV : MUnit := ratioUnit "units::isq::natural::gigaelectronvolt" "GeV" ⟨1, 1, 9⟩ "units::isq::natural::electronvolt"
/-- `isq::natural::inverted_gigaelectronvolt`, src/systems/isq-natural/include/units/isq/natural/units.h:36. -/
def natInv : MUnit := plainUnit "units::isq::natural::inverted_gigaelectronvolt" "GeV⁻¹"
/-- `isq::natural::dim_length`, src/systems/isq-natural/include/units/isq/natural/length.h:35. -/
def natLength : BaseDim := ⟨"units::isq::natural::dim_length", "L", natInv⟩
/-- `isq::natural::dim_time`, src/systems/isq-natural/include/units/isq/natural/time.h:35. -/
def natTime : BaseDim := ⟨"units::isq::natural::dim_time", "T", natInv⟩
/-- `isq::natural::dim_mass`, src/systems/isq-natural/include/units/isq/natural/mass.h:35. -/
def natMass : BaseDim := ⟨"units::isq::natural::dim_mass", "M", natGeV⟩
/-- `isq::natural::dim_speed`, src/systems/isq-natural/include/units/isq/natural/speed.h:39. -/
def natSpeed : NamedDim := ⟨"units::isq::natural::dim_speed", [⟨natLength, 1, 1⟩, ⟨natTime, -1, 1⟩], unitOne⟩
/-- `isq::natural::dim_momentum`, src/systems/isq-natural/include/units/isq/natural/momentum.h:38. -/
def natMomentum : NamedDim := ⟨"units::isq::natural::dim_momentum", [⟨natLength, 1, 1⟩, ⟨natMass, 1, 1⟩, ⟨natTime, -1, 1⟩], natGeV⟩
/-- `isq::natural::dim_energy`, src/systems/isq-natural/include/units/isq/natural/energy.h:38. -/
def natEnergy : NamedDim := ⟨"units::isq::natural::dim_energy", [⟨natLength, 2, 1⟩, ⟨natMass, 1, 1⟩, ⟨natTime, -2, 1⟩], natGeV⟩

/-- The dimensions with a name that the programs come across, of those declared in the headers they include (example/literals/box_example.cpp:23-34,
total_energy.cpp:23-29, capacitor_time_curve.cpp:23-28, avg_speed.cpp:22-28). -/
def progDims : DimReg := fun es =>
  [dimOne, siSpeed, siArea, siVolume, siDensity, siAcceleration, siForce, siEnergy, siMomentum, siVoltage, siCapacitance, siResistance, cgsSpeed,
    natSpeed, natMomentum, natEnergy].find? fun n => n.exps = es

/-- The units with a name that the programs come across, of those declared in the same headers. -/
def progUnits : UnitReg := fun r ref =>
  [siMetre, siKilometre, siMillimetre, siCentimetre, siMile, siSecond, siMillisecond, siMin, siHr, siMps, siKmh, siMph, siKilogram, siAmpere, siArea.coherent,
    siVolume.coherent, siDensity.coherent, siAcceleration.coherent, siForce.coherent, siEnergy.coherent, siGeV, siMomentum.coherent, siVoltage.coherent,
    siPicovolt, siNanovolt, siMicrovolt, siMillivolt, siCapacitance.coherent, siMicrofarad, siResistance.coherent, siKiloohm, cgsSpeed.coherent, unitOne,
    unitPercent, natGeV, natInv].find? fun u => u.ratio = r ∧ u.ref = ref

/-- The programs with exact floating point arithmetic (a simplification); stands for the headers included by example/literals/box_example.cpp:23-37 and the others.
The roots of ratios are those found at compile time. -/
def progEnv : Env := ⟨compileEst rnd53, progDims, progUnits, fun _ x => x⟩

/-! ### The box -/

/-- `si::length<m>`, example/literals/box_example.cpp:43, 56. -/
def boxLen : QTy := ⟨.base siLength, siMetre, .flt .f64⟩
/-- `si::area<m2>`, example/literals/box_example.cpp:44, 55. -/
def boxArea : QTy := ⟨.named siArea, siArea.coherent, .flt .f64⟩
/-- `si::volume<m3>`, example/literals/box_example.cpp:45, 63. -/
def boxVol : QTy := ⟨.named siVolume, siVolume.coherent, .flt .f64⟩
/-- `si::mass<kg>`, example/literals/box_example.cpp:46, 64. -/
def boxMass : QTy := ⟨.base siMass, siKilogram, .flt .f64⟩
/-- `si::force<N>`, example/literals/box_example.cpp:47, 61. -/
def boxForce : QTy := ⟨.named siForce, siForce.coherent, .flt .f64⟩
/-- `si::density<kgpm3>`, example/literals/box_example.cpp:48, 57. -/
def boxDens : QTy := ⟨.named siDensity, siDensity.coherent, .flt .f64⟩

/-- `g`, example/literals/box_example.cpp:50, src/systems/si/include/units/isq/si/constants.h:59-60. -/
def boxG : Qty := ⟨⟨.named siAcceleration, siAcceleration.coherent, .flt .f64⟩, .f (980665 / 100000)⟩
/-- `air_density`, example/literals/box_example.cpp:51. -/
def airDensity : Qty := ⟨boxDens, .f (1225 / 1000)⟩

/-- `Box`, example/literals/box_example.cpp:54-57. -/
structure Box where
  base : Qty
  height : Qty
  density : Qty
  deriving DecidableEq

variable (E : Env)

/-- The constructor of `Box`, example/literals/box_example.cpp:59; the arguments are converted to metres. -/
def mkBox (l w h : Qty) : C Box := do
  let l' ← convertQty E boxLen l
  let w' ← convertQty E boxLen w
  let h' ← convertQty E boxLen h
  let a ← mulQty E l' w'
  let base ← convertQty E boxArea a
  .ok ⟨base, h', airDensity⟩

/-- `filled_weight`, example/literals/box_example.cpp:61-66. -/
def Box.filledWeight (b : Box) : C Qty := do
  let v ← mulQty E b.base b.height
  let volume ← convertQty E boxVol v
  let m ← mulQty E b.density volume
  let mass ← convertQty E boxMass m
  let f ← mulQty E mass boxG
  convertQty E boxForce f

/-- `fill_level`, example/literals/box_example.cpp:68-71; the argument is converted to kilograms. -/
def Box.fillLevel (b : Box) (m : Qty) : C Qty := do
  let mass ← convertQty E boxMass m
  let x ← mulQty E b.height mass
  let y ← mulQty E x boxG
  let w ← b.filledWeight E
  let z ← divQty E y w
  convertQty E boxLen z

/-- `spare_capacity`, example/literals/box_example.cpp:73-76. -/
def Box.spareCapacity (b : Box) (m : Qty) : C Qty := do
  let l ← b.fillLevel E m
  let d ← addSub E .sub b.height l
  let v ← mulQty E d b.base
  convertQty E boxVol v

/-- `set_contents_density`, example/literals/box_example.cpp:78-82. -/
def Box.setContentsDensity (b : Box) (d : Qty) : C Box := do
  let d' ← convertQty E boxDens d
  let c ← compareQty E d' airDensity
  if c = .gt then .ok { b with density := d' } else .error .assertion

/-- What `main` prints about a box, example/literals/box_example.cpp:100-105. -/
structure BoxReport where
  level : Qty
  percent : Qty
  spare : Qty
  flow : Qty
  rise : Qty
  left : Qty

/-- example/literals/box_example.cpp:93-105, for any box, measured mass and time. -/
def boxMain (l w h d m t : Qty) : C BoxReport := do
  let height ← convertQty E boxLen h
  let b0 ← mkBox E l w height
  let b ← b0.setContentsDensity E d
  let level ← b.fillLevel E m
  let part ← divQty E level height
  let percent ← quantityCast E ⟨part.ty.dim, unitPercent, part.ty.rep⟩ part
  let spare ← b.spareCapacity E m
  let flow ← divQty E m t
  let rise ← divQty E level t
  let whole ← divQty E height level
  let more ← addSubNum E .sub whole (.int .i32) (.i 1)
  let left ← mulQty E more t
  .ok ⟨level, percent, spare, flow, rise, left⟩

/-! ### Total energy -/

/-- `pow<2>(q)`, src/core/include/units/math.h:50-63. -/
def square (L : Libm) (q : Qty) : C Qty := do
  let r ← powQty E L 2 1 q
  match r with
  | .inr q => .ok q
  | .inl _ => .error .rejected

/-- `total_energy`, example/literals/total_energy.cpp:38-41. -/
def totalEnergy (L : Libm) (p m c : Qty) : C Qty := do
  let pc ← mulQty E p c
  let a ← square E L pc
  let cc ← square E L c
  let mc ← mulQty E m cc
  let b ← square E L mc
  let s ← addSub E .add a b
  sqrtQty E L s

/-- `si2019::speed_of_light<>`, src/systems/si/include/units/isq/si/constants.h:50-51, with any number. -/
def lightTy : QTy := ⟨.named siSpeed, siMps, .flt .f64⟩
/-- A literal in gigaelectronvolts, example/literals/total_energy.cpp:51-52 (`long double`). -/
def gevTy : QTy := ⟨.named siEnergy, siGeV, .flt .f80⟩
/-- `energy<joule>`, example/literals/total_energy.cpp:62. -/
def jouleTy : QTy := ⟨.named siEnergy, siEnergy.coherent, .flt .f64⟩
/-- `momentum<kilogram_metre_per_second>`, example/literals/total_energy.cpp:60. -/
def momentumTy : QTy := ⟨.named siMomentum, siMomentum.coherent, .flt .f64⟩

/-- What `si_example` prints: the energy, the energy from the values in SI units, and that in gigaelectronvolts; example/literals/total_energy.cpp:43-71. -/
def siExample (L : Libm) (c ep em : Qty) : C (Qty × Qty × Qty) := do
  let p ← divQty E ep c
  let cc ← square E L c
  let m ← divQty E em cc
  let e ← totalEnergy E L p m c
  let p' ← convertQty E momentumTy p
  let m' ← convertQty E boxMass m
  let e' ← totalEnergy E L p' m' c
  let e'' ← convertQty E jouleTy e'
  let g ← quantityCast E ⟨e''.ty.dim, siGeV, e''.ty.rep⟩ e''
  .ok (e, e'', g)

/-- `natural_example`, example/literals/total_energy.cpp:73-89: `speed_of_light<>` is the number one. -/
def naturalExample (L : Libm) (p m : ℚ) : C Qty :=
  totalEnergy E L ⟨⟨.named natMomentum, natGeV, .flt .f64⟩, .f p⟩ ⟨⟨.base natMass, natGeV, .flt .f64⟩, .f m⟩ ⟨⟨.named natSpeed, unitOne, .flt .f64⟩, .f 1⟩

/-! ### The capacitor -/

/-- The voltage after a time, example/literals/capacitor_time_curve.cpp:47. -/
def capVoltage (L : Libm) (v0 r c t : Qty) : C Qty := do
  let t' ← negQty t
  let rc ← mulQty E r c
  let x ← divQty E t' rc
  let e ← expQty E L x
  mulQty E v0 e

/-- A literal of an integral voltage, src/systems/si/include/units/isq/si/voltage.h:71, 103. -/
def voltLit (u : MUnit) : Qty := ⟨⟨.named siVoltage, u, .int .i64⟩, .i 1⟩

/-- The units tried in turn, example/literals/capacitor_time_curve.cpp:51-58. -/
def capRanges : List MUnit := [siVoltage.coherent, siMillivolt, siMicrovolt, siNanovolt]

/-- The quantity printed, example/literals/capacitor_time_curve.cpp:51-60. -/
def capPrinted : List MUnit → Qty → C Qty
  | [], v => quantityCast E ⟨v.ty.dim, siPicovolt, v.ty.rep⟩ v
  | u :: us, v => do
    let c ← compareQty E v (voltLit u)
    if c = .lt then capPrinted us v
    else if u = siVoltage.coherent then .ok v else quantityCast E ⟨v.ty.dim, u, v.ty.rep⟩ v

/-- The loop, example/literals/capacitor_time_curve.cpp:46-62: the times with the quantities printed; `none` when the given number of rounds is not enough. -/
def capLoop (L : Libm) (v0 r c last : Qty) : Nat → Qty → C (Option (List (Qty × Qty)))
  | 0, _ => .ok none
  | k + 1, t => do
    let o ← compareQty E t last
    if o = .gt then .ok (some [])
    else do
      let v ← capVoltage E L v0 r c t
      let q ← capPrinted E capRanges v
      let t' ← incDec E .add t
      let rest ← capLoop L v0 r c last k t'
      match rest with
      | none => .ok none
      | some l => .ok (some ((t, q) :: l))

/-- `si::time<millisecond, std::int64_t>`, src/systems/si/include/units/isq/si/time.h:88. -/
def msTy : QTy := ⟨.base siTime, siMillisecond, .int .i64⟩
/-- The types of the constants, example/literals/capacitor_time_curve.cpp:42-44 (`long double`). -/
def capV (x : ℚ) : Qty := ⟨⟨.named siVoltage, siVoltage.coherent, .flt .f80⟩, .f x⟩
/-- `R`, example/literals/capacitor_time_curve.cpp:44. -/
def capR (x : ℚ) : Qty := ⟨⟨.named siResistance, siKiloohm, .flt .f80⟩, .f x⟩
/-- `C`, example/literals/capacitor_time_curve.cpp:42. -/
def capC (x : ℚ) : Qty := ⟨⟨.named siCapacitance, siMicrofarad, .flt .f80⟩, .f x⟩

/-- `main`, example/literals/capacitor_time_curve.cpp:42-62, for any voltage, resistance, capacitance and end of the loop. -/
def capMain (L : Libm) (v0 r c : ℚ) (last : Int) (rounds : Nat) : C (Option (List (Qty × Qty))) :=
  capLoop E L (capV v0) (capR r) (capC c) ⟨msTy, .i last⟩ rounds ⟨msTy, .i 0⟩

/-! ### Average speed -/

/-- `fixed_int_si_avg_speed`, example/literals/avg_speed.cpp:38-43. -/
def fixedInt (d t : Qty) : C Qty := do
  let d' ← convertQty E ⟨.base siLength, siMetre, .int .i32⟩ d
  let t' ← convertQty E ⟨.base siTime, siSecond, .int .i32⟩ t
  let v ← divQty E d' t'
  convertQty E ⟨.named siSpeed, siMps, .int .i32⟩ v

/-- `fixed_double_si_avg_speed`, example/literals/avg_speed.cpp:45-50. -/
def fixedDouble (d t : Qty) : C Qty := do
  let d' ← convertQty E boxLen d
  let t' ← convertQty E durationTy t
  let v ← divQty E d' t'
  convertQty E lightTy v

/-- `si_avg_speed`, example/literals/avg_speed.cpp:52-57: deduced only for quantities of the dimensions of the SI. -/
def siAvg (d t : Qty) : C Qty :=
  if d.ty.dim = .base siLength ∧ t.ty.dim = .base siTime then divQty E d t else .error .rejected

/-- `avg_speed`, example/literals/avg_speed.cpp:59-62. -/
def avgSpeed (d t : Qty) : C Qty := divQty E d t

/-- The speed printed, example/literals/avg_speed.cpp:64-70. -/
def printedSpeed (v : Qty) : C Qty := quantityCast E ⟨.named siSpeed, siKmh, .flt .f64⟩ v

/-! ### The conversion factor -/

/-- `conversion_factor`, example/conversion_factor.cpp:30-39: the constructor of the source is given the `int` one; `target{…}` converts. -/
def conversionFactor (target source : QTy) : C Num := do
  let e ← dimEquivalent source.dim target.dim
  if e then do
    let rep := target.rep.common source.rep
    let s ← mkQty E ⟨source.dim, source.unit, rep⟩ (.int .i32) (.i 1)
    let t ← convertQty E ⟨target.dim, target.unit, rep⟩ s
    .ok t.num
  else .error .rejected

end Verif
