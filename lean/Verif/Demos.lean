import Verif.Programs
import Verif.SystemsTable

/-!
# The remaining example programs

example/custom_systems.cpp, example/hello_units.cpp and example/{references,literals,aliases}/{foot_pound_second,unknown_dimension,experimental_angle,clcpp_response}.cpp
as programs over the operators of quantities, with the dimensions and units of the shipped systems.  The three versions of a program differ in the
representations of the constants, which are therefore parameters.  Not modelled: printing, except for the quantity that is printed.
-/

namespace Verif.Demos

open Systems

/-! ### Units -/

/-- `isq::si::fps::foot`, src/systems/si-fps/include/units/isq/si/fps/length.h:38. -/
def u_fps_foot : MUnit :=
  ⟨.named "units::isq::si::fps::foot", ⟨381, 125, (-1)⟩, "units::isq::si::metre", [.scaled ⟨381, 125, (-1)⟩ "units::isq::si::metre"], true, "ft", none⟩
/-- `isq::si::fps::inch`, src/systems/si-fps/include/units/isq/si/fps/length.h:40. -/
def u_fps_inch : MUnit :=
  ⟨.named "units::isq::si::fps::inch", ⟨127, 5, (-3)⟩, "units::isq::si::metre", [.scaled ⟨127, 5, (-3)⟩ "units::isq::si::metre"], true, "in", none⟩
/-- `isq::si::fps::yard`, src/systems/si-fps/include/units/isq/si/fps/length.h:47. -/
def u_fps_yard : MUnit :=
  ⟨.named "units::isq::si::fps::yard", ⟨1143, 125, (-1)⟩, "units::isq::si::metre", [.scaled ⟨1143, 125, (-1)⟩ "units::isq::si::metre"], true, "yd", some "units::isq::si::prefix"⟩
/-- `isq::si::fps::mile_per_hour`, src/systems/si-fps/include/units/isq/si/fps/speed.h:44. -/
def u_fps_mile_per_hour : MUnit :=
  ⟨.named "units::isq::si::fps::mile_per_hour", ⟨44, 3, (-1)⟩, "units::isq::si::fps::foot_per_second", [.scaled ⟨44, 3, (-1)⟩ "units::isq::si::fps::foot_per_second"], false, "mile/h", none⟩
/-- `isq::si::fps::knot`, src/systems/si-fps/include/units/isq/si/fps/speed.h:46. -/
def u_fps_knot : MUnit :=
  ⟨.named "units::isq::si::fps::knot", ⟨1, 6, 1⟩, "units::isq::si::fps::foot_per_second", [.named "units::isq::si::fps::nautical_mile_per_hour", .scaled ⟨1, 6, 1⟩ "units::isq::si::fps::foot_per_second"], true, "knot", none⟩
/-- `isq::si::fps::pound`, src/systems/si-fps/include/units/isq/si/fps/mass.h:38. -/
def u_fps_pound : MUnit :=
  ⟨.named "units::isq::si::fps::pound", ⟨45359237, 1, (-5)⟩, "units::isq::si::gram", [.scaled ⟨45359237, 1, (-5)⟩ "units::isq::si::gram"], true, "lb", none⟩
/-- `isq::si::fps::long_ton`, src/systems/si-fps/include/units/isq/si/fps/mass.h:59. -/
def u_fps_long_ton : MUnit :=
  ⟨.named "units::isq::si::fps::long_ton", ⟨10160469088, 1, (-4)⟩, "units::isq::si::gram", [.scaled ⟨10160469088, 1, (-4)⟩ "units::isq::si::gram"], true, "ton (long)", none⟩
/-- `isq::si::fps::horse_power`, src/systems/si-fps/include/units/isq/si/fps/power.h:44. -/
def u_fps_horse_power : MUnit :=
  ⟨.named "units::isq::si::fps::horse_power", ⟨1769572695, 1, (-5)⟩, "units::isq::si::fps::foot_poundal_per_second", [.scaled ⟨1769572695, 1, (-5)⟩ "units::isq::si::fps::foot_poundal_per_second"], true, "hp", none⟩
/-- `isq::si::metre`, src/systems/si/include/units/isq/si/length.h:37. -/
def u_metre : MUnit :=
  ⟨.named "units::isq::si::metre", ⟨1, 1, 0⟩, "units::isq::si::metre", [.scaled ⟨1, 1, 0⟩ "units::isq::si::metre"], true, "m", some "units::isq::si::prefix"⟩
/-- `isq::si::millimetre`, src/systems/si/include/units/isq/si/length.h:45. -/
def u_millimetre : MUnit :=
  ⟨.named "units::isq::si::millimetre", ⟨1, 1, (-3)⟩, "units::isq::si::metre", [.scaled ⟨1, 1, (-3)⟩ "units::isq::si::metre"], true, "mm", none⟩
/-- `isq::si::kilogram`, src/systems/si/include/units/isq/si/mass.h:50. -/
def u_kilogram : MUnit :=
  ⟨.named "units::isq::si::kilogram", ⟨1, 1, 3⟩, "units::isq::si::gram", [.scaled ⟨1, 1, 3⟩ "units::isq::si::gram"], true, "kg", none⟩
/-- `isq::si::tonne`, src/systems/si/include/units/isq/si/mass.h:59. -/
def u_tonne : MUnit :=
  ⟨.named "units::isq::si::tonne", ⟨1, 1, 6⟩, "units::isq::si::gram", [.named "units::isq::si::megagram", .scaled ⟨1, 1, 6⟩ "units::isq::si::gram"], true, "t", some "units::isq::si::prefix"⟩
/-- `isq::si::kilometre_per_hour`, src/systems/si/include/units/isq/si/speed.h:40. -/
def u_kilometre_per_hour : MUnit :=
  ⟨.named "units::isq::si::kilometre_per_hour", ⟨1, 36, 1⟩, "units::isq::si::metre_per_second", [.scaled ⟨1, 36, 1⟩ "units::isq::si::metre_per_second"], false, "km/h", none⟩
/-- `isq::si::kilowatt`, src/systems/si/include/units/isq/si/power.h:47. -/
def u_kilowatt : MUnit :=
  ⟨.named "units::isq::si::kilowatt", ⟨1, 1, 3⟩, "units::isq::si::watt", [.scaled ⟨1, 1, 3⟩ "units::isq::si::watt"], true, "kW", none⟩
/-- `isq::si::litre`, src/systems/si/include/units/isq/si/volume.h:61. -/
def u_litre : MUnit :=
  ⟨.named "units::isq::si::litre", ⟨1, 1, (-3)⟩, "units::isq::si::cubic_metre", [.named "units::isq::si::cubic_decimetre", .scaled ⟨1, 1, (-3)⟩ "units::isq::si::cubic_metre"], true, "l", some "units::isq::si::prefix"⟩
/-- `isq::si::second`, src/systems/si/include/units/isq/si/time.h:37. -/
def u_second : MUnit :=
  ⟨.named "units::isq::si::second", ⟨1, 1, 0⟩, "units::isq::si::second", [.scaled ⟨1, 1, 0⟩ "units::isq::si::second"], true, "s", some "units::isq::si::prefix"⟩
/-- `isq::si::hour`, src/systems/si/include/units/isq/si/time.h:47. -/
def u_hour : MUnit :=
  ⟨.named "units::isq::si::hour", ⟨36, 1, 2⟩, "units::isq::si::second", [.scaled ⟨36, 1, 2⟩ "units::isq::si::second"], true, "h", none⟩
/-- `isq::si::kilometre`, src/systems/si/include/units/isq/si/length.h:50. -/
def u_kilometre : MUnit :=
  ⟨.named "units::isq::si::kilometre", ⟨1, 1, 3⟩, "units::isq::si::metre", [.scaled ⟨1, 1, 3⟩ "units::isq::si::metre"], true, "km", none⟩
/-- `isq::si::international::mile`, src/systems/si-international/include/units/isq/si/international/length.h:55. -/
def u_international_mile : MUnit :=
  ⟨.named "units::isq::si::international::mile", ⟨25146, 15625, 3⟩, "units::isq::si::metre", [.scaled ⟨25146, 15625, 3⟩ "units::isq::si::metre"], true, "mi", none⟩
/-- `isq::si::international::mile_per_hour`, src/systems/si-international/include/units/isq/si/international/speed.h:37. -/
def u_international_mile_per_hour : MUnit :=
  ⟨.named "units::isq::si::international::mile_per_hour", ⟨1397, 3125, 0⟩, "units::isq::si::metre_per_second", [.scaled ⟨1397, 3125, 0⟩ "units::isq::si::metre_per_second"], false, "mi/h", none⟩
/-- `isq::si::astronomical_unit`, src/systems/si/include/units/isq/si/length.h:59. -/
def u_astronomical_unit : MUnit :=
  ⟨.named "units::isq::si::astronomical_unit", ⟨1495978707, 1, 2⟩, "units::isq::si::metre", [.scaled ⟨1495978707, 1, 2⟩ "units::isq::si::metre"], true, "au", none⟩
/-- `isq::si::iau::angstrom`, src/systems/si-iau/include/units/isq/si/iau/length.h:45. -/
def u_iau_angstrom : MUnit :=
  ⟨.named "units::isq::si::iau::angstrom", ⟨1, 1, (-10)⟩, "units::isq::si::metre", [.scaled ⟨1, 1, (-10)⟩ "units::isq::si::metre"], true, "angstrom", none⟩
/-- `isq::si::imperial::chain`, src/systems/si-imperial/include/units/isq/si/imperial/length.h:38. -/
def u_imperial_chain : MUnit :=
  ⟨.named "units::isq::si::imperial::chain", ⟨25146, 125, (-1)⟩, "units::isq::si::metre", [.scaled ⟨25146, 125, (-1)⟩ "units::isq::si::metre"], true, "ch", none⟩
/-- `isq::si::international::fathom`, src/systems/si-international/include/units/isq/si/international/length.h:47. -/
def u_international_fathom : MUnit :=
  ⟨.named "units::isq::si::international::fathom", ⟨2286, 125, (-1)⟩, "units::isq::si::metre", [.scaled ⟨2286, 125, (-1)⟩ "units::isq::si::metre"], true, "fathom", none⟩
/-- `isq::si::uscs::fathom`, src/systems/si-uscs/include/units/isq/si/uscs/length.h:42. -/
def u_uscs_fathom : MUnit :=
  ⟨.named "units::isq::si::uscs::fathom", ⟨72, 3937, 2⟩, "units::isq::si::metre", [.scaled ⟨72, 3937, 2⟩ "units::isq::si::metre"], true, "fathom(us)", none⟩
/-- `isq::si::international::foot`, src/systems/si-international/include/units/isq/si/international/length.h:44. -/
def u_international_foot : MUnit :=
  ⟨.named "units::isq::si::international::foot", ⟨381, 125, (-1)⟩, "units::isq::si::metre", [.scaled ⟨381, 125, (-1)⟩ "units::isq::si::metre"], true, "ft", none⟩
/-- `isq::si::uscs::foot`, src/systems/si-uscs/include/units/isq/si/uscs/length.h:39. -/
def u_uscs_foot : MUnit :=
  ⟨.named "units::isq::si::uscs::foot", ⟨12, 3937, 2⟩, "units::isq::si::metre", [.scaled ⟨12, 3937, 2⟩ "units::isq::si::metre"], true, "ft(us)", none⟩
/-- `isq::si::international::inch`, src/systems/si-international/include/units/isq/si/international/length.h:51. -/
def u_international_inch : MUnit :=
  ⟨.named "units::isq::si::international::inch", ⟨127, 5, (-3)⟩, "units::isq::si::metre", [.scaled ⟨127, 5, (-3)⟩ "units::isq::si::metre"], true, "in", none⟩
/-- `isq::si::iau::light_year`, src/systems/si-iau/include/units/isq/si/iau/length.h:39. -/
def u_iau_light_year : MUnit :=
  ⟨.named "units::isq::si::iau::light_year", ⟨94607304725808, 1, 2⟩, "units::isq::si::metre", [.scaled ⟨94607304725808, 1, 2⟩ "units::isq::si::metre"], true, "ly", none⟩
/-- `isq::si::international::nautical_mile`, src/systems/si-international/include/units/isq/si/international/length.h:59. -/
def u_international_nautical_mile : MUnit :=
  ⟨.named "units::isq::si::international::nautical_mile", ⟨1852, 1, 0⟩, "units::isq::si::metre", [.scaled ⟨1852, 1, 0⟩ "units::isq::si::metre"], true, "mi(naut)", none⟩
/-- `isq::si::iau::parsec`, src/systems/si-iau/include/units/isq/si/iau/length.h:42. -/
def u_iau_parsec : MUnit :=
  ⟨.named "units::isq::si::iau::parsec", ⟨30856775814913673, 1, 0⟩, "units::isq::si::metre", [.scaled ⟨30856775814913673, 1, 0⟩ "units::isq::si::metre"], true, "pc", some "units::isq::si::prefix"⟩
/-- `isq::si::typographic::pica_comp`, src/systems/si-typographic/include/units/isq/si/typographic/length.h:39. -/
def u_typographic_pica_comp : MUnit :=
  ⟨.named "units::isq::si::typographic::pica_comp", ⟨4233333, 1, (-9)⟩, "units::isq::si::metre", [.scaled ⟨4233333, 1, (-9)⟩ "units::isq::si::metre"], true, "pica(comp)", none⟩
/-- `isq::si::typographic::pica_prn`, src/systems/si-typographic/include/units/isq/si/typographic/length.h:40. -/
def u_typographic_pica_prn : MUnit :=
  ⟨.named "units::isq::si::typographic::pica_prn", ⟨2108759, 5, (-8)⟩, "units::isq::si::metre", [.scaled ⟨2108759, 5, (-8)⟩ "units::isq::si::metre"], true, "pica(prn)", none⟩
/-- `isq::si::typographic::point_comp`, src/systems/si-typographic/include/units/isq/si/typographic/length.h:41. -/
def u_typographic_point_comp : MUnit :=
  ⟨.named "units::isq::si::typographic::point_comp", ⟨1763889, 5, (-9)⟩, "units::isq::si::metre", [.scaled ⟨1763889, 5, (-9)⟩ "units::isq::si::metre"], true, "point(comp)", none⟩
/-- `isq::si::typographic::point_prn`, src/systems/si-typographic/include/units/isq/si/typographic/length.h:42. -/
def u_typographic_point_prn : MUnit :=
  ⟨.named "units::isq::si::typographic::point_prn", ⟨1757299, 5, (-9)⟩, "units::isq::si::metre", [.scaled ⟨1757299, 5, (-9)⟩ "units::isq::si::metre"], true, "point(prn)", none⟩
/-- `isq::si::imperial::rod`, src/systems/si-imperial/include/units/isq/si/imperial/length.h:41. -/
def u_imperial_rod : MUnit :=
  ⟨.named "units::isq::si::imperial::rod", ⟨12573, 25, (-2)⟩, "units::isq::si::metre", [.scaled ⟨12573, 25, (-2)⟩ "units::isq::si::metre"], true, "rd", none⟩
/-- `isq::si::international::yard`, src/systems/si-international/include/units/isq/si/international/length.h:40. -/
def u_international_yard : MUnit :=
  ⟨.named "units::isq::si::international::yard", ⟨1143, 125, (-1)⟩, "units::isq::si::metre", [.scaled ⟨1143, 125, (-1)⟩ "units::isq::si::metre"], true, "yd", none⟩

/-- The units with a name used by the programs. -/
def demoUnits : List MUnit :=
  [u_fps_foot, u_fps_inch, u_fps_yard, u_fps_mile_per_hour, u_fps_knot, u_fps_pound, u_fps_long_ton, u_fps_horse_power, u_metre, u_millimetre, u_kilogram, u_tonne, u_kilometre_per_hour, u_kilowatt, u_litre, u_second, u_hour, u_kilometre, u_international_mile, u_international_mile_per_hour, u_astronomical_unit, u_iau_angstrom, u_imperial_chain, u_international_fathom, u_uscs_fathom, u_international_foot, u_uscs_foot, u_international_inch, u_iau_light_year, u_international_nautical_mile, u_iau_parsec, u_typographic_pica_comp, u_typographic_pica_prn, u_typographic_point_comp, u_typographic_point_prn, u_imperial_rod, u_international_yard]

/-- The dimensions with a name that the programs come across, of those declared in the headers they include
(example/references/foot_pound_second.cpp:23-36, experimental_angle.cpp:25-35, unknown_dimension.cpp:23-26). -/
def demoDims : DimReg := fun es =>
  [d_isq_si_dim_speed, d_isq_si_fps_dim_speed, d_isq_si_fps_dim_volume, d_isq_si_fps_dim_density, d_isq_si_dim_force, d_isq_si_dim_energy,
    d_isq_si_dim_torque, d_isq_si_dim_acceleration].findSome? fun d =>
      match d with
      | .named n => if n.exps = es then some n else none
      | _ => none

/-- The units with a name that the programs come across, of those declared in the same headers. -/
def demoUnitReg : UnitReg := fun r ref =>
  ([u_metre, u_kilometre, u_second, u_hour, u_fps_inch, u_fps_yard, u_kilometre_per_hour, u_international_mile_per_hour, u_fps_mile_per_hour, b_dim_angle.unit,
    unknownCoherentUnit] ++
    [d_isq_si_dim_speed, d_isq_si_fps_dim_speed, d_isq_si_fps_dim_volume, d_isq_si_fps_dim_density, d_isq_si_dim_force, d_isq_si_dim_energy,
      d_isq_si_dim_torque, d_isq_si_dim_acceleration].map Dim.unit).find? fun u => u.ratio = r ∧ u.ref = ref

/-- The programs with exact floating point arithmetic (a simplification); stands for the headers included by
example/references/foot_pound_second.cpp:23-36 and the others. -/
def demoEnv : Env := ⟨compileEst rnd53, demoDims, demoUnitReg, fun _ x => x⟩

/-! ### Custom systems -/

/-- `fps::foot`, example/custom_systems.cpp:35. -/
def fpsFoot : UnitDef := .named "fps::foot" "ft" none
/-- `fps::yard`, example/custom_systems.cpp:36. -/
def fpsYard : UnitDef := .namedScaled "fps::yard" "yd" none ⟨3, 1, 0⟩ fpsFoot
/-- `si::metre`, example/custom_systems.cpp:47. -/
def ownMetre : UnitDef := .named "si::metre" "m" (some "units::isq::si::prefix")
/-- `si::kilometre`, example/custom_systems.cpp:48, and `isq::si::kilo`, src/systems/si/include/units/isq/si/prefixes.h:44. -/
def ownKilometre : UnitDef := .prefixed "si::kilometre" ⟨"units::isq::si::prefix", "k", ⟨1, 1, 3⟩⟩ ownMetre
/-- `si::fps::foot`, example/custom_systems.cpp:57. -/
def siFpsFoot (r : Ratio) : UnitDef := .namedScaled "si::fps::foot" "ft" none r ownMetre
/-- `si::fps::yard`, example/custom_systems.cpp:58. -/
def siFpsYard (r : Ratio) : UnitDef := .namedScaled "si::fps::yard" "yd" none ⟨3, 1, 0⟩ (siFpsFoot r)

/-- `ratio(3'048, 1'000, -1)`, example/custom_systems.cpp:57. -/
def footRatio : C Ratio := Ratio.make 3048 1000 (-1)

/-- `fps::length<fps::yard, Rep>`, example/custom_systems.cpp:38-41. -/
def fpsYards (r : Rep) : C QTy := do
  let f ← fpsFoot.eval
  let y ← fpsYard.eval
  .ok ⟨.base ⟨"fps::dim_length", "L", f⟩, y, r⟩

/-- `si::fps::length<si::fps::yard, Rep>`, example/custom_systems.cpp:60-63. -/
def siFpsYards (r : Rep) : C QTy := do
  let c ← footRatio
  let f ← (siFpsFoot c).eval
  let y ← (siFpsYard c).eval
  .ok ⟨.base ⟨"si::fps::dim_length", "L", f⟩, y, r⟩

/-- `quantity_cast<si::kilometre>(yards)`, example/custom_systems.cpp:66-84. -/
def toOwnKilometres (E : Env) (t : QTy) (v : Num) : C Qty := do
  let km ← ownKilometre.eval
  quantityCastBy E (.unit km) ⟨t, v⟩

/-- `quantity_cast<unknown_coherent_unit>(yards * yards)`, example/custom_systems.cpp:87-97. -/
def yardArea (E : Env) (t : QTy) (v w : Num) : C Qty := do
  let a ← mulQty E ⟨t, v⟩ ⟨t, w⟩
  quantityCastBy E (.unit unknownCoherentUnit) a

/-! ### An unknown dimension -/

/-- Metres. -/
def lenTy (r : Rep) : QTy := ⟨d_isq_si_dim_length, u_metre, r⟩
/-- Seconds. -/
def timeTy (r : Rep) : QTy := ⟨d_isq_si_dim_time, u_second, r⟩
/-- Metres per second. -/
def speedTy (r : Rep) : QTy := ⟨d_isq_si_dim_speed, d_isq_si_dim_speed.unit, r⟩

/-- `avg_speed` and `example`, example/references/unknown_dimension.cpp:32-49: `v1`, `temp1`, `v2` and `d2`, for the numbers of the constants. -/
def unknownDimension (E : Env) (r : Rep) (d t a b c : Num) : C (Qty × Qty × Qty × Qty) := do
  let v1 ← divQty E ⟨lenTy r, d⟩ ⟨timeTy r, t⟩
  let temp1 ← mulQty E v1 ⟨lenTy r, a⟩
  let v2 ← divQty E temp1 ⟨lenTy r, b⟩
  let d2 ← mulQty E v2 ⟨timeTy r, c⟩
  .ok (v1, temp1, v2, d2)

/-! ### Angles -/

/-- The reference `N * m / rad`, example/references/experimental_angle.cpp:43. -/
def torqueRef (E : Env) : C Ref := do
  let nm ← mulRef E ⟨d_isq_si_dim_force, d_isq_si_dim_force.unit⟩ ⟨d_isq_si_dim_length, u_metre⟩
  divRef E nm ⟨d_dim_angle, b_dim_angle.unit⟩

/-- `energy / torque`, example/references/experimental_angle.cpp:43-46, for the numbers of the constants. -/
def angleOf (E : Env) (r : Rep) (e τ : Num) : C Qty := do
  let R ← torqueRef E
  let torque ← numTimesRef E r τ R
  let energy ← numTimesRef E r e ⟨d_isq_si_dim_energy, d_isq_si_dim_energy.unit⟩
  divQty E energy torque

/-! ### Hello -/

/-- `v1`, `v3` to `v7`, example/hello_units.cpp:45-56, for the numbers of the constants: kilometres and hours as literals, miles and hours as `double`. -/
structure Hello where
  v1 : Qty
  v3 : Qty
  v4 : Qty
  v5 : Qty
  v6 : Qty
  v7 : Qty

/-- The speeds of `main`, example/hello_units.cpp:39-56. -/
def hello (E : Env) (n : Num) (km h1 : Num) (mi h2 : Num) : C Hello := do
  let R ← divRef E ⟨d_isq_si_dim_length, u_kilometre⟩ ⟨d_isq_si_dim_time, u_hour⟩
  let v1 ← numTimesRef E (.int .i32) n R
  let v3 ← divQty E ⟨⟨d_isq_si_dim_length, u_kilometre, .int .i64⟩, km⟩ ⟨⟨d_isq_si_dim_time, u_hour, .int .i64⟩, h1⟩
  let v4 ← divQty E ⟨⟨d_isq_si_dim_length, u_international_mile, .flt .f64⟩, mi⟩ ⟨⟨d_isq_si_dim_time, u_hour, .flt .f64⟩, h2⟩
  let v5 ← quantityCastBy E (.qty (speedTy (.flt .f64))) v3
  let v6 ← quantityCastBy E (.unit d_isq_si_dim_speed.unit) v4
  let v7 ← quantityCastBy E (.rep (.int .i32)) v6
  .ok ⟨v1, v3, v4, v5, v6, v7⟩

/-! ### Ships -/

/-- Feet. -/
def feetTy : QTy := ⟨d_isq_si_fps_dim_length, u_fps_foot, .flt .f64⟩
/-- Inches. -/
def inchTy : QTy := ⟨d_isq_si_fps_dim_length, u_fps_inch, .flt .f64⟩
/-- Yards. -/
def yardTy : QTy := ⟨d_isq_si_fps_dim_length, u_fps_yard, .flt .f64⟩
/-- Feet per second. -/
def fpsTy : QTy := ⟨d_isq_si_fps_dim_speed, d_isq_si_fps_dim_speed.unit, .flt .f64⟩
/-- Pounds. -/
def poundTy : QTy := ⟨d_isq_si_fps_dim_mass, u_fps_pound, .flt .f64⟩
/-- Foot-poundals per second. -/
def fpdTy : QTy := ⟨d_isq_si_fps_dim_power, d_isq_si_fps_dim_power.unit, .flt .f64⟩

/-- `Ship`, example/references/foot_pound_second.cpp:44-56. -/
structure Ship where
  length : Qty
  draft : Qty
  beam : Qty
  speed : Qty
  mass : Qty
  mainGuns : Qty
  shellMass : Qty
  shellSpeed : Qty
  power : Qty

/-- `Ship{…}`, example/references/foot_pound_second.cpp:90-96: every member is initialised by a conversion. -/
def mkShip (E : Env) (l d b s m g sm ss p : Qty) : C Ship := do
  let length ← convertQty E feetTy l
  let draft ← convertQty E feetTy d
  let beam ← convertQty E feetTy b
  let speed ← convertQty E fpsTy s
  let mass ← convertQty E poundTy m
  let mainGuns ← convertQty E inchTy g
  let shellMass ← convertQty E poundTy sm
  let shellSpeed ← convertQty E fpsTy ss
  let power ← convertQty E fpdTy p
  .ok ⟨length, draft, beam, speed, mass, mainGuns, shellMass, shellSpeed, power⟩

/-- `a * ft + b * in`, example/references/foot_pound_second.cpp:93, 96. -/
def feetInches (E : Env) (a b : ℚ) : C Qty := addSub E .add ⟨feetTy, .f a⟩ ⟨inchTy, .f b⟩

/-- `fmt_line<T1, T2>(a)`, example/references/foot_pound_second.cpp:59-63: the three quantities that are printed. -/
def fmtLine (E : Env) (t1 t2 : QTy) (a : Qty) : C (Qty × Qty × Qty) := do
  let x ← quantityCastBy E (.qty t1) a
  let y ← quantityCastBy E (.qty t2) a
  .ok (a, x, y)

/-- The reference `lb / ft3`, example/references/foot_pound_second.cpp:69. -/
def densityRef (E : Env) : C Ref :=
  divRef E ⟨d_isq_si_fps_dim_mass, u_fps_pound⟩ ⟨d_isq_si_fps_dim_volume, d_isq_si_fps_dim_volume.unit⟩

/-- `si::length<U>` for a unit `U`, and so on, with the representation `double`; src/systems/si/include/units/isq/si/length.h:63-64. -/
def siTy (d : Dim) (u : MUnit) : QTy := ⟨d, u, .flt .f64⟩

/-- `print_details`, example/references/foot_pound_second.cpp:66-81, for the number of the density of water: the lines in the order they are printed. -/
def printDetails (E : Env) (w : Num) (ship : Ship) : C (List (Qty × Qty × Qty)) := do
  let R ← densityRef E
  let water ← numTimesRef E (.flt .f64) w R
  let l1 ← fmtLine E yardTy (siTy d_isq_si_dim_length u_metre) ship.length
  let l2 ← fmtLine E yardTy (siTy d_isq_si_dim_length u_metre) ship.draft
  let l3 ← fmtLine E yardTy (siTy d_isq_si_dim_length u_metre) ship.beam
  let l4 ← fmtLine E ⟨d_isq_si_fps_dim_mass, u_fps_long_ton, .flt .f64⟩ (siTy d_isq_si_dim_mass u_tonne) ship.mass
  let l5 ← fmtLine E ⟨d_isq_si_fps_dim_speed, u_fps_knot, .flt .f64⟩ (siTy d_isq_si_dim_speed u_kilometre_per_hour) ship.speed
  let l6 ← fmtLine E ⟨d_isq_si_fps_dim_power, u_fps_horse_power, .flt .f64⟩ (siTy d_isq_si_dim_power u_kilowatt) ship.power
  let l7 ← fmtLine E inchTy (siTy d_isq_si_dim_length u_millimetre) ship.mainGuns
  let l8 ← fmtLine E ⟨d_isq_si_fps_dim_mass, u_fps_long_ton, .flt .f64⟩ (siTy d_isq_si_dim_mass u_kilogram) ship.shellMass
  let l9 ← fmtLine E ⟨d_isq_si_fps_dim_speed, u_fps_mile_per_hour, .flt .f64⟩ (siTy d_isq_si_dim_speed u_kilometre_per_hour) ship.shellSpeed
  let v ← divQty E ship.mass water
  let l10 ← fmtLine E (siTy d_isq_si_dim_volume d_isq_si_dim_volume.unit) (siTy d_isq_si_dim_volume u_litre) v
  .ok [l1, l2, l3, l4, l5, l6, l7, l8, l9, l10]

/-! ### The response -/

/-- The units a metre is converted to, example/references/clcpp_response.cpp:94-111. -/
def responseUnits : List MUnit :=
  [u_astronomical_unit, u_iau_angstrom, u_imperial_chain, u_international_fathom, u_uscs_fathom, u_international_foot, u_uscs_foot,
    u_international_inch, u_iau_light_year, u_international_mile, u_international_nautical_mile, u_iau_parsec, u_typographic_pica_comp,
    u_typographic_pica_prn, u_typographic_point_comp, u_typographic_point_prn, u_imperial_rod, u_international_yard]

/-- The numbers printed for `meter`, example/references/clcpp_response.cpp:88-111, with its representation and number as parameters. -/
def response (E : Env) (r : Rep) (v : Num) : C (List Num) :=
  responseUnits.mapM fun u => do
    let q ← quantityCastBy E (.unit u) ⟨lenTy r, v⟩
    .ok q.num

end Verif.Demos
