import Verif.Systems

/-!
# The declarations of the shipped systems of units

Generated by tools/gen_systems.py from the headers under src/systems and src/core/include/units/generic; one definition per
header.  Names are as written in the header; concepts, forward declarations and `using namespace` directives are left out.
-/

namespace Verif.Systems

/-- src/core/include/units/generic/dimensionless.h:33-47. -/
def h_generic_dimensionless : Header where
  path := n!"generic/dimensionless.h"
  includes := []
  sections := [
    ([n!"units", n!""], [
      .named n!"one" ⟨"", ""⟩ n!"no_prefix",
      .namedScaled n!"percent" ⟨"%", "%"⟩ n!"no_prefix" (1) (100) (0) n!"one",
      .derivedDim n!"dim_one" n!"one" [],
      .quantityAlias n!"dimensionless" n!"dim_one"])]

/-- src/systems/si/include/units/isq/si/prefixes.h:29-51. -/
def h_isq_si_prefixes : Header where
  path := n!"isq/si/prefixes.h"
  includes := []
  sections := [
    ([n!"units::isq::si", n!"units::isq", n!"units", n!""], [
      .family n!"prefix",
      .pre n!"yocto" n!"prefix" ⟨"y", "y"⟩ (1) (1) (-24),
      .pre n!"zepto" n!"prefix" ⟨"z", "z"⟩ (1) (1) (-21),
      .pre n!"atto" n!"prefix" ⟨"a", "a"⟩ (1) (1) (-18),
      .pre n!"femto" n!"prefix" ⟨"f", "f"⟩ (1) (1) (-15),
      .pre n!"pico" n!"prefix" ⟨"p", "p"⟩ (1) (1) (-12),
      .pre n!"nano" n!"prefix" ⟨"n", "n"⟩ (1) (1) (-9),
      .pre n!"micro" n!"prefix" ⟨"µ", "u"⟩ (1) (1) (-6),
      .pre n!"milli" n!"prefix" ⟨"m", "m"⟩ (1) (1) (-3),
      .pre n!"centi" n!"prefix" ⟨"c", "c"⟩ (1) (1) (-2),
      .pre n!"deci" n!"prefix" ⟨"d", "d"⟩ (1) (1) (-1),
      .pre n!"deca" n!"prefix" ⟨"da", "da"⟩ (1) (1) (1),
      .pre n!"hecto" n!"prefix" ⟨"h", "h"⟩ (1) (1) (2),
      .pre n!"kilo" n!"prefix" ⟨"k", "k"⟩ (1) (1) (3),
      .pre n!"mega" n!"prefix" ⟨"M", "M"⟩ (1) (1) (6),
      .pre n!"giga" n!"prefix" ⟨"G", "G"⟩ (1) (1) (9),
      .pre n!"tera" n!"prefix" ⟨"T", "T"⟩ (1) (1) (12),
      .pre n!"peta" n!"prefix" ⟨"P", "P"⟩ (1) (1) (15),
      .pre n!"exa" n!"prefix" ⟨"E", "E"⟩ (1) (1) (18),
      .pre n!"zetta" n!"prefix" ⟨"Z", "Z"⟩ (1) (1) (21),
      .pre n!"yotta" n!"prefix" ⟨"Y", "Y"⟩ (1) (1) (24)])]

/-- src/core/include/units/generic/angle.h:35-62. -/
def h_generic_angle : Header where
  path := n!"generic/angle.h"
  includes := [n!"generic/dimensionless.h", n!"isq/si/prefixes.h"]
  sections := [
    ([n!"units", n!""], [
      .named n!"radian" ⟨"rad", "rad"⟩ n!"isq::si::prefix",
      .baseTemplate n!"dim_angle" "A",
      .baseInst n!"dim_angle<>" n!"dim_angle" n!"radian",
      .quantityAlias n!"angle" n!"dim_angle<>"]),
    ([n!"units::literals", n!"units", n!""], [
      .literal n!"_q_rad" true n!"angle" n!"radian",
      .literal n!"_q_rad" false n!"angle" n!"radian"]),
    ([n!"units::angle_references", n!"units", n!""], [
      .reference n!"rad" n!"dim_angle<>" n!"radian"])]

/-- src/systems/isq/include/units/isq/dimensions/length.h:29-29. -/
def h_isq_dimensions_length : Header where
  path := n!"isq/dimensions/length.h"
  includes := []
  sections := [
    ([n!"units::isq", n!"units", n!""], [
      .baseTemplate n!"dim_length" "L"])]

/-- src/systems/isq/include/units/isq/dimensions/time.h:29-29. -/
def h_isq_dimensions_time : Header where
  path := n!"isq/dimensions/time.h"
  includes := []
  sections := [
    ([n!"units::isq", n!"units", n!""], [
      .baseTemplate n!"dim_time" "T"])]

/-- src/systems/isq/include/units/isq/dimensions/acceleration.h:34-34. -/
def h_isq_dimensions_acceleration : Header where
  path := n!"isq/dimensions/acceleration.h"
  includes := [n!"isq/dimensions/length.h", n!"isq/dimensions/time.h"]
  sections := [
    ([n!"units::isq", n!"units", n!""], [
      .derivedTemplate n!"dim_acceleration" [n!"dim_length", n!"dim_time"] [(0, 1, 1), (1, -2, 1)]])]

/-- src/systems/isq/include/units/isq/dimensions/mass.h:29-29. -/
def h_isq_dimensions_mass : Header where
  path := n!"isq/dimensions/mass.h"
  includes := []
  sections := [
    ([n!"units::isq", n!"units", n!""], [
      .baseTemplate n!"dim_mass" "M"])]

/-- src/systems/isq/include/units/isq/dimensions/force.h:34-34. -/
def h_isq_dimensions_force : Header where
  path := n!"isq/dimensions/force.h"
  includes := [n!"isq/dimensions/acceleration.h", n!"isq/dimensions/mass.h"]
  sections := [
    ([n!"units::isq", n!"units", n!""], [
      .derivedTemplate n!"dim_force" [n!"dim_mass", n!"dim_acceleration"] [(0, 1, 1), (1, 1, 1)]])]

/-- src/systems/isq/include/units/isq/dimensions/energy.h:34-37. -/
def h_isq_dimensions_energy : Header where
  path := n!"isq/dimensions/energy.h"
  includes := [n!"isq/dimensions/force.h", n!"isq/dimensions/length.h"]
  sections := [
    ([n!"units::isq", n!"units", n!""], [
      .derivedTemplate n!"dim_energy" [n!"dim_force", n!"dim_length"] [(0, 1, 1), (1, 1, 1)],
      .derivedTemplate n!"dim_energy" [n!"dim_length", n!"dim_force"] [(0, 1, 1), (1, 1, 1)]])]

/-- src/systems/isq/include/units/isq/dimensions/absorbed_dose.h:34-34. -/
def h_isq_dimensions_absorbed_dose : Header where
  path := n!"isq/dimensions/absorbed_dose.h"
  includes := [n!"isq/dimensions/energy.h", n!"isq/dimensions/mass.h"]
  sections := [
    ([n!"units::isq", n!"units", n!""], [
      .derivedTemplate n!"dim_absorbed_dose" [n!"dim_energy", n!"dim_mass"] [(0, 1, 1), (1, -1, 1)]])]

/-- src/systems/isq/include/units/isq/dimensions/amount_of_substance.h:29-29. -/
def h_isq_dimensions_amount_of_substance : Header where
  path := n!"isq/dimensions/amount_of_substance.h"
  includes := []
  sections := [
    ([n!"units::isq", n!"units", n!""], [
      .baseTemplate n!"dim_amount_of_substance" "N"])]

/-- src/systems/isq/include/units/isq/dimensions/angular_velocity.h:34-34. -/
def h_isq_dimensions_angular_velocity : Header where
  path := n!"isq/dimensions/angular_velocity.h"
  includes := [n!"generic/angle.h", n!"isq/dimensions/time.h"]
  sections := [
    ([n!"units::isq", n!"units", n!""], [
      .derivedTemplate n!"dim_angular_velocity" [n!"dim_angle", n!"dim_time"] [(0, 1, 1), (1, -1, 1)]])]

/-- src/systems/isq/include/units/isq/dimensions/area.h:33-33. -/
def h_isq_dimensions_area : Header where
  path := n!"isq/dimensions/area.h"
  includes := [n!"isq/dimensions/length.h"]
  sections := [
    ([n!"units::isq", n!"units", n!""], [
      .derivedTemplate n!"dim_area" [n!"dim_length"] [(0, 2, 1)]])]

/-- src/systems/isq/include/units/isq/dimensions/electric_current.h:29-29. -/
def h_isq_dimensions_electric_current : Header where
  path := n!"isq/dimensions/electric_current.h"
  includes := []
  sections := [
    ([n!"units::isq", n!"units", n!""], [
      .baseTemplate n!"dim_electric_current" "I"])]

/-- src/systems/isq/include/units/isq/dimensions/electric_charge.h:34-34. -/
def h_isq_dimensions_electric_charge : Header where
  path := n!"isq/dimensions/electric_charge.h"
  includes := [n!"isq/dimensions/electric_current.h", n!"isq/dimensions/time.h"]
  sections := [
    ([n!"units::isq", n!"units", n!""], [
      .derivedTemplate n!"dim_electric_charge" [n!"dim_time", n!"dim_electric_current"] [(0, 1, 1), (1, 1, 1)]])]

/-- src/systems/isq/include/units/isq/dimensions/power.h:34-37. -/
def h_isq_dimensions_power : Header where
  path := n!"isq/dimensions/power.h"
  includes := [n!"isq/dimensions/energy.h", n!"isq/dimensions/time.h"]
  sections := [
    ([n!"units::isq", n!"units", n!""], [
      .derivedTemplate n!"dim_power" [n!"dim_energy", n!"dim_time"] [(0, 1, 1), (1, -1, 1)],
      .derivedTemplate n!"dim_power" [n!"dim_length", n!"dim_force", n!"dim_time"] [(0, 1, 1), (1, 1, 1), (2, -1, 1)]])]

/-- src/systems/isq/include/units/isq/dimensions/voltage.h:34-34. -/
def h_isq_dimensions_voltage : Header where
  path := n!"isq/dimensions/voltage.h"
  includes := [n!"isq/dimensions/electric_current.h", n!"isq/dimensions/power.h"]
  sections := [
    ([n!"units::isq", n!"units", n!""], [
      .derivedTemplate n!"dim_voltage" [n!"dim_power", n!"dim_electric_current"] [(0, 1, 1), (1, -1, 1)]])]

/-- src/systems/isq/include/units/isq/dimensions/capacitance.h:34-34. -/
def h_isq_dimensions_capacitance : Header where
  path := n!"isq/dimensions/capacitance.h"
  includes := [n!"isq/dimensions/electric_charge.h", n!"isq/dimensions/voltage.h"]
  sections := [
    ([n!"units::isq", n!"units", n!""], [
      .derivedTemplate n!"dim_capacitance" [n!"dim_electric_charge", n!"dim_voltage"] [(0, 1, 1), (1, -1, 1)]])]

/-- src/systems/isq/include/units/isq/dimensions/catalytic_activity.h:34-34. -/
def h_isq_dimensions_catalytic_activity : Header where
  path := n!"isq/dimensions/catalytic_activity.h"
  includes := [n!"isq/dimensions/amount_of_substance.h", n!"isq/dimensions/time.h"]
  sections := [
    ([n!"units::isq", n!"units", n!""], [
      .derivedTemplate n!"dim_catalytic_activity" [n!"dim_time", n!"dim_amount_of_substance"] [(0, -1, 1), (1, 1, 1)]])]

/-- src/systems/isq/include/units/isq/dimensions/charge_density.h:34-40. -/
def h_isq_dimensions_charge_density : Header where
  path := n!"isq/dimensions/charge_density.h"
  includes := [n!"isq/dimensions/electric_charge.h", n!"isq/dimensions/length.h"]
  sections := [
    ([n!"units::isq", n!"units", n!""], [
      .derivedTemplate n!"dim_charge_density" [n!"dim_electric_charge", n!"dim_length"] [(0, 1, 1), (1, -3, 1)],
      .derivedTemplate n!"dim_surface_charge_density" [n!"dim_electric_charge", n!"dim_length"] [(0, 1, 1), (1, -2, 1)]])]

/-- src/systems/isq/include/units/isq/dimensions/concentration.h:34-34. -/
def h_isq_dimensions_concentration : Header where
  path := n!"isq/dimensions/concentration.h"
  includes := [n!"isq/dimensions/length.h", n!"isq/dimensions/amount_of_substance.h"]
  sections := [
    ([n!"units::isq", n!"units", n!""], [
      .derivedTemplate n!"dim_concentration" [n!"dim_amount_of_substance", n!"dim_length"] [(0, 1, 1), (1, -3, 1)]])]

/-- src/systems/isq/include/units/isq/dimensions/resistance.h:34-34. -/
def h_isq_dimensions_resistance : Header where
  path := n!"isq/dimensions/resistance.h"
  includes := [n!"isq/dimensions/electric_current.h", n!"isq/dimensions/voltage.h"]
  sections := [
    ([n!"units::isq", n!"units", n!""], [
      .derivedTemplate n!"dim_resistance" [n!"dim_voltage", n!"dim_electric_current"] [(0, 1, 1), (1, -1, 1)]])]

/-- src/systems/isq/include/units/isq/dimensions/conductance.h:33-33. -/
def h_isq_dimensions_conductance : Header where
  path := n!"isq/dimensions/conductance.h"
  includes := [n!"isq/dimensions/resistance.h"]
  sections := [
    ([n!"units::isq", n!"units", n!""], [
      .derivedTemplate n!"dim_conductance" [n!"dim_resistance"] [(0, -1, 1)]])]

/-- src/systems/isq/include/units/isq/dimensions/current_density.h:34-34. -/
def h_isq_dimensions_current_density : Header where
  path := n!"isq/dimensions/current_density.h"
  includes := [n!"isq/dimensions/electric_current.h", n!"isq/dimensions/length.h"]
  sections := [
    ([n!"units::isq", n!"units", n!""], [
      .derivedTemplate n!"dim_current_density" [n!"dim_electric_current", n!"dim_length"] [(0, 1, 1), (1, -2, 1)]])]

/-- src/systems/isq/include/units/isq/dimensions/density.h:34-34. -/
def h_isq_dimensions_density : Header where
  path := n!"isq/dimensions/density.h"
  includes := [n!"isq/dimensions/length.h", n!"isq/dimensions/mass.h"]
  sections := [
    ([n!"units::isq", n!"units", n!""], [
      .derivedTemplate n!"dim_density" [n!"dim_mass", n!"dim_length"] [(0, 1, 1), (1, -3, 1)]])]

/-- src/systems/isq/include/units/isq/dimensions/pressure.h:34-34. -/
def h_isq_dimensions_pressure : Header where
  path := n!"isq/dimensions/pressure.h"
  includes := [n!"isq/dimensions/area.h", n!"isq/dimensions/force.h"]
  sections := [
    ([n!"units::isq", n!"units", n!""], [
      .derivedTemplate n!"dim_pressure" [n!"dim_force", n!"dim_area"] [(0, 1, 1), (1, -1, 1)]])]

/-- src/systems/isq/include/units/isq/dimensions/dynamic_viscosity.h:34-34. -/
def h_isq_dimensions_dynamic_viscosity : Header where
  path := n!"isq/dimensions/dynamic_viscosity.h"
  includes := [n!"isq/dimensions/pressure.h", n!"isq/dimensions/time.h"]
  sections := [
    ([n!"units::isq", n!"units", n!""], [
      .derivedTemplate n!"dim_dynamic_viscosity" [n!"dim_pressure", n!"dim_time"] [(0, 1, 1), (1, 1, 1)]])]

/-- src/systems/isq/include/units/isq/dimensions/electric_field_strength.h:34-34. -/
def h_isq_dimensions_electric_field_strength : Header where
  path := n!"isq/dimensions/electric_field_strength.h"
  includes := [n!"isq/dimensions/length.h", n!"isq/dimensions/voltage.h"]
  sections := [
    ([n!"units::isq", n!"units", n!""], [
      .derivedTemplate n!"dim_electric_field_strength" [n!"dim_voltage", n!"dim_length"] [(0, 1, 1), (1, -1, 1)]])]

/-- src/systems/isq/include/units/isq/dimensions/frequency.h:33-33. -/
def h_isq_dimensions_frequency : Header where
  path := n!"isq/dimensions/frequency.h"
  includes := [n!"isq/dimensions/time.h"]
  sections := [
    ([n!"units::isq", n!"units", n!""], [
      .derivedTemplate n!"dim_frequency" [n!"dim_time"] [(0, -1, 1)]])]

/-- src/systems/isq/include/units/isq/dimensions/thermodynamic_temperature.h:29-29. -/
def h_isq_dimensions_thermodynamic_temperature : Header where
  path := n!"isq/dimensions/thermodynamic_temperature.h"
  includes := []
  sections := [
    ([n!"units::isq", n!"units", n!""], [
      .baseTemplate n!"dim_thermodynamic_temperature" "Θ"])]

/-- src/systems/isq/include/units/isq/dimensions/heat_capacity.h:36-48. -/
def h_isq_dimensions_heat_capacity : Header where
  path := n!"isq/dimensions/heat_capacity.h"
  includes := [n!"isq/dimensions/amount_of_substance.h", n!"isq/dimensions/energy.h", n!"isq/dimensions/mass.h", n!"isq/dimensions/thermodynamic_temperature.h"]
  sections := [
    ([n!"units::isq", n!"units", n!""], [
      .derivedTemplate n!"dim_heat_capacity" [n!"dim_energy", n!"dim_thermodynamic_temperature"] [(0, 1, 1), (1, -1, 1)],
      .derivedTemplate n!"dim_specific_heat_capacity" [n!"dim_heat_capacity", n!"dim_mass"] [(0, 1, 1), (1, -1, 1)],
      .derivedTemplate n!"dim_molar_heat_capacity" [n!"dim_heat_capacity", n!"dim_amount_of_substance"] [(0, 1, 1), (1, -1, 1)]])]

/-- src/systems/isq/include/units/isq/dimensions/magnetic_induction.h:35-35. -/
def h_isq_dimensions_magnetic_induction : Header where
  path := n!"isq/dimensions/magnetic_induction.h"
  includes := [n!"isq/dimensions/length.h", n!"isq/dimensions/time.h", n!"isq/dimensions/voltage.h"]
  sections := [
    ([n!"units::isq", n!"units", n!""], [
      .derivedTemplate n!"dim_magnetic_induction" [n!"dim_voltage", n!"dim_time", n!"dim_length"] [(0, 1, 1), (1, 1, 1), (2, -2, 1)]])]

/-- src/systems/isq/include/units/isq/dimensions/magnetic_flux.h:34-34. -/
def h_isq_dimensions_magnetic_flux : Header where
  path := n!"isq/dimensions/magnetic_flux.h"
  includes := [n!"isq/dimensions/area.h", n!"isq/dimensions/magnetic_induction.h"]
  sections := [
    ([n!"units::isq", n!"units", n!""], [
      .derivedTemplate n!"dim_magnetic_flux" [n!"dim_magnetic_induction", n!"dim_area"] [(0, 1, 1), (1, 1, 1)]])]

/-- src/systems/isq/include/units/isq/dimensions/inductance.h:34-34. -/
def h_isq_dimensions_inductance : Header where
  path := n!"isq/dimensions/inductance.h"
  includes := [n!"isq/dimensions/electric_current.h", n!"isq/dimensions/magnetic_flux.h"]
  sections := [
    ([n!"units::isq", n!"units", n!""], [
      .derivedTemplate n!"dim_inductance" [n!"dim_magnetic_flux", n!"dim_electric_current"] [(0, 1, 1), (1, -1, 1)]])]

/-- src/systems/isq/include/units/isq/dimensions/luminous_intensity.h:29-29. -/
def h_isq_dimensions_luminous_intensity : Header where
  path := n!"isq/dimensions/luminous_intensity.h"
  includes := []
  sections := [
    ([n!"units::isq", n!"units", n!""], [
      .baseTemplate n!"dim_luminous_intensity" "J"])]

/-- src/systems/isq/include/units/isq/dimensions/luminance.h:34-34. -/
def h_isq_dimensions_luminance : Header where
  path := n!"isq/dimensions/luminance.h"
  includes := [n!"isq/dimensions/luminous_intensity.h", n!"isq/dimensions/length.h"]
  sections := [
    ([n!"units::isq", n!"units", n!""], [
      .derivedTemplate n!"dim_luminance" [n!"dim_luminous_intensity", n!"dim_length"] [(0, 1, 1), (1, -2, 1)]])]

/-- src/systems/isq/include/units/isq/dimensions/molar_energy.h:34-34. -/
def h_isq_dimensions_molar_energy : Header where
  path := n!"isq/dimensions/molar_energy.h"
  includes := [n!"isq/dimensions/amount_of_substance.h", n!"isq/dimensions/energy.h"]
  sections := [
    ([n!"units::isq", n!"units", n!""], [
      .derivedTemplate n!"dim_molar_energy" [n!"dim_energy", n!"dim_amount_of_substance"] [(0, 1, 1), (1, -1, 1)]])]

/-- src/systems/isq/include/units/isq/dimensions/speed.h:34-34. -/
def h_isq_dimensions_speed : Header where
  path := n!"isq/dimensions/speed.h"
  includes := [n!"isq/dimensions/length.h", n!"isq/dimensions/time.h"]
  sections := [
    ([n!"units::isq", n!"units", n!""], [
      .derivedTemplate n!"dim_speed" [n!"dim_length", n!"dim_time"] [(0, 1, 1), (1, -1, 1)]])]

/-- src/systems/isq/include/units/isq/dimensions/momentum.h:33-33. -/
def h_isq_dimensions_momentum : Header where
  path := n!"isq/dimensions/momentum.h"
  includes := [n!"isq/dimensions/speed.h"]
  sections := [
    ([n!"units::isq", n!"units", n!""], [
      .derivedTemplate n!"dim_momentum" [n!"dim_mass", n!"dim_speed"] [(0, 1, 1), (1, 1, 1)]])]

/-- src/systems/isq/include/units/isq/dimensions/permeability.h:34-34. -/
def h_isq_dimensions_permeability : Header where
  path := n!"isq/dimensions/permeability.h"
  includes := [n!"isq/dimensions/inductance.h", n!"isq/dimensions/length.h"]
  sections := [
    ([n!"units::isq", n!"units", n!""], [
      .derivedTemplate n!"dim_permeability" [n!"dim_inductance", n!"dim_length"] [(0, 1, 1), (1, -1, 1)]])]

/-- src/systems/isq/include/units/isq/dimensions/permittivity.h:34-34. -/
def h_isq_dimensions_permittivity : Header where
  path := n!"isq/dimensions/permittivity.h"
  includes := [n!"isq/dimensions/capacitance.h", n!"isq/dimensions/length.h"]
  sections := [
    ([n!"units::isq", n!"units", n!""], [
      .derivedTemplate n!"dim_permittivity" [n!"dim_capacitance", n!"dim_length"] [(0, 1, 1), (1, -1, 1)]])]

/-- src/systems/isq/include/units/isq/dimensions/surface_tension.h:34-34. -/
def h_isq_dimensions_surface_tension : Header where
  path := n!"isq/dimensions/surface_tension.h"
  includes := [n!"isq/dimensions/force.h", n!"isq/dimensions/length.h"]
  sections := [
    ([n!"units::isq", n!"units", n!""], [
      .derivedTemplate n!"dim_surface_tension" [n!"dim_force", n!"dim_length"] [(0, 1, 1), (1, -1, 1)]])]

/-- src/systems/isq/include/units/isq/dimensions/thermal_conductivity.h:35-35. -/
def h_isq_dimensions_thermal_conductivity : Header where
  path := n!"isq/dimensions/thermal_conductivity.h"
  includes := [n!"isq/dimensions/length.h", n!"isq/dimensions/power.h", n!"isq/dimensions/thermodynamic_temperature.h"]
  sections := [
    ([n!"units::isq", n!"units", n!""], [
      .derivedTemplate n!"dim_thermal_conductivity" [n!"dim_power", n!"dim_length", n!"dim_thermodynamic_temperature"] [(0, 1, 1), (1, -1, 1), (2, -1, 1)]])]

/-- src/systems/isq/include/units/isq/dimensions/torque.h:34-34. -/
def h_isq_dimensions_torque : Header where
  path := n!"isq/dimensions/torque.h"
  includes := [n!"generic/angle.h", n!"isq/dimensions/energy.h"]
  sections := [
    ([n!"units::isq", n!"units", n!""], [
      .derivedTemplate n!"dim_torque" [n!"dim_force", n!"dim_length", n!"dim_angle"] [(0, 1, 1), (1, 1, 1), (2, -1, 1)]])]

/-- src/systems/isq/include/units/isq/dimensions/volume.h:33-33. -/
def h_isq_dimensions_volume : Header where
  path := n!"isq/dimensions/volume.h"
  includes := [n!"isq/dimensions/length.h"]
  sections := [
    ([n!"units::isq", n!"units", n!""], [
      .derivedTemplate n!"dim_volume" [n!"dim_length"] [(0, 3, 1)]])]

/-- src/systems/isq/include/units/isq/dimensions.h:26-71. -/
def h_isq_dimensions : Header where
  path := n!"isq/dimensions.h"
  includes := [n!"isq/dimensions/absorbed_dose.h", n!"isq/dimensions/acceleration.h", n!"isq/dimensions/amount_of_substance.h", n!"isq/dimensions/angular_velocity.h", n!"isq/dimensions/area.h", n!"isq/dimensions/capacitance.h", n!"isq/dimensions/catalytic_activity.h", n!"isq/dimensions/charge_density.h", n!"isq/dimensions/concentration.h", n!"isq/dimensions/conductance.h", n!"isq/dimensions/current_density.h", n!"isq/dimensions/density.h", n!"isq/dimensions/dynamic_viscosity.h", n!"isq/dimensions/electric_charge.h", n!"isq/dimensions/electric_current.h", n!"isq/dimensions/electric_field_strength.h", n!"isq/dimensions/energy.h", n!"isq/dimensions/force.h", n!"isq/dimensions/frequency.h", n!"isq/dimensions/heat_capacity.h", n!"isq/dimensions/inductance.h", n!"isq/dimensions/length.h", n!"isq/dimensions/luminance.h", n!"isq/dimensions/luminous_intensity.h", n!"isq/dimensions/magnetic_flux.h", n!"isq/dimensions/magnetic_induction.h", n!"isq/dimensions/mass.h", n!"isq/dimensions/molar_energy.h", n!"isq/dimensions/momentum.h", n!"isq/dimensions/permeability.h", n!"isq/dimensions/permittivity.h", n!"isq/dimensions/power.h", n!"isq/dimensions/pressure.h", n!"isq/dimensions/resistance.h", n!"isq/dimensions/speed.h", n!"isq/dimensions/surface_tension.h", n!"isq/dimensions/thermal_conductivity.h", n!"isq/dimensions/thermodynamic_temperature.h", n!"isq/dimensions/time.h", n!"isq/dimensions/torque.h", n!"isq/dimensions/voltage.h", n!"isq/dimensions/volume.h"]
  sections := []

/-- src/systems/isq/include/units/isq/dimensions/energy_density.h:34-34. -/
def h_isq_dimensions_energy_density : Header where
  path := n!"isq/dimensions/energy_density.h"
  includes := [n!"isq/dimensions/energy.h", n!"isq/dimensions/volume.h"]
  sections := [
    ([n!"units::isq", n!"units", n!""], [
      .derivedTemplate n!"dim_energy_density" [n!"dim_energy", n!"dim_volume"] [(0, 1, 1), (1, -1, 1)]])]

/-- src/systems/isq/include/units/isq/dimensions/radioactivity.h:33-33. -/
def h_isq_dimensions_radioactivity : Header where
  path := n!"isq/dimensions/radioactivity.h"
  includes := [n!"isq/dimensions/time.h"]
  sections := [
    ([n!"units::isq", n!"units", n!""], [
      .derivedTemplate n!"dim_radioactivity" [n!"dim_time"] [(0, -1, 1)]])]

/-- src/systems/isq-iec80000/include/units/isq/iec80000/binary_prefixes.h:29-36. -/
def h_isq_iec80000_binary_prefixes : Header where
  path := n!"isq/iec80000/binary_prefixes.h"
  includes := []
  sections := [
    ([n!"units::isq::iec80000", n!"units::isq", n!"units", n!""], [
      .family n!"binary_prefix",
      .pre n!"kibi" n!"binary_prefix" ⟨"Ki", "Ki"⟩ (1024) (1) (0),
      .pre n!"mebi" n!"binary_prefix" ⟨"Mi", "Mi"⟩ (1048576) (1) (0),
      .pre n!"gibi" n!"binary_prefix" ⟨"Gi", "Gi"⟩ (1073741824) (1) (0),
      .pre n!"tebi" n!"binary_prefix" ⟨"Ti", "Ti"⟩ (1099511627776) (1) (0),
      .pre n!"pebi" n!"binary_prefix" ⟨"Pi", "Pi"⟩ (1125899906842624) (1) (0),
      .pre n!"exbi" n!"binary_prefix" ⟨"Ei", "Ei"⟩ (1152921504606846976) (1) (0)])]

/-- src/systems/si/include/units/isq/si/time.h:37-155. -/
def h_isq_si_time : Header where
  path := n!"isq/si/time.h"
  includes := [n!"generic/dimensionless.h", n!"isq/dimensions/time.h", n!"isq/si/prefixes.h"]
  sections := [
    ([n!"units::isq::si", n!"units::isq", n!"units", n!""], [
      .named n!"second" ⟨"s", "s"⟩ n!"prefix",
      .prefixed n!"yoctosecond" n!"yocto" n!"second",
      .prefixed n!"zeptosecond" n!"zepto" n!"second",
      .prefixed n!"attosecond" n!"atto" n!"second",
      .prefixed n!"femtosecond" n!"femto" n!"second",
      .prefixed n!"picosecond" n!"pico" n!"second",
      .prefixed n!"nanosecond" n!"nano" n!"second",
      .prefixed n!"microsecond" n!"micro" n!"second",
      .prefixed n!"millisecond" n!"milli" n!"second",
      .namedScaled n!"minute" ⟨"min", "min"⟩ n!"no_prefix" (60) (1) (0) n!"second",
      .namedScaled n!"hour" ⟨"h", "h"⟩ n!"no_prefix" (60) (1) (0) n!"minute",
      .namedScaled n!"day" ⟨"d", "d"⟩ n!"no_prefix" (24) (1) (0) n!"hour",
      .baseInst n!"dim_time" n!"isq::dim_time" n!"second",
      .quantityAlias n!"time" n!"dim_time"]),
    ([n!"units::isq::si::literals", n!"units::isq::si", n!"units::isq", n!"units", n!""], [
      .literal n!"_q_ys" true n!"time" n!"yoctosecond",
      .literal n!"_q_ys" false n!"time" n!"yoctosecond",
      .literal n!"_q_zs" true n!"time" n!"zeptosecond",
      .literal n!"_q_zs" false n!"time" n!"zeptosecond",
      .literal n!"_q_as" true n!"time" n!"attosecond",
      .literal n!"_q_as" false n!"time" n!"attosecond",
      .literal n!"_q_fs" true n!"time" n!"femtosecond",
      .literal n!"_q_fs" false n!"time" n!"femtosecond",
      .literal n!"_q_ps" true n!"time" n!"picosecond",
      .literal n!"_q_ps" false n!"time" n!"picosecond",
      .literal n!"_q_ns" true n!"time" n!"nanosecond",
      .literal n!"_q_ns" false n!"time" n!"nanosecond",
      .literal n!"_q_us" true n!"time" n!"microsecond",
      .literal n!"_q_us" false n!"time" n!"microsecond",
      .literal n!"_q_ms" true n!"time" n!"millisecond",
      .literal n!"_q_ms" false n!"time" n!"millisecond",
      .literal n!"_q_s" true n!"time" n!"second",
      .literal n!"_q_s" false n!"time" n!"second",
      .literal n!"_q_min" true n!"time" n!"minute",
      .literal n!"_q_min" false n!"time" n!"minute",
      .literal n!"_q_h" true n!"time" n!"hour",
      .literal n!"_q_h" false n!"time" n!"hour",
      .literal n!"_q_d" true n!"time" n!"day",
      .literal n!"_q_d" false n!"time" n!"day"]),
    ([n!"units::isq::si::time_references", n!"units::isq::si", n!"units::isq", n!"units", n!""], [
      .reference n!"ys" n!"dim_time" n!"yoctosecond",
      .reference n!"zs" n!"dim_time" n!"zeptosecond",
      .reference n!"as" n!"dim_time" n!"attosecond",
      .reference n!"fs" n!"dim_time" n!"femtosecond",
      .reference n!"ps" n!"dim_time" n!"picosecond",
      .reference n!"ns" n!"dim_time" n!"nanosecond",
      .reference n!"us" n!"dim_time" n!"microsecond",
      .reference n!"ms" n!"dim_time" n!"millisecond",
      .reference n!"s" n!"dim_time" n!"second",
      .reference n!"min" n!"dim_time" n!"minute",
      .reference n!"h" n!"dim_time" n!"hour",
      .reference n!"d" n!"dim_time" n!"day"]),
    ([n!"units::aliases::isq::si::time", n!"units::aliases::isq::si", n!"units::aliases::isq", n!"units::aliases", n!"units", n!""], [
      .repAlias n!"ys" n!"units::isq::si::time" n!"units::isq::si::yoctosecond",
      .repAlias n!"zs" n!"units::isq::si::time" n!"units::isq::si::zeptosecond",
      .repAlias n!"as" n!"units::isq::si::time" n!"units::isq::si::attosecond",
      .repAlias n!"fs" n!"units::isq::si::time" n!"units::isq::si::femtosecond",
      .repAlias n!"ps" n!"units::isq::si::time" n!"units::isq::si::picosecond",
      .repAlias n!"ns" n!"units::isq::si::time" n!"units::isq::si::nanosecond",
      .repAlias n!"us" n!"units::isq::si::time" n!"units::isq::si::microsecond",
      .repAlias n!"ms" n!"units::isq::si::time" n!"units::isq::si::millisecond",
      .repAlias n!"s" n!"units::isq::si::time" n!"units::isq::si::second",
      .repAlias n!"min" n!"units::isq::si::time" n!"units::isq::si::minute",
      .repAlias n!"h" n!"units::isq::si::time" n!"units::isq::si::hour",
      .repAlias n!"d" n!"units::isq::si::time" n!"units::isq::si::day"])]

/-- src/systems/si/include/units/isq/si/frequency.h:37-190. -/
def h_isq_si_frequency : Header where
  path := n!"isq/si/frequency.h"
  includes := [n!"isq/dimensions/frequency.h", n!"generic/dimensionless.h", n!"isq/si/time.h"]
  sections := [
    ([n!"units::isq::si", n!"units::isq", n!"units", n!""], [
      .named n!"hertz" ⟨"Hz", "Hz"⟩ n!"prefix",
      .prefixed n!"yoctohertz" n!"yocto" n!"hertz",
      .prefixed n!"zeptohertz" n!"zepto" n!"hertz",
      .prefixed n!"attohertz" n!"atto" n!"hertz",
      .prefixed n!"femtohertz" n!"femto" n!"hertz",
      .prefixed n!"picohertz" n!"pico" n!"hertz",
      .prefixed n!"nanohertz" n!"nano" n!"hertz",
      .prefixed n!"microhertz" n!"micro" n!"hertz",
      .prefixed n!"millihertz" n!"milli" n!"hertz",
      .prefixed n!"kilohertz" n!"kilo" n!"hertz",
      .prefixed n!"megahertz" n!"mega" n!"hertz",
      .prefixed n!"gigahertz" n!"giga" n!"hertz",
      .prefixed n!"terahertz" n!"tera" n!"hertz",
      .prefixed n!"petahertz" n!"peta" n!"hertz",
      .prefixed n!"exahertz" n!"exa" n!"hertz",
      .prefixed n!"zettahertz" n!"zetta" n!"hertz",
      .prefixed n!"yottahertz" n!"yotta" n!"hertz",
      .derivedInst n!"dim_frequency" n!"isq::dim_frequency" n!"hertz" [n!"dim_time"],
      .quantityAlias n!"frequency" n!"dim_frequency"]),
    ([n!"units::isq::si::literals", n!"units::isq::si", n!"units::isq", n!"units", n!""], [
      .literal n!"_q_Hz" true n!"frequency" n!"hertz",
      .literal n!"_q_Hz" false n!"frequency" n!"hertz",
      .literal n!"_q_yHz" true n!"frequency" n!"yoctohertz",
      .literal n!"_q_yHz" false n!"frequency" n!"yoctohertz",
      .literal n!"_q_zHz" true n!"frequency" n!"zeptohertz",
      .literal n!"_q_zHz" false n!"frequency" n!"zeptohertz",
      .literal n!"_q_aHz" true n!"frequency" n!"attohertz",
      .literal n!"_q_aHz" false n!"frequency" n!"attohertz",
      .literal n!"_q_fHz" true n!"frequency" n!"femtohertz",
      .literal n!"_q_fHz" false n!"frequency" n!"femtohertz",
      .literal n!"_q_pHz" true n!"frequency" n!"picohertz",
      .literal n!"_q_pHz" false n!"frequency" n!"picohertz",
      .literal n!"_q_nHz" true n!"frequency" n!"nanohertz",
      .literal n!"_q_nHz" false n!"frequency" n!"nanohertz",
      .literal n!"_q_uHz" true n!"frequency" n!"microhertz",
      .literal n!"_q_uHz" false n!"frequency" n!"microhertz",
      .literal n!"_q_mHz" true n!"frequency" n!"millihertz",
      .literal n!"_q_mHz" false n!"frequency" n!"millihertz",
      .literal n!"_q_kHz" true n!"frequency" n!"kilohertz",
      .literal n!"_q_kHz" false n!"frequency" n!"kilohertz",
      .literal n!"_q_MHz" true n!"frequency" n!"megahertz",
      .literal n!"_q_MHz" false n!"frequency" n!"megahertz",
      .literal n!"_q_GHz" true n!"frequency" n!"gigahertz",
      .literal n!"_q_GHz" false n!"frequency" n!"gigahertz",
      .literal n!"_q_THz" true n!"frequency" n!"terahertz",
      .literal n!"_q_THz" false n!"frequency" n!"terahertz",
      .literal n!"_q_PHz" true n!"frequency" n!"petahertz",
      .literal n!"_q_PHz" false n!"frequency" n!"petahertz",
      .literal n!"_q_EHz" true n!"frequency" n!"exahertz",
      .literal n!"_q_EHz" false n!"frequency" n!"exahertz",
      .literal n!"_q_ZHz" true n!"frequency" n!"zettahertz",
      .literal n!"_q_ZHz" false n!"frequency" n!"zettahertz",
      .literal n!"_q_YHz" true n!"frequency" n!"yottahertz",
      .literal n!"_q_YHz" false n!"frequency" n!"yottahertz"]),
    ([n!"units::isq::si::frequency_references", n!"units::isq::si", n!"units::isq", n!"units", n!""], [
      .reference n!"Hz" n!"dim_frequency" n!"hertz",
      .reference n!"yHz" n!"dim_frequency" n!"yoctohertz",
      .reference n!"zHz" n!"dim_frequency" n!"zeptohertz",
      .reference n!"aHz" n!"dim_frequency" n!"attohertz",
      .reference n!"fHz" n!"dim_frequency" n!"femtohertz",
      .reference n!"pHz" n!"dim_frequency" n!"picohertz",
      .reference n!"nHz" n!"dim_frequency" n!"nanohertz",
      .reference n!"uHz" n!"dim_frequency" n!"microhertz",
      .reference n!"mHz" n!"dim_frequency" n!"millihertz",
      .reference n!"kHz" n!"dim_frequency" n!"kilohertz",
      .reference n!"MHz" n!"dim_frequency" n!"megahertz",
      .reference n!"GHz" n!"dim_frequency" n!"gigahertz",
      .reference n!"THz" n!"dim_frequency" n!"terahertz",
      .reference n!"PHz" n!"dim_frequency" n!"petahertz",
      .reference n!"EHz" n!"dim_frequency" n!"exahertz",
      .reference n!"ZHz" n!"dim_frequency" n!"zettahertz",
      .reference n!"YHz" n!"dim_frequency" n!"yottahertz"]),
    ([n!"units::aliases::isq::si::frequency", n!"units::aliases::isq::si", n!"units::aliases::isq", n!"units::aliases", n!"units", n!""], [
      .repAlias n!"Hz" n!"units::isq::si::frequency" n!"units::isq::si::hertz",
      .repAlias n!"yHz" n!"units::isq::si::frequency" n!"units::isq::si::yoctohertz",
      .repAlias n!"zHz" n!"units::isq::si::frequency" n!"units::isq::si::zeptohertz",
      .repAlias n!"aHz" n!"units::isq::si::frequency" n!"units::isq::si::attohertz",
      .repAlias n!"fHz" n!"units::isq::si::frequency" n!"units::isq::si::femtohertz",
      .repAlias n!"pHz" n!"units::isq::si::frequency" n!"units::isq::si::picohertz",
      .repAlias n!"nHz" n!"units::isq::si::frequency" n!"units::isq::si::nanohertz",
      .repAlias n!"uHz" n!"units::isq::si::frequency" n!"units::isq::si::microhertz",
      .repAlias n!"mHz" n!"units::isq::si::frequency" n!"units::isq::si::millihertz",
      .repAlias n!"kHz" n!"units::isq::si::frequency" n!"units::isq::si::kilohertz",
      .repAlias n!"MHz" n!"units::isq::si::frequency" n!"units::isq::si::megahertz",
      .repAlias n!"GHz" n!"units::isq::si::frequency" n!"units::isq::si::gigahertz",
      .repAlias n!"THz" n!"units::isq::si::frequency" n!"units::isq::si::terahertz",
      .repAlias n!"PHz" n!"units::isq::si::frequency" n!"units::isq::si::petahertz",
      .repAlias n!"EHz" n!"units::isq::si::frequency" n!"units::isq::si::exahertz",
      .repAlias n!"ZHz" n!"units::isq::si::frequency" n!"units::isq::si::zettahertz",
      .repAlias n!"YHz" n!"units::isq::si::frequency" n!"units::isq::si::yottahertz"])]

/-- src/systems/isq-iec80000/include/units/isq/iec80000/modulation_rate.h:37-109. -/
def h_isq_iec80000_modulation_rate : Header where
  path := n!"isq/iec80000/modulation_rate.h"
  includes := [n!"isq/si/frequency.h", n!"isq/si/prefixes.h", n!"generic/dimensionless.h"]
  sections := [
    ([n!"units::isq::iec80000", n!"units::isq", n!"units", n!""], [
      .aliasOf n!"baud" n!"si::hertz" ⟨"Bd", "Bd"⟩ n!"si::prefix",
      .prefixedAlias n!"kilobaud" n!"si::kilohertz" n!"si::kilo" n!"baud",
      .prefixedAlias n!"megabaud" n!"si::megahertz" n!"si::mega" n!"baud",
      .prefixedAlias n!"gigabaud" n!"si::gigahertz" n!"si::giga" n!"baud",
      .prefixedAlias n!"terabaud" n!"si::terahertz" n!"si::tera" n!"baud",
      .prefixedAlias n!"petabaud" n!"si::petahertz" n!"si::peta" n!"baud",
      .prefixedAlias n!"exabaud" n!"si::exahertz" n!"si::exa" n!"baud",
      .prefixedAlias n!"zettabaud" n!"si::zettahertz" n!"si::zetta" n!"baud",
      .prefixedAlias n!"yottabaud" n!"si::yottahertz" n!"si::yotta" n!"baud",
      .using_ n!"dim_modulation_rate" n!"si::dim_frequency",
      .quantityAlias n!"modulation_rate" n!"dim_modulation_rate"]),
    ([n!"units::isq::iec80000::literals", n!"units::isq::iec80000", n!"units::isq", n!"units", n!""], [
      .literal n!"_q_Bd" true n!"modulation_rate" n!"baud",
      .literal n!"_q_kBd" true n!"modulation_rate" n!"kilobaud",
      .literal n!"_q_MBd" true n!"modulation_rate" n!"megabaud",
      .literal n!"_q_GBd" true n!"modulation_rate" n!"gigabaud",
      .literal n!"_q_TBd" true n!"modulation_rate" n!"terabaud",
      .literal n!"_q_PBd" true n!"modulation_rate" n!"petabaud",
      .literal n!"_q_EBd" true n!"modulation_rate" n!"exabaud",
      .literal n!"_q_ZBd" true n!"modulation_rate" n!"zettabaud",
      .literal n!"_q_YBd" true n!"modulation_rate" n!"yottabaud"]),
    ([n!"units::isq::iec80000::modulation_rate_references", n!"units::isq::iec80000", n!"units::isq", n!"units", n!""], [
      .reference n!"Bd" n!"dim_modulation_rate" n!"baud",
      .reference n!"kBd" n!"dim_modulation_rate" n!"kilobaud",
      .reference n!"MBd" n!"dim_modulation_rate" n!"megabaud",
      .reference n!"GBd" n!"dim_modulation_rate" n!"gigabaud",
      .reference n!"TBd" n!"dim_modulation_rate" n!"terabaud",
      .reference n!"PBd" n!"dim_modulation_rate" n!"petabaud",
      .reference n!"EBd" n!"dim_modulation_rate" n!"exabaud",
      .reference n!"ZBd" n!"dim_modulation_rate" n!"zettabaud",
      .reference n!"YBd" n!"dim_modulation_rate" n!"yottabaud"]),
    ([n!"units::aliases::isq::iec80000::modulation_rate", n!"units::aliases::isq::iec80000", n!"units::aliases::isq", n!"units::aliases", n!"units", n!""], [
      .repAlias n!"Bd" n!"units::isq::iec80000::modulation_rate" n!"units::isq::iec80000::baud",
      .repAlias n!"kBd" n!"units::isq::iec80000::modulation_rate" n!"units::isq::iec80000::kilobaud",
      .repAlias n!"MBd" n!"units::isq::iec80000::modulation_rate" n!"units::isq::iec80000::megabaud",
      .repAlias n!"GBd" n!"units::isq::iec80000::modulation_rate" n!"units::isq::iec80000::gigabaud",
      .repAlias n!"TBd" n!"units::isq::iec80000::modulation_rate" n!"units::isq::iec80000::terabaud",
      .repAlias n!"PBd" n!"units::isq::iec80000::modulation_rate" n!"units::isq::iec80000::petabaud",
      .repAlias n!"EBd" n!"units::isq::iec80000::modulation_rate" n!"units::isq::iec80000::exabaud",
      .repAlias n!"ZBd" n!"units::isq::iec80000::modulation_rate" n!"units::isq::iec80000::zettabaud",
      .repAlias n!"YBd" n!"units::isq::iec80000::modulation_rate" n!"units::isq::iec80000::yottabaud"])]

/-- src/systems/isq-iec80000/include/units/isq/iec80000/storage_capacity.h:38-221. -/
def h_isq_iec80000_storage_capacity : Header where
  path := n!"isq/iec80000/storage_capacity.h"
  includes := [n!"isq/iec80000/binary_prefixes.h", n!"isq/si/prefixes.h", n!"generic/dimensionless.h"]
  sections := [
    ([n!"units::isq::iec80000", n!"units::isq", n!"units", n!""], [
      .named n!"bit" ⟨"bit", "bit"⟩ n!"si::prefix",
      .prefixed n!"kilobit" n!"si::kilo" n!"bit",
      .prefixed n!"megabit" n!"si::mega" n!"bit",
      .prefixed n!"gigabit" n!"si::giga" n!"bit",
      .prefixed n!"terabit" n!"si::tera" n!"bit",
      .prefixed n!"petabit" n!"si::peta" n!"bit",
      .prefixed n!"exabit" n!"si::exa" n!"bit",
      .prefixed n!"zettabit" n!"si::zetta" n!"bit",
      .prefixed n!"yottabit" n!"si::yotta" n!"bit",
      .aliasOf n!"binary_prefix_bit" n!"bit" ⟨"bit", "bit"⟩ n!"binary_prefix",
      .prefixed n!"kibibit" n!"kibi" n!"binary_prefix_bit",
      .prefixed n!"mebibit" n!"mebi" n!"binary_prefix_bit",
      .prefixed n!"gibibit" n!"gibi" n!"binary_prefix_bit",
      .prefixed n!"tebibit" n!"tebi" n!"binary_prefix_bit",
      .prefixed n!"pebibit" n!"pebi" n!"binary_prefix_bit",
      .prefixed n!"exbibit" n!"exbi" n!"binary_prefix_bit",
      .namedScaled n!"byte" ⟨"B", "B"⟩ n!"si::prefix" (8) (1) (0) n!"bit",
      .prefixed n!"kilobyte" n!"si::kilo" n!"byte",
      .prefixed n!"megabyte" n!"si::mega" n!"byte",
      .prefixed n!"gigabyte" n!"si::giga" n!"byte",
      .prefixed n!"terabyte" n!"si::tera" n!"byte",
      .prefixed n!"petabyte" n!"si::peta" n!"byte",
      .prefixed n!"exabyte" n!"si::exa" n!"byte",
      .prefixed n!"zettabyte" n!"si::zetta" n!"byte",
      .prefixed n!"yottabyte" n!"si::yotta" n!"byte",
      .aliasOf n!"binary_prefix_byte" n!"byte" ⟨"B", "B"⟩ n!"binary_prefix",
      .prefixed n!"kibibyte" n!"kibi" n!"binary_prefix_byte",
      .prefixed n!"mebibyte" n!"mebi" n!"binary_prefix_byte",
      .prefixed n!"gibibyte" n!"gibi" n!"binary_prefix_byte",
      .prefixed n!"tebibyte" n!"tebi" n!"binary_prefix_byte",
      .prefixed n!"pebibyte" n!"pebi" n!"binary_prefix_byte",
      .baseDim n!"dim_storage_capacity" "M" n!"byte",
      .quantityAlias n!"storage_capacity" n!"dim_storage_capacity"]),
    ([n!"units::isq::iec80000::literals", n!"units::isq::iec80000", n!"units::isq", n!"units", n!""], [
      .literal n!"_q_bit" true n!"storage_capacity" n!"bit",
      .literal n!"_q_kbit" true n!"storage_capacity" n!"kilobit",
      .literal n!"_q_Mbit" true n!"storage_capacity" n!"megabit",
      .literal n!"_q_Gbit" true n!"storage_capacity" n!"gigabit",
      .literal n!"_q_Tbit" true n!"storage_capacity" n!"terabit",
      .literal n!"_q_Pbit" true n!"storage_capacity" n!"petabit",
      .literal n!"_q_Ebit" true n!"storage_capacity" n!"exabit",
      .literal n!"_q_Zbit" true n!"storage_capacity" n!"zettabit",
      .literal n!"_q_Ybit" true n!"storage_capacity" n!"yottabit",
      .literal n!"_q_Kibit" true n!"storage_capacity" n!"kibibit",
      .literal n!"_q_Mibit" true n!"storage_capacity" n!"mebibit",
      .literal n!"_q_Gibit" true n!"storage_capacity" n!"gibibit",
      .literal n!"_q_Tibit" true n!"storage_capacity" n!"tebibit",
      .literal n!"_q_Pibit" true n!"storage_capacity" n!"pebibit",
      .literal n!"_q_Eibit" true n!"storage_capacity" n!"exbibit",
      .literal n!"_q_B" true n!"storage_capacity" n!"byte",
      .literal n!"_q_kB" true n!"storage_capacity" n!"kilobyte",
      .literal n!"_q_MB" true n!"storage_capacity" n!"megabyte",
      .literal n!"_q_GB" true n!"storage_capacity" n!"gigabyte",
      .literal n!"_q_TB" true n!"storage_capacity" n!"terabyte",
      .literal n!"_q_PB" true n!"storage_capacity" n!"petabyte",
      .literal n!"_q_EB" true n!"storage_capacity" n!"exabyte",
      .literal n!"_q_ZB" true n!"storage_capacity" n!"zettabyte",
      .literal n!"_q_YB" true n!"storage_capacity" n!"yottabyte",
      .literal n!"_q_KiB" true n!"storage_capacity" n!"kibibyte",
      .literal n!"_q_MiB" true n!"storage_capacity" n!"mebibyte",
      .literal n!"_q_GiB" true n!"storage_capacity" n!"gibibyte",
      .literal n!"_q_TiB" true n!"storage_capacity" n!"tebibyte",
      .literal n!"_q_PiB" true n!"storage_capacity" n!"pebibyte"]),
    ([n!"units::isq::iec80000::storage_capacity_references", n!"units::isq::iec80000", n!"units::isq", n!"units", n!""], [
      .reference n!"bit" n!"dim_storage_capacity" n!"iec80000::bit",
      .reference n!"kbit" n!"dim_storage_capacity" n!"kilobit",
      .reference n!"Mbit" n!"dim_storage_capacity" n!"megabit",
      .reference n!"Gbit" n!"dim_storage_capacity" n!"gigabit",
      .reference n!"Tbit" n!"dim_storage_capacity" n!"terabit",
      .reference n!"Pbit" n!"dim_storage_capacity" n!"petabit",
      .reference n!"Ebit" n!"dim_storage_capacity" n!"exabit",
      .reference n!"Zbit" n!"dim_storage_capacity" n!"zettabit",
      .reference n!"Ybit" n!"dim_storage_capacity" n!"yottabit",
      .reference n!"Kibit" n!"dim_storage_capacity" n!"kibibit",
      .reference n!"Mibit" n!"dim_storage_capacity" n!"mebibit",
      .reference n!"Gibit" n!"dim_storage_capacity" n!"gibibit",
      .reference n!"Tibit" n!"dim_storage_capacity" n!"tebibit",
      .reference n!"Pibit" n!"dim_storage_capacity" n!"pebibit",
      .reference n!"Eibit" n!"dim_storage_capacity" n!"exbibit",
      .reference n!"B" n!"dim_storage_capacity" n!"byte",
      .reference n!"kB" n!"dim_storage_capacity" n!"kilobyte",
      .reference n!"MB" n!"dim_storage_capacity" n!"megabyte",
      .reference n!"GB" n!"dim_storage_capacity" n!"gigabyte",
      .reference n!"TB" n!"dim_storage_capacity" n!"terabyte",
      .reference n!"PB" n!"dim_storage_capacity" n!"petabyte",
      .reference n!"EB" n!"dim_storage_capacity" n!"exabyte",
      .reference n!"ZB" n!"dim_storage_capacity" n!"zettabyte",
      .reference n!"YB" n!"dim_storage_capacity" n!"yottabyte",
      .reference n!"KiB" n!"dim_storage_capacity" n!"kibibyte",
      .reference n!"MiB" n!"dim_storage_capacity" n!"mebibyte",
      .reference n!"GiB" n!"dim_storage_capacity" n!"gibibyte",
      .reference n!"TiB" n!"dim_storage_capacity" n!"tebibyte",
      .reference n!"PiB" n!"dim_storage_capacity" n!"pebibyte"]),
    ([n!"units::aliases::isq::iec80000::storage_capacity", n!"units::aliases::isq::iec80000", n!"units::aliases::isq", n!"units::aliases", n!"units", n!""], [
      .repAlias n!"bit" n!"units::isq::iec80000::storage_capacity" n!"units::isq::iec80000::bit",
      .repAlias n!"kbit" n!"units::isq::iec80000::storage_capacity" n!"units::isq::iec80000::kilobit",
      .repAlias n!"Mbit" n!"units::isq::iec80000::storage_capacity" n!"units::isq::iec80000::megabit",
      .repAlias n!"Gbit" n!"units::isq::iec80000::storage_capacity" n!"units::isq::iec80000::gigabit",
      .repAlias n!"Tbit" n!"units::isq::iec80000::storage_capacity" n!"units::isq::iec80000::terabit",
      .repAlias n!"Pbit" n!"units::isq::iec80000::storage_capacity" n!"units::isq::iec80000::petabit",
      .repAlias n!"Ebit" n!"units::isq::iec80000::storage_capacity" n!"units::isq::iec80000::exabit",
      .repAlias n!"Zbit" n!"units::isq::iec80000::storage_capacity" n!"units::isq::iec80000::zettabit",
      .repAlias n!"Ybit" n!"units::isq::iec80000::storage_capacity" n!"units::isq::iec80000::yottabit",
      .repAlias n!"Kibit" n!"units::isq::iec80000::storage_capacity" n!"units::isq::iec80000::kibibit",
      .repAlias n!"Mibit" n!"units::isq::iec80000::storage_capacity" n!"units::isq::iec80000::mebibit",
      .repAlias n!"Gibit" n!"units::isq::iec80000::storage_capacity" n!"units::isq::iec80000::gibibit",
      .repAlias n!"Tibit" n!"units::isq::iec80000::storage_capacity" n!"units::isq::iec80000::tebibit",
      .repAlias n!"Pibit" n!"units::isq::iec80000::storage_capacity" n!"units::isq::iec80000::pebibit",
      .repAlias n!"Eibit" n!"units::isq::iec80000::storage_capacity" n!"units::isq::iec80000::exbibit",
      .repAlias n!"B" n!"units::isq::iec80000::storage_capacity" n!"units::isq::iec80000::byte",
      .repAlias n!"kB" n!"units::isq::iec80000::storage_capacity" n!"units::isq::iec80000::kilobyte",
      .repAlias n!"MB" n!"units::isq::iec80000::storage_capacity" n!"units::isq::iec80000::megabyte",
      .repAlias n!"GB" n!"units::isq::iec80000::storage_capacity" n!"units::isq::iec80000::gigabyte",
      .repAlias n!"TB" n!"units::isq::iec80000::storage_capacity" n!"units::isq::iec80000::terabyte",
      .repAlias n!"PB" n!"units::isq::iec80000::storage_capacity" n!"units::isq::iec80000::petabyte",
      .repAlias n!"EB" n!"units::isq::iec80000::storage_capacity" n!"units::isq::iec80000::exabyte",
      .repAlias n!"ZB" n!"units::isq::iec80000::storage_capacity" n!"units::isq::iec80000::zettabyte",
      .repAlias n!"YB" n!"units::isq::iec80000::storage_capacity" n!"units::isq::iec80000::yottabyte",
      .repAlias n!"KiB" n!"units::isq::iec80000::storage_capacity" n!"units::isq::iec80000::kibibyte",
      .repAlias n!"MiB" n!"units::isq::iec80000::storage_capacity" n!"units::isq::iec80000::mebibyte",
      .repAlias n!"GiB" n!"units::isq::iec80000::storage_capacity" n!"units::isq::iec80000::gibibyte",
      .repAlias n!"TiB" n!"units::isq::iec80000::storage_capacity" n!"units::isq::iec80000::tebibyte",
      .repAlias n!"PiB" n!"units::isq::iec80000::storage_capacity" n!"units::isq::iec80000::pebibyte"])]

/-- src/systems/isq-iec80000/include/units/isq/iec80000/traffic_intensity.h:36-78. -/
def h_isq_iec80000_traffic_intensity : Header where
  path := n!"isq/iec80000/traffic_intensity.h"
  includes := [n!"generic/dimensionless.h"]
  sections := [
    ([n!"units::isq::iec80000", n!"units::isq", n!"units", n!""], [
      .named n!"erlang" ⟨"E", "E"⟩ n!"no_prefix",
      .baseDim n!"dim_traffic_intensity" "A" n!"erlang",
      .quantityAlias n!"traffic_intensity" n!"dim_traffic_intensity"]),
    ([n!"units::isq::iec80000::literals", n!"units::isq::iec80000", n!"units::isq", n!"units", n!""], [
      .literal n!"_q_E" true n!"traffic_intensity" n!"erlang"]),
    ([n!"units::isq::iec80000::traffic_intensity_references", n!"units::isq::iec80000", n!"units::isq", n!"units", n!""], [
      .reference n!"E" n!"dim_traffic_intensity" n!"erlang"]),
    ([n!"units::aliases::isq::iec80000::traffic_intensity", n!"units::aliases::isq::iec80000", n!"units::aliases::isq", n!"units::aliases", n!"units", n!""], [
      .repAlias n!"E" n!"units::isq::iec80000::traffic_intensity" n!"units::isq::iec80000::erlang"])]

/-- src/systems/isq-iec80000/include/units/isq/iec80000/transfer_rate.h:37-87. -/
def h_isq_iec80000_transfer_rate : Header where
  path := n!"isq/iec80000/transfer_rate.h"
  includes := [n!"isq/iec80000/storage_capacity.h", n!"isq/si/time.h", n!"generic/dimensionless.h"]
  sections := [
    ([n!"units::isq::iec80000", n!"units::isq", n!"units", n!""], [
      .unit n!"byte_per_second",
      .derivedDim n!"dim_transfer_rate" n!"byte_per_second" [(n!"dim_storage_capacity", 1, 1), (n!"si::dim_time", -1, 1)],
      .derived n!"kilobyte_per_second" n!"dim_transfer_rate" [n!"kilobyte", n!"si::second"],
      .derived n!"megabyte_per_second" n!"dim_transfer_rate" [n!"megabyte", n!"si::second"],
      .derived n!"gigabyte_per_second" n!"dim_transfer_rate" [n!"gigabyte", n!"si::second"],
      .derived n!"terabyte_per_second" n!"dim_transfer_rate" [n!"terabyte", n!"si::second"],
      .derived n!"petabyte_per_second" n!"dim_transfer_rate" [n!"petabyte", n!"si::second"],
      .derived n!"exabyte_per_second" n!"dim_transfer_rate" [n!"exabyte", n!"si::second"],
      .derived n!"zettabyte_per_second" n!"dim_transfer_rate" [n!"zettabyte", n!"si::second"],
      .derived n!"yottabyte_per_second" n!"dim_transfer_rate" [n!"yottabyte", n!"si::second"],
      .quantityAlias n!"transfer_rate" n!"dim_transfer_rate"]),
    ([n!"units::isq::iec80000::literals", n!"units::isq::iec80000", n!"units::isq", n!"units", n!""], [
      .literal n!"_q_B_per_s" true n!"transfer_rate" n!"byte_per_second",
      .literal n!"_q_kB_per_s" true n!"transfer_rate" n!"kilobyte_per_second",
      .literal n!"_q_MB_per_s" true n!"transfer_rate" n!"megabyte_per_second",
      .literal n!"_q_GB_per_s" true n!"transfer_rate" n!"gigabyte_per_second",
      .literal n!"_q_TB_per_s" true n!"transfer_rate" n!"terabyte_per_second",
      .literal n!"_q_PB_per_s" true n!"transfer_rate" n!"petabyte_per_second",
      .literal n!"_q_EB_per_s" true n!"transfer_rate" n!"exabyte_per_second",
      .literal n!"_q_ZB_per_s" true n!"transfer_rate" n!"zettabyte_per_second",
      .literal n!"_q_YB_per_s" true n!"transfer_rate" n!"yottabyte_per_second"]),
    ([n!"units::aliases::isq::iec80000::transfer_rate", n!"units::aliases::isq::iec80000", n!"units::aliases::isq", n!"units::aliases", n!"units", n!""], [
      .repAlias n!"B_per_s" n!"units::isq::iec80000::transfer_rate" n!"units::isq::iec80000::byte_per_second",
      .repAlias n!"kB_per_s" n!"units::isq::iec80000::transfer_rate" n!"units::isq::iec80000::kilobyte_per_second",
      .repAlias n!"MB_per_s" n!"units::isq::iec80000::transfer_rate" n!"units::isq::iec80000::megabyte_per_second",
      .repAlias n!"GB_per_s" n!"units::isq::iec80000::transfer_rate" n!"units::isq::iec80000::gigabyte_per_second",
      .repAlias n!"TB_per_s" n!"units::isq::iec80000::transfer_rate" n!"units::isq::iec80000::terabyte_per_second",
      .repAlias n!"PB_per_s" n!"units::isq::iec80000::transfer_rate" n!"units::isq::iec80000::petabyte_per_second",
      .repAlias n!"EB_per_s" n!"units::isq::iec80000::transfer_rate" n!"units::isq::iec80000::exabyte_per_second",
      .repAlias n!"ZB_per_s" n!"units::isq::iec80000::transfer_rate" n!"units::isq::iec80000::zettabyte_per_second",
      .repAlias n!"YB_per_s" n!"units::isq::iec80000::transfer_rate" n!"units::isq::iec80000::yottabyte_per_second"])]

/-- src/systems/isq-iec80000/include/units/isq/iec80000/iec80000.h:26-29. -/
def h_isq_iec80000_iec80000 : Header where
  path := n!"isq/iec80000/iec80000.h"
  includes := [n!"isq/iec80000/modulation_rate.h", n!"isq/iec80000/storage_capacity.h", n!"isq/iec80000/traffic_intensity.h", n!"isq/iec80000/transfer_rate.h"]
  sections := []

/-- src/systems/isq-natural/include/units/isq/natural/units.h:34-37. -/
def h_isq_natural_units : Header where
  path := n!"isq/natural/units.h"
  includes := [n!"isq/si/prefixes.h"]
  sections := [
    ([n!"units::isq::natural", n!"units::isq", n!"units", n!""], [
      .named n!"electronvolt" ⟨"eV", "eV"⟩ n!"si::prefix",
      .prefixed n!"gigaelectronvolt" n!"si::giga" n!"electronvolt",
      .named n!"inverted_gigaelectronvolt" ⟨"GeV⁻¹", "GeV^-1"⟩ n!"no_prefix",
      .named n!"square_gigaelectronvolt" ⟨"GeV²", "GeV^2"⟩ n!"no_prefix"])]

/-- src/systems/isq-natural/include/units/isq/natural/length.h:35-62. -/
def h_isq_natural_length : Header where
  path := n!"isq/natural/length.h"
  includes := [n!"isq/dimensions/length.h", n!"isq/natural/units.h", n!"generic/dimensionless.h"]
  sections := [
    ([n!"units::isq::natural", n!"units::isq", n!"units", n!""], [
      .baseInst n!"dim_length" n!"isq::dim_length" n!"inverted_gigaelectronvolt",
      .quantityAlias n!"length" n!"dim_length"]),
    ([n!"units::isq::natural::length_references", n!"units::isq::natural", n!"units::isq", n!"units", n!""], [
      .reference n!"inv_GeV" n!"dim_length" n!"inverted_gigaelectronvolt"]),
    ([n!"units::aliases::isq::natural::length", n!"units::aliases::isq::natural", n!"units::aliases::isq", n!"units::aliases", n!"units", n!""], [
      .repAlias n!"inv_GeV" n!"units::isq::natural::length" n!"units::isq::natural::inverted_gigaelectronvolt"])]

/-- src/systems/isq-natural/include/units/isq/natural/time.h:35-62. -/
def h_isq_natural_time : Header where
  path := n!"isq/natural/time.h"
  includes := [n!"isq/dimensions/time.h", n!"isq/natural/units.h", n!"generic/dimensionless.h"]
  sections := [
    ([n!"units::isq::natural", n!"units::isq", n!"units", n!""], [
      .baseInst n!"dim_time" n!"isq::dim_time" n!"inverted_gigaelectronvolt",
      .quantityAlias n!"time" n!"dim_time"]),
    ([n!"units::isq::natural::time_references", n!"units::isq::natural", n!"units::isq", n!"units", n!""], [
      .reference n!"inv_GeV" n!"dim_time" n!"inverted_gigaelectronvolt"]),
    ([n!"units::aliases::isq::natural::time", n!"units::aliases::isq::natural", n!"units::aliases::isq", n!"units::aliases", n!"units", n!""], [
      .repAlias n!"inv_GeV" n!"units::isq::natural::time" n!"units::isq::natural::inverted_gigaelectronvolt"])]

/-- src/systems/isq-natural/include/units/isq/natural/acceleration.h:38-65. -/
def h_isq_natural_acceleration : Header where
  path := n!"isq/natural/acceleration.h"
  includes := [n!"isq/natural/length.h", n!"isq/natural/time.h", n!"isq/dimensions/acceleration.h", n!"isq/natural/units.h", n!"generic/dimensionless.h"]
  sections := [
    ([n!"units::isq::natural", n!"units::isq", n!"units", n!""], [
      .derivedInst n!"dim_acceleration" n!"isq::dim_acceleration" n!"gigaelectronvolt" [n!"dim_length", n!"dim_time"],
      .quantityAlias n!"acceleration" n!"dim_acceleration"]),
    ([n!"units::isq::natural::acceleration_references", n!"units::isq::natural", n!"units::isq", n!"units", n!""], [
      .reference n!"GeV" n!"dim_acceleration" n!"gigaelectronvolt"]),
    ([n!"units::aliases::isq::natural::acceleration", n!"units::aliases::isq::natural", n!"units::aliases::isq", n!"units::aliases", n!"units", n!""], [
      .repAlias n!"GeV" n!"units::isq::natural::acceleration" n!"units::isq::natural::gigaelectronvolt"])]

/-- src/systems/isq-natural/include/units/isq/natural/speed.h:39-41. -/
def h_isq_natural_speed : Header where
  path := n!"isq/natural/speed.h"
  includes := [n!"isq/natural/length.h", n!"isq/natural/time.h", n!"generic/dimensionless.h", n!"isq/dimensions/speed.h", n!"isq/natural/units.h"]
  sections := [
    ([n!"units::isq::natural", n!"units::isq", n!"units", n!""], [
      .derivedInst n!"dim_speed" n!"isq::dim_speed" n!"one" [n!"dim_length", n!"dim_time"],
      .quantityAlias n!"speed" n!"dim_speed"])]

/-- src/systems/isq-natural/include/units/isq/natural/constants.h:29-29. -/
def h_isq_natural_constants : Header where
  path := n!"isq/natural/constants.h"
  includes := [n!"isq/natural/speed.h"]
  sections := [
    ([n!"units::isq::natural", n!"units::isq", n!"units", n!""], [
      .constant n!"speed_of_light" (.qty n!"speed" n!"one" 1 (0)) none])]

/-- src/systems/isq-natural/include/units/isq/natural/mass.h:35-62. -/
def h_isq_natural_mass : Header where
  path := n!"isq/natural/mass.h"
  includes := [n!"isq/dimensions/mass.h", n!"isq/natural/units.h", n!"generic/dimensionless.h"]
  sections := [
    ([n!"units::isq::natural", n!"units::isq", n!"units", n!""], [
      .baseInst n!"dim_mass" n!"isq::dim_mass" n!"gigaelectronvolt",
      .quantityAlias n!"mass" n!"dim_mass"]),
    ([n!"units::isq::natural::mass_references", n!"units::isq::natural", n!"units::isq", n!"units", n!""], [
      .reference n!"GeV" n!"dim_mass" n!"gigaelectronvolt"]),
    ([n!"units::aliases::isq::natural::mass", n!"units::aliases::isq::natural", n!"units::aliases::isq", n!"units::aliases", n!"units", n!""], [
      .repAlias n!"GeV" n!"units::isq::natural::mass" n!"units::isq::natural::gigaelectronvolt"])]

/-- src/systems/isq-natural/include/units/isq/natural/force.h:38-65. -/
def h_isq_natural_force : Header where
  path := n!"isq/natural/force.h"
  includes := [n!"isq/natural/acceleration.h", n!"isq/natural/mass.h", n!"isq/dimensions/force.h", n!"isq/natural/units.h", n!"generic/dimensionless.h"]
  sections := [
    ([n!"units::isq::natural", n!"units::isq", n!"units", n!""], [
      .derivedInst n!"dim_force" n!"isq::dim_force" n!"square_gigaelectronvolt" [n!"dim_mass", n!"dim_acceleration"],
      .quantityAlias n!"force" n!"dim_force"]),
    ([n!"units::isq::natural::force_references", n!"units::isq::natural", n!"units::isq", n!"units", n!""], [
      .reference n!"GeV2" n!"dim_force" n!"square_gigaelectronvolt"]),
    ([n!"units::aliases::isq::natural::force", n!"units::aliases::isq::natural", n!"units::aliases::isq", n!"units::aliases", n!"units", n!""], [
      .repAlias n!"GeV2" n!"units::isq::natural::force" n!"units::isq::natural::square_gigaelectronvolt"])]

/-- src/systems/isq-natural/include/units/isq/natural/energy.h:38-65. -/
def h_isq_natural_energy : Header where
  path := n!"isq/natural/energy.h"
  includes := [n!"isq/natural/force.h", n!"isq/natural/length.h", n!"isq/dimensions/energy.h", n!"isq/natural/units.h", n!"generic/dimensionless.h"]
  sections := [
    ([n!"units::isq::natural", n!"units::isq", n!"units", n!""], [
      .derivedInst n!"dim_energy" n!"isq::dim_energy" n!"gigaelectronvolt" [n!"dim_force", n!"dim_length"],
      .quantityAlias n!"energy" n!"dim_energy"]),
    ([n!"units::isq::natural::energy_references", n!"units::isq::natural", n!"units::isq", n!"units", n!""], [
      .reference n!"GeV" n!"dim_energy" n!"gigaelectronvolt"]),
    ([n!"units::aliases::isq::natural::energy", n!"units::aliases::isq::natural", n!"units::aliases::isq", n!"units::aliases", n!"units", n!""], [
      .repAlias n!"GeV" n!"units::isq::natural::energy" n!"units::isq::natural::gigaelectronvolt"])]

/-- src/systems/isq-natural/include/units/isq/natural/momentum.h:38-65. -/
def h_isq_natural_momentum : Header where
  path := n!"isq/natural/momentum.h"
  includes := [n!"isq/natural/mass.h", n!"isq/natural/speed.h", n!"isq/dimensions/momentum.h", n!"isq/natural/units.h", n!"generic/dimensionless.h"]
  sections := [
    ([n!"units::isq::natural", n!"units::isq", n!"units", n!""], [
      .derivedInst n!"dim_momentum" n!"isq::dim_momentum" n!"gigaelectronvolt" [n!"dim_mass", n!"dim_speed"],
      .quantityAlias n!"momentum" n!"dim_momentum"]),
    ([n!"units::isq::natural::momentum_references", n!"units::isq::natural", n!"units::isq", n!"units", n!""], [
      .reference n!"GeV" n!"dim_momentum" n!"gigaelectronvolt"]),
    ([n!"units::aliases::isq::natural::momentum", n!"units::aliases::isq::natural", n!"units::aliases::isq", n!"units::aliases", n!"units", n!""], [
      .repAlias n!"GeV" n!"units::isq::natural::momentum" n!"units::isq::natural::gigaelectronvolt"])]

/-- src/systems/isq-natural/include/units/isq/natural/natural.h:26-34. -/
def h_isq_natural_natural : Header where
  path := n!"isq/natural/natural.h"
  includes := [n!"isq/natural/acceleration.h", n!"isq/natural/constants.h", n!"isq/natural/energy.h", n!"isq/natural/force.h", n!"isq/natural/length.h", n!"isq/natural/mass.h", n!"isq/natural/momentum.h", n!"isq/natural/speed.h", n!"isq/natural/time.h"]
  sections := []

/-- src/systems/si/include/units/isq/si/length.h:37-226. -/
def h_isq_si_length : Header where
  path := n!"isq/si/length.h"
  includes := [n!"isq/dimensions/length.h", n!"generic/dimensionless.h", n!"isq/si/prefixes.h"]
  sections := [
    ([n!"units::isq::si", n!"units::isq", n!"units", n!""], [
      .named n!"metre" ⟨"m", "m"⟩ n!"prefix",
      .prefixed n!"yoctometre" n!"yocto" n!"metre",
      .prefixed n!"zeptometre" n!"zepto" n!"metre",
      .prefixed n!"attometre" n!"atto" n!"metre",
      .prefixed n!"femtometre" n!"femto" n!"metre",
      .prefixed n!"picometre" n!"pico" n!"metre",
      .prefixed n!"nanometre" n!"nano" n!"metre",
      .prefixed n!"micrometre" n!"micro" n!"metre",
      .prefixed n!"millimetre" n!"milli" n!"metre",
      .prefixed n!"centimetre" n!"centi" n!"metre",
      .prefixed n!"decimetre" n!"deci" n!"metre",
      .prefixed n!"decametre" n!"deca" n!"metre",
      .prefixed n!"hectometre" n!"hecto" n!"metre",
      .prefixed n!"kilometre" n!"kilo" n!"metre",
      .prefixed n!"megametre" n!"mega" n!"metre",
      .prefixed n!"gigametre" n!"giga" n!"metre",
      .prefixed n!"terametre" n!"tera" n!"metre",
      .prefixed n!"petametre" n!"peta" n!"metre",
      .prefixed n!"exametre" n!"exa" n!"metre",
      .prefixed n!"zettametre" n!"zetta" n!"metre",
      .prefixed n!"yottametre" n!"yotta" n!"metre",
      .namedScaled n!"astronomical_unit" ⟨"au", "au"⟩ n!"no_prefix" (149597870700) (1) (0) n!"metre",
      .baseInst n!"dim_length" n!"isq::dim_length" n!"metre",
      .quantityAlias n!"length" n!"dim_length"]),
    ([n!"units::isq::si::literals", n!"units::isq::si", n!"units::isq", n!"units", n!""], [
      .literal n!"_q_m" true n!"length" n!"metre",
      .literal n!"_q_m" false n!"length" n!"metre",
      .literal n!"_q_ym" true n!"length" n!"yoctometre",
      .literal n!"_q_ym" false n!"length" n!"yoctometre",
      .literal n!"_q_zm" true n!"length" n!"zeptometre",
      .literal n!"_q_zm" false n!"length" n!"zeptometre",
      .literal n!"_q_am" true n!"length" n!"attometre",
      .literal n!"_q_am" false n!"length" n!"attometre",
      .literal n!"_q_fm" true n!"length" n!"femtometre",
      .literal n!"_q_fm" false n!"length" n!"femtometre",
      .literal n!"_q_pm" true n!"length" n!"picometre",
      .literal n!"_q_pm" false n!"length" n!"picometre",
      .literal n!"_q_nm" true n!"length" n!"nanometre",
      .literal n!"_q_nm" false n!"length" n!"nanometre",
      .literal n!"_q_um" true n!"length" n!"micrometre",
      .literal n!"_q_um" false n!"length" n!"micrometre",
      .literal n!"_q_mm" true n!"length" n!"millimetre",
      .literal n!"_q_mm" false n!"length" n!"millimetre",
      .literal n!"_q_cm" true n!"length" n!"centimetre",
      .literal n!"_q_cm" false n!"length" n!"centimetre",
      .literal n!"_q_dm" true n!"length" n!"decimetre",
      .literal n!"_q_dm" false n!"length" n!"decimetre",
      .literal n!"_q_dam" true n!"length" n!"decametre",
      .literal n!"_q_dam" false n!"length" n!"decametre",
      .literal n!"_q_hm" true n!"length" n!"hectometre",
      .literal n!"_q_hm" false n!"length" n!"hectometre",
      .literal n!"_q_km" true n!"length" n!"kilometre",
      .literal n!"_q_km" false n!"length" n!"kilometre",
      .literal n!"_q_Mm" true n!"length" n!"megametre",
      .literal n!"_q_Mm" false n!"length" n!"megametre",
      .literal n!"_q_Gm" true n!"length" n!"gigametre",
      .literal n!"_q_Gm" false n!"length" n!"gigametre",
      .literal n!"_q_Tm" true n!"length" n!"terametre",
      .literal n!"_q_Tm" false n!"length" n!"terametre",
      .literal n!"_q_Pm" true n!"length" n!"petametre",
      .literal n!"_q_Pm" false n!"length" n!"petametre",
      .literal n!"_q_Em" true n!"length" n!"exametre",
      .literal n!"_q_Em" false n!"length" n!"exametre",
      .literal n!"_q_Zm" true n!"length" n!"zettametre",
      .literal n!"_q_Zm" false n!"length" n!"zettametre",
      .literal n!"_q_Ym" true n!"length" n!"yottametre",
      .literal n!"_q_Ym" false n!"length" n!"yottametre",
      .literal n!"_q_au" true n!"length" n!"astronomical_unit",
      .literal n!"_q_au" false n!"length" n!"astronomical_unit"]),
    ([n!"units::isq::si::length_references", n!"units::isq::si", n!"units::isq", n!"units", n!""], [
      .reference n!"m" n!"dim_length" n!"metre",
      .reference n!"ym" n!"dim_length" n!"yoctometre",
      .reference n!"zm" n!"dim_length" n!"zeptometre",
      .reference n!"am" n!"dim_length" n!"attometre",
      .reference n!"fm" n!"dim_length" n!"femtometre",
      .reference n!"pm" n!"dim_length" n!"picometre",
      .reference n!"nm" n!"dim_length" n!"nanometre",
      .reference n!"um" n!"dim_length" n!"micrometre",
      .reference n!"mm" n!"dim_length" n!"millimetre",
      .reference n!"cm" n!"dim_length" n!"centimetre",
      .reference n!"dm" n!"dim_length" n!"decimetre",
      .reference n!"dam" n!"dim_length" n!"decametre",
      .reference n!"hm" n!"dim_length" n!"hectometre",
      .reference n!"km" n!"dim_length" n!"kilometre",
      .reference n!"Mm" n!"dim_length" n!"megametre",
      .reference n!"Gm" n!"dim_length" n!"gigametre",
      .reference n!"Tm" n!"dim_length" n!"terametre",
      .reference n!"Pm" n!"dim_length" n!"petametre",
      .reference n!"Em" n!"dim_length" n!"exametre",
      .reference n!"Zm" n!"dim_length" n!"zettametre",
      .reference n!"Ym" n!"dim_length" n!"yottametre",
      .reference n!"au" n!"dim_length" n!"astronomical_unit"]),
    ([n!"units::aliases::isq::si::length", n!"units::aliases::isq::si", n!"units::aliases::isq", n!"units::aliases", n!"units", n!""], [
      .repAlias n!"m" n!"units::isq::si::length" n!"units::isq::si::metre",
      .repAlias n!"ym" n!"units::isq::si::length" n!"units::isq::si::yoctometre",
      .repAlias n!"zm" n!"units::isq::si::length" n!"units::isq::si::zeptometre",
      .repAlias n!"am" n!"units::isq::si::length" n!"units::isq::si::attometre",
      .repAlias n!"fm" n!"units::isq::si::length" n!"units::isq::si::femtometre",
      .repAlias n!"pm" n!"units::isq::si::length" n!"units::isq::si::picometre",
      .repAlias n!"nm" n!"units::isq::si::length" n!"units::isq::si::nanometre",
      .repAlias n!"um" n!"units::isq::si::length" n!"units::isq::si::micrometre",
      .repAlias n!"mm" n!"units::isq::si::length" n!"units::isq::si::millimetre",
      .repAlias n!"cm" n!"units::isq::si::length" n!"units::isq::si::centimetre",
      .repAlias n!"dm" n!"units::isq::si::length" n!"units::isq::si::decimetre",
      .repAlias n!"dam" n!"units::isq::si::length" n!"units::isq::si::decametre",
      .repAlias n!"hm" n!"units::isq::si::length" n!"units::isq::si::hectometre",
      .repAlias n!"km" n!"units::isq::si::length" n!"units::isq::si::kilometre",
      .repAlias n!"Mm" n!"units::isq::si::length" n!"units::isq::si::megametre",
      .repAlias n!"Gm" n!"units::isq::si::length" n!"units::isq::si::gigametre",
      .repAlias n!"Tm" n!"units::isq::si::length" n!"units::isq::si::terametre",
      .repAlias n!"Pm" n!"units::isq::si::length" n!"units::isq::si::petametre",
      .repAlias n!"Em" n!"units::isq::si::length" n!"units::isq::si::exametre",
      .repAlias n!"Zm" n!"units::isq::si::length" n!"units::isq::si::zettametre",
      .repAlias n!"Ym" n!"units::isq::si::length" n!"units::isq::si::yottametre",
      .repAlias n!"au" n!"units::isq::si::length" n!"units::isq::si::astronomical_unit"])]

/-- src/systems/si/include/units/isq/si/speed.h:37-68. -/
def h_isq_si_speed : Header where
  path := n!"isq/si/speed.h"
  includes := [n!"isq/dimensions/speed.h", n!"generic/dimensionless.h", n!"isq/si/length.h", n!"isq/si/time.h"]
  sections := [
    ([n!"units::isq::si", n!"units::isq", n!"units", n!""], [
      .unit n!"metre_per_second",
      .derivedInst n!"dim_speed" n!"isq::dim_speed" n!"metre_per_second" [n!"dim_length", n!"dim_time"],
      .derived n!"kilometre_per_hour" n!"dim_speed" [n!"kilometre", n!"hour"],
      .quantityAlias n!"speed" n!"dim_speed"]),
    ([n!"units::isq::si::literals", n!"units::isq::si", n!"units::isq", n!"units", n!""], [
      .literal n!"_q_m_per_s" true n!"speed" n!"metre_per_second",
      .literal n!"_q_m_per_s" false n!"speed" n!"metre_per_second",
      .literal n!"_q_km_per_h" true n!"speed" n!"kilometre_per_hour",
      .literal n!"_q_km_per_h" false n!"speed" n!"kilometre_per_hour"]),
    ([n!"units::aliases::isq::si::speed", n!"units::aliases::isq::si", n!"units::aliases::isq", n!"units::aliases", n!"units", n!""], [
      .repAlias n!"m_per_s" n!"units::isq::si::speed" n!"units::isq::si::metre_per_second",
      .repAlias n!"km_per_h" n!"units::isq::si::speed" n!"units::isq::si::kilometre_per_hour"])]

/-- src/systems/si/include/units/isq/si/acceleration.h:36-60. -/
def h_isq_si_acceleration : Header where
  path := n!"isq/si/acceleration.h"
  includes := [n!"isq/dimensions/acceleration.h", n!"generic/dimensionless.h", n!"isq/si/speed.h"]
  sections := [
    ([n!"units::isq::si", n!"units::isq", n!"units", n!""], [
      .unit n!"metre_per_second_sq",
      .derivedInst n!"dim_acceleration" n!"isq::dim_acceleration" n!"metre_per_second_sq" [n!"dim_length", n!"dim_time"],
      .quantityAlias n!"acceleration" n!"dim_acceleration"]),
    ([n!"units::isq::si::literals", n!"units::isq::si", n!"units::isq", n!"units", n!""], [
      .literal n!"_q_m_per_s2" true n!"acceleration" n!"metre_per_second_sq",
      .literal n!"_q_m_per_s2" false n!"acceleration" n!"metre_per_second_sq"]),
    ([n!"units::aliases::isq::si::acceleration", n!"units::aliases::isq::si", n!"units::aliases::isq", n!"units::aliases", n!"units", n!""], [
      .repAlias n!"m_per_s2" n!"units::isq::si::acceleration" n!"units::isq::si::metre_per_second_sq"])]

/-- src/systems/si/include/units/isq/si/mass.h:37-377. -/
def h_isq_si_mass : Header where
  path := n!"isq/si/mass.h"
  includes := [n!"isq/dimensions/mass.h", n!"generic/dimensionless.h", n!"isq/si/prefixes.h"]
  sections := [
    ([n!"units::isq::si", n!"units::isq", n!"units", n!""], [
      .named n!"gram" ⟨"g", "g"⟩ n!"prefix",
      .prefixed n!"yoctogram" n!"yocto" n!"gram",
      .prefixed n!"zeptogram" n!"zepto" n!"gram",
      .prefixed n!"attogram" n!"atto" n!"gram",
      .prefixed n!"femtogram" n!"femto" n!"gram",
      .prefixed n!"picogram" n!"pico" n!"gram",
      .prefixed n!"nanogram" n!"nano" n!"gram",
      .prefixed n!"microgram" n!"micro" n!"gram",
      .prefixed n!"milligram" n!"milli" n!"gram",
      .prefixed n!"centigram" n!"centi" n!"gram",
      .prefixed n!"decigram" n!"deci" n!"gram",
      .prefixed n!"decagram" n!"deca" n!"gram",
      .prefixed n!"hectogram" n!"hecto" n!"gram",
      .prefixed n!"kilogram" n!"kilo" n!"gram",
      .prefixed n!"megagram" n!"mega" n!"gram",
      .prefixed n!"gigagram" n!"giga" n!"gram",
      .prefixed n!"teragram" n!"tera" n!"gram",
      .prefixed n!"petagram" n!"peta" n!"gram",
      .prefixed n!"exagram" n!"exa" n!"gram",
      .prefixed n!"zettagram" n!"zetta" n!"gram",
      .prefixed n!"yottagram" n!"yotta" n!"gram",
      .aliasOf n!"tonne" n!"megagram" ⟨"t", "t"⟩ n!"prefix",
      .prefixedAlias n!"yoctotonne" n!"attogram" n!"yocto" n!"tonne",
      .prefixedAlias n!"zeptotonne" n!"femtogram" n!"zepto" n!"tonne",
      .prefixedAlias n!"attotonne" n!"picogram" n!"atto" n!"tonne",
      .prefixedAlias n!"femtotonne" n!"nanogram" n!"femto" n!"tonne",
      .prefixedAlias n!"picotonne" n!"microgram" n!"pico" n!"tonne",
      .prefixedAlias n!"nanotonne" n!"milligram" n!"nano" n!"tonne",
      .prefixedAlias n!"microtonne" n!"gram" n!"micro" n!"tonne",
      .prefixedAlias n!"millitonne" n!"kilogram" n!"milli" n!"tonne",
      .prefixed n!"centitonne" n!"centi" n!"tonne",
      .prefixed n!"decitonne" n!"deci" n!"tonne",
      .prefixed n!"decatonne" n!"deca" n!"tonne",
      .prefixed n!"hectotonne" n!"hecto" n!"tonne",
      .prefixedAlias n!"kilotonne" n!"gigagram" n!"kilo" n!"tonne",
      .prefixedAlias n!"megatonne" n!"teragram" n!"mega" n!"tonne",
      .prefixedAlias n!"gigatonne" n!"petagram" n!"giga" n!"tonne",
      .prefixedAlias n!"teratonne" n!"exagram" n!"tera" n!"tonne",
      .prefixedAlias n!"petatonne" n!"zettagram" n!"peta" n!"tonne",
      .prefixedAlias n!"exatonne" n!"yottagram" n!"exa" n!"tonne",
      .prefixed n!"zettatonne" n!"zetta" n!"tonne",
      .prefixed n!"yottatonne" n!"yotta" n!"tonne",
      .namedScaled n!"dalton" ⟨"Da", "Da"⟩ n!"no_prefix" (16605390666050) (10000000000000) (-27) n!"kilogram",
      .baseInst n!"dim_mass" n!"isq::dim_mass" n!"kilogram",
      .quantityAlias n!"mass" n!"dim_mass"]),
    ([n!"units::isq::si::literals", n!"units::isq::si", n!"units::isq", n!"units", n!""], [
      .literal n!"_q_g" true n!"mass" n!"gram",
      .literal n!"_q_g" false n!"mass" n!"gram",
      .literal n!"_q_yg" true n!"mass" n!"yoctogram",
      .literal n!"_q_yg" false n!"mass" n!"yoctogram",
      .literal n!"_q_zg" true n!"mass" n!"zeptogram",
      .literal n!"_q_zg" false n!"mass" n!"zeptogram",
      .literal n!"_q_ag" true n!"mass" n!"attogram",
      .literal n!"_q_ag" false n!"mass" n!"attogram",
      .literal n!"_q_fg" true n!"mass" n!"femtogram",
      .literal n!"_q_fg" false n!"mass" n!"femtogram",
      .literal n!"_q_pg" true n!"mass" n!"picogram",
      .literal n!"_q_pg" false n!"mass" n!"picogram",
      .literal n!"_q_ng" true n!"mass" n!"nanogram",
      .literal n!"_q_ng" false n!"mass" n!"nanogram",
      .literal n!"_q_ug" true n!"mass" n!"microgram",
      .literal n!"_q_ug" false n!"mass" n!"microgram",
      .literal n!"_q_mg" true n!"mass" n!"milligram",
      .literal n!"_q_mg" false n!"mass" n!"milligram",
      .literal n!"_q_cg" true n!"mass" n!"centigram",
      .literal n!"_q_cg" false n!"mass" n!"centigram",
      .literal n!"_q_dg" true n!"mass" n!"decigram",
      .literal n!"_q_dg" false n!"mass" n!"decigram",
      .literal n!"_q_dag" true n!"mass" n!"decagram",
      .literal n!"_q_dag" false n!"mass" n!"decagram",
      .literal n!"_q_hg" true n!"mass" n!"hectogram",
      .literal n!"_q_hg" false n!"mass" n!"hectogram",
      .literal n!"_q_kg" true n!"mass" n!"kilogram",
      .literal n!"_q_kg" false n!"mass" n!"kilogram",
      .literal n!"_q_Mg" true n!"mass" n!"megagram",
      .literal n!"_q_Mg" false n!"mass" n!"megagram",
      .literal n!"_q_Gg" true n!"mass" n!"gigagram",
      .literal n!"_q_Gg" false n!"mass" n!"gigagram",
      .literal n!"_q_Tg" true n!"mass" n!"teragram",
      .literal n!"_q_Tg" false n!"mass" n!"teragram",
      .literal n!"_q_Pg" true n!"mass" n!"petagram",
      .literal n!"_q_Pg" false n!"mass" n!"petagram",
      .literal n!"_q_Eg" true n!"mass" n!"exagram",
      .literal n!"_q_Eg" false n!"mass" n!"exagram",
      .literal n!"_q_Zg" true n!"mass" n!"zettagram",
      .literal n!"_q_Zg" false n!"mass" n!"zettagram",
      .literal n!"_q_Yg" true n!"mass" n!"yottagram",
      .literal n!"_q_Yg" false n!"mass" n!"yottagram",
      .literal n!"_q_t" true n!"mass" n!"tonne",
      .literal n!"_q_t" false n!"mass" n!"tonne",
      .literal n!"_q_yt" true n!"mass" n!"yoctotonne",
      .literal n!"_q_yt" false n!"mass" n!"yoctotonne",
      .literal n!"_q_zt" true n!"mass" n!"zeptotonne",
      .literal n!"_q_zt" false n!"mass" n!"zeptotonne",
      .literal n!"_q_at" true n!"mass" n!"attotonne",
      .literal n!"_q_at" false n!"mass" n!"attotonne",
      .literal n!"_q_pt" true n!"mass" n!"picotonne",
      .literal n!"_q_pt" false n!"mass" n!"picotonne",
      .literal n!"_q_nt" true n!"mass" n!"nanotonne",
      .literal n!"_q_nt" false n!"mass" n!"nanotonne",
      .literal n!"_q_ut" true n!"mass" n!"microtonne",
      .literal n!"_q_ut" false n!"mass" n!"microtonne",
      .literal n!"_q_mt" true n!"mass" n!"millitonne",
      .literal n!"_q_mt" false n!"mass" n!"millitonne",
      .literal n!"_q_ct" true n!"mass" n!"centitonne",
      .literal n!"_q_ct" false n!"mass" n!"centitonne",
      .literal n!"_q_dt" true n!"mass" n!"decitonne",
      .literal n!"_q_dt" false n!"mass" n!"decitonne",
      .literal n!"_q_dat" true n!"mass" n!"decatonne",
      .literal n!"_q_dat" false n!"mass" n!"decatonne",
      .literal n!"_q_ht" true n!"mass" n!"hectotonne",
      .literal n!"_q_ht" false n!"mass" n!"hectotonne",
      .literal n!"_q_kt" true n!"mass" n!"kilotonne",
      .literal n!"_q_kt" false n!"mass" n!"kilotonne",
      .literal n!"_q_Mt" true n!"mass" n!"megatonne",
      .literal n!"_q_Mt" false n!"mass" n!"megatonne",
      .literal n!"_q_Gt" true n!"mass" n!"gigatonne",
      .literal n!"_q_Gt" false n!"mass" n!"gigatonne",
      .literal n!"_q_Tt" true n!"mass" n!"teratonne",
      .literal n!"_q_Tt" false n!"mass" n!"teratonne",
      .literal n!"_q_Pt" true n!"mass" n!"petatonne",
      .literal n!"_q_Pt" false n!"mass" n!"petatonne",
      .literal n!"_q_Et" true n!"mass" n!"exatonne",
      .literal n!"_q_Et" false n!"mass" n!"exatonne",
      .literal n!"_q_Zt" true n!"mass" n!"zettatonne",
      .literal n!"_q_Zt" false n!"mass" n!"zettatonne",
      .literal n!"_q_Yt" true n!"mass" n!"yottatonne",
      .literal n!"_q_Yt" false n!"mass" n!"yottatonne",
      .literal n!"_q_Da" true n!"mass" n!"dalton",
      .literal n!"_q_Da" false n!"mass" n!"dalton"]),
    ([n!"units::isq::si::mass_references", n!"units::isq::si", n!"units::isq", n!"units", n!""], [
      .reference n!"g" n!"dim_mass" n!"gram",
      .reference n!"yg" n!"dim_mass" n!"yoctogram",
      .reference n!"zg" n!"dim_mass" n!"zeptogram",
      .reference n!"ag" n!"dim_mass" n!"attogram",
      .reference n!"fg" n!"dim_mass" n!"femtogram",
      .reference n!"pg" n!"dim_mass" n!"picogram",
      .reference n!"ng" n!"dim_mass" n!"nanogram",
      .reference n!"ug" n!"dim_mass" n!"microgram",
      .reference n!"mg" n!"dim_mass" n!"milligram",
      .reference n!"cg" n!"dim_mass" n!"centigram",
      .reference n!"dg" n!"dim_mass" n!"decigram",
      .reference n!"dag" n!"dim_mass" n!"decagram",
      .reference n!"hg" n!"dim_mass" n!"hectogram",
      .reference n!"kg" n!"dim_mass" n!"kilogram",
      .reference n!"Mg" n!"dim_mass" n!"megagram",
      .reference n!"Gg" n!"dim_mass" n!"gigagram",
      .reference n!"Tg" n!"dim_mass" n!"teragram",
      .reference n!"Pg" n!"dim_mass" n!"petagram",
      .reference n!"Eg" n!"dim_mass" n!"exagram",
      .reference n!"Zg" n!"dim_mass" n!"zettagram",
      .reference n!"Yg" n!"dim_mass" n!"yottagram",
      .reference n!"t" n!"dim_mass" n!"tonne",
      .reference n!"yt" n!"dim_mass" n!"yoctotonne",
      .reference n!"zt" n!"dim_mass" n!"zeptotonne",
      .reference n!"at" n!"dim_mass" n!"attotonne",
      .reference n!"ft" n!"dim_mass" n!"femtotonne",
      .reference n!"pt" n!"dim_mass" n!"picotonne",
      .reference n!"nt" n!"dim_mass" n!"nanotonne",
      .reference n!"ut" n!"dim_mass" n!"microtonne",
      .reference n!"mt" n!"dim_mass" n!"millitonne",
      .reference n!"ct" n!"dim_mass" n!"centitonne",
      .reference n!"dt" n!"dim_mass" n!"decitonne",
      .reference n!"dat" n!"dim_mass" n!"decatonne",
      .reference n!"ht" n!"dim_mass" n!"hectotonne",
      .reference n!"kt" n!"dim_mass" n!"kilotonne",
      .reference n!"Mt" n!"dim_mass" n!"megatonne",
      .reference n!"Gt" n!"dim_mass" n!"gigatonne",
      .reference n!"Tt" n!"dim_mass" n!"teratonne",
      .reference n!"Pt" n!"dim_mass" n!"petatonne",
      .reference n!"Et" n!"dim_mass" n!"exatonne",
      .reference n!"Zt" n!"dim_mass" n!"zettatonne",
      .reference n!"Yt" n!"dim_mass" n!"yottatonne",
      .reference n!"Da" n!"dim_mass" n!"dalton"]),
    ([n!"units::aliases::isq::si::mass", n!"units::aliases::isq::si", n!"units::aliases::isq", n!"units::aliases", n!"units", n!""], [
      .repAlias n!"g" n!"units::isq::si::mass" n!"units::isq::si::gram",
      .repAlias n!"yg" n!"units::isq::si::mass" n!"units::isq::si::yoctogram",
      .repAlias n!"zg" n!"units::isq::si::mass" n!"units::isq::si::zeptogram",
      .repAlias n!"ag" n!"units::isq::si::mass" n!"units::isq::si::attogram",
      .repAlias n!"fg" n!"units::isq::si::mass" n!"units::isq::si::femtogram",
      .repAlias n!"pg" n!"units::isq::si::mass" n!"units::isq::si::picogram",
      .repAlias n!"ng" n!"units::isq::si::mass" n!"units::isq::si::nanogram",
      .repAlias n!"ug" n!"units::isq::si::mass" n!"units::isq::si::microgram",
      .repAlias n!"mg" n!"units::isq::si::mass" n!"units::isq::si::milligram",
      .repAlias n!"cg" n!"units::isq::si::mass" n!"units::isq::si::centigram",
      .repAlias n!"dg" n!"units::isq::si::mass" n!"units::isq::si::decigram",
      .repAlias n!"dag" n!"units::isq::si::mass" n!"units::isq::si::decagram",
      .repAlias n!"hg" n!"units::isq::si::mass" n!"units::isq::si::hectogram",
      .repAlias n!"kg" n!"units::isq::si::mass" n!"units::isq::si::kilogram",
      .repAlias n!"Mg" n!"units::isq::si::mass" n!"units::isq::si::megagram",
      .repAlias n!"Gg" n!"units::isq::si::mass" n!"units::isq::si::gigagram",
      .repAlias n!"Tg" n!"units::isq::si::mass" n!"units::isq::si::teragram",
      .repAlias n!"Pg" n!"units::isq::si::mass" n!"units::isq::si::petagram",
      .repAlias n!"Eg" n!"units::isq::si::mass" n!"units::isq::si::exagram",
      .repAlias n!"Zg" n!"units::isq::si::mass" n!"units::isq::si::zettagram",
      .repAlias n!"Yg" n!"units::isq::si::mass" n!"units::isq::si::yottagram",
      .repAlias n!"t" n!"units::isq::si::mass" n!"units::isq::si::tonne",
      .repAlias n!"yt" n!"units::isq::si::mass" n!"units::isq::si::yoctotonne",
      .repAlias n!"zt" n!"units::isq::si::mass" n!"units::isq::si::zeptotonne",
      .repAlias n!"at" n!"units::isq::si::mass" n!"units::isq::si::attotonne",
      .repAlias n!"ft" n!"units::isq::si::mass" n!"units::isq::si::femtotonne",
      .repAlias n!"pt" n!"units::isq::si::mass" n!"units::isq::si::picotonne",
      .repAlias n!"nt" n!"units::isq::si::mass" n!"units::isq::si::nanotonne",
      .repAlias n!"ut" n!"units::isq::si::mass" n!"units::isq::si::microtonne",
      .repAlias n!"mt" n!"units::isq::si::mass" n!"units::isq::si::millitonne",
      .repAlias n!"ct" n!"units::isq::si::mass" n!"units::isq::si::centitonne",
      .repAlias n!"dt" n!"units::isq::si::mass" n!"units::isq::si::decitonne",
      .repAlias n!"dat" n!"units::isq::si::mass" n!"units::isq::si::decatonne",
      .repAlias n!"ht" n!"units::isq::si::mass" n!"units::isq::si::hectotonne",
      .repAlias n!"kt" n!"units::isq::si::mass" n!"units::isq::si::kilotonne",
      .repAlias n!"Mt" n!"units::isq::si::mass" n!"units::isq::si::megatonne",
      .repAlias n!"Gt" n!"units::isq::si::mass" n!"units::isq::si::gigatonne",
      .repAlias n!"Tt" n!"units::isq::si::mass" n!"units::isq::si::teratonne",
      .repAlias n!"Pt" n!"units::isq::si::mass" n!"units::isq::si::petatonne",
      .repAlias n!"Et" n!"units::isq::si::mass" n!"units::isq::si::exatonne",
      .repAlias n!"Zt" n!"units::isq::si::mass" n!"units::isq::si::zettatonne",
      .repAlias n!"Yt" n!"units::isq::si::mass" n!"units::isq::si::yottatonne",
      .repAlias n!"Da" n!"units::isq::si::mass" n!"units::isq::si::dalton"])]

/-- src/systems/si/include/units/isq/si/force.h:39-220. -/
def h_isq_si_force : Header where
  path := n!"isq/si/force.h"
  includes := [n!"isq/dimensions/force.h", n!"generic/dimensionless.h", n!"isq/si/acceleration.h", n!"isq/si/mass.h", n!"isq/si/prefixes.h"]
  sections := [
    ([n!"units::isq::si", n!"units::isq", n!"units", n!""], [
      .named n!"newton" ⟨"N", "N"⟩ n!"prefix",
      .prefixed n!"yoctonewton" n!"yocto" n!"newton",
      .prefixed n!"zeptonewton" n!"zepto" n!"newton",
      .prefixed n!"attonewton" n!"atto" n!"newton",
      .prefixed n!"femtonewton" n!"femto" n!"newton",
      .prefixed n!"piconewton" n!"pico" n!"newton",
      .prefixed n!"nanonewton" n!"nano" n!"newton",
      .prefixed n!"micronewton" n!"micro" n!"newton",
      .prefixed n!"millinewton" n!"milli" n!"newton",
      .prefixed n!"centinewton" n!"centi" n!"newton",
      .prefixed n!"decinewton" n!"deci" n!"newton",
      .prefixed n!"decanewton" n!"deca" n!"newton",
      .prefixed n!"hectonewton" n!"hecto" n!"newton",
      .prefixed n!"kilonewton" n!"kilo" n!"newton",
      .prefixed n!"meganewton" n!"mega" n!"newton",
      .prefixed n!"giganewton" n!"giga" n!"newton",
      .prefixed n!"teranewton" n!"tera" n!"newton",
      .prefixed n!"petanewton" n!"peta" n!"newton",
      .prefixed n!"exanewton" n!"exa" n!"newton",
      .prefixed n!"zettanewton" n!"zetta" n!"newton",
      .prefixed n!"yottanewton" n!"yotta" n!"newton",
      .derivedInst n!"dim_force" n!"isq::dim_force" n!"newton" [n!"dim_mass", n!"dim_acceleration"],
      .quantityAlias n!"force" n!"dim_force"]),
    ([n!"units::isq::si::literals", n!"units::isq::si", n!"units::isq", n!"units", n!""], [
      .literal n!"_q_N" true n!"force" n!"newton",
      .literal n!"_q_N" false n!"force" n!"newton",
      .literal n!"_q_yN" true n!"force" n!"yoctonewton",
      .literal n!"_q_yN" false n!"force" n!"yoctonewton",
      .literal n!"_q_zN" true n!"force" n!"zeptonewton",
      .literal n!"_q_zN" false n!"force" n!"zeptonewton",
      .literal n!"_q_aN" true n!"force" n!"attonewton",
      .literal n!"_q_aN" false n!"force" n!"attonewton",
      .literal n!"_q_fN" true n!"force" n!"femtonewton",
      .literal n!"_q_fN" false n!"force" n!"femtonewton",
      .literal n!"_q_pN" true n!"force" n!"piconewton",
      .literal n!"_q_pN" false n!"force" n!"piconewton",
      .literal n!"_q_nN" true n!"force" n!"nanonewton",
      .literal n!"_q_nN" false n!"force" n!"nanonewton",
      .literal n!"_q_uN" true n!"force" n!"micronewton",
      .literal n!"_q_uN" false n!"force" n!"micronewton",
      .literal n!"_q_mN" true n!"force" n!"millinewton",
      .literal n!"_q_mN" false n!"force" n!"millinewton",
      .literal n!"_q_cN" true n!"force" n!"centinewton",
      .literal n!"_q_cN" false n!"force" n!"centinewton",
      .literal n!"_q_dN" true n!"force" n!"decinewton",
      .literal n!"_q_dN" false n!"force" n!"decinewton",
      .literal n!"_q_daN" true n!"force" n!"decanewton",
      .literal n!"_q_daN" false n!"force" n!"decanewton",
      .literal n!"_q_hN" true n!"force" n!"hectonewton",
      .literal n!"_q_hN" false n!"force" n!"hectonewton",
      .literal n!"_q_kN" true n!"force" n!"kilonewton",
      .literal n!"_q_kN" false n!"force" n!"kilonewton",
      .literal n!"_q_MN" true n!"force" n!"meganewton",
      .literal n!"_q_MN" false n!"force" n!"meganewton",
      .literal n!"_q_GN" true n!"force" n!"giganewton",
      .literal n!"_q_GN" false n!"force" n!"giganewton",
      .literal n!"_q_TN" true n!"force" n!"teranewton",
      .literal n!"_q_TN" false n!"force" n!"teranewton",
      .literal n!"_q_PN" true n!"force" n!"petanewton",
      .literal n!"_q_PN" false n!"force" n!"petanewton",
      .literal n!"_q_EN" true n!"force" n!"exanewton",
      .literal n!"_q_EN" false n!"force" n!"exanewton",
      .literal n!"_q_ZN" true n!"force" n!"zettanewton",
      .literal n!"_q_ZN" false n!"force" n!"zettanewton",
      .literal n!"_q_YN" true n!"force" n!"yottanewton",
      .literal n!"_q_YN" false n!"force" n!"yottanewton"]),
    ([n!"units::isq::si::force_references", n!"units::isq::si", n!"units::isq", n!"units", n!""], [
      .reference n!"N" n!"dim_force" n!"newton",
      .reference n!"yN" n!"dim_force" n!"yoctonewton",
      .reference n!"zN" n!"dim_force" n!"zeptonewton",
      .reference n!"aN" n!"dim_force" n!"attonewton",
      .reference n!"fN" n!"dim_force" n!"femtonewton",
      .reference n!"pN" n!"dim_force" n!"piconewton",
      .reference n!"nN" n!"dim_force" n!"nanonewton",
      .reference n!"uN" n!"dim_force" n!"micronewton",
      .reference n!"mN" n!"dim_force" n!"millinewton",
      .reference n!"cN" n!"dim_force" n!"centinewton",
      .reference n!"dN" n!"dim_force" n!"decinewton",
      .reference n!"daN" n!"dim_force" n!"decanewton",
      .reference n!"hN" n!"dim_force" n!"hectonewton",
      .reference n!"kN" n!"dim_force" n!"kilonewton",
      .reference n!"MN" n!"dim_force" n!"meganewton",
      .reference n!"GN" n!"dim_force" n!"giganewton",
      .reference n!"TN" n!"dim_force" n!"teranewton",
      .reference n!"PN" n!"dim_force" n!"petanewton",
      .reference n!"EN" n!"dim_force" n!"exanewton",
      .reference n!"ZN" n!"dim_force" n!"zettanewton",
      .reference n!"YN" n!"dim_force" n!"yottanewton"]),
    ([n!"units::aliases::isq::si::force", n!"units::aliases::isq::si", n!"units::aliases::isq", n!"units::aliases", n!"units", n!""], [
      .repAlias n!"N" n!"units::isq::si::force" n!"units::isq::si::newton",
      .repAlias n!"yN" n!"units::isq::si::force" n!"units::isq::si::yoctonewton",
      .repAlias n!"zN" n!"units::isq::si::force" n!"units::isq::si::zeptonewton",
      .repAlias n!"aN" n!"units::isq::si::force" n!"units::isq::si::attonewton",
      .repAlias n!"fN" n!"units::isq::si::force" n!"units::isq::si::femtonewton",
      .repAlias n!"pN" n!"units::isq::si::force" n!"units::isq::si::piconewton",
      .repAlias n!"nN" n!"units::isq::si::force" n!"units::isq::si::nanonewton",
      .repAlias n!"uN" n!"units::isq::si::force" n!"units::isq::si::micronewton",
      .repAlias n!"mN" n!"units::isq::si::force" n!"units::isq::si::millinewton",
      .repAlias n!"cN" n!"units::isq::si::force" n!"units::isq::si::centinewton",
      .repAlias n!"dN" n!"units::isq::si::force" n!"units::isq::si::decinewton",
      .repAlias n!"daN" n!"units::isq::si::force" n!"units::isq::si::decanewton",
      .repAlias n!"hN" n!"units::isq::si::force" n!"units::isq::si::hectonewton",
      .repAlias n!"kN" n!"units::isq::si::force" n!"units::isq::si::kilonewton",
      .repAlias n!"MN" n!"units::isq::si::force" n!"units::isq::si::meganewton",
      .repAlias n!"GN" n!"units::isq::si::force" n!"units::isq::si::giganewton",
      .repAlias n!"TN" n!"units::isq::si::force" n!"units::isq::si::teranewton",
      .repAlias n!"PN" n!"units::isq::si::force" n!"units::isq::si::petanewton",
      .repAlias n!"EN" n!"units::isq::si::force" n!"units::isq::si::exanewton",
      .repAlias n!"ZN" n!"units::isq::si::force" n!"units::isq::si::zettanewton",
      .repAlias n!"YN" n!"units::isq::si::force" n!"units::isq::si::yottanewton"])]

/-- src/systems/si/include/units/isq/si/energy.h:38-208. -/
def h_isq_si_energy : Header where
  path := n!"isq/si/energy.h"
  includes := [n!"isq/dimensions/energy.h", n!"generic/dimensionless.h", n!"isq/si/force.h", n!"isq/si/prefixes.h"]
  sections := [
    ([n!"units::isq::si", n!"units::isq", n!"units", n!""], [
      .named n!"joule" ⟨"J", "J"⟩ n!"prefix",
      .prefixed n!"yoctojoule" n!"yocto" n!"joule",
      .prefixed n!"zeptojoule" n!"zepto" n!"joule",
      .prefixed n!"attojoule" n!"atto" n!"joule",
      .prefixed n!"femtojoule" n!"femto" n!"joule",
      .prefixed n!"picojoule" n!"pico" n!"joule",
      .prefixed n!"nanojoule" n!"nano" n!"joule",
      .prefixed n!"microjoule" n!"micro" n!"joule",
      .prefixed n!"millijoule" n!"milli" n!"joule",
      .prefixed n!"kilojoule" n!"kilo" n!"joule",
      .prefixed n!"megajoule" n!"mega" n!"joule",
      .prefixed n!"gigajoule" n!"giga" n!"joule",
      .prefixed n!"terajoule" n!"tera" n!"joule",
      .prefixed n!"petajoule" n!"peta" n!"joule",
      .prefixed n!"exajoule" n!"exa" n!"joule",
      .prefixed n!"zettajoule" n!"zetta" n!"joule",
      .prefixed n!"yottajoule" n!"yotta" n!"joule",
      .namedScaled n!"electronvolt" ⟨"eV", "eV"⟩ n!"prefix" (1602176634) (1000000000) (-19) n!"joule",
      .prefixed n!"gigaelectronvolt" n!"giga" n!"electronvolt",
      .derivedInst n!"dim_energy" n!"isq::dim_energy" n!"joule" [n!"dim_force", n!"dim_length"],
      .quantityAlias n!"energy" n!"dim_energy"]),
    ([n!"units::isq::si::literals", n!"units::isq::si", n!"units::isq", n!"units", n!""], [
      .literal n!"_q_J" true n!"energy" n!"joule",
      .literal n!"_q_J" false n!"energy" n!"joule",
      .literal n!"_q_yJ" true n!"energy" n!"yoctojoule",
      .literal n!"_q_yJ" false n!"energy" n!"yoctojoule",
      .literal n!"_q_zJ" true n!"energy" n!"zeptojoule",
      .literal n!"_q_zJ" false n!"energy" n!"zeptojoule",
      .literal n!"_q_aJ" true n!"energy" n!"attojoule",
      .literal n!"_q_aJ" false n!"energy" n!"attojoule",
      .literal n!"_q_fJ" true n!"energy" n!"femtojoule",
      .literal n!"_q_fJ" false n!"energy" n!"femtojoule",
      .literal n!"_q_pJ" true n!"energy" n!"picojoule",
      .literal n!"_q_pJ" false n!"energy" n!"picojoule",
      .literal n!"_q_nJ" true n!"energy" n!"nanojoule",
      .literal n!"_q_nJ" false n!"energy" n!"nanojoule",
      .literal n!"_q_uJ" true n!"energy" n!"microjoule",
      .literal n!"_q_uJ" false n!"energy" n!"microjoule",
      .literal n!"_q_mJ" true n!"energy" n!"millijoule",
      .literal n!"_q_mJ" false n!"energy" n!"millijoule",
      .literal n!"_q_kJ" true n!"energy" n!"kilojoule",
      .literal n!"_q_kJ" false n!"energy" n!"kilojoule",
      .literal n!"_q_MJ" true n!"energy" n!"megajoule",
      .literal n!"_q_MJ" false n!"energy" n!"megajoule",
      .literal n!"_q_GJ" true n!"energy" n!"gigajoule",
      .literal n!"_q_GJ" false n!"energy" n!"gigajoule",
      .literal n!"_q_TJ" true n!"energy" n!"terajoule",
      .literal n!"_q_TJ" false n!"energy" n!"terajoule",
      .literal n!"_q_PJ" true n!"energy" n!"petajoule",
      .literal n!"_q_PJ" false n!"energy" n!"petajoule",
      .literal n!"_q_EJ" true n!"energy" n!"exajoule",
      .literal n!"_q_EJ" false n!"energy" n!"exajoule",
      .literal n!"_q_ZJ" true n!"energy" n!"zettajoule",
      .literal n!"_q_ZJ" false n!"energy" n!"zettajoule",
      .literal n!"_q_YJ" true n!"energy" n!"yottajoule",
      .literal n!"_q_YJ" false n!"energy" n!"yottajoule",
      .literal n!"_q_eV" true n!"energy" n!"electronvolt",
      .literal n!"_q_eV" false n!"energy" n!"electronvolt",
      .literal n!"_q_GeV" true n!"energy" n!"gigaelectronvolt",
      .literal n!"_q_GeV" false n!"energy" n!"gigaelectronvolt"]),
    ([n!"units::isq::si::energy_references", n!"units::isq::si", n!"units::isq", n!"units", n!""], [
      .reference n!"J" n!"dim_energy" n!"joule",
      .reference n!"yJ" n!"dim_energy" n!"yoctojoule",
      .reference n!"zJ" n!"dim_energy" n!"zeptojoule",
      .reference n!"aJ" n!"dim_energy" n!"attojoule",
      .reference n!"fJ" n!"dim_energy" n!"femtojoule",
      .reference n!"pJ" n!"dim_energy" n!"picojoule",
      .reference n!"nJ" n!"dim_energy" n!"nanojoule",
      .reference n!"uJ" n!"dim_energy" n!"microjoule",
      .reference n!"mJ" n!"dim_energy" n!"millijoule",
      .reference n!"kJ" n!"dim_energy" n!"kilojoule",
      .reference n!"MJ" n!"dim_energy" n!"megajoule",
      .reference n!"GJ" n!"dim_energy" n!"gigajoule",
      .reference n!"TJ" n!"dim_energy" n!"terajoule",
      .reference n!"PJ" n!"dim_energy" n!"petajoule",
      .reference n!"EJ" n!"dim_energy" n!"exajoule",
      .reference n!"ZJ" n!"dim_energy" n!"zettajoule",
      .reference n!"YJ" n!"dim_energy" n!"yottajoule",
      .reference n!"eV" n!"dim_energy" n!"electronvolt",
      .reference n!"GeV" n!"dim_energy" n!"gigaelectronvolt"]),
    ([n!"units::aliases::isq::si::energy", n!"units::aliases::isq::si", n!"units::aliases::isq", n!"units::aliases", n!"units", n!""], [
      .repAlias n!"J" n!"units::isq::si::energy" n!"units::isq::si::joule",
      .repAlias n!"yJ" n!"units::isq::si::energy" n!"units::isq::si::yoctojoule",
      .repAlias n!"zJ" n!"units::isq::si::energy" n!"units::isq::si::zeptojoule",
      .repAlias n!"aJ" n!"units::isq::si::energy" n!"units::isq::si::attojoule",
      .repAlias n!"fJ" n!"units::isq::si::energy" n!"units::isq::si::femtojoule",
      .repAlias n!"pJ" n!"units::isq::si::energy" n!"units::isq::si::picojoule",
      .repAlias n!"nJ" n!"units::isq::si::energy" n!"units::isq::si::nanojoule",
      .repAlias n!"uJ" n!"units::isq::si::energy" n!"units::isq::si::microjoule",
      .repAlias n!"mJ" n!"units::isq::si::energy" n!"units::isq::si::millijoule",
      .repAlias n!"kJ" n!"units::isq::si::energy" n!"units::isq::si::kilojoule",
      .repAlias n!"MJ" n!"units::isq::si::energy" n!"units::isq::si::megajoule",
      .repAlias n!"GJ" n!"units::isq::si::energy" n!"units::isq::si::gigajoule",
      .repAlias n!"TJ" n!"units::isq::si::energy" n!"units::isq::si::terajoule",
      .repAlias n!"PJ" n!"units::isq::si::energy" n!"units::isq::si::petajoule",
      .repAlias n!"EJ" n!"units::isq::si::energy" n!"units::isq::si::exajoule",
      .repAlias n!"ZJ" n!"units::isq::si::energy" n!"units::isq::si::zettajoule",
      .repAlias n!"YJ" n!"units::isq::si::energy" n!"units::isq::si::yottajoule",
      .repAlias n!"eV" n!"units::isq::si::energy" n!"units::isq::si::electronvolt",
      .repAlias n!"GeV" n!"units::isq::si::energy" n!"units::isq::si::gigaelectronvolt"])]

/-- src/systems/si/include/units/isq/si/absorbed_dose.h:38-219. -/
def h_isq_si_absorbed_dose : Header where
  path := n!"isq/si/absorbed_dose.h"
  includes := [n!"isq/dimensions/absorbed_dose.h", n!"generic/dimensionless.h", n!"isq/si/energy.h", n!"isq/si/prefixes.h"]
  sections := [
    ([n!"units::isq::si", n!"units::isq", n!"units", n!""], [
      .named n!"gray" ⟨"Gy", "Gy"⟩ n!"prefix",
      .prefixed n!"yoctogray" n!"yocto" n!"gray",
      .prefixed n!"zeptogray" n!"zepto" n!"gray",
      .prefixed n!"attogray" n!"atto" n!"gray",
      .prefixed n!"femtogray" n!"femto" n!"gray",
      .prefixed n!"picogray" n!"pico" n!"gray",
      .prefixed n!"nanogray" n!"nano" n!"gray",
      .prefixed n!"microgray" n!"micro" n!"gray",
      .prefixed n!"milligray" n!"milli" n!"gray",
      .prefixed n!"centigray" n!"centi" n!"gray",
      .prefixed n!"decigray" n!"deci" n!"gray",
      .prefixed n!"decagray" n!"deca" n!"gray",
      .prefixed n!"hectogray" n!"hecto" n!"gray",
      .prefixed n!"kilogray" n!"kilo" n!"gray",
      .prefixed n!"megagray" n!"mega" n!"gray",
      .prefixed n!"gigagray" n!"giga" n!"gray",
      .prefixed n!"teragray" n!"tera" n!"gray",
      .prefixed n!"petagray" n!"peta" n!"gray",
      .prefixed n!"exagray" n!"exa" n!"gray",
      .prefixed n!"zettagray" n!"zetta" n!"gray",
      .prefixed n!"yottagray" n!"yotta" n!"gray",
      .derivedInst n!"dim_absorbed_dose" n!"isq::dim_absorbed_dose" n!"gray" [n!"dim_energy", n!"dim_mass"],
      .quantityAlias n!"absorbed_dose" n!"dim_absorbed_dose"]),
    ([n!"units::isq::si::literals", n!"units::isq::si", n!"units::isq", n!"units", n!""], [
      .literal n!"_q_Gy" true n!"absorbed_dose" n!"gray",
      .literal n!"_q_Gy" false n!"absorbed_dose" n!"gray",
      .literal n!"_q_yGy" true n!"absorbed_dose" n!"yoctogray",
      .literal n!"_q_yGy" false n!"absorbed_dose" n!"yoctogray",
      .literal n!"_q_zGy" true n!"absorbed_dose" n!"zeptogray",
      .literal n!"_q_zGy" false n!"absorbed_dose" n!"zeptogray",
      .literal n!"_q_aGy" true n!"absorbed_dose" n!"attogray",
      .literal n!"_q_aGy" false n!"absorbed_dose" n!"attogray",
      .literal n!"_q_fGy" true n!"absorbed_dose" n!"femtogray",
      .literal n!"_q_fGy" false n!"absorbed_dose" n!"femtogray",
      .literal n!"_q_pGy" true n!"absorbed_dose" n!"picogray",
      .literal n!"_q_pGy" false n!"absorbed_dose" n!"picogray",
      .literal n!"_q_nGy" true n!"absorbed_dose" n!"nanogray",
      .literal n!"_q_nGy" false n!"absorbed_dose" n!"nanogray",
      .literal n!"_q_uGy" true n!"absorbed_dose" n!"microgray",
      .literal n!"_q_uGy" false n!"absorbed_dose" n!"microgray",
      .literal n!"_q_mGy" true n!"absorbed_dose" n!"milligray",
      .literal n!"_q_mGy" false n!"absorbed_dose" n!"milligray",
      .literal n!"_q_cGy" true n!"absorbed_dose" n!"centigray",
      .literal n!"_q_cGy" false n!"absorbed_dose" n!"centigray",
      .literal n!"_q_dGy" true n!"absorbed_dose" n!"decigray",
      .literal n!"_q_dGy" false n!"absorbed_dose" n!"decigray",
      .literal n!"_q_daGy" true n!"absorbed_dose" n!"decagray",
      .literal n!"_q_daGy" false n!"absorbed_dose" n!"decagray",
      .literal n!"_q_hGy" true n!"absorbed_dose" n!"hectogray",
      .literal n!"_q_hGy" false n!"absorbed_dose" n!"hectogray",
      .literal n!"_q_kGy" true n!"absorbed_dose" n!"kilogray",
      .literal n!"_q_kGy" false n!"absorbed_dose" n!"kilogray",
      .literal n!"_q_MGy" true n!"absorbed_dose" n!"megagray",
      .literal n!"_q_MGy" false n!"absorbed_dose" n!"megagray",
      .literal n!"_q_GGy" true n!"absorbed_dose" n!"gigagray",
      .literal n!"_q_GGy" false n!"absorbed_dose" n!"gigagray",
      .literal n!"_q_TGy" true n!"absorbed_dose" n!"teragray",
      .literal n!"_q_TGy" false n!"absorbed_dose" n!"teragray",
      .literal n!"_q_PGy" true n!"absorbed_dose" n!"petagray",
      .literal n!"_q_PGy" false n!"absorbed_dose" n!"petagray",
      .literal n!"_q_EGy" true n!"absorbed_dose" n!"exagray",
      .literal n!"_q_EGy" false n!"absorbed_dose" n!"exagray",
      .literal n!"_q_ZGy" true n!"absorbed_dose" n!"zettagray",
      .literal n!"_q_ZGy" false n!"absorbed_dose" n!"zettagray",
      .literal n!"_q_YGy" true n!"absorbed_dose" n!"yottagray",
      .literal n!"_q_YGy" false n!"absorbed_dose" n!"yottagray"]),
    ([n!"units::isq::si::absorbed_dose_references", n!"units::isq::si", n!"units::isq", n!"units", n!""], [
      .reference n!"Gy" n!"dim_absorbed_dose" n!"gray",
      .reference n!"yGy" n!"dim_absorbed_dose" n!"yoctogray",
      .reference n!"zGy" n!"dim_absorbed_dose" n!"zeptogray",
      .reference n!"aGy" n!"dim_absorbed_dose" n!"attogray",
      .reference n!"fGy" n!"dim_absorbed_dose" n!"femtogray",
      .reference n!"pGy" n!"dim_absorbed_dose" n!"picogray",
      .reference n!"nGy" n!"dim_absorbed_dose" n!"nanogray",
      .reference n!"uGy" n!"dim_absorbed_dose" n!"microgray",
      .reference n!"mGy" n!"dim_absorbed_dose" n!"milligray",
      .reference n!"cGy" n!"dim_absorbed_dose" n!"centigray",
      .reference n!"dGy" n!"dim_absorbed_dose" n!"decigray",
      .reference n!"daGy" n!"dim_absorbed_dose" n!"decagray",
      .reference n!"hGy" n!"dim_absorbed_dose" n!"hectogray",
      .reference n!"kGy" n!"dim_absorbed_dose" n!"kilogray",
      .reference n!"MGy" n!"dim_absorbed_dose" n!"megagray",
      .reference n!"GGy" n!"dim_absorbed_dose" n!"gigagray",
      .reference n!"TGy" n!"dim_absorbed_dose" n!"teragray",
      .reference n!"PGy" n!"dim_absorbed_dose" n!"petagray",
      .reference n!"EGy" n!"dim_absorbed_dose" n!"exagray",
      .reference n!"ZGy" n!"dim_absorbed_dose" n!"zettagray",
      .reference n!"YGy" n!"dim_absorbed_dose" n!"yottagray"]),
    ([n!"units::aliases::isq::si::absorbed_dose", n!"units::aliases::isq::si", n!"units::aliases::isq", n!"units::aliases", n!"units", n!""], [
      .repAlias n!"Gy" n!"units::isq::si::absorbed_dose" n!"units::isq::si::gray",
      .repAlias n!"yGy" n!"units::isq::si::absorbed_dose" n!"units::isq::si::yoctogray",
      .repAlias n!"zGy" n!"units::isq::si::absorbed_dose" n!"units::isq::si::zeptogray",
      .repAlias n!"aGy" n!"units::isq::si::absorbed_dose" n!"units::isq::si::attogray",
      .repAlias n!"fGy" n!"units::isq::si::absorbed_dose" n!"units::isq::si::femtogray",
      .repAlias n!"pGy" n!"units::isq::si::absorbed_dose" n!"units::isq::si::picogray",
      .repAlias n!"nGy" n!"units::isq::si::absorbed_dose" n!"units::isq::si::nanogray",
      .repAlias n!"uGy" n!"units::isq::si::absorbed_dose" n!"units::isq::si::microgray",
      .repAlias n!"mGy" n!"units::isq::si::absorbed_dose" n!"units::isq::si::milligray",
      .repAlias n!"cGy" n!"units::isq::si::absorbed_dose" n!"units::isq::si::centigray",
      .repAlias n!"dGy" n!"units::isq::si::absorbed_dose" n!"units::isq::si::decigray",
      .repAlias n!"daGy" n!"units::isq::si::absorbed_dose" n!"units::isq::si::decagray",
      .repAlias n!"hGy" n!"units::isq::si::absorbed_dose" n!"units::isq::si::hectogray",
      .repAlias n!"kGy" n!"units::isq::si::absorbed_dose" n!"units::isq::si::kilogray",
      .repAlias n!"MGy" n!"units::isq::si::absorbed_dose" n!"units::isq::si::megagray",
      .repAlias n!"GGy" n!"units::isq::si::absorbed_dose" n!"units::isq::si::gigagray",
      .repAlias n!"TGy" n!"units::isq::si::absorbed_dose" n!"units::isq::si::teragray",
      .repAlias n!"PGy" n!"units::isq::si::absorbed_dose" n!"units::isq::si::petagray",
      .repAlias n!"EGy" n!"units::isq::si::absorbed_dose" n!"units::isq::si::exagray",
      .repAlias n!"ZGy" n!"units::isq::si::absorbed_dose" n!"units::isq::si::zettagray",
      .repAlias n!"YGy" n!"units::isq::si::absorbed_dose" n!"units::isq::si::yottagray"])]

/-- src/systems/si/include/units/isq/si/amount_of_substance.h:37-78. -/
def h_isq_si_amount_of_substance : Header where
  path := n!"isq/si/amount_of_substance.h"
  includes := [n!"isq/dimensions/amount_of_substance.h", n!"generic/dimensionless.h", n!"isq/si/prefixes.h"]
  sections := [
    ([n!"units::isq::si", n!"units::isq", n!"units", n!""], [
      .named n!"mole" ⟨"mol", "mol"⟩ n!"prefix",
      .baseInst n!"dim_amount_of_substance" n!"isq::dim_amount_of_substance" n!"mole",
      .quantityAlias n!"amount_of_substance" n!"dim_amount_of_substance"]),
    ([n!"units::isq::si::literals", n!"units::isq::si", n!"units::isq", n!"units", n!""], [
      .literal n!"_q_mol" true n!"amount_of_substance" n!"mole",
      .literal n!"_q_mol" false n!"amount_of_substance" n!"mole"]),
    ([n!"units::isq::si::amount_of_substance_references", n!"units::isq::si", n!"units::isq", n!"units", n!""], [
      .reference n!"mol" n!"dim_amount_of_substance" n!"mole"]),
    ([n!"units::aliases::isq::si::amount_of_substance", n!"units::aliases::isq::si", n!"units::aliases::isq", n!"units::aliases", n!"units", n!""], [
      .repAlias n!"mol" n!"units::isq::si::amount_of_substance" n!"units::isq::si::mole"])]

/-- src/systems/si/include/units/isq/si/angular_velocity.h:37-62. -/
def h_isq_si_angular_velocity : Header where
  path := n!"isq/si/angular_velocity.h"
  includes := [n!"isq/dimensions/angular_velocity.h", n!"generic/dimensionless.h", n!"generic/angle.h", n!"isq/si/time.h"]
  sections := [
    ([n!"units::isq::si", n!"units::isq", n!"units", n!""], [
      .named n!"radian_per_second" ⟨"ω", "w"⟩ n!"no_prefix",
      .derivedInst n!"dim_angular_velocity" n!"isq::dim_angular_velocity" n!"radian_per_second" [n!"dim_angle<>", n!"dim_time"],
      .quantityAlias n!"angular_velocity" n!"dim_angular_velocity"]),
    ([n!"units::isq::si::literals", n!"units::isq::si", n!"units::isq", n!"units", n!""], [
      .literal n!"_q_rad_per_s" true n!"angular_velocity" n!"radian_per_second",
      .literal n!"_q_rad_per_s" false n!"angular_velocity" n!"radian_per_second"]),
    ([n!"units::aliases::isq::si::angular_velocity", n!"units::aliases::isq::si", n!"units::aliases::isq", n!"units::aliases", n!"units", n!""], [
      .repAlias n!"rad_per_s" n!"units::isq::si::angular_velocity" n!"units::isq::si::radian_per_second"])]

/-- src/systems/si/include/units/isq/si/area.h:37-228. -/
def h_isq_si_area : Header where
  path := n!"isq/si/area.h"
  includes := [n!"isq/dimensions/area.h", n!"generic/dimensionless.h", n!"isq/si/length.h"]
  sections := [
    ([n!"units::isq::si", n!"units::isq", n!"units", n!""], [
      .unit n!"square_metre",
      .derivedInst n!"dim_area" n!"isq::dim_area" n!"square_metre" [n!"dim_length"],
      .derived n!"square_yoctometre" n!"dim_area" [n!"yoctometre"],
      .derived n!"square_zeptometre" n!"dim_area" [n!"zeptometre"],
      .derived n!"square_attometre" n!"dim_area" [n!"attometre"],
      .derived n!"square_femtometre" n!"dim_area" [n!"femtometre"],
      .derived n!"square_picometre" n!"dim_area" [n!"picometre"],
      .derived n!"square_nanometre" n!"dim_area" [n!"nanometre"],
      .derived n!"square_micrometre" n!"dim_area" [n!"micrometre"],
      .derived n!"square_millimetre" n!"dim_area" [n!"millimetre"],
      .derived n!"square_centimetre" n!"dim_area" [n!"centimetre"],
      .derived n!"square_decimetre" n!"dim_area" [n!"decimetre"],
      .derived n!"square_decametre" n!"dim_area" [n!"decametre"],
      .derived n!"square_hectometre" n!"dim_area" [n!"hectometre"],
      .derived n!"square_kilometre" n!"dim_area" [n!"kilometre"],
      .derived n!"square_megametre" n!"dim_area" [n!"megametre"],
      .derived n!"square_gigametre" n!"dim_area" [n!"gigametre"],
      .derived n!"square_terametre" n!"dim_area" [n!"terametre"],
      .derived n!"square_petametre" n!"dim_area" [n!"petametre"],
      .derived n!"square_exametre" n!"dim_area" [n!"exametre"],
      .derived n!"square_zettametre" n!"dim_area" [n!"zettametre"],
      .derived n!"square_yottametre" n!"dim_area" [n!"yottametre"],
      .aliasOf n!"hectare" n!"square_hectometre" ⟨"ha", "ha"⟩ n!"no_prefix",
      .quantityAlias n!"area" n!"dim_area"]),
    ([n!"units::isq::si::literals", n!"units::isq::si", n!"units::isq", n!"units", n!""], [
      .literal n!"_q_m2" true n!"area" n!"square_metre",
      .literal n!"_q_m2" false n!"area" n!"square_metre",
      .literal n!"_q_ym2" true n!"area" n!"square_yoctometre",
      .literal n!"_q_ym2" false n!"area" n!"square_yoctometre",
      .literal n!"_q_zm2" true n!"area" n!"square_zeptometre",
      .literal n!"_q_zm2" false n!"area" n!"square_zeptometre",
      .literal n!"_q_am2" true n!"area" n!"square_attometre",
      .literal n!"_q_am2" false n!"area" n!"square_attometre",
      .literal n!"_q_fm2" true n!"area" n!"square_femtometre",
      .literal n!"_q_fm2" false n!"area" n!"square_femtometre",
      .literal n!"_q_pm2" true n!"area" n!"square_picometre",
      .literal n!"_q_pm2" false n!"area" n!"square_picometre",
      .literal n!"_q_nm2" true n!"area" n!"square_nanometre",
      .literal n!"_q_nm2" false n!"area" n!"square_nanometre",
      .literal n!"_q_um2" true n!"area" n!"square_micrometre",
      .literal n!"_q_um2" false n!"area" n!"square_micrometre",
      .literal n!"_q_mm2" true n!"area" n!"square_millimetre",
      .literal n!"_q_mm2" false n!"area" n!"square_millimetre",
      .literal n!"_q_cm2" true n!"area" n!"square_centimetre",
      .literal n!"_q_cm2" false n!"area" n!"square_centimetre",
      .literal n!"_q_dm2" true n!"area" n!"square_decimetre",
      .literal n!"_q_dm2" false n!"area" n!"square_decimetre",
      .literal n!"_q_dam2" true n!"area" n!"square_decametre",
      .literal n!"_q_dam2" false n!"area" n!"square_decametre",
      .literal n!"_q_hm2" true n!"area" n!"square_hectometre",
      .literal n!"_q_hm2" false n!"area" n!"square_hectometre",
      .literal n!"_q_km2" true n!"area" n!"square_kilometre",
      .literal n!"_q_km2" false n!"area" n!"square_kilometre",
      .literal n!"_q_Mm2" true n!"area" n!"square_megametre",
      .literal n!"_q_Mm2" false n!"area" n!"square_megametre",
      .literal n!"_q_Gm2" true n!"area" n!"square_gigametre",
      .literal n!"_q_Gm2" false n!"area" n!"square_gigametre",
      .literal n!"_q_Tm2" true n!"area" n!"square_terametre",
      .literal n!"_q_Tm2" false n!"area" n!"square_terametre",
      .literal n!"_q_Pm2" true n!"area" n!"square_petametre",
      .literal n!"_q_Pm2" false n!"area" n!"square_petametre",
      .literal n!"_q_Em2" true n!"area" n!"square_exametre",
      .literal n!"_q_Em2" false n!"area" n!"square_exametre",
      .literal n!"_q_Zm2" true n!"area" n!"square_zettametre",
      .literal n!"_q_Zm2" false n!"area" n!"square_zettametre",
      .literal n!"_q_Ym2" true n!"area" n!"square_yottametre",
      .literal n!"_q_Ym2" false n!"area" n!"square_yottametre",
      .literal n!"_q_ha" true n!"area" n!"hectare",
      .literal n!"_q_ha" false n!"area" n!"hectare"]),
    ([n!"units::isq::si::area_references", n!"units::isq::si", n!"units::isq", n!"units", n!""], [
      .reference n!"m2" n!"dim_area" n!"square_metre",
      .reference n!"ym2" n!"dim_area" n!"square_yoctometre",
      .reference n!"zm2" n!"dim_area" n!"square_zeptometre",
      .reference n!"am2" n!"dim_area" n!"square_attometre",
      .reference n!"fm2" n!"dim_area" n!"square_femtometre",
      .reference n!"pm2" n!"dim_area" n!"square_picometre",
      .reference n!"nm2" n!"dim_area" n!"square_nanometre",
      .reference n!"um2" n!"dim_area" n!"square_micrometre",
      .reference n!"mm2" n!"dim_area" n!"square_millimetre",
      .reference n!"cm2" n!"dim_area" n!"square_centimetre",
      .reference n!"dm2" n!"dim_area" n!"square_decimetre",
      .reference n!"dam2" n!"dim_area" n!"square_decametre",
      .reference n!"hm2" n!"dim_area" n!"square_hectometre",
      .reference n!"km2" n!"dim_area" n!"square_kilometre",
      .reference n!"Mm2" n!"dim_area" n!"square_megametre",
      .reference n!"Gm2" n!"dim_area" n!"square_gigametre",
      .reference n!"Tm2" n!"dim_area" n!"square_terametre",
      .reference n!"Pm2" n!"dim_area" n!"square_petametre",
      .reference n!"Em2" n!"dim_area" n!"square_exametre",
      .reference n!"Zm2" n!"dim_area" n!"square_zettametre",
      .reference n!"Ym2" n!"dim_area" n!"square_yottametre",
      .reference n!"ha" n!"dim_area" n!"hectare"]),
    ([n!"units::aliases::isq::si::area", n!"units::aliases::isq::si", n!"units::aliases::isq", n!"units::aliases", n!"units", n!""], [
      .repAlias n!"m2" n!"units::isq::si::area" n!"units::isq::si::square_metre",
      .repAlias n!"ym2" n!"units::isq::si::area" n!"units::isq::si::square_yoctometre",
      .repAlias n!"zm2" n!"units::isq::si::area" n!"units::isq::si::square_zeptometre",
      .repAlias n!"am2" n!"units::isq::si::area" n!"units::isq::si::square_attometre",
      .repAlias n!"fm2" n!"units::isq::si::area" n!"units::isq::si::square_femtometre",
      .repAlias n!"pm2" n!"units::isq::si::area" n!"units::isq::si::square_picometre",
      .repAlias n!"nm2" n!"units::isq::si::area" n!"units::isq::si::square_nanometre",
      .repAlias n!"um2" n!"units::isq::si::area" n!"units::isq::si::square_micrometre",
      .repAlias n!"mm2" n!"units::isq::si::area" n!"units::isq::si::square_millimetre",
      .repAlias n!"cm2" n!"units::isq::si::area" n!"units::isq::si::square_centimetre",
      .repAlias n!"dm2" n!"units::isq::si::area" n!"units::isq::si::square_decimetre",
      .repAlias n!"dam2" n!"units::isq::si::area" n!"units::isq::si::square_decametre",
      .repAlias n!"hm2" n!"units::isq::si::area" n!"units::isq::si::square_hectometre",
      .repAlias n!"km2" n!"units::isq::si::area" n!"units::isq::si::square_kilometre",
      .repAlias n!"Mm2" n!"units::isq::si::area" n!"units::isq::si::square_megametre",
      .repAlias n!"Gm2" n!"units::isq::si::area" n!"units::isq::si::square_gigametre",
      .repAlias n!"Tm2" n!"units::isq::si::area" n!"units::isq::si::square_terametre",
      .repAlias n!"Pm2" n!"units::isq::si::area" n!"units::isq::si::square_petametre",
      .repAlias n!"Em2" n!"units::isq::si::area" n!"units::isq::si::square_exametre",
      .repAlias n!"Zm2" n!"units::isq::si::area" n!"units::isq::si::square_zettametre",
      .repAlias n!"Ym2" n!"units::isq::si::area" n!"units::isq::si::square_yottametre",
      .repAlias n!"ha" n!"units::isq::si::area" n!"units::isq::si::hectare"])]

/-- src/systems/si/include/units/isq/si/electric_current.h:37-218. -/
def h_isq_si_electric_current : Header where
  path := n!"isq/si/electric_current.h"
  includes := [n!"isq/dimensions/electric_current.h", n!"generic/dimensionless.h", n!"isq/si/prefixes.h"]
  sections := [
    ([n!"units::isq::si", n!"units::isq", n!"units", n!""], [
      .named n!"ampere" ⟨"A", "A"⟩ n!"prefix",
      .prefixed n!"yoctoampere" n!"yocto" n!"ampere",
      .prefixed n!"zeptoampere" n!"zepto" n!"ampere",
      .prefixed n!"attoampere" n!"atto" n!"ampere",
      .prefixed n!"femtoampere" n!"femto" n!"ampere",
      .prefixed n!"picoampere" n!"pico" n!"ampere",
      .prefixed n!"nanoampere" n!"nano" n!"ampere",
      .prefixed n!"microampere" n!"micro" n!"ampere",
      .prefixed n!"milliampere" n!"milli" n!"ampere",
      .prefixed n!"centiampere" n!"centi" n!"ampere",
      .prefixed n!"deciampere" n!"deci" n!"ampere",
      .prefixed n!"decaampere" n!"deca" n!"ampere",
      .prefixed n!"hectoampere" n!"hecto" n!"ampere",
      .prefixed n!"kiloampere" n!"kilo" n!"ampere",
      .prefixed n!"megaampere" n!"mega" n!"ampere",
      .prefixed n!"gigaampere" n!"giga" n!"ampere",
      .prefixed n!"teraampere" n!"tera" n!"ampere",
      .prefixed n!"petaampere" n!"peta" n!"ampere",
      .prefixed n!"exaampere" n!"exa" n!"ampere",
      .prefixed n!"zettaampere" n!"zetta" n!"ampere",
      .prefixed n!"yottaampere" n!"yotta" n!"ampere",
      .baseInst n!"dim_electric_current" n!"isq::dim_electric_current" n!"ampere",
      .quantityAlias n!"electric_current" n!"dim_electric_current"]),
    ([n!"units::isq::si::literals", n!"units::isq::si", n!"units::isq", n!"units", n!""], [
      .literal n!"_q_A" true n!"electric_current" n!"ampere",
      .literal n!"_q_A" false n!"electric_current" n!"ampere",
      .literal n!"_q_yA" true n!"electric_current" n!"yoctoampere",
      .literal n!"_q_yA" false n!"electric_current" n!"yoctoampere",
      .literal n!"_q_zA" true n!"electric_current" n!"zeptoampere",
      .literal n!"_q_zA" false n!"electric_current" n!"zeptoampere",
      .literal n!"_q_aA" true n!"electric_current" n!"attoampere",
      .literal n!"_q_aA" false n!"electric_current" n!"attoampere",
      .literal n!"_q_fA" true n!"electric_current" n!"femtoampere",
      .literal n!"_q_fA" false n!"electric_current" n!"femtoampere",
      .literal n!"_q_pA" true n!"electric_current" n!"picoampere",
      .literal n!"_q_pA" false n!"electric_current" n!"picoampere",
      .literal n!"_q_nA" true n!"electric_current" n!"nanoampere",
      .literal n!"_q_nA" false n!"electric_current" n!"nanoampere",
      .literal n!"_q_uA" true n!"electric_current" n!"microampere",
      .literal n!"_q_uA" false n!"electric_current" n!"microampere",
      .literal n!"_q_mA" true n!"electric_current" n!"milliampere",
      .literal n!"_q_mA" false n!"electric_current" n!"milliampere",
      .literal n!"_q_cA" true n!"electric_current" n!"centiampere",
      .literal n!"_q_cA" false n!"electric_current" n!"centiampere",
      .literal n!"_q_dA" true n!"electric_current" n!"deciampere",
      .literal n!"_q_dA" false n!"electric_current" n!"deciampere",
      .literal n!"_q_daA" true n!"electric_current" n!"decaampere",
      .literal n!"_q_daA" false n!"electric_current" n!"decaampere",
      .literal n!"_q_hA" true n!"electric_current" n!"hectoampere",
      .literal n!"_q_hA" false n!"electric_current" n!"hectoampere",
      .literal n!"_q_kA" true n!"electric_current" n!"kiloampere",
      .literal n!"_q_kA" false n!"electric_current" n!"kiloampere",
      .literal n!"_q_MA" true n!"electric_current" n!"megaampere",
      .literal n!"_q_MA" false n!"electric_current" n!"megaampere",
      .literal n!"_q_GA" true n!"electric_current" n!"gigaampere",
      .literal n!"_q_GA" false n!"electric_current" n!"gigaampere",
      .literal n!"_q_TA" true n!"electric_current" n!"teraampere",
      .literal n!"_q_TA" false n!"electric_current" n!"teraampere",
      .literal n!"_q_PA" true n!"electric_current" n!"petaampere",
      .literal n!"_q_PA" false n!"electric_current" n!"petaampere",
      .literal n!"_q_EA" true n!"electric_current" n!"exaampere",
      .literal n!"_q_EA" false n!"electric_current" n!"exaampere",
      .literal n!"_q_ZA" true n!"electric_current" n!"zettaampere",
      .literal n!"_q_ZA" false n!"electric_current" n!"zettaampere",
      .literal n!"_q_YA" true n!"electric_current" n!"yottaampere",
      .literal n!"_q_YA" false n!"electric_current" n!"yottaampere"]),
    ([n!"units::isq::si::electric_current_references", n!"units::isq::si", n!"units::isq", n!"units", n!""], [
      .reference n!"A" n!"dim_electric_current" n!"ampere",
      .reference n!"yA" n!"dim_electric_current" n!"yoctoampere",
      .reference n!"zA" n!"dim_electric_current" n!"zeptoampere",
      .reference n!"aA" n!"dim_electric_current" n!"attoampere",
      .reference n!"fA" n!"dim_electric_current" n!"femtoampere",
      .reference n!"pA" n!"dim_electric_current" n!"picoampere",
      .reference n!"nA" n!"dim_electric_current" n!"nanoampere",
      .reference n!"uA" n!"dim_electric_current" n!"microampere",
      .reference n!"mA" n!"dim_electric_current" n!"milliampere",
      .reference n!"cA" n!"dim_electric_current" n!"centiampere",
      .reference n!"dA" n!"dim_electric_current" n!"deciampere",
      .reference n!"daA" n!"dim_electric_current" n!"decaampere",
      .reference n!"hA" n!"dim_electric_current" n!"hectoampere",
      .reference n!"kA" n!"dim_electric_current" n!"kiloampere",
      .reference n!"MA" n!"dim_electric_current" n!"megaampere",
      .reference n!"GA" n!"dim_electric_current" n!"gigaampere",
      .reference n!"TA" n!"dim_electric_current" n!"teraampere",
      .reference n!"PA" n!"dim_electric_current" n!"petaampere",
      .reference n!"EA" n!"dim_electric_current" n!"exaampere",
      .reference n!"ZA" n!"dim_electric_current" n!"zettaampere",
      .reference n!"YA" n!"dim_electric_current" n!"yottaampere"]),
    ([n!"units::aliases::isq::si::electric_current", n!"units::aliases::isq::si", n!"units::aliases::isq", n!"units::aliases", n!"units", n!""], [
      .repAlias n!"A" n!"units::isq::si::electric_current" n!"units::isq::si::ampere",
      .repAlias n!"yA" n!"units::isq::si::electric_current" n!"units::isq::si::yoctoampere",
      .repAlias n!"zA" n!"units::isq::si::electric_current" n!"units::isq::si::zeptoampere",
      .repAlias n!"aA" n!"units::isq::si::electric_current" n!"units::isq::si::attoampere",
      .repAlias n!"fA" n!"units::isq::si::electric_current" n!"units::isq::si::femtoampere",
      .repAlias n!"pA" n!"units::isq::si::electric_current" n!"units::isq::si::picoampere",
      .repAlias n!"nA" n!"units::isq::si::electric_current" n!"units::isq::si::nanoampere",
      .repAlias n!"uA" n!"units::isq::si::electric_current" n!"units::isq::si::microampere",
      .repAlias n!"mA" n!"units::isq::si::electric_current" n!"units::isq::si::milliampere",
      .repAlias n!"cA" n!"units::isq::si::electric_current" n!"units::isq::si::centiampere",
      .repAlias n!"dA" n!"units::isq::si::electric_current" n!"units::isq::si::deciampere",
      .repAlias n!"daA" n!"units::isq::si::electric_current" n!"units::isq::si::decaampere",
      .repAlias n!"hA" n!"units::isq::si::electric_current" n!"units::isq::si::hectoampere",
      .repAlias n!"kA" n!"units::isq::si::electric_current" n!"units::isq::si::kiloampere",
      .repAlias n!"MA" n!"units::isq::si::electric_current" n!"units::isq::si::megaampere",
      .repAlias n!"GA" n!"units::isq::si::electric_current" n!"units::isq::si::gigaampere",
      .repAlias n!"TA" n!"units::isq::si::electric_current" n!"units::isq::si::teraampere",
      .repAlias n!"PA" n!"units::isq::si::electric_current" n!"units::isq::si::petaampere",
      .repAlias n!"EA" n!"units::isq::si::electric_current" n!"units::isq::si::exaampere",
      .repAlias n!"ZA" n!"units::isq::si::electric_current" n!"units::isq::si::zettaampere",
      .repAlias n!"YA" n!"units::isq::si::electric_current" n!"units::isq::si::yottaampere"])]

/-- src/systems/si/include/units/isq/si/electric_charge.h:38-79. -/
def h_isq_si_electric_charge : Header where
  path := n!"isq/si/electric_charge.h"
  includes := [n!"isq/dimensions/electric_charge.h", n!"generic/dimensionless.h", n!"isq/si/electric_current.h", n!"isq/si/time.h"]
  sections := [
    ([n!"units::isq::si", n!"units::isq", n!"units", n!""], [
      .named n!"coulomb" ⟨"C", "C"⟩ n!"prefix",
      .derivedInst n!"dim_electric_charge" n!"isq::dim_electric_charge" n!"coulomb" [n!"dim_time", n!"dim_electric_current"],
      .quantityAlias n!"electric_charge" n!"dim_electric_charge"]),
    ([n!"units::isq::si::literals", n!"units::isq::si", n!"units::isq", n!"units", n!""], [
      .literal n!"_q_C" true n!"electric_charge" n!"coulomb",
      .literal n!"_q_C" false n!"electric_charge" n!"coulomb"]),
    ([n!"units::isq::si::electric_charge_references", n!"units::isq::si", n!"units::isq", n!"units", n!""], [
      .reference n!"C" n!"dim_electric_charge" n!"coulomb"]),
    ([n!"units::aliases::isq::si::electric_charge", n!"units::aliases::isq::si", n!"units::aliases::isq", n!"units::aliases", n!"units", n!""], [
      .repAlias n!"C" n!"units::isq::si::electric_charge" n!"units::isq::si::coulomb"])]

/-- src/systems/si/include/units/isq/si/power.h:38-191. -/
def h_isq_si_power : Header where
  path := n!"isq/si/power.h"
  includes := [n!"isq/dimensions/power.h", n!"generic/dimensionless.h", n!"isq/si/energy.h", n!"isq/si/prefixes.h"]
  sections := [
    ([n!"units::isq::si", n!"units::isq", n!"units", n!""], [
      .named n!"watt" ⟨"W", "W"⟩ n!"prefix",
      .prefixed n!"yoctowatt" n!"yocto" n!"watt",
      .prefixed n!"zeptowatt" n!"zepto" n!"watt",
      .prefixed n!"attowatt" n!"atto" n!"watt",
      .prefixed n!"femtowatt" n!"femto" n!"watt",
      .prefixed n!"picowatt" n!"pico" n!"watt",
      .prefixed n!"nanowatt" n!"nano" n!"watt",
      .prefixed n!"microwatt" n!"micro" n!"watt",
      .prefixed n!"milliwatt" n!"milli" n!"watt",
      .prefixed n!"kilowatt" n!"kilo" n!"watt",
      .prefixed n!"megawatt" n!"mega" n!"watt",
      .prefixed n!"gigawatt" n!"giga" n!"watt",
      .prefixed n!"terawatt" n!"tera" n!"watt",
      .prefixed n!"petawatt" n!"peta" n!"watt",
      .prefixed n!"exawatt" n!"exa" n!"watt",
      .prefixed n!"zettawatt" n!"zetta" n!"watt",
      .prefixed n!"yottawatt" n!"yotta" n!"watt",
      .derivedInst n!"dim_power" n!"isq::dim_power" n!"watt" [n!"dim_energy", n!"dim_time"],
      .quantityAlias n!"power" n!"dim_power"]),
    ([n!"units::isq::si::literals", n!"units::isq::si", n!"units::isq", n!"units", n!""], [
      .literal n!"_q_W" true n!"power" n!"watt",
      .literal n!"_q_W" false n!"power" n!"watt",
      .literal n!"_q_yW" true n!"power" n!"yoctowatt",
      .literal n!"_q_yW" false n!"power" n!"yoctowatt",
      .literal n!"_q_zW" true n!"power" n!"zeptowatt",
      .literal n!"_q_zW" false n!"power" n!"zeptowatt",
      .literal n!"_q_aW" true n!"power" n!"attowatt",
      .literal n!"_q_aW" false n!"power" n!"attowatt",
      .literal n!"_q_fW" true n!"power" n!"femtowatt",
      .literal n!"_q_fW" false n!"power" n!"femtowatt",
      .literal n!"_q_pW" true n!"power" n!"picowatt",
      .literal n!"_q_pW" false n!"power" n!"picowatt",
      .literal n!"_q_nW" true n!"power" n!"nanowatt",
      .literal n!"_q_nW" false n!"power" n!"nanowatt",
      .literal n!"_q_uW" true n!"power" n!"microwatt",
      .literal n!"_q_uW" false n!"power" n!"microwatt",
      .literal n!"_q_mW" true n!"power" n!"milliwatt",
      .literal n!"_q_mW" false n!"power" n!"milliwatt",
      .literal n!"_q_kW" true n!"power" n!"kilowatt",
      .literal n!"_q_kW" false n!"power" n!"kilowatt",
      .literal n!"_q_MW" true n!"power" n!"megawatt",
      .literal n!"_q_MW" false n!"power" n!"megawatt",
      .literal n!"_q_GW" true n!"power" n!"gigawatt",
      .literal n!"_q_GW" false n!"power" n!"gigawatt",
      .literal n!"_q_TW" true n!"power" n!"terawatt",
      .literal n!"_q_TW" false n!"power" n!"terawatt",
      .literal n!"_q_PW" true n!"power" n!"petawatt",
      .literal n!"_q_PW" false n!"power" n!"petawatt",
      .literal n!"_q_EW" true n!"power" n!"exawatt",
      .literal n!"_q_EW" false n!"power" n!"exawatt",
      .literal n!"_q_ZW" true n!"power" n!"zettawatt",
      .literal n!"_q_ZW" false n!"power" n!"zettawatt",
      .literal n!"_q_YW" true n!"power" n!"yottawatt",
      .literal n!"_q_YW" false n!"power" n!"yottawatt"]),
    ([n!"units::isq::si::power_references", n!"units::isq::si", n!"units::isq", n!"units", n!""], [
      .reference n!"W" n!"dim_power" n!"watt",
      .reference n!"yW" n!"dim_power" n!"yoctowatt",
      .reference n!"zW" n!"dim_power" n!"zeptowatt",
      .reference n!"aW" n!"dim_power" n!"attowatt",
      .reference n!"fW" n!"dim_power" n!"femtowatt",
      .reference n!"pW" n!"dim_power" n!"picowatt",
      .reference n!"nW" n!"dim_power" n!"nanowatt",
      .reference n!"uW" n!"dim_power" n!"microwatt",
      .reference n!"mW" n!"dim_power" n!"milliwatt",
      .reference n!"kW" n!"dim_power" n!"kilowatt",
      .reference n!"MW" n!"dim_power" n!"megawatt",
      .reference n!"GW" n!"dim_power" n!"gigawatt",
      .reference n!"TW" n!"dim_power" n!"terawatt",
      .reference n!"PW" n!"dim_power" n!"petawatt",
      .reference n!"EW" n!"dim_power" n!"exawatt",
      .reference n!"ZW" n!"dim_power" n!"zettawatt",
      .reference n!"YW" n!"dim_power" n!"yottawatt"]),
    ([n!"units::aliases::isq::si::power", n!"units::aliases::isq::si", n!"units::aliases::isq", n!"units::aliases", n!"units", n!""], [
      .repAlias n!"W" n!"units::isq::si::power" n!"units::isq::si::watt",
      .repAlias n!"yW" n!"units::isq::si::power" n!"units::isq::si::yoctowatt",
      .repAlias n!"zW" n!"units::isq::si::power" n!"units::isq::si::zeptowatt",
      .repAlias n!"aW" n!"units::isq::si::power" n!"units::isq::si::attowatt",
      .repAlias n!"fW" n!"units::isq::si::power" n!"units::isq::si::femtowatt",
      .repAlias n!"pW" n!"units::isq::si::power" n!"units::isq::si::picowatt",
      .repAlias n!"nW" n!"units::isq::si::power" n!"units::isq::si::nanowatt",
      .repAlias n!"uW" n!"units::isq::si::power" n!"units::isq::si::microwatt",
      .repAlias n!"mW" n!"units::isq::si::power" n!"units::isq::si::milliwatt",
      .repAlias n!"kW" n!"units::isq::si::power" n!"units::isq::si::kilowatt",
      .repAlias n!"MW" n!"units::isq::si::power" n!"units::isq::si::megawatt",
      .repAlias n!"GW" n!"units::isq::si::power" n!"units::isq::si::gigawatt",
      .repAlias n!"TW" n!"units::isq::si::power" n!"units::isq::si::terawatt",
      .repAlias n!"PW" n!"units::isq::si::power" n!"units::isq::si::petawatt",
      .repAlias n!"EW" n!"units::isq::si::power" n!"units::isq::si::exawatt",
      .repAlias n!"ZW" n!"units::isq::si::power" n!"units::isq::si::zettawatt",
      .repAlias n!"YW" n!"units::isq::si::power" n!"units::isq::si::yottawatt"])]

/-- src/systems/si/include/units/isq/si/voltage.h:39-220. -/
def h_isq_si_voltage : Header where
  path := n!"isq/si/voltage.h"
  includes := [n!"isq/dimensions/voltage.h", n!"generic/dimensionless.h", n!"isq/si/electric_current.h", n!"isq/si/power.h", n!"isq/si/prefixes.h"]
  sections := [
    ([n!"units::isq::si", n!"units::isq", n!"units", n!""], [
      .named n!"volt" ⟨"V", "V"⟩ n!"prefix",
      .prefixed n!"yoctovolt" n!"yocto" n!"volt",
      .prefixed n!"zeptovolt" n!"zepto" n!"volt",
      .prefixed n!"attovolt" n!"atto" n!"volt",
      .prefixed n!"femtovolt" n!"femto" n!"volt",
      .prefixed n!"picovolt" n!"pico" n!"volt",
      .prefixed n!"nanovolt" n!"nano" n!"volt",
      .prefixed n!"microvolt" n!"micro" n!"volt",
      .prefixed n!"millivolt" n!"milli" n!"volt",
      .prefixed n!"centivolt" n!"centi" n!"volt",
      .prefixed n!"decivolt" n!"deci" n!"volt",
      .prefixed n!"decavolt" n!"deca" n!"volt",
      .prefixed n!"hectovolt" n!"hecto" n!"volt",
      .prefixed n!"kilovolt" n!"kilo" n!"volt",
      .prefixed n!"megavolt" n!"mega" n!"volt",
      .prefixed n!"gigavolt" n!"giga" n!"volt",
      .prefixed n!"teravolt" n!"tera" n!"volt",
      .prefixed n!"petavolt" n!"peta" n!"volt",
      .prefixed n!"exavolt" n!"exa" n!"volt",
      .prefixed n!"zettavolt" n!"zetta" n!"volt",
      .prefixed n!"yottavolt" n!"yotta" n!"volt",
      .derivedInst n!"dim_voltage" n!"isq::dim_voltage" n!"volt" [n!"dim_power", n!"dim_electric_current"],
      .quantityAlias n!"voltage" n!"dim_voltage"]),
    ([n!"units::isq::si::literals", n!"units::isq::si", n!"units::isq", n!"units", n!""], [
      .literal n!"_q_V" true n!"voltage" n!"volt",
      .literal n!"_q_V" false n!"voltage" n!"volt",
      .literal n!"_q_yV" true n!"voltage" n!"yoctovolt",
      .literal n!"_q_yV" false n!"voltage" n!"yoctovolt",
      .literal n!"_q_zV" true n!"voltage" n!"zeptovolt",
      .literal n!"_q_zV" false n!"voltage" n!"zeptovolt",
      .literal n!"_q_aV" true n!"voltage" n!"attovolt",
      .literal n!"_q_aV" false n!"voltage" n!"attovolt",
      .literal n!"_q_fV" true n!"voltage" n!"femtovolt",
      .literal n!"_q_fV" false n!"voltage" n!"femtovolt",
      .literal n!"_q_pV" true n!"voltage" n!"picovolt",
      .literal n!"_q_pV" false n!"voltage" n!"picovolt",
      .literal n!"_q_nV" true n!"voltage" n!"nanovolt",
      .literal n!"_q_nV" false n!"voltage" n!"nanovolt",
      .literal n!"_q_uV" true n!"voltage" n!"microvolt",
      .literal n!"_q_uV" false n!"voltage" n!"microvolt",
      .literal n!"_q_mV" true n!"voltage" n!"millivolt",
      .literal n!"_q_mV" false n!"voltage" n!"millivolt",
      .literal n!"_q_cV" true n!"voltage" n!"centivolt",
      .literal n!"_q_cV" false n!"voltage" n!"centivolt",
      .literal n!"_q_dV" true n!"voltage" n!"decivolt",
      .literal n!"_q_dV" false n!"voltage" n!"decivolt",
      .literal n!"_q_daV" true n!"voltage" n!"decavolt",
      .literal n!"_q_daV" false n!"voltage" n!"decavolt",
      .literal n!"_q_hV" true n!"voltage" n!"hectovolt",
      .literal n!"_q_hV" false n!"voltage" n!"hectovolt",
      .literal n!"_q_kV" true n!"voltage" n!"kilovolt",
      .literal n!"_q_kV" false n!"voltage" n!"kilovolt",
      .literal n!"_q_MV" true n!"voltage" n!"megavolt",
      .literal n!"_q_MV" false n!"voltage" n!"megavolt",
      .literal n!"_q_GV" true n!"voltage" n!"gigavolt",
      .literal n!"_q_GV" false n!"voltage" n!"gigavolt",
      .literal n!"_q_TV" true n!"voltage" n!"teravolt",
      .literal n!"_q_TV" false n!"voltage" n!"teravolt",
      .literal n!"_q_PV" true n!"voltage" n!"petavolt",
      .literal n!"_q_PV" false n!"voltage" n!"petavolt",
      .literal n!"_q_EV" true n!"voltage" n!"exavolt",
      .literal n!"_q_EV" false n!"voltage" n!"exavolt",
      .literal n!"_q_ZV" true n!"voltage" n!"zettavolt",
      .literal n!"_q_ZV" false n!"voltage" n!"zettavolt",
      .literal n!"_q_YV" true n!"voltage" n!"yottavolt",
      .literal n!"_q_YV" false n!"voltage" n!"yottavolt"]),
    ([n!"units::isq::si::voltage_references", n!"units::isq::si", n!"units::isq", n!"units", n!""], [
      .reference n!"V" n!"dim_voltage" n!"volt",
      .reference n!"yV" n!"dim_voltage" n!"yoctovolt",
      .reference n!"zV" n!"dim_voltage" n!"zeptovolt",
      .reference n!"aV" n!"dim_voltage" n!"attovolt",
      .reference n!"fV" n!"dim_voltage" n!"femtovolt",
      .reference n!"pV" n!"dim_voltage" n!"picovolt",
      .reference n!"nV" n!"dim_voltage" n!"nanovolt",
      .reference n!"uV" n!"dim_voltage" n!"microvolt",
      .reference n!"mV" n!"dim_voltage" n!"millivolt",
      .reference n!"cV" n!"dim_voltage" n!"centivolt",
      .reference n!"dV" n!"dim_voltage" n!"decivolt",
      .reference n!"daV" n!"dim_voltage" n!"decavolt",
      .reference n!"hV" n!"dim_voltage" n!"hectovolt",
      .reference n!"kV" n!"dim_voltage" n!"kilovolt",
      .reference n!"MV" n!"dim_voltage" n!"megavolt",
      .reference n!"GV" n!"dim_voltage" n!"gigavolt",
      .reference n!"TV" n!"dim_voltage" n!"teravolt",
      .reference n!"PV" n!"dim_voltage" n!"petavolt",
      .reference n!"EV" n!"dim_voltage" n!"exavolt",
      .reference n!"ZV" n!"dim_voltage" n!"zettavolt",
      .reference n!"YV" n!"dim_voltage" n!"yottavolt"]),
    ([n!"units::aliases::isq::si::voltage", n!"units::aliases::isq::si", n!"units::aliases::isq", n!"units::aliases", n!"units", n!""], [
      .repAlias n!"V" n!"units::isq::si::voltage" n!"units::isq::si::volt",
      .repAlias n!"yV" n!"units::isq::si::voltage" n!"units::isq::si::yoctovolt",
      .repAlias n!"zV" n!"units::isq::si::voltage" n!"units::isq::si::zeptovolt",
      .repAlias n!"aV" n!"units::isq::si::voltage" n!"units::isq::si::attovolt",
      .repAlias n!"fV" n!"units::isq::si::voltage" n!"units::isq::si::femtovolt",
      .repAlias n!"pV" n!"units::isq::si::voltage" n!"units::isq::si::picovolt",
      .repAlias n!"nV" n!"units::isq::si::voltage" n!"units::isq::si::nanovolt",
      .repAlias n!"uV" n!"units::isq::si::voltage" n!"units::isq::si::microvolt",
      .repAlias n!"mV" n!"units::isq::si::voltage" n!"units::isq::si::millivolt",
      .repAlias n!"cV" n!"units::isq::si::voltage" n!"units::isq::si::centivolt",
      .repAlias n!"dV" n!"units::isq::si::voltage" n!"units::isq::si::decivolt",
      .repAlias n!"daV" n!"units::isq::si::voltage" n!"units::isq::si::decavolt",
      .repAlias n!"hV" n!"units::isq::si::voltage" n!"units::isq::si::hectovolt",
      .repAlias n!"kV" n!"units::isq::si::voltage" n!"units::isq::si::kilovolt",
      .repAlias n!"MV" n!"units::isq::si::voltage" n!"units::isq::si::megavolt",
      .repAlias n!"GV" n!"units::isq::si::voltage" n!"units::isq::si::gigavolt",
      .repAlias n!"TV" n!"units::isq::si::voltage" n!"units::isq::si::teravolt",
      .repAlias n!"PV" n!"units::isq::si::voltage" n!"units::isq::si::petavolt",
      .repAlias n!"EV" n!"units::isq::si::voltage" n!"units::isq::si::exavolt",
      .repAlias n!"ZV" n!"units::isq::si::voltage" n!"units::isq::si::zettavolt",
      .repAlias n!"YV" n!"units::isq::si::voltage" n!"units::isq::si::yottavolt"])]

/-- src/systems/si/include/units/isq/si/capacitance.h:39-220. -/
def h_isq_si_capacitance : Header where
  path := n!"isq/si/capacitance.h"
  includes := [n!"isq/dimensions/capacitance.h", n!"generic/dimensionless.h", n!"isq/si/electric_charge.h", n!"isq/si/voltage.h", n!"isq/si/prefixes.h"]
  sections := [
    ([n!"units::isq::si", n!"units::isq", n!"units", n!""], [
      .named n!"farad" ⟨"F", "F"⟩ n!"prefix",
      .prefixed n!"yoctofarad" n!"yocto" n!"farad",
      .prefixed n!"zeptofarad" n!"zepto" n!"farad",
      .prefixed n!"attofarad" n!"atto" n!"farad",
      .prefixed n!"femtofarad" n!"femto" n!"farad",
      .prefixed n!"picofarad" n!"pico" n!"farad",
      .prefixed n!"nanofarad" n!"nano" n!"farad",
      .prefixed n!"microfarad" n!"micro" n!"farad",
      .prefixed n!"millifarad" n!"milli" n!"farad",
      .prefixed n!"centifarad" n!"centi" n!"farad",
      .prefixed n!"decifarad" n!"deci" n!"farad",
      .prefixed n!"decafarad" n!"deca" n!"farad",
      .prefixed n!"hectofarad" n!"hecto" n!"farad",
      .prefixed n!"kilofarad" n!"kilo" n!"farad",
      .prefixed n!"megafarad" n!"mega" n!"farad",
      .prefixed n!"gigafarad" n!"giga" n!"farad",
      .prefixed n!"terafarad" n!"tera" n!"farad",
      .prefixed n!"petafarad" n!"peta" n!"farad",
      .prefixed n!"exafarad" n!"exa" n!"farad",
      .prefixed n!"zettafarad" n!"zetta" n!"farad",
      .prefixed n!"yottafarad" n!"yotta" n!"farad",
      .derivedInst n!"dim_capacitance" n!"isq::dim_capacitance" n!"farad" [n!"dim_electric_charge", n!"dim_voltage"],
      .quantityAlias n!"capacitance" n!"dim_capacitance"]),
    ([n!"units::isq::si::literals", n!"units::isq::si", n!"units::isq", n!"units", n!""], [
      .literal n!"_q_F" true n!"capacitance" n!"farad",
      .literal n!"_q_F" false n!"capacitance" n!"farad",
      .literal n!"_q_yF" true n!"capacitance" n!"yoctofarad",
      .literal n!"_q_yF" false n!"capacitance" n!"yoctofarad",
      .literal n!"_q_zF" true n!"capacitance" n!"zeptofarad",
      .literal n!"_q_zF" false n!"capacitance" n!"zeptofarad",
      .literal n!"_q_aF" true n!"capacitance" n!"attofarad",
      .literal n!"_q_aF" false n!"capacitance" n!"attofarad",
      .literal n!"_q_fF" true n!"capacitance" n!"femtofarad",
      .literal n!"_q_fF" false n!"capacitance" n!"femtofarad",
      .literal n!"_q_pF" true n!"capacitance" n!"picofarad",
      .literal n!"_q_pF" false n!"capacitance" n!"picofarad",
      .literal n!"_q_nF" true n!"capacitance" n!"nanofarad",
      .literal n!"_q_nF" false n!"capacitance" n!"nanofarad",
      .literal n!"_q_uF" true n!"capacitance" n!"microfarad",
      .literal n!"_q_uF" false n!"capacitance" n!"microfarad",
      .literal n!"_q_mF" true n!"capacitance" n!"millifarad",
      .literal n!"_q_mF" false n!"capacitance" n!"millifarad",
      .literal n!"_q_cF" true n!"capacitance" n!"centifarad",
      .literal n!"_q_cF" false n!"capacitance" n!"centifarad",
      .literal n!"_q_dF" true n!"capacitance" n!"decifarad",
      .literal n!"_q_dF" false n!"capacitance" n!"decifarad",
      .literal n!"_q_daF" true n!"capacitance" n!"decafarad",
      .literal n!"_q_daF" false n!"capacitance" n!"decafarad",
      .literal n!"_q_hF" true n!"capacitance" n!"hectofarad",
      .literal n!"_q_hF" false n!"capacitance" n!"hectofarad",
      .literal n!"_q_kF" true n!"capacitance" n!"kilofarad",
      .literal n!"_q_kF" false n!"capacitance" n!"kilofarad",
      .literal n!"_q_MF" true n!"capacitance" n!"megafarad",
      .literal n!"_q_MF" false n!"capacitance" n!"megafarad",
      .literal n!"_q_GF" true n!"capacitance" n!"gigafarad",
      .literal n!"_q_GF" false n!"capacitance" n!"gigafarad",
      .literal n!"_q_TF" true n!"capacitance" n!"terafarad",
      .literal n!"_q_TF" false n!"capacitance" n!"terafarad",
      .literal n!"_q_PF" true n!"capacitance" n!"petafarad",
      .literal n!"_q_PF" false n!"capacitance" n!"petafarad",
      .literal n!"_q_EF" true n!"capacitance" n!"exafarad",
      .literal n!"_q_EF" false n!"capacitance" n!"exafarad",
      .literal n!"_q_ZF" true n!"capacitance" n!"zettafarad",
      .literal n!"_q_ZF" false n!"capacitance" n!"zettafarad",
      .literal n!"_q_YF" true n!"capacitance" n!"yottafarad",
      .literal n!"_q_YF" false n!"capacitance" n!"yottafarad"]),
    ([n!"units::isq::si::capacitance_references", n!"units::isq::si", n!"units::isq", n!"units", n!""], [
      .reference n!"F" n!"dim_capacitance" n!"farad",
      .reference n!"yF" n!"dim_capacitance" n!"yoctofarad",
      .reference n!"zF" n!"dim_capacitance" n!"zeptofarad",
      .reference n!"aF" n!"dim_capacitance" n!"attofarad",
      .reference n!"fF" n!"dim_capacitance" n!"femtofarad",
      .reference n!"pF" n!"dim_capacitance" n!"picofarad",
      .reference n!"nF" n!"dim_capacitance" n!"nanofarad",
      .reference n!"uF" n!"dim_capacitance" n!"microfarad",
      .reference n!"mF" n!"dim_capacitance" n!"millifarad",
      .reference n!"cF" n!"dim_capacitance" n!"centifarad",
      .reference n!"dF" n!"dim_capacitance" n!"decifarad",
      .reference n!"daF" n!"dim_capacitance" n!"decafarad",
      .reference n!"hF" n!"dim_capacitance" n!"hectofarad",
      .reference n!"kF" n!"dim_capacitance" n!"kilofarad",
      .reference n!"MF" n!"dim_capacitance" n!"megafarad",
      .reference n!"GF" n!"dim_capacitance" n!"gigafarad",
      .reference n!"TF" n!"dim_capacitance" n!"terafarad",
      .reference n!"PF" n!"dim_capacitance" n!"petafarad",
      .reference n!"EF" n!"dim_capacitance" n!"exafarad",
      .reference n!"ZF" n!"dim_capacitance" n!"zettafarad",
      .reference n!"YF" n!"dim_capacitance" n!"yottafarad"]),
    ([n!"units::aliases::isq::si::capacitance", n!"units::aliases::isq::si", n!"units::aliases::isq", n!"units::aliases", n!"units", n!""], [
      .repAlias n!"F" n!"units::isq::si::capacitance" n!"units::isq::si::farad",
      .repAlias n!"yF" n!"units::isq::si::capacitance" n!"units::isq::si::yoctofarad",
      .repAlias n!"zF" n!"units::isq::si::capacitance" n!"units::isq::si::zeptofarad",
      .repAlias n!"aF" n!"units::isq::si::capacitance" n!"units::isq::si::attofarad",
      .repAlias n!"fF" n!"units::isq::si::capacitance" n!"units::isq::si::femtofarad",
      .repAlias n!"pF" n!"units::isq::si::capacitance" n!"units::isq::si::picofarad",
      .repAlias n!"nF" n!"units::isq::si::capacitance" n!"units::isq::si::nanofarad",
      .repAlias n!"uF" n!"units::isq::si::capacitance" n!"units::isq::si::microfarad",
      .repAlias n!"mF" n!"units::isq::si::capacitance" n!"units::isq::si::millifarad",
      .repAlias n!"cF" n!"units::isq::si::capacitance" n!"units::isq::si::centifarad",
      .repAlias n!"dF" n!"units::isq::si::capacitance" n!"units::isq::si::decifarad",
      .repAlias n!"daF" n!"units::isq::si::capacitance" n!"units::isq::si::decafarad",
      .repAlias n!"hF" n!"units::isq::si::capacitance" n!"units::isq::si::hectofarad",
      .repAlias n!"kF" n!"units::isq::si::capacitance" n!"units::isq::si::kilofarad",
      .repAlias n!"MF" n!"units::isq::si::capacitance" n!"units::isq::si::megafarad",
      .repAlias n!"GF" n!"units::isq::si::capacitance" n!"units::isq::si::gigafarad",
      .repAlias n!"TF" n!"units::isq::si::capacitance" n!"units::isq::si::terafarad",
      .repAlias n!"PF" n!"units::isq::si::capacitance" n!"units::isq::si::petafarad",
      .repAlias n!"EF" n!"units::isq::si::capacitance" n!"units::isq::si::exafarad",
      .repAlias n!"ZF" n!"units::isq::si::capacitance" n!"units::isq::si::zettafarad",
      .repAlias n!"YF" n!"units::isq::si::capacitance" n!"units::isq::si::yottafarad"])]

/-- src/systems/si/include/units/isq/si/catalytic_activity.h:39-228. -/
def h_isq_si_catalytic_activity : Header where
  path := n!"isq/si/catalytic_activity.h"
  includes := [n!"isq/dimensions/catalytic_activity.h", n!"generic/dimensionless.h", n!"isq/si/amount_of_substance.h", n!"isq/si/time.h", n!"isq/si/prefixes.h"]
  sections := [
    ([n!"units::isq::si", n!"units::isq", n!"units", n!""], [
      .named n!"katal" ⟨"kat", "kat"⟩ n!"prefix",
      .prefixed n!"yoctokatal" n!"yocto" n!"katal",
      .prefixed n!"zeptokatal" n!"zepto" n!"katal",
      .prefixed n!"attokatal" n!"atto" n!"katal",
      .prefixed n!"femtokatal" n!"femto" n!"katal",
      .prefixed n!"picokatal" n!"pico" n!"katal",
      .prefixed n!"nanokatal" n!"nano" n!"katal",
      .prefixed n!"microkatal" n!"micro" n!"katal",
      .prefixed n!"millikatal" n!"milli" n!"katal",
      .prefixed n!"centikatal" n!"centi" n!"katal",
      .prefixed n!"decikatal" n!"deci" n!"katal",
      .prefixed n!"decakatal" n!"deca" n!"katal",
      .prefixed n!"hectokatal" n!"hecto" n!"katal",
      .prefixed n!"kilokatal" n!"kilo" n!"katal",
      .prefixed n!"megakatal" n!"mega" n!"katal",
      .prefixed n!"gigakatal" n!"giga" n!"katal",
      .prefixed n!"terakatal" n!"tera" n!"katal",
      .prefixed n!"petakatal" n!"peta" n!"katal",
      .prefixed n!"exakatal" n!"exa" n!"katal",
      .prefixed n!"zettakatal" n!"zetta" n!"katal",
      .prefixed n!"yottakatal" n!"yotta" n!"katal",
      .namedScaled n!"enzyme_unit" ⟨"U", "U"⟩ n!"prefix" (1) (60) (-6) n!"katal",
      .derivedInst n!"dim_catalytic_activity" n!"isq::dim_catalytic_activity" n!"katal" [n!"dim_time", n!"dim_amount_of_substance"],
      .quantityAlias n!"catalytic_activity" n!"dim_catalytic_activity"]),
    ([n!"units::isq::si::literals", n!"units::isq::si", n!"units::isq", n!"units", n!""], [
      .literal n!"_q_kat" true n!"catalytic_activity" n!"katal",
      .literal n!"_q_kat" false n!"catalytic_activity" n!"katal",
      .literal n!"_q_ykat" true n!"catalytic_activity" n!"yoctokatal",
      .literal n!"_q_ykat" false n!"catalytic_activity" n!"yoctokatal",
      .literal n!"_q_zkat" true n!"catalytic_activity" n!"zeptokatal",
      .literal n!"_q_zkat" false n!"catalytic_activity" n!"zeptokatal",
      .literal n!"_q_akat" true n!"catalytic_activity" n!"attokatal",
      .literal n!"_q_akat" false n!"catalytic_activity" n!"attokatal",
      .literal n!"_q_fkat" true n!"catalytic_activity" n!"femtokatal",
      .literal n!"_q_fkat" false n!"catalytic_activity" n!"femtokatal",
      .literal n!"_q_pkat" true n!"catalytic_activity" n!"picokatal",
      .literal n!"_q_pkat" false n!"catalytic_activity" n!"picokatal",
      .literal n!"_q_nkat" true n!"catalytic_activity" n!"nanokatal",
      .literal n!"_q_nkat" false n!"catalytic_activity" n!"nanokatal",
      .literal n!"_q_ukat" true n!"catalytic_activity" n!"microkatal",
      .literal n!"_q_ukat" false n!"catalytic_activity" n!"microkatal",
      .literal n!"_q_mkat" true n!"catalytic_activity" n!"millikatal",
      .literal n!"_q_mkat" false n!"catalytic_activity" n!"millikatal",
      .literal n!"_q_ckat" true n!"catalytic_activity" n!"centikatal",
      .literal n!"_q_ckat" false n!"catalytic_activity" n!"centikatal",
      .literal n!"_q_dkat" true n!"catalytic_activity" n!"decikatal",
      .literal n!"_q_dkat" false n!"catalytic_activity" n!"decikatal",
      .literal n!"_q_dakat" true n!"catalytic_activity" n!"decakatal",
      .literal n!"_q_dakat" false n!"catalytic_activity" n!"decakatal",
      .literal n!"_q_hkat" true n!"catalytic_activity" n!"hectokatal",
      .literal n!"_q_hkat" false n!"catalytic_activity" n!"hectokatal",
      .literal n!"_q_kkat" true n!"catalytic_activity" n!"kilokatal",
      .literal n!"_q_kkat" false n!"catalytic_activity" n!"kilokatal",
      .literal n!"_q_Mkat" true n!"catalytic_activity" n!"megakatal",
      .literal n!"_q_Mkat" false n!"catalytic_activity" n!"megakatal",
      .literal n!"_q_Gkat" true n!"catalytic_activity" n!"gigakatal",
      .literal n!"_q_Gkat" false n!"catalytic_activity" n!"gigakatal",
      .literal n!"_q_Tkat" true n!"catalytic_activity" n!"terakatal",
      .literal n!"_q_Tkat" false n!"catalytic_activity" n!"terakatal",
      .literal n!"_q_Pkat" true n!"catalytic_activity" n!"petakatal",
      .literal n!"_q_Pkat" false n!"catalytic_activity" n!"petakatal",
      .literal n!"_q_Ekat" true n!"catalytic_activity" n!"exakatal",
      .literal n!"_q_Ekat" false n!"catalytic_activity" n!"exakatal",
      .literal n!"_q_Zkat" true n!"catalytic_activity" n!"zettakatal",
      .literal n!"_q_Zkat" false n!"catalytic_activity" n!"zettakatal",
      .literal n!"_q_Ykat" true n!"catalytic_activity" n!"yottakatal",
      .literal n!"_q_Ykat" false n!"catalytic_activity" n!"yottakatal",
      .literal n!"_q_U" true n!"catalytic_activity" n!"enzyme_unit",
      .literal n!"_q_U" false n!"catalytic_activity" n!"enzyme_unit"]),
    ([n!"units::isq::si::catalytic_activity_references", n!"units::isq::si", n!"units::isq", n!"units", n!""], [
      .reference n!"kat" n!"dim_catalytic_activity" n!"katal",
      .reference n!"ykat" n!"dim_catalytic_activity" n!"yoctokatal",
      .reference n!"zkat" n!"dim_catalytic_activity" n!"zeptokatal",
      .reference n!"akat" n!"dim_catalytic_activity" n!"attokatal",
      .reference n!"fkat" n!"dim_catalytic_activity" n!"femtokatal",
      .reference n!"pkat" n!"dim_catalytic_activity" n!"picokatal",
      .reference n!"nkat" n!"dim_catalytic_activity" n!"nanokatal",
      .reference n!"ukat" n!"dim_catalytic_activity" n!"microkatal",
      .reference n!"mkat" n!"dim_catalytic_activity" n!"millikatal",
      .reference n!"ckat" n!"dim_catalytic_activity" n!"centikatal",
      .reference n!"dkat" n!"dim_catalytic_activity" n!"decikatal",
      .reference n!"dakat" n!"dim_catalytic_activity" n!"decakatal",
      .reference n!"hkat" n!"dim_catalytic_activity" n!"hectokatal",
      .reference n!"kkat" n!"dim_catalytic_activity" n!"kilokatal",
      .reference n!"Mkat" n!"dim_catalytic_activity" n!"megakatal",
      .reference n!"Gkat" n!"dim_catalytic_activity" n!"gigakatal",
      .reference n!"Tkat" n!"dim_catalytic_activity" n!"terakatal",
      .reference n!"Pkat" n!"dim_catalytic_activity" n!"petakatal",
      .reference n!"Ekat" n!"dim_catalytic_activity" n!"exakatal",
      .reference n!"Zkat" n!"dim_catalytic_activity" n!"zettakatal",
      .reference n!"Ykat" n!"dim_catalytic_activity" n!"yottakatal",
      .reference n!"U" n!"dim_catalytic_activity" n!"enzyme_unit"]),
    ([n!"units::aliases::isq::si::catalytic_activity", n!"units::aliases::isq::si", n!"units::aliases::isq", n!"units::aliases", n!"units", n!""], [
      .repAlias n!"kat" n!"units::isq::si::catalytic_activity" n!"units::isq::si::katal",
      .repAlias n!"ykat" n!"units::isq::si::catalytic_activity" n!"units::isq::si::yoctokatal",
      .repAlias n!"zkat" n!"units::isq::si::catalytic_activity" n!"units::isq::si::zeptokatal",
      .repAlias n!"akat" n!"units::isq::si::catalytic_activity" n!"units::isq::si::attokatal",
      .repAlias n!"fkat" n!"units::isq::si::catalytic_activity" n!"units::isq::si::femtokatal",
      .repAlias n!"pkat" n!"units::isq::si::catalytic_activity" n!"units::isq::si::picokatal",
      .repAlias n!"nkat" n!"units::isq::si::catalytic_activity" n!"units::isq::si::nanokatal",
      .repAlias n!"ukat" n!"units::isq::si::catalytic_activity" n!"units::isq::si::microkatal",
      .repAlias n!"mkat" n!"units::isq::si::catalytic_activity" n!"units::isq::si::millikatal",
      .repAlias n!"ckat" n!"units::isq::si::catalytic_activity" n!"units::isq::si::centikatal",
      .repAlias n!"dkat" n!"units::isq::si::catalytic_activity" n!"units::isq::si::decikatal",
      .repAlias n!"dakat" n!"units::isq::si::catalytic_activity" n!"units::isq::si::decakatal",
      .repAlias n!"hkat" n!"units::isq::si::catalytic_activity" n!"units::isq::si::hectokatal",
      .repAlias n!"kkat" n!"units::isq::si::catalytic_activity" n!"units::isq::si::kilokatal",
      .repAlias n!"Mkat" n!"units::isq::si::catalytic_activity" n!"units::isq::si::megakatal",
      .repAlias n!"Gkat" n!"units::isq::si::catalytic_activity" n!"units::isq::si::gigakatal",
      .repAlias n!"Tkat" n!"units::isq::si::catalytic_activity" n!"units::isq::si::terakatal",
      .repAlias n!"Pkat" n!"units::isq::si::catalytic_activity" n!"units::isq::si::petakatal",
      .repAlias n!"Ekat" n!"units::isq::si::catalytic_activity" n!"units::isq::si::exakatal",
      .repAlias n!"Zkat" n!"units::isq::si::catalytic_activity" n!"units::isq::si::zettakatal",
      .repAlias n!"Ykat" n!"units::isq::si::catalytic_activity" n!"units::isq::si::yottakatal",
      .repAlias n!"U" n!"units::isq::si::catalytic_activity" n!"units::isq::si::enzyme_unit"])]

/-- src/systems/si-cgs/include/units/isq/si/cgs/length.h:37-78. -/
def h_isq_si_cgs_length : Header where
  path := n!"isq/si/cgs/length.h"
  includes := [n!"isq/dimensions/length.h", n!"isq/si/length.h", n!"generic/dimensionless.h"]
  sections := [
    ([n!"units::isq::si::cgs", n!"units::isq::si", n!"units::isq", n!"units", n!""], [
      .using_ n!"centimetre" n!"si::centimetre",
      .baseInst n!"dim_length" n!"isq::dim_length" n!"centimetre",
      .quantityAlias n!"length" n!"dim_length"]),
    ([n!"units::isq::si::cgs::literals", n!"units::isq::si::cgs", n!"units::isq::si", n!"units::isq", n!"units", n!""], [
      .literal n!"_q_cm" true n!"length" n!"centimetre",
      .literal n!"_q_cm" false n!"length" n!"centimetre"]),
    ([n!"units::isq::si::cgs::length_references", n!"units::isq::si::cgs", n!"units::isq::si", n!"units::isq", n!"units", n!""], [
      .reference n!"cm" n!"dim_length" n!"centimetre"]),
    ([n!"units::aliases::isq::si::cgs::length", n!"units::aliases::isq::si::cgs", n!"units::aliases::isq::si", n!"units::aliases::isq", n!"units::aliases", n!"units", n!""], [
      .repAlias n!"cm" n!"units::isq::si::cgs::length" n!"units::isq::si::cgs::centimetre"])]

/-- src/systems/si-cgs/include/units/isq/si/cgs/time.h:35-54. -/
def h_isq_si_cgs_time : Header where
  path := n!"isq/si/cgs/time.h"
  includes := [n!"isq/dimensions/time.h", n!"isq/si/time.h", n!"generic/dimensionless.h"]
  sections := [
    ([n!"units::isq::si::cgs", n!"units::isq::si", n!"units::isq", n!"units", n!""], [
      .using_ n!"second" n!"si::second",
      .using_ n!"dim_time" n!"si::dim_time",
      .using_ n!"time" n!"si::time"]),
    ([n!"units::isq::si::cgs::literals", n!"units::isq::si::cgs", n!"units::isq::si", n!"units::isq", n!"units", n!""], [
      .usingLiteral n!"_q_s" n!"si::literals"]),
    ([n!"units::isq::si::cgs::time_references", n!"units::isq::si::cgs", n!"units::isq::si", n!"units::isq", n!"units", n!""], [
      .using_ n!"s" n!"si::time_references::s"])]

/-- src/systems/si-cgs/include/units/isq/si/cgs/speed.h:37-61. -/
def h_isq_si_cgs_speed : Header where
  path := n!"isq/si/cgs/speed.h"
  includes := [n!"isq/dimensions/speed.h", n!"generic/dimensionless.h", n!"isq/si/cgs/length.h", n!"isq/si/cgs/time.h"]
  sections := [
    ([n!"units::isq::si::cgs", n!"units::isq::si", n!"units::isq", n!"units", n!""], [
      .unit n!"centimetre_per_second",
      .derivedInst n!"dim_speed" n!"isq::dim_speed" n!"centimetre_per_second" [n!"dim_length", n!"dim_time"],
      .quantityAlias n!"speed" n!"dim_speed"]),
    ([n!"units::isq::si::cgs::literals", n!"units::isq::si::cgs", n!"units::isq::si", n!"units::isq", n!"units", n!""], [
      .literal n!"_q_cm_per_s" true n!"speed" n!"centimetre_per_second",
      .literal n!"_q_cm_per_s" false n!"speed" n!"centimetre_per_second"]),
    ([n!"units::aliases::isq::si::cgs::speed", n!"units::aliases::isq::si::cgs", n!"units::aliases::isq::si", n!"units::aliases::isq", n!"units::aliases", n!"units", n!""], [
      .repAlias n!"cm_per_s" n!"units::isq::si::cgs::speed" n!"units::isq::si::cgs::centimetre_per_second"])]

/-- src/systems/si-cgs/include/units/isq/si/cgs/acceleration.h:37-77. -/
def h_isq_si_cgs_acceleration : Header where
  path := n!"isq/si/cgs/acceleration.h"
  includes := [n!"isq/dimensions/acceleration.h", n!"generic/dimensionless.h", n!"isq/si/cgs/speed.h"]
  sections := [
    ([n!"units::isq::si::cgs", n!"units::isq::si", n!"units::isq", n!"units", n!""], [
      .named n!"gal" ⟨"Gal", "Gal"⟩ n!"si::prefix",
      .derivedInst n!"dim_acceleration" n!"isq::dim_acceleration" n!"gal" [n!"dim_length", n!"dim_time"],
      .quantityAlias n!"acceleration" n!"dim_acceleration"]),
    ([n!"units::isq::si::cgs::literals", n!"units::isq::si::cgs", n!"units::isq::si", n!"units::isq", n!"units", n!""], [
      .literal n!"_q_Gal" true n!"acceleration" n!"gal",
      .literal n!"_q_Gal" false n!"acceleration" n!"gal"]),
    ([n!"units::isq::si::cgs::acceleration_references", n!"units::isq::si::cgs", n!"units::isq::si", n!"units::isq", n!"units", n!""], [
      .reference n!"Gal" n!"dim_acceleration" n!"gal"]),
    ([n!"units::aliases::isq::si::cgs::acceleration", n!"units::aliases::isq::si::cgs", n!"units::aliases::isq::si", n!"units::aliases::isq", n!"units::aliases", n!"units", n!""], [
      .repAlias n!"Gal" n!"units::isq::si::cgs::acceleration" n!"units::isq::si::cgs::gal"])]

/-- src/systems/si-cgs/include/units/isq/si/cgs/area.h:38-79. -/
def h_isq_si_cgs_area : Header where
  path := n!"isq/si/cgs/area.h"
  includes := [n!"isq/dimensions/area.h", n!"isq/si/area.h", n!"generic/dimensionless.h", n!"isq/si/cgs/length.h"]
  sections := [
    ([n!"units::isq::si::cgs", n!"units::isq::si", n!"units::isq", n!"units", n!""], [
      .using_ n!"square_centimetre" n!"si::square_centimetre",
      .derivedInst n!"dim_area" n!"isq::dim_area" n!"square_centimetre" [n!"dim_length"],
      .quantityAlias n!"area" n!"dim_area"]),
    ([n!"units::isq::si::cgs::literals", n!"units::isq::si::cgs", n!"units::isq::si", n!"units::isq", n!"units", n!""], [
      .literal n!"_q_cm2" true n!"area" n!"square_centimetre",
      .literal n!"_q_cm2" false n!"area" n!"square_centimetre"]),
    ([n!"units::isq::si::cgs::area_references", n!"units::isq::si::cgs", n!"units::isq::si", n!"units::isq", n!"units", n!""], [
      .reference n!"cm2" n!"dim_area" n!"square_centimetre"]),
    ([n!"units::aliases::isq::si::cgs::area", n!"units::aliases::isq::si::cgs", n!"units::aliases::isq::si", n!"units::aliases::isq", n!"units::aliases", n!"units", n!""], [
      .repAlias n!"cm2" n!"units::isq::si::cgs::area" n!"units::isq::si::cgs::square_centimetre"])]

/-- src/systems/si-cgs/include/units/isq/si/cgs/mass.h:37-78. -/
def h_isq_si_cgs_mass : Header where
  path := n!"isq/si/cgs/mass.h"
  includes := [n!"isq/dimensions/mass.h", n!"generic/dimensionless.h", n!"isq/si/mass.h"]
  sections := [
    ([n!"units::isq::si::cgs", n!"units::isq::si", n!"units::isq", n!"units", n!""], [
      .using_ n!"gram" n!"si::gram",
      .baseInst n!"dim_mass" n!"isq::dim_mass" n!"gram",
      .quantityAlias n!"mass" n!"dim_mass"]),
    ([n!"units::isq::si::cgs::literals", n!"units::isq::si::cgs", n!"units::isq::si", n!"units::isq", n!"units", n!""], [
      .literal n!"_q_g" true n!"mass" n!"gram",
      .literal n!"_q_g" false n!"mass" n!"gram"]),
    ([n!"units::isq::si::cgs::mass_references", n!"units::isq::si::cgs", n!"units::isq::si", n!"units::isq", n!"units", n!""], [
      .reference n!"g" n!"dim_mass" n!"gram"]),
    ([n!"units::aliases::isq::si::cgs::mass", n!"units::aliases::isq::si::cgs", n!"units::aliases::isq::si", n!"units::aliases::isq", n!"units::aliases", n!"units", n!""], [
      .repAlias n!"g" n!"units::isq::si::cgs::mass" n!"units::isq::si::cgs::gram"])]

/-- src/systems/si-cgs/include/units/isq/si/cgs/force.h:39-80. -/
def h_isq_si_cgs_force : Header where
  path := n!"isq/si/cgs/force.h"
  includes := [n!"isq/dimensions/force.h", n!"generic/dimensionless.h", n!"isq/si/cgs/acceleration.h", n!"isq/si/cgs/mass.h", n!"isq/si/prefixes.h"]
  sections := [
    ([n!"units::isq::si::cgs", n!"units::isq::si", n!"units::isq", n!"units", n!""], [
      .named n!"dyne" ⟨"dyn", "dyn"⟩ n!"si::prefix",
      .derivedInst n!"dim_force" n!"isq::dim_force" n!"dyne" [n!"dim_mass", n!"dim_acceleration"],
      .quantityAlias n!"force" n!"dim_force"]),
    ([n!"units::isq::si::cgs::literals", n!"units::isq::si::cgs", n!"units::isq::si", n!"units::isq", n!"units", n!""], [
      .literal n!"_q_dyn" true n!"force" n!"dyne",
      .literal n!"_q_dyn" false n!"force" n!"dyne"]),
    ([n!"units::isq::si::cgs::force_references", n!"units::isq::si::cgs", n!"units::isq::si", n!"units::isq", n!"units", n!""], [
      .reference n!"dyn" n!"dim_force" n!"dyne"]),
    ([n!"units::aliases::isq::si::cgs::force", n!"units::aliases::isq::si::cgs", n!"units::aliases::isq::si", n!"units::aliases::isq", n!"units::aliases", n!"units", n!""], [
      .repAlias n!"dyn" n!"units::isq::si::cgs::force" n!"units::isq::si::cgs::dyne"])]

/-- src/systems/si-cgs/include/units/isq/si/cgs/energy.h:38-79. -/
def h_isq_si_cgs_energy : Header where
  path := n!"isq/si/cgs/energy.h"
  includes := [n!"isq/dimensions/energy.h", n!"generic/dimensionless.h", n!"isq/si/cgs/force.h", n!"isq/si/prefixes.h"]
  sections := [
    ([n!"units::isq::si::cgs", n!"units::isq::si", n!"units::isq", n!"units", n!""], [
      .named n!"erg" ⟨"erg", "erg"⟩ n!"si::prefix",
      .derivedInst n!"dim_energy" n!"isq::dim_energy" n!"erg" [n!"dim_force", n!"dim_length"],
      .quantityAlias n!"energy" n!"dim_energy"]),
    ([n!"units::isq::si::cgs::literals", n!"units::isq::si::cgs", n!"units::isq::si", n!"units::isq", n!"units", n!""], [
      .literal n!"_q_erg" true n!"energy" n!"erg",
      .literal n!"_q_erg" false n!"energy" n!"erg"]),
    ([n!"units::isq::si::cgs::energy_references", n!"units::isq::si::cgs", n!"units::isq::si", n!"units::isq", n!"units", n!""], [
      .reference n!"erg" n!"dim_energy" n!"cgs::erg"]),
    ([n!"units::aliases::isq::si::cgs::energy", n!"units::aliases::isq::si::cgs", n!"units::aliases::isq::si", n!"units::aliases::isq", n!"units::aliases", n!"units", n!""], [
      .repAlias n!"erg" n!"units::isq::si::cgs::energy" n!"units::isq::si::cgs::erg"])]

/-- src/systems/si-cgs/include/units/isq/si/cgs/power.h:37-62. -/
def h_isq_si_cgs_power : Header where
  path := n!"isq/si/cgs/power.h"
  includes := [n!"isq/dimensions/power.h", n!"generic/dimensionless.h", n!"isq/si/cgs/energy.h", n!"isq/si/prefixes.h"]
  sections := [
    ([n!"units::isq::si::cgs", n!"units::isq::si", n!"units::isq", n!"units", n!""], [
      .unit n!"erg_per_second",
      .derivedInst n!"dim_power" n!"isq::dim_power" n!"erg_per_second" [n!"dim_energy", n!"dim_time"],
      .quantityAlias n!"power" n!"dim_power"]),
    ([n!"units::isq::si::cgs::literals", n!"units::isq::si::cgs", n!"units::isq::si", n!"units::isq", n!"units", n!""], [
      .literal n!"_q_erg_per_s" true n!"power" n!"erg_per_second",
      .literal n!"_q_erg_per_s" false n!"power" n!"erg_per_second"]),
    ([n!"units::aliases::isq::si::cgs::power", n!"units::aliases::isq::si::cgs", n!"units::aliases::isq::si", n!"units::aliases::isq", n!"units::aliases", n!"units", n!""], [
      .repAlias n!"erg_per_s" n!"units::isq::si::cgs::power" n!"units::isq::si::cgs::erg_per_second"])]

/-- src/systems/si-cgs/include/units/isq/si/cgs/pressure.h:39-80. -/
def h_isq_si_cgs_pressure : Header where
  path := n!"isq/si/cgs/pressure.h"
  includes := [n!"isq/dimensions/pressure.h", n!"generic/dimensionless.h", n!"isq/si/cgs/area.h", n!"isq/si/cgs/force.h", n!"isq/si/prefixes.h"]
  sections := [
    ([n!"units::isq::si::cgs", n!"units::isq::si", n!"units::isq", n!"units", n!""], [
      .named n!"barye" ⟨"Ba", "Ba"⟩ n!"si::prefix",
      .derivedInst n!"dim_pressure" n!"isq::dim_pressure" n!"barye" [n!"dim_force", n!"dim_area"],
      .quantityAlias n!"pressure" n!"dim_pressure"]),
    ([n!"units::isq::si::cgs::literals", n!"units::isq::si::cgs", n!"units::isq::si", n!"units::isq", n!"units", n!""], [
      .literal n!"_q_Ba" true n!"pressure" n!"barye",
      .literal n!"_q_Ba" false n!"pressure" n!"barye"]),
    ([n!"units::isq::si::cgs::pressure_references", n!"units::isq::si::cgs", n!"units::isq::si", n!"units::isq", n!"units", n!""], [
      .reference n!"Ba" n!"dim_pressure" n!"barye"]),
    ([n!"units::aliases::isq::si::cgs::pressure", n!"units::aliases::isq::si::cgs", n!"units::aliases::isq::si", n!"units::aliases::isq", n!"units::aliases", n!"units", n!""], [
      .repAlias n!"Ba" n!"units::isq::si::cgs::pressure" n!"units::isq::si::cgs::barye"])]

/-- src/systems/si-cgs/include/units/isq/si/cgs/cgs.h:26-36. -/
def h_isq_si_cgs_cgs : Header where
  path := n!"isq/si/cgs/cgs.h"
  includes := [n!"isq/si/cgs/length.h", n!"isq/si/cgs/mass.h", n!"isq/si/cgs/time.h", n!"isq/si/cgs/acceleration.h", n!"isq/si/cgs/area.h", n!"isq/si/cgs/energy.h", n!"isq/si/cgs/force.h", n!"isq/si/cgs/power.h", n!"isq/si/cgs/pressure.h", n!"isq/si/cgs/speed.h"]
  sections := []

/-- src/systems/si/include/units/isq/si/charge_density.h:38-73. -/
def h_isq_si_charge_density : Header where
  path := n!"isq/si/charge_density.h"
  includes := [n!"isq/dimensions/charge_density.h", n!"generic/dimensionless.h", n!"isq/si/electric_charge.h", n!"isq/si/length.h", n!"isq/si/prefixes.h"]
  sections := [
    ([n!"units::isq::si", n!"units::isq", n!"units", n!""], [
      .unit n!"coulomb_per_metre_cub",
      .unit n!"coulomb_per_metre_sq",
      .derivedInst n!"dim_charge_density" n!"isq::dim_charge_density" n!"coulomb_per_metre_cub" [n!"dim_electric_charge", n!"dim_length"],
      .derivedInst n!"dim_surface_charge_density" n!"isq::dim_surface_charge_density" n!"coulomb_per_metre_sq" [n!"dim_electric_charge", n!"dim_length"],
      .quantityAlias n!"charge_density" n!"dim_charge_density",
      .quantityAlias n!"surface_charge_density" n!"dim_surface_charge_density"]),
    ([n!"units::isq::si::literals", n!"units::isq::si", n!"units::isq", n!"units", n!""], [
      .literal n!"_q_C_per_m3" true n!"charge_density" n!"coulomb_per_metre_cub",
      .literal n!"_q_C_per_m3" false n!"charge_density" n!"coulomb_per_metre_cub",
      .literal n!"_q_C_per_m2" true n!"surface_charge_density" n!"coulomb_per_metre_sq",
      .literal n!"_q_C_per_m2" false n!"surface_charge_density" n!"coulomb_per_metre_sq"]),
    ([n!"units::aliases::isq::si::charge_density", n!"units::aliases::isq::si", n!"units::aliases::isq", n!"units::aliases", n!"units", n!""], [
      .repAlias n!"C_per_m3" n!"units::isq::si::charge_density" n!"units::isq::si::coulomb_per_metre_cub",
      .repAlias n!"C_per_m2" n!"units::isq::si::surface_charge_density" n!"units::isq::si::coulomb_per_metre_sq"])]

/-- src/systems/si/include/units/isq/si/concentration.h:37-61. -/
def h_isq_si_concentration : Header where
  path := n!"isq/si/concentration.h"
  includes := [n!"isq/dimensions/concentration.h", n!"generic/dimensionless.h", n!"isq/si/length.h", n!"isq/si/amount_of_substance.h"]
  sections := [
    ([n!"units::isq::si", n!"units::isq", n!"units", n!""], [
      .unit n!"mol_per_metre_cub",
      .derivedInst n!"dim_concentration" n!"isq::dim_concentration" n!"mol_per_metre_cub" [n!"dim_amount_of_substance", n!"dim_length"],
      .quantityAlias n!"concentration" n!"dim_concentration"]),
    ([n!"units::isq::si::literals", n!"units::isq::si", n!"units::isq", n!"units", n!""], [
      .literal n!"_q_mol_per_m3" true n!"concentration" n!"mol_per_metre_cub",
      .literal n!"_q_mol_per_m3" false n!"concentration" n!"mol_per_metre_cub"]),
    ([n!"units::aliases::isq::si::concentration", n!"units::aliases::isq::si", n!"units::aliases::isq", n!"units::aliases", n!"units", n!""], [
      .repAlias n!"mol_per_m3" n!"units::isq::si::concentration" n!"units::isq::si::mol_per_metre_cub"])]

/-- src/systems/si/include/units/isq/si/resistance.h:39-192. -/
def h_isq_si_resistance : Header where
  path := n!"isq/si/resistance.h"
  includes := [n!"isq/dimensions/resistance.h", n!"generic/dimensionless.h", n!"isq/si/voltage.h", n!"isq/si/electric_current.h", n!"isq/si/prefixes.h"]
  sections := [
    ([n!"units::isq::si", n!"units::isq", n!"units", n!""], [
      .named n!"ohm" ⟨"Ω", "ohm"⟩ n!"prefix",
      .prefixed n!"yoctoohm" n!"yocto" n!"ohm",
      .prefixed n!"zeptoohm" n!"zepto" n!"ohm",
      .prefixed n!"attoohm" n!"atto" n!"ohm",
      .prefixed n!"femtoohm" n!"femto" n!"ohm",
      .prefixed n!"picoohm" n!"pico" n!"ohm",
      .prefixed n!"nanoohm" n!"nano" n!"ohm",
      .prefixed n!"microohm" n!"micro" n!"ohm",
      .prefixed n!"milliohm" n!"milli" n!"ohm",
      .prefixed n!"kiloohm" n!"kilo" n!"ohm",
      .prefixed n!"megaohm" n!"mega" n!"ohm",
      .prefixed n!"gigaohm" n!"giga" n!"ohm",
      .prefixed n!"teraohm" n!"tera" n!"ohm",
      .prefixed n!"petaohm" n!"peta" n!"ohm",
      .prefixed n!"exaohm" n!"exa" n!"ohm",
      .prefixed n!"zettaohm" n!"zetta" n!"ohm",
      .prefixed n!"yottaohm" n!"yotta" n!"ohm",
      .derivedInst n!"dim_resistance" n!"isq::dim_resistance" n!"ohm" [n!"dim_voltage", n!"dim_electric_current"],
      .quantityAlias n!"resistance" n!"dim_resistance"]),
    ([n!"units::isq::si::literals", n!"units::isq::si", n!"units::isq", n!"units", n!""], [
      .literal n!"_q_R" true n!"resistance" n!"ohm",
      .literal n!"_q_R" false n!"resistance" n!"ohm",
      .literal n!"_q_yR" true n!"resistance" n!"yoctoohm",
      .literal n!"_q_yR" false n!"resistance" n!"yoctoohm",
      .literal n!"_q_zR" true n!"resistance" n!"zeptoohm",
      .literal n!"_q_zR" false n!"resistance" n!"zeptoohm",
      .literal n!"_q_aR" true n!"resistance" n!"attoohm",
      .literal n!"_q_aR" false n!"resistance" n!"attoohm",
      .literal n!"_q_fR" true n!"resistance" n!"femtoohm",
      .literal n!"_q_fR" false n!"resistance" n!"femtoohm",
      .literal n!"_q_pR" true n!"resistance" n!"picoohm",
      .literal n!"_q_pR" false n!"resistance" n!"picoohm",
      .literal n!"_q_nR" true n!"resistance" n!"nanoohm",
      .literal n!"_q_nR" false n!"resistance" n!"nanoohm",
      .literal n!"_q_uR" true n!"resistance" n!"microohm",
      .literal n!"_q_uR" false n!"resistance" n!"microohm",
      .literal n!"_q_mR" true n!"resistance" n!"milliohm",
      .literal n!"_q_mR" false n!"resistance" n!"milliohm",
      .literal n!"_q_kR" true n!"resistance" n!"kiloohm",
      .literal n!"_q_kR" false n!"resistance" n!"kiloohm",
      .literal n!"_q_MR" true n!"resistance" n!"megaohm",
      .literal n!"_q_MR" false n!"resistance" n!"megaohm",
      .literal n!"_q_GR" true n!"resistance" n!"gigaohm",
      .literal n!"_q_GR" false n!"resistance" n!"gigaohm",
      .literal n!"_q_TR" true n!"resistance" n!"teraohm",
      .literal n!"_q_TR" false n!"resistance" n!"teraohm",
      .literal n!"_q_PR" true n!"resistance" n!"petaohm",
      .literal n!"_q_PR" false n!"resistance" n!"petaohm",
      .literal n!"_q_ER" true n!"resistance" n!"exaohm",
      .literal n!"_q_ER" false n!"resistance" n!"exaohm",
      .literal n!"_q_ZR" true n!"resistance" n!"zettaohm",
      .literal n!"_q_ZR" false n!"resistance" n!"zettaohm",
      .literal n!"_q_YR" true n!"resistance" n!"yottaohm",
      .literal n!"_q_YR" false n!"resistance" n!"yottaohm"]),
    ([n!"units::isq::si::resistance_references", n!"units::isq::si", n!"units::isq", n!"units", n!""], [
      .reference n!"R" n!"dim_resistance" n!"ohm",
      .reference n!"yR" n!"dim_resistance" n!"yoctoohm",
      .reference n!"zR" n!"dim_resistance" n!"zeptoohm",
      .reference n!"aR" n!"dim_resistance" n!"attoohm",
      .reference n!"fR" n!"dim_resistance" n!"femtoohm",
      .reference n!"pR" n!"dim_resistance" n!"picoohm",
      .reference n!"nR" n!"dim_resistance" n!"nanoohm",
      .reference n!"uR" n!"dim_resistance" n!"microohm",
      .reference n!"mR" n!"dim_resistance" n!"milliohm",
      .reference n!"kR" n!"dim_resistance" n!"kiloohm",
      .reference n!"MR" n!"dim_resistance" n!"megaohm",
      .reference n!"GR" n!"dim_resistance" n!"gigaohm",
      .reference n!"TR" n!"dim_resistance" n!"teraohm",
      .reference n!"PR" n!"dim_resistance" n!"petaohm",
      .reference n!"ER" n!"dim_resistance" n!"exaohm",
      .reference n!"ZR" n!"dim_resistance" n!"zettaohm",
      .reference n!"YR" n!"dim_resistance" n!"yottaohm"]),
    ([n!"units::aliases::isq::si::resistance", n!"units::aliases::isq::si", n!"units::aliases::isq", n!"units::aliases", n!"units", n!""], [
      .repAlias n!"R" n!"units::isq::si::resistance" n!"units::isq::si::ohm",
      .repAlias n!"yR" n!"units::isq::si::resistance" n!"units::isq::si::yoctoohm",
      .repAlias n!"zR" n!"units::isq::si::resistance" n!"units::isq::si::zeptoohm",
      .repAlias n!"aR" n!"units::isq::si::resistance" n!"units::isq::si::attoohm",
      .repAlias n!"fR" n!"units::isq::si::resistance" n!"units::isq::si::femtoohm",
      .repAlias n!"pR" n!"units::isq::si::resistance" n!"units::isq::si::picoohm",
      .repAlias n!"nR" n!"units::isq::si::resistance" n!"units::isq::si::nanoohm",
      .repAlias n!"uR" n!"units::isq::si::resistance" n!"units::isq::si::microohm",
      .repAlias n!"mR" n!"units::isq::si::resistance" n!"units::isq::si::milliohm",
      .repAlias n!"kR" n!"units::isq::si::resistance" n!"units::isq::si::kiloohm",
      .repAlias n!"MR" n!"units::isq::si::resistance" n!"units::isq::si::megaohm",
      .repAlias n!"GR" n!"units::isq::si::resistance" n!"units::isq::si::gigaohm",
      .repAlias n!"TR" n!"units::isq::si::resistance" n!"units::isq::si::teraohm",
      .repAlias n!"PR" n!"units::isq::si::resistance" n!"units::isq::si::petaohm",
      .repAlias n!"ER" n!"units::isq::si::resistance" n!"units::isq::si::exaohm",
      .repAlias n!"ZR" n!"units::isq::si::resistance" n!"units::isq::si::zettaohm",
      .repAlias n!"YR" n!"units::isq::si::resistance" n!"units::isq::si::yottaohm"])]

/-- src/systems/si/include/units/isq/si/conductance.h:38-191. -/
def h_isq_si_conductance : Header where
  path := n!"isq/si/conductance.h"
  includes := [n!"isq/dimensions/conductance.h", n!"generic/dimensionless.h", n!"isq/si/resistance.h", n!"isq/si/prefixes.h"]
  sections := [
    ([n!"units::isq::si", n!"units::isq", n!"units", n!""], [
      .named n!"siemens" ⟨"S", "S"⟩ n!"prefix",
      .prefixed n!"yoctosiemens" n!"yocto" n!"siemens",
      .prefixed n!"zeptosiemens" n!"zepto" n!"siemens",
      .prefixed n!"attosiemens" n!"atto" n!"siemens",
      .prefixed n!"femtosiemens" n!"femto" n!"siemens",
      .prefixed n!"picosiemens" n!"pico" n!"siemens",
      .prefixed n!"nanosiemens" n!"nano" n!"siemens",
      .prefixed n!"microsiemens" n!"micro" n!"siemens",
      .prefixed n!"millisiemens" n!"milli" n!"siemens",
      .prefixed n!"kilosiemens" n!"kilo" n!"siemens",
      .prefixed n!"megasiemens" n!"mega" n!"siemens",
      .prefixed n!"gigasiemens" n!"giga" n!"siemens",
      .prefixed n!"terasiemens" n!"tera" n!"siemens",
      .prefixed n!"petasiemens" n!"peta" n!"siemens",
      .prefixed n!"exasiemens" n!"exa" n!"siemens",
      .prefixed n!"zettasiemens" n!"zetta" n!"siemens",
      .prefixed n!"yottasiemens" n!"yotta" n!"siemens",
      .derivedInst n!"dim_conductance" n!"isq::dim_conductance" n!"siemens" [n!"dim_resistance"],
      .quantityAlias n!"conductance" n!"dim_conductance"]),
    ([n!"units::isq::si::literals", n!"units::isq::si", n!"units::isq", n!"units", n!""], [
      .literal n!"_q_S" true n!"conductance" n!"siemens",
      .literal n!"_q_S" false n!"conductance" n!"siemens",
      .literal n!"_q_yS" true n!"conductance" n!"yoctosiemens",
      .literal n!"_q_yS" false n!"conductance" n!"yoctosiemens",
      .literal n!"_q_zS" true n!"conductance" n!"zeptosiemens",
      .literal n!"_q_zS" false n!"conductance" n!"zeptosiemens",
      .literal n!"_q_aS" true n!"conductance" n!"attosiemens",
      .literal n!"_q_aS" false n!"conductance" n!"attosiemens",
      .literal n!"_q_fS" true n!"conductance" n!"femtosiemens",
      .literal n!"_q_fS" false n!"conductance" n!"femtosiemens",
      .literal n!"_q_pS" true n!"conductance" n!"picosiemens",
      .literal n!"_q_pS" false n!"conductance" n!"picosiemens",
      .literal n!"_q_nS" true n!"conductance" n!"nanosiemens",
      .literal n!"_q_nS" false n!"conductance" n!"nanosiemens",
      .literal n!"_q_uS" true n!"conductance" n!"microsiemens",
      .literal n!"_q_uS" false n!"conductance" n!"microsiemens",
      .literal n!"_q_mS" true n!"conductance" n!"millisiemens",
      .literal n!"_q_mS" false n!"conductance" n!"millisiemens",
      .literal n!"_q_kS" true n!"conductance" n!"kilosiemens",
      .literal n!"_q_kS" false n!"conductance" n!"kilosiemens",
      .literal n!"_q_MS" true n!"conductance" n!"megasiemens",
      .literal n!"_q_MS" false n!"conductance" n!"megasiemens",
      .literal n!"_q_GS" true n!"conductance" n!"gigasiemens",
      .literal n!"_q_GS" false n!"conductance" n!"gigasiemens",
      .literal n!"_q_TS" true n!"conductance" n!"terasiemens",
      .literal n!"_q_TS" false n!"conductance" n!"terasiemens",
      .literal n!"_q_PS" true n!"conductance" n!"petasiemens",
      .literal n!"_q_PS" false n!"conductance" n!"petasiemens",
      .literal n!"_q_ES" true n!"conductance" n!"exasiemens",
      .literal n!"_q_ES" false n!"conductance" n!"exasiemens",
      .literal n!"_q_ZS" true n!"conductance" n!"zettasiemens",
      .literal n!"_q_ZS" false n!"conductance" n!"zettasiemens",
      .literal n!"_q_YS" true n!"conductance" n!"yottasiemens",
      .literal n!"_q_YS" false n!"conductance" n!"yottasiemens"]),
    ([n!"units::isq::si::conductance_references", n!"units::isq::si", n!"units::isq", n!"units", n!""], [
      .reference n!"S" n!"dim_conductance" n!"siemens",
      .reference n!"yS" n!"dim_conductance" n!"yoctosiemens",
      .reference n!"zS" n!"dim_conductance" n!"zeptosiemens",
      .reference n!"aS" n!"dim_conductance" n!"attosiemens",
      .reference n!"fS" n!"dim_conductance" n!"femtosiemens",
      .reference n!"pS" n!"dim_conductance" n!"picosiemens",
      .reference n!"nS" n!"dim_conductance" n!"nanosiemens",
      .reference n!"uS" n!"dim_conductance" n!"microsiemens",
      .reference n!"mS" n!"dim_conductance" n!"millisiemens",
      .reference n!"kS" n!"dim_conductance" n!"kilosiemens",
      .reference n!"MS" n!"dim_conductance" n!"megasiemens",
      .reference n!"GS" n!"dim_conductance" n!"gigasiemens",
      .reference n!"TS" n!"dim_conductance" n!"terasiemens",
      .reference n!"PS" n!"dim_conductance" n!"petasiemens",
      .reference n!"ES" n!"dim_conductance" n!"exasiemens",
      .reference n!"ZS" n!"dim_conductance" n!"zettasiemens",
      .reference n!"YS" n!"dim_conductance" n!"yottasiemens"]),
    ([n!"units::aliases::isq::si::conductance", n!"units::aliases::isq::si", n!"units::aliases::isq", n!"units::aliases", n!"units", n!""], [
      .repAlias n!"S" n!"units::isq::si::conductance" n!"units::isq::si::siemens",
      .repAlias n!"yS" n!"units::isq::si::conductance" n!"units::isq::si::yoctosiemens",
      .repAlias n!"zS" n!"units::isq::si::conductance" n!"units::isq::si::zeptosiemens",
      .repAlias n!"aS" n!"units::isq::si::conductance" n!"units::isq::si::attosiemens",
      .repAlias n!"fS" n!"units::isq::si::conductance" n!"units::isq::si::femtosiemens",
      .repAlias n!"pS" n!"units::isq::si::conductance" n!"units::isq::si::picosiemens",
      .repAlias n!"nS" n!"units::isq::si::conductance" n!"units::isq::si::nanosiemens",
      .repAlias n!"uS" n!"units::isq::si::conductance" n!"units::isq::si::microsiemens",
      .repAlias n!"mS" n!"units::isq::si::conductance" n!"units::isq::si::millisiemens",
      .repAlias n!"kS" n!"units::isq::si::conductance" n!"units::isq::si::kilosiemens",
      .repAlias n!"MS" n!"units::isq::si::conductance" n!"units::isq::si::megasiemens",
      .repAlias n!"GS" n!"units::isq::si::conductance" n!"units::isq::si::gigasiemens",
      .repAlias n!"TS" n!"units::isq::si::conductance" n!"units::isq::si::terasiemens",
      .repAlias n!"PS" n!"units::isq::si::conductance" n!"units::isq::si::petasiemens",
      .repAlias n!"ES" n!"units::isq::si::conductance" n!"units::isq::si::exasiemens",
      .repAlias n!"ZS" n!"units::isq::si::conductance" n!"units::isq::si::zettasiemens",
      .repAlias n!"YS" n!"units::isq::si::conductance" n!"units::isq::si::yottasiemens"])]

/-- src/systems/si/include/units/isq/si/thermodynamic_temperature.h:36-77. -/
def h_isq_si_thermodynamic_temperature : Header where
  path := n!"isq/si/thermodynamic_temperature.h"
  includes := [n!"isq/dimensions/thermodynamic_temperature.h", n!"generic/dimensionless.h"]
  sections := [
    ([n!"units::isq::si", n!"units::isq", n!"units", n!""], [
      .named n!"kelvin" ⟨"K", "K"⟩ n!"no_prefix",
      .baseInst n!"dim_thermodynamic_temperature" n!"isq::dim_thermodynamic_temperature" n!"kelvin",
      .quantityAlias n!"thermodynamic_temperature" n!"dim_thermodynamic_temperature"]),
    ([n!"units::isq::si::literals", n!"units::isq::si", n!"units::isq", n!"units", n!""], [
      .literal n!"_q_K" true n!"thermodynamic_temperature" n!"kelvin",
      .literal n!"_q_K" false n!"thermodynamic_temperature" n!"kelvin"]),
    ([n!"units::isq::si::thermodynamic_temperature_references", n!"units::isq::si", n!"units::isq", n!"units", n!""], [
      .reference n!"K" n!"dim_thermodynamic_temperature" n!"kelvin"]),
    ([n!"units::aliases::isq::si::thermodynamic_temperature", n!"units::aliases::isq::si", n!"units::aliases::isq", n!"units::aliases", n!"units", n!""], [
      .repAlias n!"K" n!"units::isq::si::thermodynamic_temperature" n!"units::isq::si::kelvin"])]

/-- src/systems/si/include/units/isq/si/constants.h:35-59. -/
def h_isq_si_constants : Header where
  path := n!"isq/si/constants.h"
  includes := [n!"isq/si/amount_of_substance.h", n!"isq/si/thermodynamic_temperature.h", n!"isq/si/electric_charge.h", n!"isq/si/energy.h", n!"isq/si/frequency.h", n!"isq/si/power.h", n!"isq/si/speed.h"]
  sections := [
    ([n!"units::isq::si::si2019", n!"units::isq::si", n!"units::isq", n!"units", n!""], [
      .constant n!"planck_constant" (.qty n!"energy" n!"joule" 662607015 (-42)) (some (false, (.qty n!"time" n!"second" 1 (0)))),
      .constant n!"reduced_planck_constant" (.qty n!"energy" n!"gigaelectronvolt" 6582119569 (-19)) (some (false, (.qty n!"time" n!"second" 1 (0)))),
      .constant n!"elementary_charge" (.qty n!"electric_charge" n!"coulomb" 1602176634 (-28)) none,
      .constant n!"boltzmann_constant" (.qty n!"energy" n!"joule" 1380649 (-29)) (some (true, (.qty n!"thermodynamic_temperature" n!"kelvin" 1 (0)))),
      .constant n!"avogadro_constant" (.number 602214076 (15)) (some (true, (.qty n!"amount_of_substance" n!"mole" 1 (0)))),
      .constant n!"speed_of_light" (.qty n!"speed" n!"metre_per_second" 299792458 (0)) none,
      .constant n!"hyperfine_structure_transition_frequency" (.qty n!"frequency" n!"hertz" 9192631770 (0)) none,
      .constant n!"standard_gravity" (.qty n!"acceleration" n!"metre_per_second_sq" 980665 (-5)) none])]

/-- src/systems/si/include/units/isq/si/current_density.h:38-63. -/
def h_isq_si_current_density : Header where
  path := n!"isq/si/current_density.h"
  includes := [n!"isq/dimensions/current_density.h", n!"generic/dimensionless.h", n!"isq/si/electric_current.h", n!"isq/si/length.h", n!"isq/si/prefixes.h"]
  sections := [
    ([n!"units::isq::si", n!"units::isq", n!"units", n!""], [
      .unit n!"ampere_per_metre_sq",
      .derivedInst n!"dim_current_density" n!"isq::dim_current_density" n!"ampere_per_metre_sq" [n!"dim_electric_current", n!"dim_length"],
      .quantityAlias n!"current_density" n!"dim_current_density"]),
    ([n!"units::isq::si::literals", n!"units::isq::si", n!"units::isq", n!"units", n!""], [
      .literal n!"_q_A_per_m2" true n!"current_density" n!"ampere_per_metre_sq",
      .literal n!"_q_A_per_m2" false n!"current_density" n!"ampere_per_metre_sq"]),
    ([n!"units::aliases::isq::si::current_density", n!"units::aliases::isq::si", n!"units::aliases::isq", n!"units::aliases", n!"units", n!""], [
      .repAlias n!"A_per_m2" n!"units::isq::si::current_density" n!"units::isq::si::ampere_per_metre_sq"])]

/-- src/systems/si/include/units/isq/si/density.h:38-63. -/
def h_isq_si_density : Header where
  path := n!"isq/si/density.h"
  includes := [n!"isq/dimensions/density.h", n!"generic/dimensionless.h", n!"isq/si/mass.h", n!"isq/si/length.h", n!"isq/si/prefixes.h"]
  sections := [
    ([n!"units::isq::si", n!"units::isq", n!"units", n!""], [
      .unit n!"kilogram_per_metre_cub",
      .derivedInst n!"dim_density" n!"isq::dim_density" n!"kilogram_per_metre_cub" [n!"dim_mass", n!"dim_length"],
      .quantityAlias n!"density" n!"dim_density"]),
    ([n!"units::isq::si::literals", n!"units::isq::si", n!"units::isq", n!"units", n!""], [
      .literal n!"_q_kg_per_m3" true n!"density" n!"kilogram_per_metre_cub",
      .literal n!"_q_kg_per_m3" false n!"density" n!"kilogram_per_metre_cub"]),
    ([n!"units::aliases::isq::si::density", n!"units::aliases::isq::si", n!"units::aliases::isq", n!"units::aliases", n!"units", n!""], [
      .repAlias n!"kg_per_m3" n!"units::isq::si::density" n!"units::isq::si::kilogram_per_metre_cub"])]

/-- src/systems/si/include/units/isq/si/pressure.h:39-220. -/
def h_isq_si_pressure : Header where
  path := n!"isq/si/pressure.h"
  includes := [n!"isq/dimensions/pressure.h", n!"generic/dimensionless.h", n!"isq/si/area.h", n!"isq/si/force.h", n!"isq/si/prefixes.h"]
  sections := [
    ([n!"units::isq::si", n!"units::isq", n!"units", n!""], [
      .named n!"pascal" ⟨"Pa", "Pa"⟩ n!"prefix",
      .prefixed n!"yoctopascal" n!"yocto" n!"pascal",
      .prefixed n!"zeptopascal" n!"zepto" n!"pascal",
      .prefixed n!"attopascal" n!"atto" n!"pascal",
      .prefixed n!"femtopascal" n!"femto" n!"pascal",
      .prefixed n!"picopascal" n!"pico" n!"pascal",
      .prefixed n!"nanopascal" n!"nano" n!"pascal",
      .prefixed n!"micropascal" n!"micro" n!"pascal",
      .prefixed n!"millipascal" n!"milli" n!"pascal",
      .prefixed n!"centipascal" n!"centi" n!"pascal",
      .prefixed n!"decipascal" n!"deci" n!"pascal",
      .prefixed n!"decapascal" n!"deca" n!"pascal",
      .prefixed n!"hectopascal" n!"hecto" n!"pascal",
      .prefixed n!"kilopascal" n!"kilo" n!"pascal",
      .prefixed n!"megapascal" n!"mega" n!"pascal",
      .prefixed n!"gigapascal" n!"giga" n!"pascal",
      .prefixed n!"terapascal" n!"tera" n!"pascal",
      .prefixed n!"petapascal" n!"peta" n!"pascal",
      .prefixed n!"exapascal" n!"exa" n!"pascal",
      .prefixed n!"zettapascal" n!"zetta" n!"pascal",
      .prefixed n!"yottapascal" n!"yotta" n!"pascal",
      .derivedInst n!"dim_pressure" n!"isq::dim_pressure" n!"pascal" [n!"dim_force", n!"dim_area"],
      .quantityAlias n!"pressure" n!"dim_pressure"]),
    ([n!"units::isq::si::literals", n!"units::isq::si", n!"units::isq", n!"units", n!""], [
      .literal n!"_q_Pa" true n!"pressure" n!"pascal",
      .literal n!"_q_Pa" false n!"pressure" n!"pascal",
      .literal n!"_q_yPa" true n!"pressure" n!"yoctopascal",
      .literal n!"_q_yPa" false n!"pressure" n!"yoctopascal",
      .literal n!"_q_zPa" true n!"pressure" n!"zeptopascal",
      .literal n!"_q_zPa" false n!"pressure" n!"zeptopascal",
      .literal n!"_q_aPa" true n!"pressure" n!"attopascal",
      .literal n!"_q_aPa" false n!"pressure" n!"attopascal",
      .literal n!"_q_fPa" true n!"pressure" n!"femtopascal",
      .literal n!"_q_fPa" false n!"pressure" n!"femtopascal",
      .literal n!"_q_pPa" true n!"pressure" n!"picopascal",
      .literal n!"_q_pPa" false n!"pressure" n!"picopascal",
      .literal n!"_q_nPa" true n!"pressure" n!"nanopascal",
      .literal n!"_q_nPa" false n!"pressure" n!"nanopascal",
      .literal n!"_q_uPa" true n!"pressure" n!"micropascal",
      .literal n!"_q_uPa" false n!"pressure" n!"micropascal",
      .literal n!"_q_mPa" true n!"pressure" n!"millipascal",
      .literal n!"_q_mPa" false n!"pressure" n!"millipascal",
      .literal n!"_q_cPa" true n!"pressure" n!"centipascal",
      .literal n!"_q_cPa" false n!"pressure" n!"centipascal",
      .literal n!"_q_dPa" true n!"pressure" n!"decipascal",
      .literal n!"_q_dPa" false n!"pressure" n!"decipascal",
      .literal n!"_q_daPa" true n!"pressure" n!"decapascal",
      .literal n!"_q_daPa" false n!"pressure" n!"decapascal",
      .literal n!"_q_hPa" true n!"pressure" n!"hectopascal",
      .literal n!"_q_hPa" false n!"pressure" n!"hectopascal",
      .literal n!"_q_kPa" true n!"pressure" n!"kilopascal",
      .literal n!"_q_kPa" false n!"pressure" n!"kilopascal",
      .literal n!"_q_MPa" true n!"pressure" n!"megapascal",
      .literal n!"_q_MPa" false n!"pressure" n!"megapascal",
      .literal n!"_q_GPa" true n!"pressure" n!"gigapascal",
      .literal n!"_q_GPa" false n!"pressure" n!"gigapascal",
      .literal n!"_q_TPa" true n!"pressure" n!"terapascal",
      .literal n!"_q_TPa" false n!"pressure" n!"terapascal",
      .literal n!"_q_PPa" true n!"pressure" n!"petapascal",
      .literal n!"_q_PPa" false n!"pressure" n!"petapascal",
      .literal n!"_q_EPa" true n!"pressure" n!"exapascal",
      .literal n!"_q_EPa" false n!"pressure" n!"exapascal",
      .literal n!"_q_ZPa" true n!"pressure" n!"zettapascal",
      .literal n!"_q_ZPa" false n!"pressure" n!"zettapascal",
      .literal n!"_q_YPa" true n!"pressure" n!"yottapascal",
      .literal n!"_q_YPa" false n!"pressure" n!"yottapascal"]),
    ([n!"units::isq::si::pressure_references", n!"units::isq::si", n!"units::isq", n!"units", n!""], [
      .reference n!"Pa" n!"dim_pressure" n!"pascal",
      .reference n!"yPa" n!"dim_pressure" n!"yoctopascal",
      .reference n!"zPa" n!"dim_pressure" n!"zeptopascal",
      .reference n!"aPa" n!"dim_pressure" n!"attopascal",
      .reference n!"fPa" n!"dim_pressure" n!"femtopascal",
      .reference n!"pPa" n!"dim_pressure" n!"picopascal",
      .reference n!"nPa" n!"dim_pressure" n!"nanopascal",
      .reference n!"uPa" n!"dim_pressure" n!"micropascal",
      .reference n!"mPa" n!"dim_pressure" n!"millipascal",
      .reference n!"cPa" n!"dim_pressure" n!"centipascal",
      .reference n!"dPa" n!"dim_pressure" n!"decipascal",
      .reference n!"daPa" n!"dim_pressure" n!"decapascal",
      .reference n!"hPa" n!"dim_pressure" n!"hectopascal",
      .reference n!"kPa" n!"dim_pressure" n!"kilopascal",
      .reference n!"MPa" n!"dim_pressure" n!"megapascal",
      .reference n!"GPa" n!"dim_pressure" n!"gigapascal",
      .reference n!"TPa" n!"dim_pressure" n!"terapascal",
      .reference n!"PPa" n!"dim_pressure" n!"petapascal",
      .reference n!"EPa" n!"dim_pressure" n!"exapascal",
      .reference n!"ZPa" n!"dim_pressure" n!"zettapascal",
      .reference n!"YPa" n!"dim_pressure" n!"yottapascal"]),
    ([n!"units::aliases::isq::si::pressure", n!"units::aliases::isq::si", n!"units::aliases::isq", n!"units::aliases", n!"units", n!""], [
      .repAlias n!"Pa" n!"units::isq::si::pressure" n!"units::isq::si::pascal",
      .repAlias n!"yPa" n!"units::isq::si::pressure" n!"units::isq::si::yoctopascal",
      .repAlias n!"zPa" n!"units::isq::si::pressure" n!"units::isq::si::zeptopascal",
      .repAlias n!"aPa" n!"units::isq::si::pressure" n!"units::isq::si::attopascal",
      .repAlias n!"fPa" n!"units::isq::si::pressure" n!"units::isq::si::femtopascal",
      .repAlias n!"pPa" n!"units::isq::si::pressure" n!"units::isq::si::picopascal",
      .repAlias n!"nPa" n!"units::isq::si::pressure" n!"units::isq::si::nanopascal",
      .repAlias n!"uPa" n!"units::isq::si::pressure" n!"units::isq::si::micropascal",
      .repAlias n!"mPa" n!"units::isq::si::pressure" n!"units::isq::si::millipascal",
      .repAlias n!"cPa" n!"units::isq::si::pressure" n!"units::isq::si::centipascal",
      .repAlias n!"dPa" n!"units::isq::si::pressure" n!"units::isq::si::decipascal",
      .repAlias n!"daPa" n!"units::isq::si::pressure" n!"units::isq::si::decapascal",
      .repAlias n!"hPa" n!"units::isq::si::pressure" n!"units::isq::si::hectopascal",
      .repAlias n!"kPa" n!"units::isq::si::pressure" n!"units::isq::si::kilopascal",
      .repAlias n!"MPa" n!"units::isq::si::pressure" n!"units::isq::si::megapascal",
      .repAlias n!"GPa" n!"units::isq::si::pressure" n!"units::isq::si::gigapascal",
      .repAlias n!"TPa" n!"units::isq::si::pressure" n!"units::isq::si::terapascal",
      .repAlias n!"PPa" n!"units::isq::si::pressure" n!"units::isq::si::petapascal",
      .repAlias n!"EPa" n!"units::isq::si::pressure" n!"units::isq::si::exapascal",
      .repAlias n!"ZPa" n!"units::isq::si::pressure" n!"units::isq::si::zettapascal",
      .repAlias n!"YPa" n!"units::isq::si::pressure" n!"units::isq::si::yottapascal"])]

/-- src/systems/si/include/units/isq/si/dynamic_viscosity.h:37-61. -/
def h_isq_si_dynamic_viscosity : Header where
  path := n!"isq/si/dynamic_viscosity.h"
  includes := [n!"isq/dimensions/dynamic_viscosity.h", n!"generic/dimensionless.h", n!"isq/si/time.h", n!"isq/si/pressure.h"]
  sections := [
    ([n!"units::isq::si", n!"units::isq", n!"units", n!""], [
      .unit n!"pascal_second",
      .derivedInst n!"dim_dynamic_viscosity" n!"isq::dim_dynamic_viscosity" n!"pascal_second" [n!"dim_pressure", n!"dim_time"],
      .quantityAlias n!"dynamic_viscosity" n!"dim_dynamic_viscosity"]),
    ([n!"units::isq::si::literals", n!"units::isq::si", n!"units::isq", n!"units", n!""], [
      .literal n!"_q_Pa_s" true n!"dynamic_viscosity" n!"pascal_second",
      .literal n!"_q_Pa_s" false n!"dynamic_viscosity" n!"pascal_second"]),
    ([n!"units::aliases::isq::si::dynamic_viscosity", n!"units::aliases::isq::si", n!"units::aliases::isq", n!"units::aliases", n!"units", n!""], [
      .repAlias n!"Pa_s" n!"units::isq::si::dynamic_viscosity" n!"units::isq::si::pascal_second"])]

/-- src/systems/si/include/units/isq/si/electric_field_strength.h:36-60. -/
def h_isq_si_electric_field_strength : Header where
  path := n!"isq/si/electric_field_strength.h"
  includes := [n!"isq/dimensions/electric_field_strength.h", n!"generic/dimensionless.h", n!"isq/si/voltage.h"]
  sections := [
    ([n!"units::isq::si", n!"units::isq", n!"units", n!""], [
      .unit n!"volt_per_metre",
      .derivedInst n!"dim_electric_field_strength" n!"isq::dim_electric_field_strength" n!"volt_per_metre" [n!"dim_voltage", n!"dim_length"],
      .quantityAlias n!"electric_field_strength" n!"dim_electric_field_strength"]),
    ([n!"units::isq::si::literals", n!"units::isq::si", n!"units::isq", n!"units", n!""], [
      .literal n!"_q_V_per_m" true n!"electric_field_strength" n!"volt_per_metre",
      .literal n!"_q_V_per_m" false n!"electric_field_strength" n!"volt_per_metre"]),
    ([n!"units::aliases::isq::si::electric_field_strength", n!"units::aliases::isq::si", n!"units::aliases::isq", n!"units::aliases", n!"units", n!""], [
      .repAlias n!"V_per_m" n!"units::isq::si::electric_field_strength" n!"units::isq::si::volt_per_metre"])]

/-- src/systems/si/include/units/isq/si/volume.h:37-368. -/
def h_isq_si_volume : Header where
  path := n!"isq/si/volume.h"
  includes := [n!"isq/dimensions/volume.h", n!"generic/dimensionless.h", n!"isq/si/length.h"]
  sections := [
    ([n!"units::isq::si", n!"units::isq", n!"units", n!""], [
      .unit n!"cubic_metre",
      .derivedInst n!"dim_volume" n!"isq::dim_volume" n!"cubic_metre" [n!"dim_length"],
      .derived n!"cubic_yoctometre" n!"dim_volume" [n!"yoctometre"],
      .derived n!"cubic_zeptometre" n!"dim_volume" [n!"zeptometre"],
      .derived n!"cubic_attometre" n!"dim_volume" [n!"attometre"],
      .derived n!"cubic_femtometre" n!"dim_volume" [n!"femtometre"],
      .derived n!"cubic_picometre" n!"dim_volume" [n!"picometre"],
      .derived n!"cubic_nanometre" n!"dim_volume" [n!"nanometre"],
      .derived n!"cubic_micrometre" n!"dim_volume" [n!"micrometre"],
      .derived n!"cubic_millimetre" n!"dim_volume" [n!"millimetre"],
      .derived n!"cubic_centimetre" n!"dim_volume" [n!"centimetre"],
      .derived n!"cubic_decimetre" n!"dim_volume" [n!"decimetre"],
      .derived n!"cubic_decametre" n!"dim_volume" [n!"decametre"],
      .derived n!"cubic_hectometre" n!"dim_volume" [n!"hectometre"],
      .derived n!"cubic_kilometre" n!"dim_volume" [n!"kilometre"],
      .derived n!"cubic_megametre" n!"dim_volume" [n!"megametre"],
      .derived n!"cubic_gigametre" n!"dim_volume" [n!"gigametre"],
      .derived n!"cubic_terametre" n!"dim_volume" [n!"terametre"],
      .derived n!"cubic_petametre" n!"dim_volume" [n!"petametre"],
      .derived n!"cubic_exametre" n!"dim_volume" [n!"exametre"],
      .derived n!"cubic_zettametre" n!"dim_volume" [n!"zettametre"],
      .derived n!"cubic_yottametre" n!"dim_volume" [n!"yottametre"],
      .aliasOf n!"litre" n!"cubic_decimetre" ⟨"l", "l"⟩ n!"prefix",
      .prefixedAlias n!"yoctolitre" n!"cubic_nanometre" n!"yocto" n!"litre",
      .prefixed n!"zeptolitre" n!"zepto" n!"litre",
      .prefixed n!"attolitre" n!"atto" n!"litre",
      .prefixedAlias n!"femtolitre" n!"cubic_micrometre" n!"femto" n!"litre",
      .prefixed n!"picolitre" n!"pico" n!"litre",
      .prefixed n!"nanolitre" n!"nano" n!"litre",
      .prefixedAlias n!"microlitre" n!"cubic_millimetre" n!"micro" n!"litre",
      .prefixedAlias n!"millilitre" n!"cubic_centimetre" n!"milli" n!"litre",
      .prefixed n!"centilitre" n!"centi" n!"litre",
      .prefixed n!"decilitre" n!"deci" n!"litre",
      .prefixed n!"decalitre" n!"deca" n!"litre",
      .prefixedAlias n!"hectolitre" n!"cubic_decimetre" n!"hecto" n!"litre",
      .prefixedAlias n!"kilolitre" n!"cubic_metre" n!"kilo" n!"litre",
      .prefixedAlias n!"megalitre" n!"cubic_decametre" n!"mega" n!"litre",
      .prefixedAlias n!"gigalitre" n!"cubic_hectometre" n!"giga" n!"litre",
      .prefixedAlias n!"teralitre" n!"cubic_kilometre" n!"tera" n!"litre",
      .prefixed n!"petalitre" n!"peta" n!"litre",
      .prefixed n!"exalitre" n!"exa" n!"litre",
      .prefixedAlias n!"zettalitre" n!"cubic_megametre" n!"zetta" n!"litre",
      .prefixed n!"yottalitre" n!"yotta" n!"litre",
      .quantityAlias n!"volume" n!"dim_volume"]),
    ([n!"units::isq::si::literals", n!"units::isq::si", n!"units::isq", n!"units", n!""], [
      .literal n!"_q_m3" true n!"volume" n!"cubic_metre",
      .literal n!"_q_m3" false n!"volume" n!"cubic_metre",
      .literal n!"_q_ym3" true n!"volume" n!"cubic_yoctometre",
      .literal n!"_q_ym3" false n!"volume" n!"cubic_yoctometre",
      .literal n!"_q_zm3" true n!"volume" n!"cubic_zeptometre",
      .literal n!"_q_zm3" false n!"volume" n!"cubic_zeptometre",
      .literal n!"_q_am3" true n!"volume" n!"cubic_attometre",
      .literal n!"_q_am3" false n!"volume" n!"cubic_attometre",
      .literal n!"_q_fm3" true n!"volume" n!"cubic_femtometre",
      .literal n!"_q_fm3" false n!"volume" n!"cubic_femtometre",
      .literal n!"_q_pm3" true n!"volume" n!"cubic_picometre",
      .literal n!"_q_pm3" false n!"volume" n!"cubic_picometre",
      .literal n!"_q_nm3" true n!"volume" n!"cubic_nanometre",
      .literal n!"_q_nm3" false n!"volume" n!"cubic_nanometre",
      .literal n!"_q_um3" true n!"volume" n!"cubic_micrometre",
      .literal n!"_q_um3" false n!"volume" n!"cubic_micrometre",
      .literal n!"_q_mm3" true n!"volume" n!"cubic_millimetre",
      .literal n!"_q_mm3" false n!"volume" n!"cubic_millimetre",
      .literal n!"_q_cm3" true n!"volume" n!"cubic_centimetre",
      .literal n!"_q_cm3" false n!"volume" n!"cubic_centimetre",
      .literal n!"_q_dm3" true n!"volume" n!"cubic_decimetre",
      .literal n!"_q_dm3" false n!"volume" n!"cubic_decimetre",
      .literal n!"_q_dam3" true n!"volume" n!"cubic_decametre",
      .literal n!"_q_dam3" false n!"volume" n!"cubic_decametre",
      .literal n!"_q_hm3" true n!"volume" n!"cubic_hectometre",
      .literal n!"_q_hm3" false n!"volume" n!"cubic_hectometre",
      .literal n!"_q_km3" true n!"volume" n!"cubic_kilometre",
      .literal n!"_q_km3" false n!"volume" n!"cubic_kilometre",
      .literal n!"_q_Mm3" true n!"volume" n!"cubic_megametre",
      .literal n!"_q_Mm3" false n!"volume" n!"cubic_megametre",
      .literal n!"_q_Gm3" true n!"volume" n!"cubic_gigametre",
      .literal n!"_q_Gm3" false n!"volume" n!"cubic_gigametre",
      .literal n!"_q_Tm3" true n!"volume" n!"cubic_terametre",
      .literal n!"_q_Tm3" false n!"volume" n!"cubic_terametre",
      .literal n!"_q_Pm3" true n!"volume" n!"cubic_petametre",
      .literal n!"_q_Pm3" false n!"volume" n!"cubic_petametre",
      .literal n!"_q_Em3" true n!"volume" n!"cubic_exametre",
      .literal n!"_q_Em3" false n!"volume" n!"cubic_exametre",
      .literal n!"_q_Zm3" true n!"volume" n!"cubic_zettametre",
      .literal n!"_q_Zm3" false n!"volume" n!"cubic_zettametre",
      .literal n!"_q_Ym3" true n!"volume" n!"cubic_yottametre",
      .literal n!"_q_Ym3" false n!"volume" n!"cubic_yottametre",
      .literal n!"_q_l" true n!"volume" n!"litre",
      .literal n!"_q_l" false n!"volume" n!"litre",
      .literal n!"_q_yl" true n!"volume" n!"yoctolitre",
      .literal n!"_q_yl" false n!"volume" n!"yoctolitre",
      .literal n!"_q_zl" true n!"volume" n!"zeptolitre",
      .literal n!"_q_zl" false n!"volume" n!"zeptolitre",
      .literal n!"_q_al" true n!"volume" n!"attolitre",
      .literal n!"_q_al" false n!"volume" n!"attolitre",
      .literal n!"_q_fl" true n!"volume" n!"femtolitre",
      .literal n!"_q_fl" false n!"volume" n!"femtolitre",
      .literal n!"_q_pl" true n!"volume" n!"picolitre",
      .literal n!"_q_pl" false n!"volume" n!"picolitre",
      .literal n!"_q_nl" true n!"volume" n!"nanolitre",
      .literal n!"_q_nl" false n!"volume" n!"nanolitre",
      .literal n!"_q_ul" true n!"volume" n!"microlitre",
      .literal n!"_q_ul" false n!"volume" n!"microlitre",
      .literal n!"_q_ml" true n!"volume" n!"millilitre",
      .literal n!"_q_ml" false n!"volume" n!"millilitre",
      .literal n!"_q_cl" true n!"volume" n!"centilitre",
      .literal n!"_q_cl" false n!"volume" n!"centilitre",
      .literal n!"_q_dl" true n!"volume" n!"decilitre",
      .literal n!"_q_dl" false n!"volume" n!"decilitre",
      .literal n!"_q_dal" true n!"volume" n!"decalitre",
      .literal n!"_q_dal" false n!"volume" n!"decalitre",
      .literal n!"_q_hl" true n!"volume" n!"hectolitre",
      .literal n!"_q_hl" false n!"volume" n!"hectolitre",
      .literal n!"_q_kl" true n!"volume" n!"kilolitre",
      .literal n!"_q_kl" false n!"volume" n!"kilolitre",
      .literal n!"_q_Ml" true n!"volume" n!"megalitre",
      .literal n!"_q_Ml" false n!"volume" n!"megalitre",
      .literal n!"_q_Gl" true n!"volume" n!"gigalitre",
      .literal n!"_q_Gl" false n!"volume" n!"gigalitre",
      .literal n!"_q_Tl" true n!"volume" n!"teralitre",
      .literal n!"_q_Tl" false n!"volume" n!"teralitre",
      .literal n!"_q_Pl" true n!"volume" n!"petalitre",
      .literal n!"_q_Pl" false n!"volume" n!"petalitre",
      .literal n!"_q_El" true n!"volume" n!"exalitre",
      .literal n!"_q_El" false n!"volume" n!"exalitre",
      .literal n!"_q_Zl" true n!"volume" n!"zettalitre",
      .literal n!"_q_Zl" false n!"volume" n!"zettalitre",
      .literal n!"_q_Yl" true n!"volume" n!"yottalitre",
      .literal n!"_q_Yl" false n!"volume" n!"yottalitre"]),
    ([n!"units::isq::si::volume_references", n!"units::isq::si", n!"units::isq", n!"units", n!""], [
      .reference n!"m3" n!"dim_volume" n!"cubic_metre",
      .reference n!"ym3" n!"dim_volume" n!"cubic_yoctometre",
      .reference n!"zm3" n!"dim_volume" n!"cubic_zeptometre",
      .reference n!"am3" n!"dim_volume" n!"cubic_attometre",
      .reference n!"fm3" n!"dim_volume" n!"cubic_femtometre",
      .reference n!"pm3" n!"dim_volume" n!"cubic_picometre",
      .reference n!"nm3" n!"dim_volume" n!"cubic_nanometre",
      .reference n!"um3" n!"dim_volume" n!"cubic_micrometre",
      .reference n!"mm3" n!"dim_volume" n!"cubic_millimetre",
      .reference n!"cm3" n!"dim_volume" n!"cubic_centimetre",
      .reference n!"dm3" n!"dim_volume" n!"cubic_decimetre",
      .reference n!"dam3" n!"dim_volume" n!"cubic_decametre",
      .reference n!"hm3" n!"dim_volume" n!"cubic_hectometre",
      .reference n!"km3" n!"dim_volume" n!"cubic_kilometre",
      .reference n!"Mm3" n!"dim_volume" n!"cubic_megametre",
      .reference n!"Gm3" n!"dim_volume" n!"cubic_gigametre",
      .reference n!"Tm3" n!"dim_volume" n!"cubic_terametre",
      .reference n!"Pm3" n!"dim_volume" n!"cubic_petametre",
      .reference n!"Em3" n!"dim_volume" n!"cubic_exametre",
      .reference n!"Zm3" n!"dim_volume" n!"cubic_zettametre",
      .reference n!"Ym3" n!"dim_volume" n!"cubic_yottametre",
      .reference n!"l" n!"dim_volume" n!"litre",
      .reference n!"yl" n!"dim_volume" n!"yoctolitre",
      .reference n!"zl" n!"dim_volume" n!"zeptolitre",
      .reference n!"al" n!"dim_volume" n!"attolitre",
      .reference n!"fl" n!"dim_volume" n!"femtolitre",
      .reference n!"pl" n!"dim_volume" n!"picolitre",
      .reference n!"nl" n!"dim_volume" n!"nanolitre",
      .reference n!"ul" n!"dim_volume" n!"microlitre",
      .reference n!"ml" n!"dim_volume" n!"millilitre",
      .reference n!"cl" n!"dim_volume" n!"centilitre",
      .reference n!"dl" n!"dim_volume" n!"decilitre",
      .reference n!"dal" n!"dim_volume" n!"decalitre",
      .reference n!"hl" n!"dim_volume" n!"hectolitre",
      .reference n!"kl" n!"dim_volume" n!"kilolitre",
      .reference n!"Ml" n!"dim_volume" n!"megalitre",
      .reference n!"Gl" n!"dim_volume" n!"gigalitre",
      .reference n!"Tl" n!"dim_volume" n!"teralitre",
      .reference n!"Pl" n!"dim_volume" n!"petalitre",
      .reference n!"El" n!"dim_volume" n!"exalitre",
      .reference n!"Zl" n!"dim_volume" n!"zettalitre",
      .reference n!"Yl" n!"dim_volume" n!"yottalitre"]),
    ([n!"units::aliases::isq::si::volume", n!"units::aliases::isq::si", n!"units::aliases::isq", n!"units::aliases", n!"units", n!""], [
      .repAlias n!"m3" n!"units::isq::si::volume" n!"units::isq::si::cubic_metre",
      .repAlias n!"ym3" n!"units::isq::si::volume" n!"units::isq::si::cubic_yoctometre",
      .repAlias n!"zm3" n!"units::isq::si::volume" n!"units::isq::si::cubic_zeptometre",
      .repAlias n!"am3" n!"units::isq::si::volume" n!"units::isq::si::cubic_attometre",
      .repAlias n!"fm3" n!"units::isq::si::volume" n!"units::isq::si::cubic_femtometre",
      .repAlias n!"pm3" n!"units::isq::si::volume" n!"units::isq::si::cubic_picometre",
      .repAlias n!"nm3" n!"units::isq::si::volume" n!"units::isq::si::cubic_nanometre",
      .repAlias n!"um3" n!"units::isq::si::volume" n!"units::isq::si::cubic_micrometre",
      .repAlias n!"mm3" n!"units::isq::si::volume" n!"units::isq::si::cubic_millimetre",
      .repAlias n!"cm3" n!"units::isq::si::volume" n!"units::isq::si::cubic_centimetre",
      .repAlias n!"dm3" n!"units::isq::si::volume" n!"units::isq::si::cubic_decimetre",
      .repAlias n!"dam3" n!"units::isq::si::volume" n!"units::isq::si::cubic_decametre",
      .repAlias n!"hm3" n!"units::isq::si::volume" n!"units::isq::si::cubic_hectometre",
      .repAlias n!"km3" n!"units::isq::si::volume" n!"units::isq::si::cubic_kilometre",
      .repAlias n!"Mm3" n!"units::isq::si::volume" n!"units::isq::si::cubic_megametre",
      .repAlias n!"Gm3" n!"units::isq::si::volume" n!"units::isq::si::cubic_gigametre",
      .repAlias n!"Tm3" n!"units::isq::si::volume" n!"units::isq::si::cubic_terametre",
      .repAlias n!"Pm3" n!"units::isq::si::volume" n!"units::isq::si::cubic_petametre",
      .repAlias n!"Em3" n!"units::isq::si::volume" n!"units::isq::si::cubic_exametre",
      .repAlias n!"Zm3" n!"units::isq::si::volume" n!"units::isq::si::cubic_zettametre",
      .repAlias n!"Ym3" n!"units::isq::si::volume" n!"units::isq::si::cubic_yottametre",
      .repAlias n!"l" n!"units::isq::si::volume" n!"units::isq::si::litre",
      .repAlias n!"yl" n!"units::isq::si::volume" n!"units::isq::si::yoctolitre",
      .repAlias n!"zl" n!"units::isq::si::volume" n!"units::isq::si::zeptolitre",
      .repAlias n!"al" n!"units::isq::si::volume" n!"units::isq::si::attolitre",
      .repAlias n!"fl" n!"units::isq::si::volume" n!"units::isq::si::femtolitre",
      .repAlias n!"pl" n!"units::isq::si::volume" n!"units::isq::si::picolitre",
      .repAlias n!"nl" n!"units::isq::si::volume" n!"units::isq::si::nanolitre",
      .repAlias n!"ul" n!"units::isq::si::volume" n!"units::isq::si::microlitre",
      .repAlias n!"ml" n!"units::isq::si::volume" n!"units::isq::si::millilitre",
      .repAlias n!"cl" n!"units::isq::si::volume" n!"units::isq::si::centilitre",
      .repAlias n!"dl" n!"units::isq::si::volume" n!"units::isq::si::decilitre",
      .repAlias n!"dal" n!"units::isq::si::volume" n!"units::isq::si::decalitre",
      .repAlias n!"hl" n!"units::isq::si::volume" n!"units::isq::si::hectolitre",
      .repAlias n!"kl" n!"units::isq::si::volume" n!"units::isq::si::kilolitre",
      .repAlias n!"Ml" n!"units::isq::si::volume" n!"units::isq::si::megalitre",
      .repAlias n!"Gl" n!"units::isq::si::volume" n!"units::isq::si::gigalitre",
      .repAlias n!"Tl" n!"units::isq::si::volume" n!"units::isq::si::teralitre",
      .repAlias n!"Pl" n!"units::isq::si::volume" n!"units::isq::si::petalitre",
      .repAlias n!"El" n!"units::isq::si::volume" n!"units::isq::si::exalitre",
      .repAlias n!"Zl" n!"units::isq::si::volume" n!"units::isq::si::zettalitre",
      .repAlias n!"Yl" n!"units::isq::si::volume" n!"units::isq::si::yottalitre"])]

/-- src/systems/si/include/units/isq/si/energy_density.h:37-61. -/
def h_isq_si_energy_density : Header where
  path := n!"isq/si/energy_density.h"
  includes := [n!"isq/dimensions/energy_density.h", n!"generic/dimensionless.h", n!"isq/si/energy.h", n!"isq/si/volume.h"]
  sections := [
    ([n!"units::isq::si", n!"units::isq", n!"units", n!""], [
      .unit n!"joule_per_metre_cub",
      .derivedInst n!"dim_energy_density" n!"isq::dim_energy_density" n!"joule_per_metre_cub" [n!"dim_energy", n!"dim_volume"],
      .quantityAlias n!"energy_density" n!"dim_energy_density"]),
    ([n!"units::isq::si::literals", n!"units::isq::si", n!"units::isq", n!"units", n!""], [
      .literal n!"_q_J_per_m3" true n!"energy_density" n!"joule_per_metre_cub",
      .literal n!"_q_J_per_m3" false n!"energy_density" n!"joule_per_metre_cub"]),
    ([n!"units::aliases::isq::si::energy_density", n!"units::aliases::isq::si", n!"units::aliases::isq", n!"units::aliases", n!"units", n!""], [
      .repAlias n!"J_per_m3" n!"units::isq::si::energy_density" n!"units::isq::si::joule_per_metre_cub"])]

/-- src/systems/si-fps/include/units/isq/si/fps/length.h:38-145. -/
def h_isq_si_fps_length : Header where
  path := n!"isq/si/fps/length.h"
  includes := [n!"isq/dimensions/length.h", n!"generic/dimensionless.h", n!"isq/si/length.h"]
  sections := [
    ([n!"units::isq::si::fps", n!"units::isq::si", n!"units::isq", n!"units", n!""], [
      .namedScaled n!"foot" ⟨"ft", "ft"⟩ n!"no_prefix" (3048) (1000) (-1) n!"si::metre",
      .namedScaled n!"inch" ⟨"in", "in"⟩ n!"no_prefix" (1) (12) (0) n!"foot",
      .namedScaled n!"thousandth" ⟨"thou", "thou"⟩ n!"no_prefix" (1) (1000) (0) n!"inch",
      .aliasOf n!"thou" n!"thousandth" ⟨"thou", "thou"⟩ n!"no_prefix",
      .aliasOf n!"mil" n!"thousandth" ⟨"mil", "mil"⟩ n!"no_prefix",
      .namedScaled n!"yard" ⟨"yd", "yd"⟩ n!"si::prefix" (3) (1) (0) n!"foot",
      .namedScaled n!"fathom" ⟨"ftm", "ftm"⟩ n!"no_prefix" (6) (1) (0) n!"foot",
      .prefixed n!"kiloyard" n!"si::kilo" n!"yard",
      .namedScaled n!"mile" ⟨"mile", "mile"⟩ n!"no_prefix" (5280) (1) (0) n!"foot",
      .namedScaled n!"nautical_mile" ⟨"mi(naut)", "mi(naut)"⟩ n!"no_prefix" (2000) (1) (0) n!"yard",
      .baseInst n!"dim_length" n!"isq::dim_length" n!"foot",
      .quantityAlias n!"length" n!"dim_length"]),
    ([n!"units::isq::si::fps::literals", n!"units::isq::si::fps", n!"units::isq::si", n!"units::isq", n!"units", n!""], [
      .literal n!"_q_thou" true n!"length" n!"thousandth",
      .literal n!"_q_thou" false n!"length" n!"thousandth",
      .literal n!"_q_mil" true n!"length" n!"thousandth",
      .literal n!"_q_mil" false n!"length" n!"thousandth",
      .literal n!"_q_in" true n!"length" n!"inch",
      .literal n!"_q_in" false n!"length" n!"inch",
      .literal n!"_q_ft" true n!"length" n!"foot",
      .literal n!"_q_ft" false n!"length" n!"foot",
      .literal n!"_q_yd" true n!"length" n!"yard",
      .literal n!"_q_yd" false n!"length" n!"yard",
      .literal n!"_q_ftm" true n!"length" n!"fathom",
      .literal n!"_q_ftm" false n!"length" n!"fathom",
      .literal n!"_q_kyd" true n!"length" n!"kiloyard",
      .literal n!"_q_kyd" false n!"length" n!"kiloyard",
      .literal n!"_q_mile" true n!"length" n!"mile",
      .literal n!"_q_mile" false n!"length" n!"mile",
      .literal n!"_q_naut_mi" true n!"length" n!"nautical_mile",
      .literal n!"_q_naut_mi" false n!"length" n!"nautical_mile"]),
    ([n!"units::isq::si::fps::length_references", n!"units::isq::si::fps", n!"units::isq::si", n!"units::isq", n!"units", n!""], [
      .reference n!"thou" n!"dim_length" n!"thousandth",
      .referenceCopy n!"mil" n!"thou",
      .reference n!"in" n!"dim_length" n!"inch",
      .reference n!"ft" n!"dim_length" n!"foot",
      .reference n!"yd" n!"dim_length" n!"yard",
      .reference n!"ftm" n!"dim_length" n!"fathom",
      .reference n!"kyd" n!"dim_length" n!"kiloyard",
      .reference n!"mile" n!"dim_length" n!"fps::mile",
      .reference n!"naut_mi" n!"dim_length" n!"nautical_mile"]),
    ([n!"units::aliases::isq::si::fps::length", n!"units::aliases::isq::si::fps", n!"units::aliases::isq::si", n!"units::aliases::isq", n!"units::aliases", n!"units", n!""], [
      .repAlias n!"thou" n!"units::isq::si::fps::length" n!"units::isq::si::fps::thousandth",
      .repAliasCopy n!"mil" n!"thou",
      .repAlias n!"in" n!"units::isq::si::fps::length" n!"units::isq::si::fps::inch",
      .repAlias n!"ft" n!"units::isq::si::fps::length" n!"units::isq::si::fps::foot",
      .repAlias n!"yd" n!"units::isq::si::fps::length" n!"units::isq::si::fps::yard",
      .repAlias n!"ftm" n!"units::isq::si::fps::length" n!"units::isq::si::fps::fathom",
      .repAlias n!"kyd" n!"units::isq::si::fps::length" n!"units::isq::si::fps::kiloyard",
      .repAlias n!"mile" n!"units::isq::si::fps::length" n!"units::isq::si::fps::mile",
      .repAlias n!"naut_mi" n!"units::isq::si::fps::length" n!"units::isq::si::fps::nautical_mile"])]

/-- src/systems/si-fps/include/units/isq/si/fps/time.h:37-58. -/
def h_isq_si_fps_time : Header where
  path := n!"isq/si/fps/time.h"
  includes := [n!"isq/dimensions/time.h", n!"generic/dimensionless.h", n!"isq/si/time.h"]
  sections := [
    ([n!"units::isq::si::fps", n!"units::isq::si", n!"units::isq", n!"units", n!""], [
      .using_ n!"second" n!"si::second",
      .using_ n!"minute" n!"si::minute",
      .using_ n!"hour" n!"si::hour",
      .using_ n!"dim_time" n!"si::dim_time",
      .using_ n!"time" n!"si::time"]),
    ([n!"units::isq::si::fps::literals", n!"units::isq::si::fps", n!"units::isq::si", n!"units::isq", n!"units", n!""], [
      .usingLiteral n!"_q_s" n!"si::literals"]),
    ([n!"units::isq::si::fps::time_references", n!"units::isq::si::fps", n!"units::isq::si", n!"units::isq", n!"units", n!""], [
      .using_ n!"s" n!"si::time_references::s"])]

/-- src/systems/si-fps/include/units/isq/si/fps/speed.h:38-93. -/
def h_isq_si_fps_speed : Header where
  path := n!"isq/si/fps/speed.h"
  includes := [n!"isq/dimensions/speed.h", n!"generic/dimensionless.h", n!"isq/si/fps/length.h", n!"isq/si/fps/time.h"]
  sections := [
    ([n!"units::isq::si::fps", n!"units::isq::si", n!"units::isq", n!"units", n!""], [
      .unit n!"foot_per_second",
      .derivedInst n!"dim_speed" n!"isq::dim_speed" n!"foot_per_second" [n!"dim_length", n!"dim_time"],
      .quantityAlias n!"speed" n!"dim_speed",
      .derived n!"mile_per_hour" n!"dim_speed" [n!"mile", n!"hour"],
      .derived n!"nautical_mile_per_hour" n!"dim_speed" [n!"nautical_mile", n!"hour"],
      .aliasOf n!"knot" n!"nautical_mile_per_hour" ⟨"knot", "knot"⟩ n!"no_prefix"]),
    ([n!"units::isq::si::fps::literals", n!"units::isq::si::fps", n!"units::isq::si", n!"units::isq", n!"units", n!""], [
      .literal n!"_q_ft_per_s" true n!"speed" n!"foot_per_second",
      .literal n!"_q_ft_per_s" false n!"speed" n!"foot_per_second",
      .literal n!"_q_mph" true n!"speed" n!"mile_per_hour",
      .literal n!"_q_mph" false n!"speed" n!"mile_per_hour",
      .literal n!"_q_knot" true n!"speed" n!"knot",
      .literal n!"_q_knot" false n!"speed" n!"knot"]),
    ([n!"units::isq::si::fps::speed_references", n!"units::isq::si::fps", n!"units::isq::si", n!"units::isq", n!"units", n!""], [
      .reference n!"mph" n!"dim_speed" n!"mile_per_hour",
      .reference n!"knot" n!"dim_speed" n!"fps::knot"]),
    ([n!"units::aliases::isq::si::fps::speed", n!"units::aliases::isq::si::fps", n!"units::aliases::isq::si", n!"units::aliases::isq", n!"units::aliases", n!"units", n!""], [
      .repAlias n!"ft_per_s" n!"units::isq::si::fps::speed" n!"units::isq::si::fps::foot_per_second",
      .repAlias n!"mph" n!"units::isq::si::fps::speed" n!"units::isq::si::fps::mile_per_hour",
      .repAlias n!"knot" n!"units::isq::si::fps::speed" n!"units::isq::si::fps::knot"])]

/-- src/systems/si-fps/include/units/isq/si/fps/acceleration.h:36-60. -/
def h_isq_si_fps_acceleration : Header where
  path := n!"isq/si/fps/acceleration.h"
  includes := [n!"isq/dimensions/acceleration.h", n!"generic/dimensionless.h", n!"isq/si/fps/speed.h"]
  sections := [
    ([n!"units::isq::si::fps", n!"units::isq::si", n!"units::isq", n!"units", n!""], [
      .unit n!"foot_per_second_sq",
      .derivedInst n!"dim_acceleration" n!"isq::dim_acceleration" n!"foot_per_second_sq" [n!"dim_length", n!"dim_time"],
      .quantityAlias n!"acceleration" n!"dim_acceleration"]),
    ([n!"units::isq::si::fps::literals", n!"units::isq::si::fps", n!"units::isq::si", n!"units::isq", n!"units", n!""], [
      .literal n!"_q_ft_per_s2" true n!"acceleration" n!"foot_per_second_sq",
      .literal n!"_q_ft_per_s2" false n!"acceleration" n!"foot_per_second_sq"]),
    ([n!"units::aliases::isq::si::fps::acceleration", n!"units::aliases::isq::si::fps", n!"units::aliases::isq::si", n!"units::aliases::isq", n!"units::aliases", n!"units", n!""], [
      .repAlias n!"ft_per_s2" n!"units::isq::si::fps::acceleration" n!"units::isq::si::fps::foot_per_second_sq"])]

/-- src/systems/si-fps/include/units/isq/si/fps/area.h:37-78. -/
def h_isq_si_fps_area : Header where
  path := n!"isq/si/fps/area.h"
  includes := [n!"isq/dimensions/area.h", n!"generic/dimensionless.h", n!"isq/si/fps/length.h"]
  sections := [
    ([n!"units::isq::si::fps", n!"units::isq::si", n!"units::isq", n!"units", n!""], [
      .unit n!"square_foot",
      .derivedInst n!"dim_area" n!"isq::dim_area" n!"square_foot" [n!"dim_length"],
      .quantityAlias n!"area" n!"dim_area"]),
    ([n!"units::isq::si::fps::literals", n!"units::isq::si::fps", n!"units::isq::si", n!"units::isq", n!"units", n!""], [
      .literal n!"_q_ft2" true n!"area" n!"square_foot",
      .literal n!"_q_ft2" false n!"area" n!"square_foot"]),
    ([n!"units::isq::si::fps::area_references", n!"units::isq::si::fps", n!"units::isq::si", n!"units::isq", n!"units", n!""], [
      .reference n!"ft2" n!"dim_area" n!"square_foot"]),
    ([n!"units::aliases::isq::si::fps::area", n!"units::aliases::isq::si::fps", n!"units::aliases::isq::si", n!"units::aliases::isq", n!"units::aliases", n!"units", n!""], [
      .repAlias n!"ft2" n!"units::isq::si::fps::area" n!"units::isq::si::fps::square_foot"])]

/-- src/systems/si-fps/include/units/isq/si/fps/mass.h:38-143. -/
def h_isq_si_fps_mass : Header where
  path := n!"isq/si/fps/mass.h"
  includes := [n!"isq/dimensions/mass.h", n!"generic/dimensionless.h", n!"isq/si/mass.h"]
  sections := [
    ([n!"units::isq::si::fps", n!"units::isq::si", n!"units::isq", n!"units", n!""], [
      .namedScaled n!"pound" ⟨"lb", "lb"⟩ n!"no_prefix" (45359237) (100000000) (0) n!"si::kilogram",
      .baseInst n!"dim_mass" n!"isq::dim_mass" n!"pound",
      .quantityAlias n!"mass" n!"dim_mass",
      .namedScaled n!"grain" ⟨"gr", "gr"⟩ n!"no_prefix" (1) (7000) (0) n!"pound",
      .namedScaled n!"dram" ⟨"dr", "dr"⟩ n!"no_prefix" (1) (256) (0) n!"pound",
      .namedScaled n!"ounce" ⟨"oz", "oz"⟩ n!"no_prefix" (1) (16) (0) n!"pound",
      .namedScaled n!"stone" ⟨"st", "st"⟩ n!"no_prefix" (14) (1) (0) n!"pound",
      .namedScaled n!"quarter" ⟨"qr", "qr"⟩ n!"no_prefix" (28) (1) (0) n!"pound",
      .namedScaled n!"hundredweight" ⟨"cwt", "cwt"⟩ n!"no_prefix" (112) (1) (0) n!"pound",
      .namedScaled n!"short_ton" ⟨"ton (short)", "ton (short)"⟩ n!"no_prefix" (2000) (1) (0) n!"pound",
      .namedScaled n!"long_ton" ⟨"ton (long)", "ton (long)"⟩ n!"no_prefix" (2240) (1) (0) n!"pound"]),
    ([n!"units::isq::si::fps::literals", n!"units::isq::si::fps", n!"units::isq::si", n!"units::isq", n!"units", n!""], [
      .literal n!"_q_gr" true n!"mass" n!"grain",
      .literal n!"_q_gr" false n!"mass" n!"grain",
      .literal n!"_q_dr" true n!"mass" n!"dram",
      .literal n!"_q_dr" false n!"mass" n!"dram",
      .literal n!"_q_oz" true n!"mass" n!"ounce",
      .literal n!"_q_oz" false n!"mass" n!"ounce",
      .literal n!"_q_lb" true n!"mass" n!"pound",
      .literal n!"_q_lb" false n!"mass" n!"pound",
      .literal n!"_q_st" true n!"mass" n!"stone",
      .literal n!"_q_st" false n!"mass" n!"stone",
      .literal n!"_q_qr" true n!"mass" n!"quarter",
      .literal n!"_q_qr" false n!"mass" n!"quarter",
      .literal n!"_q_cwt" true n!"mass" n!"hundredweight",
      .literal n!"_q_cwt" false n!"mass" n!"hundredweight",
      .literal n!"_q_ston" true n!"mass" n!"short_ton",
      .literal n!"_q_ston" false n!"mass" n!"short_ton",
      .literal n!"_q_lton" true n!"mass" n!"long_ton",
      .literal n!"_q_lton" false n!"mass" n!"long_ton"]),
    ([n!"units::isq::si::fps::mass_references", n!"units::isq::si::fps", n!"units::isq::si", n!"units::isq", n!"units", n!""], [
      .reference n!"gr" n!"dim_mass" n!"grain",
      .reference n!"dr" n!"dim_mass" n!"dram",
      .reference n!"oz" n!"dim_mass" n!"ounce",
      .reference n!"lb" n!"dim_mass" n!"pound",
      .reference n!"st" n!"dim_mass" n!"stone",
      .reference n!"qr" n!"dim_mass" n!"quarter",
      .reference n!"cwt" n!"dim_mass" n!"hundredweight",
      .reference n!"ston" n!"dim_mass" n!"short_ton",
      .reference n!"lton" n!"dim_mass" n!"long_ton"]),
    ([n!"units::aliases::isq::si::fps::mass", n!"units::aliases::isq::si::fps", n!"units::aliases::isq::si", n!"units::aliases::isq", n!"units::aliases", n!"units", n!""], [
      .repAlias n!"gr" n!"units::isq::si::fps::mass" n!"units::isq::si::fps::grain",
      .repAlias n!"dr" n!"units::isq::si::fps::mass" n!"units::isq::si::fps::dram",
      .repAlias n!"oz" n!"units::isq::si::fps::mass" n!"units::isq::si::fps::ounce",
      .repAlias n!"lb" n!"units::isq::si::fps::mass" n!"units::isq::si::fps::pound",
      .repAlias n!"st" n!"units::isq::si::fps::mass" n!"units::isq::si::fps::stone",
      .repAlias n!"qr" n!"units::isq::si::fps::mass" n!"units::isq::si::fps::quarter",
      .repAlias n!"cwt" n!"units::isq::si::fps::mass" n!"units::isq::si::fps::hundredweight",
      .repAlias n!"ston" n!"units::isq::si::fps::mass" n!"units::isq::si::fps::short_ton",
      .repAlias n!"lton" n!"units::isq::si::fps::mass" n!"units::isq::si::fps::long_ton"])]

/-- src/systems/si-fps/include/units/isq/si/fps/density.h:37-62. -/
def h_isq_si_fps_density : Header where
  path := n!"isq/si/fps/density.h"
  includes := [n!"isq/dimensions/density.h", n!"generic/dimensionless.h", n!"isq/si/fps/mass.h", n!"isq/si/fps/length.h"]
  sections := [
    ([n!"units::isq::si::fps", n!"units::isq::si", n!"units::isq", n!"units", n!""], [
      .unit n!"pound_per_foot_cub",
      .derivedInst n!"dim_density" n!"isq::dim_density" n!"pound_per_foot_cub" [n!"dim_mass", n!"dim_length"],
      .quantityAlias n!"density" n!"dim_density"]),
    ([n!"units::isq::si::fps::literals", n!"units::isq::si::fps", n!"units::isq::si", n!"units::isq", n!"units", n!""], [
      .literal n!"_q_lb_per_ft3" true n!"density" n!"pound_per_foot_cub",
      .literal n!"_q_lb_per_ft3" false n!"density" n!"pound_per_foot_cub"]),
    ([n!"units::aliases::isq::si::fps::density", n!"units::aliases::isq::si::fps", n!"units::aliases::isq::si", n!"units::aliases::isq", n!"units::aliases", n!"units", n!""], [
      .repAlias n!"lb_per_ft3" n!"units::isq::si::fps::density" n!"units::isq::si::fps::pound_per_foot_cub"])]

/-- src/systems/si-fps/include/units/isq/si/fps/force.h:40-101. -/
def h_isq_si_fps_force : Header where
  path := n!"isq/si/fps/force.h"
  includes := [n!"isq/dimensions/force.h", n!"generic/dimensionless.h", n!"isq/si/fps/acceleration.h", n!"isq/si/fps/mass.h", n!"isq/si/prefixes.h"]
  sections := [
    ([n!"units::isq::si::fps", n!"units::isq::si", n!"units::isq", n!"units", n!""], [
      .named n!"poundal" ⟨"pdl", "pdl"⟩ n!"no_prefix",
      .namedScaled n!"pound_force" ⟨"lbf", "lbf"⟩ n!"si::prefix" (32174049) (1000000) (0) n!"poundal",
      .prefixed n!"kilopound_force" n!"si::kilo" n!"pound_force",
      .aliasOf n!"kip" n!"kilopound_force" ⟨"klbf", "klbf"⟩ n!"no_prefix",
      .derivedInst n!"dim_force" n!"isq::dim_force" n!"poundal" [n!"dim_mass", n!"dim_acceleration"],
      .quantityAlias n!"force" n!"dim_force"]),
    ([n!"units::isq::si::fps::literals", n!"units::isq::si::fps", n!"units::isq::si", n!"units::isq", n!"units", n!""], [
      .literal n!"_q_pdl" true n!"force" n!"poundal",
      .literal n!"_q_pdl" false n!"force" n!"poundal",
      .literal n!"_q_lbf" true n!"force" n!"pound_force",
      .literal n!"_q_lbf" false n!"force" n!"pound_force",
      .literal n!"_q_klbf" true n!"force" n!"kilopound_force",
      .literal n!"_q_klbf" false n!"force" n!"kilopound_force"]),
    ([n!"units::isq::si::fps::force_references", n!"units::isq::si::fps", n!"units::isq::si", n!"units::isq", n!"units", n!""], [
      .reference n!"pdl" n!"dim_force" n!"poundal",
      .reference n!"lbf" n!"dim_force" n!"pound_force",
      .reference n!"klbf" n!"dim_force" n!"kilopound_force"]),
    ([n!"units::aliases::isq::si::fps::force", n!"units::aliases::isq::si::fps", n!"units::aliases::isq::si", n!"units::aliases::isq", n!"units::aliases", n!"units", n!""], [
      .repAlias n!"pdl" n!"units::isq::si::fps::force" n!"units::isq::si::fps::poundal",
      .repAlias n!"lbf" n!"units::isq::si::fps::force" n!"units::isq::si::fps::pound_force",
      .repAlias n!"klbf" n!"units::isq::si::fps::force" n!"units::isq::si::fps::kilopound_force"])]

/-- src/systems/si-fps/include/units/isq/si/fps/energy.h:38-71. -/
def h_isq_si_fps_energy : Header where
  path := n!"isq/si/fps/energy.h"
  includes := [n!"isq/dimensions/energy.h", n!"generic/dimensionless.h", n!"isq/si/fps/force.h", n!"isq/si/prefixes.h"]
  sections := [
    ([n!"units::isq::si::fps", n!"units::isq::si", n!"units::isq", n!"units", n!""], [
      .unit n!"foot_poundal",
      .derivedInst n!"dim_energy" n!"isq::dim_energy" n!"foot_poundal" [n!"dim_length", n!"dim_force"],
      .derived n!"foot_pound_force" n!"dim_energy" [n!"foot", n!"pound_force"],
      .quantityAlias n!"energy" n!"dim_energy"]),
    ([n!"units::isq::si::fps::literals", n!"units::isq::si::fps", n!"units::isq::si", n!"units::isq", n!"units", n!""], [
      .literal n!"_q_ft_pdl" true n!"energy" n!"foot_poundal",
      .literal n!"_q_ft_pdl" false n!"energy" n!"foot_poundal",
      .literal n!"_q_ft_lbf" true n!"energy" n!"foot_pound_force",
      .literal n!"_q_ft_lbf" false n!"energy" n!"foot_pound_force"]),
    ([n!"units::aliases::isq::si::fps::energy", n!"units::aliases::isq::si::fps", n!"units::aliases::isq::si", n!"units::aliases::isq", n!"units::aliases", n!"units", n!""], [
      .repAlias n!"ft_pdl" n!"units::isq::si::fps::energy" n!"units::isq::si::fps::foot_poundal",
      .repAlias n!"ft_lbf" n!"units::isq::si::fps::energy" n!"units::isq::si::fps::foot_pound_force"])]

/-- src/systems/si-fps/include/units/isq/si/fps/power.h:38-93. -/
def h_isq_si_fps_power : Header where
  path := n!"isq/si/fps/power.h"
  includes := [n!"isq/dimensions/power.h", n!"generic/dimensionless.h", n!"isq/si/fps/energy.h", n!"isq/si/prefixes.h"]
  sections := [
    ([n!"units::isq::si::fps", n!"units::isq::si", n!"units::isq", n!"units", n!""], [
      .unit n!"foot_poundal_per_second",
      .derivedInst n!"dim_power" n!"isq::dim_power" n!"foot_poundal_per_second" [n!"dim_length", n!"dim_force", n!"dim_time"],
      .derived n!"foot_pound_force_per_second" n!"dim_power" [n!"foot", n!"pound_force", n!"second"],
      .namedScaled n!"horse_power" ⟨"hp", "hp"⟩ n!"no_prefix" (550) (1) (0) n!"foot_pound_force_per_second",
      .quantityAlias n!"power" n!"dim_power"]),
    ([n!"units::isq::si::fps::literals", n!"units::isq::si::fps", n!"units::isq::si", n!"units::isq", n!"units", n!""], [
      .literal n!"_q_ft_pdl_per_s" true n!"power" n!"foot_poundal_per_second",
      .literal n!"_q_ft_pdl_per_s" false n!"power" n!"foot_poundal_per_second",
      .literal n!"_q_ft_lbf_per_s" true n!"power" n!"foot_pound_force_per_second",
      .literal n!"_q_ft_lbf_per_s" false n!"power" n!"foot_pound_force_per_second",
      .literal n!"_q_hp" true n!"power" n!"horse_power",
      .literal n!"_q_hp" false n!"power" n!"horse_power"]),
    ([n!"units::isq::si::fps::power_references", n!"units::isq::si::fps", n!"units::isq::si", n!"units::isq", n!"units", n!""], [
      .reference n!"hp" n!"dim_power" n!"horse_power"]),
    ([n!"units::aliases::isq::si::fps::power", n!"units::aliases::isq::si::fps", n!"units::aliases::isq::si", n!"units::aliases::isq", n!"units::aliases", n!"units", n!""], [
      .repAlias n!"ft_pdl_per_s" n!"units::isq::si::fps::power" n!"units::isq::si::fps::foot_poundal_per_second",
      .repAlias n!"ft_lbf_per_s" n!"units::isq::si::fps::power" n!"units::isq::si::fps::foot_pound_force_per_second",
      .repAlias n!"hp" n!"units::isq::si::fps::power" n!"units::isq::si::fps::horse_power"])]

/-- src/systems/si-fps/include/units/isq/si/fps/pressure.h:39-97. -/
def h_isq_si_fps_pressure : Header where
  path := n!"isq/si/fps/pressure.h"
  includes := [n!"isq/dimensions/pressure.h", n!"generic/dimensionless.h", n!"isq/si/fps/area.h", n!"isq/si/fps/force.h", n!"isq/si/prefixes.h"]
  sections := [
    ([n!"units::isq::si::fps", n!"units::isq::si", n!"units::isq", n!"units", n!""], [
      .unit n!"poundal_per_foot_sq",
      .derivedInst n!"dim_pressure" n!"isq::dim_pressure" n!"poundal_per_foot_sq" [n!"dim_force", n!"dim_area"],
      .quantityAlias n!"pressure" n!"dim_pressure",
      .namedScaled n!"pound_force_per_foot_sq" ⟨"lbf ft2", "lbf ft2"⟩ n!"si::prefix" (32174049) (1000000) (0) n!"poundal_per_foot_sq",
      .namedScaled n!"pound_force_per_inch_sq" ⟨"psi", "psi"⟩ n!"si::prefix" (1) (144) (0) n!"pound_force_per_foot_sq",
      .prefixed n!"kilopound_force_per_inch_sq" n!"si::kilo" n!"pound_force_per_inch_sq"]),
    ([n!"units::isq::si::fps::literals", n!"units::isq::si::fps", n!"units::isq::si", n!"units::isq", n!"units", n!""], [
      .literal n!"_q_pdl_per_ft2" true n!"pressure" n!"poundal_per_foot_sq",
      .literal n!"_q_pdl_per_ft2" false n!"pressure" n!"poundal_per_foot_sq",
      .literal n!"_q_psi" true n!"pressure" n!"pound_force_per_inch_sq",
      .literal n!"_q_psi" false n!"pressure" n!"pound_force_per_inch_sq",
      .literal n!"_q_kpsi" true n!"pressure" n!"kilopound_force_per_inch_sq",
      .literal n!"_q_kpsi" false n!"pressure" n!"kilopound_force_per_inch_sq"]),
    ([n!"units::isq::si::fps::pressure_references", n!"units::isq::si::fps", n!"units::isq::si", n!"units::isq", n!"units", n!""], [
      .reference n!"psi" n!"dim_pressure" n!"pound_force_per_inch_sq",
      .reference n!"kpsi" n!"dim_pressure" n!"kilopound_force_per_inch_sq"]),
    ([n!"units::aliases::isq::si::fps::pressure", n!"units::aliases::isq::si::fps", n!"units::aliases::isq::si", n!"units::aliases::isq", n!"units::aliases", n!"units", n!""], [
      .repAlias n!"pdl_per_ft2" n!"units::isq::si::fps::pressure" n!"units::isq::si::fps::poundal_per_foot_sq",
      .repAlias n!"psi" n!"units::isq::si::fps::pressure" n!"units::isq::si::fps::pound_force_per_inch_sq",
      .repAlias n!"kpsi" n!"units::isq::si::fps::pressure" n!"units::isq::si::fps::kilopound_force_per_inch_sq"])]

/-- src/systems/si-fps/include/units/isq/si/fps/volume.h:37-85. -/
def h_isq_si_fps_volume : Header where
  path := n!"isq/si/fps/volume.h"
  includes := [n!"isq/dimensions/volume.h", n!"generic/dimensionless.h", n!"isq/si/fps/length.h"]
  sections := [
    ([n!"units::isq::si::fps", n!"units::isq::si", n!"units::isq", n!"units", n!""], [
      .unit n!"cubic_foot",
      .derivedInst n!"dim_volume" n!"isq::dim_volume" n!"cubic_foot" [n!"dim_length"],
      .derived n!"cubic_yard" n!"dim_volume" [n!"yard"],
      .quantityAlias n!"volume" n!"dim_volume"]),
    ([n!"units::isq::si::fps::literals", n!"units::isq::si::fps", n!"units::isq::si", n!"units::isq", n!"units", n!""], [
      .literal n!"_q_ft3" true n!"volume" n!"cubic_foot",
      .literal n!"_q_ft3" false n!"volume" n!"cubic_foot",
      .literal n!"_q_yd3" true n!"volume" n!"cubic_yard",
      .literal n!"_q_yd3" false n!"volume" n!"cubic_yard"]),
    ([n!"units::isq::si::fps::volume_references", n!"units::isq::si::fps", n!"units::isq::si", n!"units::isq", n!"units", n!""], [
      .reference n!"ft3" n!"dim_volume" n!"cubic_foot",
      .reference n!"yd3" n!"dim_volume" n!"cubic_yard"]),
    ([n!"units::aliases::isq::si::fps::volume", n!"units::aliases::isq::si::fps", n!"units::aliases::isq::si", n!"units::aliases::isq", n!"units::aliases", n!"units", n!""], [
      .repAlias n!"ft3" n!"units::isq::si::fps::volume" n!"units::isq::si::fps::cubic_foot",
      .repAlias n!"yd3" n!"units::isq::si::fps::volume" n!"units::isq::si::fps::cubic_yard"])]

/-- src/systems/si-fps/include/units/isq/si/fps/fps.h:26-38. -/
def h_isq_si_fps_fps : Header where
  path := n!"isq/si/fps/fps.h"
  includes := [n!"isq/si/fps/length.h", n!"isq/si/fps/mass.h", n!"isq/si/fps/time.h", n!"isq/si/fps/acceleration.h", n!"isq/si/fps/area.h", n!"isq/si/fps/density.h", n!"isq/si/fps/energy.h", n!"isq/si/fps/force.h", n!"isq/si/fps/power.h", n!"isq/si/fps/pressure.h", n!"isq/si/fps/speed.h", n!"isq/si/fps/volume.h"]
  sections := []

/-- src/systems/si/include/units/isq/si/heat_capacity.h:39-84. -/
def h_isq_si_heat_capacity : Header where
  path := n!"isq/si/heat_capacity.h"
  includes := [n!"isq/dimensions/heat_capacity.h", n!"generic/dimensionless.h", n!"isq/si/thermodynamic_temperature.h", n!"isq/si/energy.h", n!"isq/si/mass.h", n!"isq/si/amount_of_substance.h"]
  sections := [
    ([n!"units::isq::si", n!"units::isq", n!"units", n!""], [
      .unit n!"joule_per_kelvin",
      .unit n!"joule_per_kilogram_kelvin",
      .unit n!"joule_per_mole_kelvin",
      .derivedInst n!"dim_heat_capacity" n!"isq::dim_heat_capacity" n!"joule_per_kelvin" [n!"dim_energy", n!"dim_thermodynamic_temperature"],
      .derivedInst n!"dim_specific_heat_capacity" n!"isq::dim_specific_heat_capacity" n!"joule_per_kilogram_kelvin" [n!"dim_heat_capacity", n!"dim_mass"],
      .derivedInst n!"dim_molar_heat_capacity" n!"isq::dim_molar_heat_capacity" n!"joule_per_mole_kelvin" [n!"dim_heat_capacity", n!"dim_amount_of_substance"],
      .quantityAlias n!"heat_capacity" n!"dim_heat_capacity",
      .quantityAlias n!"specific_heat_capacity" n!"dim_specific_heat_capacity",
      .quantityAlias n!"molar_heat_capacity" n!"dim_molar_heat_capacity"]),
    ([n!"units::isq::si::literals", n!"units::isq::si", n!"units::isq", n!"units", n!""], [
      .literal n!"_q_J_per_K" true n!"heat_capacity" n!"joule_per_kelvin",
      .literal n!"_q_J_per_K" false n!"heat_capacity" n!"joule_per_kelvin",
      .literal n!"_q_J_per_kg_K" true n!"specific_heat_capacity" n!"joule_per_kilogram_kelvin",
      .literal n!"_q_J_per_kg_K" false n!"specific_heat_capacity" n!"joule_per_kilogram_kelvin",
      .literal n!"_q_J_per_mol_K" true n!"molar_heat_capacity" n!"joule_per_mole_kelvin",
      .literal n!"_q_J_per_mol_K" false n!"molar_heat_capacity" n!"joule_per_mole_kelvin"]),
    ([n!"units::aliases::isq::si::heat_capacity", n!"units::aliases::isq::si", n!"units::aliases::isq", n!"units::aliases", n!"units", n!""], [
      .repAlias n!"J_per_K" n!"units::isq::si::heat_capacity" n!"units::isq::si::joule_per_kelvin",
      .repAlias n!"J_per_kg_K" n!"units::isq::si::specific_heat_capacity" n!"units::isq::si::joule_per_kilogram_kelvin",
      .repAlias n!"J_per_mol_K" n!"units::isq::si::molar_heat_capacity" n!"units::isq::si::joule_per_mole_kelvin"])]

/-- src/systems/si-iau/include/units/isq/si/iau/length.h:39-93. -/
def h_isq_si_iau_length : Header where
  path := n!"isq/si/iau/length.h"
  includes := [n!"isq/dimensions/length.h", n!"generic/dimensionless.h", n!"isq/si/length.h"]
  sections := [
    ([n!"units::isq::si::iau", n!"units::isq::si", n!"units::isq", n!"units", n!""], [
      .namedScaled n!"light_year" ⟨"ly", "ly"⟩ n!"no_prefix" (9460730472580800) (1) (0) n!"si::metre",
      .namedScaled n!"parsec" ⟨"pc", "pc"⟩ n!"si::prefix" (30856775814913673) (1) (0) n!"si::metre",
      .namedScaled n!"angstrom" ⟨"angstrom", "angstrom"⟩ n!"no_prefix" (1) (1) (-10) n!"si::metre"]),
    ([n!"units::isq::si::iau::literals", n!"units::isq::si::iau", n!"units::isq::si", n!"units::isq", n!"units", n!""], [
      .literal n!"_q_ly" true n!"si::length" n!"light_year",
      .literal n!"_q_ly" false n!"si::length" n!"light_year",
      .literal n!"_q_pc" true n!"si::length" n!"parsec",
      .literal n!"_q_pc" false n!"si::length" n!"parsec",
      .literal n!"_q_angstrom" true n!"si::length" n!"angstrom",
      .literal n!"_q_angstrom" false n!"si::length" n!"angstrom"]),
    ([n!"units::isq::si::iau::length_references", n!"units::isq::si::iau", n!"units::isq::si", n!"units::isq", n!"units", n!""], [
      .reference n!"ly" n!"si::dim_length" n!"light_year",
      .reference n!"pc" n!"si::dim_length" n!"parsec",
      .reference n!"angstrom" n!"si::dim_length" n!"iau::angstrom"]),
    ([n!"units::aliases::isq::si::iau::length", n!"units::aliases::isq::si::iau", n!"units::aliases::isq::si", n!"units::aliases::isq", n!"units::aliases", n!"units", n!""], [
      .repAlias n!"ly" n!"units::isq::si::length" n!"units::isq::si::iau::light_year",
      .repAlias n!"pc" n!"units::isq::si::length" n!"units::isq::si::iau::parsec",
      .repAlias n!"angstrom" n!"units::isq::si::length" n!"units::isq::si::iau::angstrom"])]

/-- src/systems/si-iau/include/units/isq/si/iau/iau.h:26-26. -/
def h_isq_si_iau_iau : Header where
  path := n!"isq/si/iau/iau.h"
  includes := [n!"isq/si/iau/length.h"]
  sections := []

/-- src/systems/si-international/include/units/isq/si/international/length.h:40-145. -/
def h_isq_si_international_length : Header where
  path := n!"isq/si/international/length.h"
  includes := [n!"isq/dimensions/length.h", n!"generic/dimensionless.h", n!"isq/si/length.h"]
  sections := [
    ([n!"units::isq::si::international", n!"units::isq::si", n!"units::isq", n!"units", n!""], [
      .namedScaled n!"yard" ⟨"yd", "yd"⟩ n!"no_prefix" (9144) (1000) (-1) n!"si::metre",
      .namedScaled n!"foot" ⟨"ft", "ft"⟩ n!"no_prefix" (1) (3) (0) n!"yard",
      .namedScaled n!"fathom" ⟨"fathom", "fathom"⟩ n!"no_prefix" (2) (1) (0) n!"yard",
      .namedScaled n!"inch" ⟨"in", "in"⟩ n!"no_prefix" (1) (36) (0) n!"yard",
      .namedScaled n!"mile" ⟨"mi", "mi"⟩ n!"no_prefix" (25146) (15625) (0) n!"si::kilometre",
      .namedScaled n!"nautical_mile" ⟨"mi(naut)", "mi(naut)"⟩ n!"no_prefix" (1852) (1) (0) n!"si::metre",
      .namedScaled n!"thou" ⟨"thou", "thou"⟩ n!"no_prefix" (1) (1000) (0) n!"inch",
      .using_ n!"mil" n!"thou"]),
    ([n!"units::isq::si::international::literals", n!"units::isq::si::international", n!"units::isq::si", n!"units::isq", n!"units", n!""], [
      .literal n!"_q_yd" true n!"si::length" n!"yard",
      .literal n!"_q_yd" false n!"si::length" n!"yard",
      .literal n!"_q_ft" true n!"si::length" n!"foot",
      .literal n!"_q_ft" false n!"si::length" n!"foot",
      .literal n!"_q_fathom" true n!"si::length" n!"fathom",
      .literal n!"_q_fathom" false n!"si::length" n!"fathom",
      .literal n!"_q_in" true n!"si::length" n!"inch",
      .literal n!"_q_in" false n!"si::length" n!"inch",
      .literal n!"_q_mi" true n!"si::length" n!"mile",
      .literal n!"_q_mi" false n!"si::length" n!"mile",
      .literal n!"_q_naut_mi" true n!"si::length" n!"nautical_mile",
      .literal n!"_q_naut_mi" false n!"si::length" n!"nautical_mile",
      .literal n!"_q_thou" true n!"si::length" n!"thou",
      .literal n!"_q_thou" false n!"si::length" n!"thou",
      .literal n!"_q_mil" true n!"si::length" n!"mil",
      .literal n!"_q_mil" false n!"si::length" n!"mil"]),
    ([n!"units::isq::si::international::length_references", n!"units::isq::si::international", n!"units::isq::si", n!"units::isq", n!"units", n!""], [
      .reference n!"yd" n!"si::dim_length" n!"yard",
      .reference n!"ft" n!"si::dim_length" n!"foot",
      .reference n!"fathom" n!"si::dim_length" n!"international::fathom",
      .reference n!"in" n!"si::dim_length" n!"inch",
      .reference n!"mi" n!"si::dim_length" n!"mile",
      .reference n!"mi_naut" n!"si::dim_length" n!"nautical_mile",
      .reference n!"thou" n!"si::dim_length" n!"international::thou",
      .reference n!"mil" n!"si::dim_length" n!"international::mil"]),
    ([n!"units::aliases::isq::si::international::length", n!"units::aliases::isq::si::international", n!"units::aliases::isq::si", n!"units::aliases::isq", n!"units::aliases", n!"units", n!""], [
      .repAlias n!"yd" n!"units::isq::si::length" n!"units::isq::si::international::yard",
      .repAlias n!"ft" n!"units::isq::si::length" n!"units::isq::si::international::foot",
      .repAlias n!"fathom" n!"units::isq::si::length" n!"units::isq::si::international::fathom",
      .repAlias n!"in" n!"units::isq::si::length" n!"units::isq::si::international::inch",
      .repAlias n!"mi" n!"units::isq::si::length" n!"units::isq::si::international::mile",
      .repAlias n!"mi_naut" n!"units::isq::si::length" n!"units::isq::si::international::nautical_mile",
      .repAlias n!"thou" n!"units::isq::si::length" n!"units::isq::si::international::thou",
      .repAlias n!"mil" n!"units::isq::si::length" n!"units::isq::si::international::mil"])]

/-- src/systems/si-imperial/include/units/isq/si/imperial/length.h:38-83. -/
def h_isq_si_imperial_length : Header where
  path := n!"isq/si/imperial/length.h"
  includes := [n!"isq/dimensions/length.h", n!"generic/dimensionless.h", n!"isq/si/international/length.h"]
  sections := [
    ([n!"units::isq::si::imperial", n!"units::isq::si", n!"units::isq", n!"units", n!""], [
      .namedScaled n!"chain" ⟨"ch", "ch"⟩ n!"no_prefix" (22) (1) (0) n!"si::international::yard",
      .namedScaled n!"rod" ⟨"rd", "rd"⟩ n!"no_prefix" (1) (4) (0) n!"chain"]),
    ([n!"units::isq::si::imperial::literals", n!"units::isq::si::imperial", n!"units::isq::si", n!"units::isq", n!"units", n!""], [
      .literal n!"_q_ch" true n!"si::length" n!"chain",
      .literal n!"_q_ch" false n!"si::length" n!"chain",
      .literal n!"_q_rd" true n!"si::length" n!"rod",
      .literal n!"_q_rd" false n!"si::length" n!"rod"]),
    ([n!"units::isq::si::imperial::length_references", n!"units::isq::si::imperial", n!"units::isq::si", n!"units::isq", n!"units", n!""], [
      .reference n!"ch" n!"si::dim_length" n!"chain",
      .reference n!"rd" n!"si::dim_length" n!"rod"]),
    ([n!"units::aliases::isq::si::imperial::length", n!"units::aliases::isq::si::imperial", n!"units::aliases::isq::si", n!"units::aliases::isq", n!"units::aliases", n!"units", n!""], [
      .repAlias n!"ch" n!"units::isq::si::length" n!"units::isq::si::imperial::chain",
      .repAlias n!"rd" n!"units::isq::si::length" n!"units::isq::si::imperial::rod"])]

/-- src/systems/si-imperial/include/units/isq/si/imperial/imperial.h:26-26. -/
def h_isq_si_imperial_imperial : Header where
  path := n!"isq/si/imperial/imperial.h"
  includes := [n!"isq/si/imperial/length.h"]
  sections := []

/-- src/systems/si/include/units/isq/si/magnetic_induction.h:40-202. -/
def h_isq_si_magnetic_induction : Header where
  path := n!"isq/si/magnetic_induction.h"
  includes := [n!"isq/dimensions/magnetic_induction.h", n!"generic/dimensionless.h", n!"isq/si/voltage.h", n!"isq/si/time.h", n!"isq/si/length.h", n!"isq/si/prefixes.h"]
  sections := [
    ([n!"units::isq::si", n!"units::isq", n!"units", n!""], [
      .named n!"tesla" ⟨"T", "T"⟩ n!"prefix",
      .prefixed n!"yoctotesla" n!"yocto" n!"tesla",
      .prefixed n!"zeptotesla" n!"zepto" n!"tesla",
      .prefixed n!"attotesla" n!"atto" n!"tesla",
      .prefixed n!"femtotesla" n!"femto" n!"tesla",
      .prefixed n!"picotesla" n!"pico" n!"tesla",
      .prefixed n!"nanotesla" n!"nano" n!"tesla",
      .prefixed n!"microtesla" n!"micro" n!"tesla",
      .prefixed n!"millitesla" n!"milli" n!"tesla",
      .prefixed n!"kilotesla" n!"kilo" n!"tesla",
      .prefixed n!"megatesla" n!"mega" n!"tesla",
      .prefixed n!"gigatesla" n!"giga" n!"tesla",
      .prefixed n!"teratesla" n!"tera" n!"tesla",
      .prefixed n!"petatesla" n!"peta" n!"tesla",
      .prefixed n!"exatesla" n!"exa" n!"tesla",
      .prefixed n!"zettatesla" n!"zetta" n!"tesla",
      .prefixed n!"yottatesla" n!"yotta" n!"tesla",
      .namedScaled n!"gauss" ⟨"G", "G"⟩ n!"prefix" (1) (10000) (0) n!"tesla",
      .derivedInst n!"dim_magnetic_induction" n!"isq::dim_magnetic_induction" n!"tesla" [n!"dim_voltage", n!"dim_time", n!"dim_length"],
      .quantityAlias n!"magnetic_induction" n!"dim_magnetic_induction"]),
    ([n!"units::isq::si::literals", n!"units::isq::si", n!"units::isq", n!"units", n!""], [
      .literal n!"_q_T" true n!"magnetic_induction" n!"tesla",
      .literal n!"_q_T" false n!"magnetic_induction" n!"tesla",
      .literal n!"_q_yT" true n!"magnetic_induction" n!"yoctotesla",
      .literal n!"_q_yT" false n!"magnetic_induction" n!"yoctotesla",
      .literal n!"_q_zT" true n!"magnetic_induction" n!"zeptotesla",
      .literal n!"_q_zT" false n!"magnetic_induction" n!"zeptotesla",
      .literal n!"_q_aT" true n!"magnetic_induction" n!"attotesla",
      .literal n!"_q_aT" false n!"magnetic_induction" n!"attotesla",
      .literal n!"_q_fT" true n!"magnetic_induction" n!"femtotesla",
      .literal n!"_q_fT" false n!"magnetic_induction" n!"femtotesla",
      .literal n!"_q_pT" true n!"magnetic_induction" n!"picotesla",
      .literal n!"_q_pT" false n!"magnetic_induction" n!"picotesla",
      .literal n!"_q_nT" true n!"magnetic_induction" n!"nanotesla",
      .literal n!"_q_nT" false n!"magnetic_induction" n!"nanotesla",
      .literal n!"_q_uT" true n!"magnetic_induction" n!"microtesla",
      .literal n!"_q_uT" false n!"magnetic_induction" n!"microtesla",
      .literal n!"_q_mT" true n!"magnetic_induction" n!"millitesla",
      .literal n!"_q_mT" false n!"magnetic_induction" n!"millitesla",
      .literal n!"_q_kT" true n!"magnetic_induction" n!"kilotesla",
      .literal n!"_q_kT" false n!"magnetic_induction" n!"kilotesla",
      .literal n!"_q_MT" true n!"magnetic_induction" n!"megatesla",
      .literal n!"_q_MT" false n!"magnetic_induction" n!"megatesla",
      .literal n!"_q_GT" true n!"magnetic_induction" n!"gigatesla",
      .literal n!"_q_GT" false n!"magnetic_induction" n!"gigatesla",
      .literal n!"_q_TT" true n!"magnetic_induction" n!"teratesla",
      .literal n!"_q_TT" false n!"magnetic_induction" n!"teratesla",
      .literal n!"_q_PT" true n!"magnetic_induction" n!"petatesla",
      .literal n!"_q_PT" false n!"magnetic_induction" n!"petatesla",
      .literal n!"_q_ET" true n!"magnetic_induction" n!"exatesla",
      .literal n!"_q_ET" false n!"magnetic_induction" n!"exatesla",
      .literal n!"_q_ZT" true n!"magnetic_induction" n!"zettatesla",
      .literal n!"_q_ZT" false n!"magnetic_induction" n!"zettatesla",
      .literal n!"_q_YT" true n!"magnetic_induction" n!"yottatesla",
      .literal n!"_q_YT" false n!"magnetic_induction" n!"yottatesla",
      .literal n!"_q_G" true n!"magnetic_induction" n!"gauss",
      .literal n!"_q_G" false n!"magnetic_induction" n!"gauss"]),
    ([n!"units::isq::si::magnetic_induction_references", n!"units::isq::si", n!"units::isq", n!"units", n!""], [
      .reference n!"T" n!"dim_magnetic_induction" n!"tesla",
      .reference n!"yT" n!"dim_magnetic_induction" n!"yoctotesla",
      .reference n!"zT" n!"dim_magnetic_induction" n!"zeptotesla",
      .reference n!"aT" n!"dim_magnetic_induction" n!"attotesla",
      .reference n!"fT" n!"dim_magnetic_induction" n!"femtotesla",
      .reference n!"pT" n!"dim_magnetic_induction" n!"picotesla",
      .reference n!"nT" n!"dim_magnetic_induction" n!"nanotesla",
      .reference n!"uT" n!"dim_magnetic_induction" n!"microtesla",
      .reference n!"mT" n!"dim_magnetic_induction" n!"millitesla",
      .reference n!"kT" n!"dim_magnetic_induction" n!"kilotesla",
      .reference n!"MT" n!"dim_magnetic_induction" n!"megatesla",
      .reference n!"GT" n!"dim_magnetic_induction" n!"gigatesla",
      .reference n!"TT" n!"dim_magnetic_induction" n!"teratesla",
      .reference n!"PT" n!"dim_magnetic_induction" n!"petatesla",
      .reference n!"ET" n!"dim_magnetic_induction" n!"exatesla",
      .reference n!"ZT" n!"dim_magnetic_induction" n!"zettatesla",
      .reference n!"YT" n!"dim_magnetic_induction" n!"yottatesla",
      .reference n!"G" n!"dim_magnetic_induction" n!"gauss"]),
    ([n!"units::aliases::isq::si::magnetic_induction", n!"units::aliases::isq::si", n!"units::aliases::isq", n!"units::aliases", n!"units", n!""], [
      .repAlias n!"T" n!"units::isq::si::magnetic_induction" n!"units::isq::si::tesla",
      .repAlias n!"yT" n!"units::isq::si::magnetic_induction" n!"units::isq::si::yoctotesla",
      .repAlias n!"zT" n!"units::isq::si::magnetic_induction" n!"units::isq::si::zeptotesla",
      .repAlias n!"aT" n!"units::isq::si::magnetic_induction" n!"units::isq::si::attotesla",
      .repAlias n!"fT" n!"units::isq::si::magnetic_induction" n!"units::isq::si::femtotesla",
      .repAlias n!"pT" n!"units::isq::si::magnetic_induction" n!"units::isq::si::picotesla",
      .repAlias n!"nT" n!"units::isq::si::magnetic_induction" n!"units::isq::si::nanotesla",
      .repAlias n!"uT" n!"units::isq::si::magnetic_induction" n!"units::isq::si::microtesla",
      .repAlias n!"mT" n!"units::isq::si::magnetic_induction" n!"units::isq::si::millitesla",
      .repAlias n!"kT" n!"units::isq::si::magnetic_induction" n!"units::isq::si::kilotesla",
      .repAlias n!"MT" n!"units::isq::si::magnetic_induction" n!"units::isq::si::megatesla",
      .repAlias n!"GT" n!"units::isq::si::magnetic_induction" n!"units::isq::si::gigatesla",
      .repAlias n!"TT" n!"units::isq::si::magnetic_induction" n!"units::isq::si::teratesla",
      .repAlias n!"PT" n!"units::isq::si::magnetic_induction" n!"units::isq::si::petatesla",
      .repAlias n!"ET" n!"units::isq::si::magnetic_induction" n!"units::isq::si::exatesla",
      .repAlias n!"ZT" n!"units::isq::si::magnetic_induction" n!"units::isq::si::zettatesla",
      .repAlias n!"YT" n!"units::isq::si::magnetic_induction" n!"units::isq::si::yottatesla",
      .repAlias n!"G" n!"units::isq::si::magnetic_induction" n!"units::isq::si::gauss"])]

/-- src/systems/si/include/units/isq/si/magnetic_flux.h:38-192. -/
def h_isq_si_magnetic_flux : Header where
  path := n!"isq/si/magnetic_flux.h"
  includes := [n!"isq/dimensions/magnetic_flux.h", n!"generic/dimensionless.h", n!"isq/si/magnetic_induction.h", n!"isq/si/area.h"]
  sections := [
    ([n!"units::isq::si", n!"units::isq", n!"units", n!""], [
      .named n!"weber" ⟨"Wb", "Wb"⟩ n!"prefix",
      .prefixed n!"yoctoweber" n!"yocto" n!"weber",
      .prefixed n!"zeptoweber" n!"zepto" n!"weber",
      .prefixed n!"attoweber" n!"atto" n!"weber",
      .prefixed n!"femtoweber" n!"femto" n!"weber",
      .prefixed n!"picoweber" n!"pico" n!"weber",
      .prefixed n!"nanoweber" n!"nano" n!"weber",
      .prefixed n!"microweber" n!"micro" n!"weber",
      .prefixed n!"milliweber" n!"milli" n!"weber",
      .prefixed n!"kiloweber" n!"kilo" n!"weber",
      .prefixed n!"megaweber" n!"mega" n!"weber",
      .prefixed n!"gigaweber" n!"giga" n!"weber",
      .prefixed n!"teraweber" n!"tera" n!"weber",
      .prefixed n!"petaweber" n!"peta" n!"weber",
      .prefixed n!"exaweber" n!"exa" n!"weber",
      .prefixed n!"zettaweber" n!"zetta" n!"weber",
      .prefixed n!"yottaweber" n!"yotta" n!"weber",
      .derivedInst n!"dim_magnetic_flux" n!"isq::dim_magnetic_flux" n!"weber" [n!"dim_magnetic_induction", n!"dim_area"],
      .quantityAlias n!"magnetic_flux" n!"dim_magnetic_flux"]),
    ([n!"units::isq::si::literals", n!"units::isq::si", n!"units::isq", n!"units", n!""], [
      .literal n!"_q_Wb" true n!"magnetic_flux" n!"weber",
      .literal n!"_q_Wb" false n!"magnetic_flux" n!"weber",
      .literal n!"_q_yWb" true n!"magnetic_flux" n!"yoctoweber",
      .literal n!"_q_yWb" false n!"magnetic_flux" n!"yoctoweber",
      .literal n!"_q_zWb" true n!"magnetic_flux" n!"zeptoweber",
      .literal n!"_q_zWb" false n!"magnetic_flux" n!"zeptoweber",
      .literal n!"_q_aWb" true n!"magnetic_flux" n!"attoweber",
      .literal n!"_q_aWb" false n!"magnetic_flux" n!"attoweber",
      .literal n!"_q_fWb" true n!"magnetic_flux" n!"femtoweber",
      .literal n!"_q_fWb" false n!"magnetic_flux" n!"femtoweber",
      .literal n!"_q_pWb" true n!"magnetic_flux" n!"picoweber",
      .literal n!"_q_pWb" false n!"magnetic_flux" n!"picoweber",
      .literal n!"_q_nWb" true n!"magnetic_flux" n!"nanoweber",
      .literal n!"_q_nWb" false n!"magnetic_flux" n!"nanoweber",
      .literal n!"_q_uWb" true n!"magnetic_flux" n!"microweber",
      .literal n!"_q_uWb" false n!"magnetic_flux" n!"microweber",
      .literal n!"_q_mWb" true n!"magnetic_flux" n!"milliweber",
      .literal n!"_q_mWb" false n!"magnetic_flux" n!"milliweber",
      .literal n!"_q_kWb" true n!"magnetic_flux" n!"kiloweber",
      .literal n!"_q_kWb" false n!"magnetic_flux" n!"kiloweber",
      .literal n!"_q_MWb" true n!"magnetic_flux" n!"megaweber",
      .literal n!"_q_MWb" false n!"magnetic_flux" n!"megaweber",
      .literal n!"_q_GWb" true n!"magnetic_flux" n!"gigaweber",
      .literal n!"_q_GWb" false n!"magnetic_flux" n!"gigaweber",
      .literal n!"_q_TWb" true n!"magnetic_flux" n!"teraweber",
      .literal n!"_q_TWb" false n!"magnetic_flux" n!"teraweber",
      .literal n!"_q_PWb" true n!"magnetic_flux" n!"petaweber",
      .literal n!"_q_PWb" false n!"magnetic_flux" n!"petaweber",
      .literal n!"_q_EWb" true n!"magnetic_flux" n!"exaweber",
      .literal n!"_q_EWb" false n!"magnetic_flux" n!"exaweber",
      .literal n!"_q_ZWb" true n!"magnetic_flux" n!"zettaweber",
      .literal n!"_q_ZWb" false n!"magnetic_flux" n!"zettaweber",
      .literal n!"_q_YWb" true n!"magnetic_flux" n!"yottaweber",
      .literal n!"_q_YWb" false n!"magnetic_flux" n!"yottaweber"]),
    ([n!"units::isq::si::magnetic_flux_references", n!"units::isq::si", n!"units::isq", n!"units", n!""], [
      .reference n!"Wb" n!"dim_magnetic_flux" n!"weber",
      .reference n!"yWb" n!"dim_magnetic_flux" n!"yoctoweber",
      .reference n!"zWb" n!"dim_magnetic_flux" n!"zeptoweber",
      .reference n!"aWb" n!"dim_magnetic_flux" n!"attoweber",
      .reference n!"fWb" n!"dim_magnetic_flux" n!"femtoweber",
      .reference n!"pWb" n!"dim_magnetic_flux" n!"picoweber",
      .reference n!"nWb" n!"dim_magnetic_flux" n!"nanoweber",
      .reference n!"uWb" n!"dim_magnetic_flux" n!"microweber",
      .reference n!"mWb" n!"dim_magnetic_flux" n!"milliweber",
      .reference n!"kWb" n!"dim_magnetic_flux" n!"kiloweber",
      .reference n!"MWb" n!"dim_magnetic_flux" n!"megaweber",
      .reference n!"GWb" n!"dim_magnetic_flux" n!"gigaweber",
      .reference n!"TWb" n!"dim_magnetic_flux" n!"teraweber",
      .reference n!"PWb" n!"dim_magnetic_flux" n!"petaweber",
      .reference n!"EWb" n!"dim_magnetic_flux" n!"exaweber",
      .reference n!"ZWb" n!"dim_magnetic_flux" n!"zettaweber",
      .reference n!"YWb" n!"dim_magnetic_flux" n!"yottaweber"]),
    ([n!"units::aliases::isq::si::magnetic_flux", n!"units::aliases::isq::si", n!"units::aliases::isq", n!"units::aliases", n!"units", n!""], [
      .repAlias n!"Wb" n!"units::isq::si::magnetic_flux" n!"units::isq::si::weber",
      .repAlias n!"yWb" n!"units::isq::si::magnetic_flux" n!"units::isq::si::yoctoweber",
      .repAlias n!"zWb" n!"units::isq::si::magnetic_flux" n!"units::isq::si::zeptoweber",
      .repAlias n!"aWb" n!"units::isq::si::magnetic_flux" n!"units::isq::si::attoweber",
      .repAlias n!"fWb" n!"units::isq::si::magnetic_flux" n!"units::isq::si::femtoweber",
      .repAlias n!"pWb" n!"units::isq::si::magnetic_flux" n!"units::isq::si::picoweber",
      .repAlias n!"nWb" n!"units::isq::si::magnetic_flux" n!"units::isq::si::nanoweber",
      .repAlias n!"uWb" n!"units::isq::si::magnetic_flux" n!"units::isq::si::microweber",
      .repAlias n!"mWb" n!"units::isq::si::magnetic_flux" n!"units::isq::si::milliweber",
      .repAlias n!"kWb" n!"units::isq::si::magnetic_flux" n!"units::isq::si::kiloweber",
      .repAlias n!"MWb" n!"units::isq::si::magnetic_flux" n!"units::isq::si::megaweber",
      .repAlias n!"GWb" n!"units::isq::si::magnetic_flux" n!"units::isq::si::gigaweber",
      .repAlias n!"TWb" n!"units::isq::si::magnetic_flux" n!"units::isq::si::teraweber",
      .repAlias n!"PWb" n!"units::isq::si::magnetic_flux" n!"units::isq::si::petaweber",
      .repAlias n!"EWb" n!"units::isq::si::magnetic_flux" n!"units::isq::si::exaweber",
      .repAlias n!"ZWb" n!"units::isq::si::magnetic_flux" n!"units::isq::si::zettaweber",
      .repAlias n!"YWb" n!"units::isq::si::magnetic_flux" n!"units::isq::si::yottaweber"])]

/-- src/systems/si/include/units/isq/si/inductance.h:38-192. -/
def h_isq_si_inductance : Header where
  path := n!"isq/si/inductance.h"
  includes := [n!"isq/dimensions/inductance.h", n!"generic/dimensionless.h", n!"isq/si/magnetic_flux.h", n!"isq/si/electric_current.h"]
  sections := [
    ([n!"units::isq::si", n!"units::isq", n!"units", n!""], [
      .named n!"henry" ⟨"H", "H"⟩ n!"prefix",
      .prefixed n!"yoctohenry" n!"yocto" n!"henry",
      .prefixed n!"zeptohenry" n!"zepto" n!"henry",
      .prefixed n!"attohenry" n!"atto" n!"henry",
      .prefixed n!"femtohenry" n!"femto" n!"henry",
      .prefixed n!"picohenry" n!"pico" n!"henry",
      .prefixed n!"nanohenry" n!"nano" n!"henry",
      .prefixed n!"microhenry" n!"micro" n!"henry",
      .prefixed n!"millihenry" n!"milli" n!"henry",
      .prefixed n!"kilohenry" n!"kilo" n!"henry",
      .prefixed n!"megahenry" n!"mega" n!"henry",
      .prefixed n!"gigahenry" n!"giga" n!"henry",
      .prefixed n!"terahenry" n!"tera" n!"henry",
      .prefixed n!"petahenry" n!"peta" n!"henry",
      .prefixed n!"exahenry" n!"exa" n!"henry",
      .prefixed n!"zettahenry" n!"zetta" n!"henry",
      .prefixed n!"yottahenry" n!"yotta" n!"henry",
      .derivedInst n!"dim_inductance" n!"isq::dim_inductance" n!"henry" [n!"dim_magnetic_flux", n!"dim_electric_current"],
      .quantityAlias n!"inductance" n!"dim_inductance"]),
    ([n!"units::isq::si::literals", n!"units::isq::si", n!"units::isq", n!"units", n!""], [
      .literal n!"_q_H" true n!"inductance" n!"henry",
      .literal n!"_q_H" false n!"inductance" n!"henry",
      .literal n!"_q_yH" true n!"inductance" n!"yoctohenry",
      .literal n!"_q_yH" false n!"inductance" n!"yoctohenry",
      .literal n!"_q_zH" true n!"inductance" n!"zeptohenry",
      .literal n!"_q_zH" false n!"inductance" n!"zeptohenry",
      .literal n!"_q_aH" true n!"inductance" n!"attohenry",
      .literal n!"_q_aH" false n!"inductance" n!"attohenry",
      .literal n!"_q_fH" true n!"inductance" n!"femtohenry",
      .literal n!"_q_fH" false n!"inductance" n!"femtohenry",
      .literal n!"_q_pH" true n!"inductance" n!"picohenry",
      .literal n!"_q_pH" false n!"inductance" n!"picohenry",
      .literal n!"_q_nH" true n!"inductance" n!"nanohenry",
      .literal n!"_q_nH" false n!"inductance" n!"nanohenry",
      .literal n!"_q_uH" true n!"inductance" n!"microhenry",
      .literal n!"_q_uH" false n!"inductance" n!"microhenry",
      .literal n!"_q_mH" true n!"inductance" n!"millihenry",
      .literal n!"_q_mH" false n!"inductance" n!"millihenry",
      .literal n!"_q_kH" true n!"inductance" n!"kilohenry",
      .literal n!"_q_kH" false n!"inductance" n!"kilohenry",
      .literal n!"_q_MH" true n!"inductance" n!"megahenry",
      .literal n!"_q_MH" false n!"inductance" n!"megahenry",
      .literal n!"_q_GH" true n!"inductance" n!"gigahenry",
      .literal n!"_q_GH" false n!"inductance" n!"gigahenry",
      .literal n!"_q_TH" true n!"inductance" n!"terahenry",
      .literal n!"_q_TH" false n!"inductance" n!"terahenry",
      .literal n!"_q_PH" true n!"inductance" n!"petahenry",
      .literal n!"_q_PH" false n!"inductance" n!"petahenry",
      .literal n!"_q_EH" true n!"inductance" n!"exahenry",
      .literal n!"_q_EH" false n!"inductance" n!"exahenry",
      .literal n!"_q_ZH" true n!"inductance" n!"zettahenry",
      .literal n!"_q_ZH" false n!"inductance" n!"zettahenry",
      .literal n!"_q_YH" true n!"inductance" n!"yottahenry",
      .literal n!"_q_YH" false n!"inductance" n!"yottahenry"]),
    ([n!"units::isq::si::inductance_references", n!"units::isq::si", n!"units::isq", n!"units", n!""], [
      .reference n!"H" n!"dim_inductance" n!"henry",
      .reference n!"yH" n!"dim_inductance" n!"yoctohenry",
      .reference n!"zH" n!"dim_inductance" n!"zeptohenry",
      .reference n!"aH" n!"dim_inductance" n!"attohenry",
      .reference n!"fH" n!"dim_inductance" n!"femtohenry",
      .reference n!"pH" n!"dim_inductance" n!"picohenry",
      .reference n!"nH" n!"dim_inductance" n!"nanohenry",
      .reference n!"uH" n!"dim_inductance" n!"microhenry",
      .reference n!"mH" n!"dim_inductance" n!"millihenry",
      .reference n!"kH" n!"dim_inductance" n!"kilohenry",
      .reference n!"MH" n!"dim_inductance" n!"megahenry",
      .reference n!"GH" n!"dim_inductance" n!"gigahenry",
      .reference n!"TH" n!"dim_inductance" n!"terahenry",
      .reference n!"PH" n!"dim_inductance" n!"petahenry",
      .reference n!"EH" n!"dim_inductance" n!"exahenry",
      .reference n!"ZH" n!"dim_inductance" n!"zettahenry",
      .reference n!"YH" n!"dim_inductance" n!"yottahenry"]),
    ([n!"units::aliases::isq::si::inductance", n!"units::aliases::isq::si", n!"units::aliases::isq", n!"units::aliases", n!"units", n!""], [
      .repAlias n!"H" n!"units::isq::si::inductance" n!"units::isq::si::henry",
      .repAlias n!"yH" n!"units::isq::si::inductance" n!"units::isq::si::yoctohenry",
      .repAlias n!"zH" n!"units::isq::si::inductance" n!"units::isq::si::zeptohenry",
      .repAlias n!"aH" n!"units::isq::si::inductance" n!"units::isq::si::attohenry",
      .repAlias n!"fH" n!"units::isq::si::inductance" n!"units::isq::si::femtohenry",
      .repAlias n!"pH" n!"units::isq::si::inductance" n!"units::isq::si::picohenry",
      .repAlias n!"nH" n!"units::isq::si::inductance" n!"units::isq::si::nanohenry",
      .repAlias n!"uH" n!"units::isq::si::inductance" n!"units::isq::si::microhenry",
      .repAlias n!"mH" n!"units::isq::si::inductance" n!"units::isq::si::millihenry",
      .repAlias n!"kH" n!"units::isq::si::inductance" n!"units::isq::si::kilohenry",
      .repAlias n!"MH" n!"units::isq::si::inductance" n!"units::isq::si::megahenry",
      .repAlias n!"GH" n!"units::isq::si::inductance" n!"units::isq::si::gigahenry",
      .repAlias n!"TH" n!"units::isq::si::inductance" n!"units::isq::si::terahenry",
      .repAlias n!"PH" n!"units::isq::si::inductance" n!"units::isq::si::petahenry",
      .repAlias n!"EH" n!"units::isq::si::inductance" n!"units::isq::si::exahenry",
      .repAlias n!"ZH" n!"units::isq::si::inductance" n!"units::isq::si::zettahenry",
      .repAlias n!"YH" n!"units::isq::si::inductance" n!"units::isq::si::yottahenry"])]

/-- src/systems/si-international/include/units/isq/si/international/area.h:38-74. -/
def h_isq_si_international_area : Header where
  path := n!"isq/si/international/area.h"
  includes := [n!"isq/dimensions/area.h", n!"generic/dimensionless.h", n!"isq/si/area.h", n!"isq/si/international/length.h"]
  sections := [
    ([n!"units::isq::si::international", n!"units::isq::si", n!"units::isq", n!"units", n!""], [
      .derived n!"square_foot" n!"si::dim_area" [n!"si::international::foot"]]),
    ([n!"units::isq::si::international::literals", n!"units::isq::si::international", n!"units::isq::si", n!"units::isq", n!"units", n!""], [
      .literal n!"_q_ft2" true n!"si::area" n!"square_foot",
      .literal n!"_q_ft2" false n!"si::area" n!"square_foot"]),
    ([n!"units::isq::si::international::area_references", n!"units::isq::si::international", n!"units::isq::si", n!"units::isq", n!"units", n!""], [
      .reference n!"ft2" n!"si::dim_area" n!"square_foot"]),
    ([n!"units::aliases::isq::si::international::area", n!"units::aliases::isq::si::international", n!"units::aliases::isq::si", n!"units::aliases::isq", n!"units::aliases", n!"units", n!""], [
      .repAlias n!"ft2" n!"units::isq::si::area" n!"units::isq::si::international::square_foot"])]

/-- src/systems/si-international/include/units/isq/si/international/speed.h:37-57. -/
def h_isq_si_international_speed : Header where
  path := n!"isq/si/international/speed.h"
  includes := [n!"isq/dimensions/speed.h", n!"generic/dimensionless.h", n!"isq/si/international/length.h", n!"isq/si/speed.h"]
  sections := [
    ([n!"units::isq::si::international", n!"units::isq::si", n!"units::isq", n!"units", n!""], [
      .derived n!"mile_per_hour" n!"si::dim_speed" [n!"si::international::mile", n!"si::hour"]]),
    ([n!"units::isq::si::international::literals", n!"units::isq::si::international", n!"units::isq::si", n!"units::isq", n!"units", n!""], [
      .literal n!"_q_mi_per_h" true n!"si::speed" n!"mile_per_hour",
      .literal n!"_q_mi_per_h" false n!"si::speed" n!"mile_per_hour"]),
    ([n!"units::aliases::isq::si::international::speed", n!"units::aliases::isq::si::international", n!"units::aliases::isq::si", n!"units::aliases::isq", n!"units::aliases", n!"units", n!""], [
      .repAlias n!"mi_per_h" n!"units::isq::si::speed" n!"units::isq::si::international::mile_per_hour"])]

/-- src/systems/si-international/include/units/isq/si/international/volume.h:38-74. -/
def h_isq_si_international_volume : Header where
  path := n!"isq/si/international/volume.h"
  includes := [n!"isq/dimensions/volume.h", n!"generic/dimensionless.h", n!"isq/si/international/length.h", n!"isq/si/volume.h"]
  sections := [
    ([n!"units::isq::si::international", n!"units::isq::si", n!"units::isq", n!"units", n!""], [
      .derived n!"cubic_foot" n!"si::dim_volume" [n!"si::international::foot"]]),
    ([n!"units::isq::si::international::literals", n!"units::isq::si::international", n!"units::isq::si", n!"units::isq", n!"units", n!""], [
      .literal n!"_q_ft3" true n!"si::volume" n!"cubic_foot",
      .literal n!"_q_ft3" false n!"si::volume" n!"cubic_foot"]),
    ([n!"units::isq::si::international::volume_references", n!"units::isq::si::international", n!"units::isq::si", n!"units::isq", n!"units", n!""], [
      .reference n!"ft3" n!"si::dim_volume" n!"cubic_foot"]),
    ([n!"units::aliases::isq::si::international::volume", n!"units::aliases::isq::si::international", n!"units::aliases::isq::si", n!"units::aliases::isq", n!"units::aliases", n!"units", n!""], [
      .repAlias n!"ft3" n!"units::isq::si::volume" n!"units::isq::si::international::cubic_foot"])]

/-- src/systems/si-international/include/units/isq/si/international/international.h:26-30. -/
def h_isq_si_international_international : Header where
  path := n!"isq/si/international/international.h"
  includes := [n!"isq/si/international/length.h", n!"isq/si/international/area.h", n!"isq/si/international/speed.h", n!"isq/si/international/volume.h"]
  sections := []

/-- src/systems/si/include/units/isq/si/luminous_intensity.h:37-218. -/
def h_isq_si_luminous_intensity : Header where
  path := n!"isq/si/luminous_intensity.h"
  includes := [n!"isq/dimensions/luminous_intensity.h", n!"generic/dimensionless.h", n!"isq/si/prefixes.h"]
  sections := [
    ([n!"units::isq::si", n!"units::isq", n!"units", n!""], [
      .named n!"candela" ⟨"cd", "cd"⟩ n!"prefix",
      .prefixed n!"yoctocandela" n!"yocto" n!"candela",
      .prefixed n!"zeptocandela" n!"zepto" n!"candela",
      .prefixed n!"attocandela" n!"atto" n!"candela",
      .prefixed n!"femtocandela" n!"femto" n!"candela",
      .prefixed n!"picocandela" n!"pico" n!"candela",
      .prefixed n!"nanocandela" n!"nano" n!"candela",
      .prefixed n!"microcandela" n!"micro" n!"candela",
      .prefixed n!"millicandela" n!"milli" n!"candela",
      .prefixed n!"centicandela" n!"centi" n!"candela",
      .prefixed n!"decicandela" n!"deci" n!"candela",
      .prefixed n!"decacandela" n!"deca" n!"candela",
      .prefixed n!"hectocandela" n!"hecto" n!"candela",
      .prefixed n!"kilocandela" n!"kilo" n!"candela",
      .prefixed n!"megacandela" n!"mega" n!"candela",
      .prefixed n!"gigacandela" n!"giga" n!"candela",
      .prefixed n!"teracandela" n!"tera" n!"candela",
      .prefixed n!"petacandela" n!"peta" n!"candela",
      .prefixed n!"exacandela" n!"exa" n!"candela",
      .prefixed n!"zettacandela" n!"zetta" n!"candela",
      .prefixed n!"yottacandela" n!"yotta" n!"candela",
      .baseInst n!"dim_luminous_intensity" n!"isq::dim_luminous_intensity" n!"candela",
      .quantityAlias n!"luminous_intensity" n!"dim_luminous_intensity"]),
    ([n!"units::isq::si::literals", n!"units::isq::si", n!"units::isq", n!"units", n!""], [
      .literal n!"_q_cd" true n!"luminous_intensity" n!"candela",
      .literal n!"_q_cd" false n!"luminous_intensity" n!"candela",
      .literal n!"_q_ycd" true n!"luminous_intensity" n!"yoctocandela",
      .literal n!"_q_ycd" false n!"luminous_intensity" n!"yoctocandela",
      .literal n!"_q_zcd" true n!"luminous_intensity" n!"zeptocandela",
      .literal n!"_q_zcd" false n!"luminous_intensity" n!"zeptocandela",
      .literal n!"_q_acd" true n!"luminous_intensity" n!"attocandela",
      .literal n!"_q_acd" false n!"luminous_intensity" n!"attocandela",
      .literal n!"_q_fcd" true n!"luminous_intensity" n!"femtocandela",
      .literal n!"_q_fcd" false n!"luminous_intensity" n!"femtocandela",
      .literal n!"_q_pcd" true n!"luminous_intensity" n!"picocandela",
      .literal n!"_q_pcd" false n!"luminous_intensity" n!"picocandela",
      .literal n!"_q_ncd" true n!"luminous_intensity" n!"nanocandela",
      .literal n!"_q_ncd" false n!"luminous_intensity" n!"nanocandela",
      .literal n!"_q_ucd" true n!"luminous_intensity" n!"microcandela",
      .literal n!"_q_ucd" false n!"luminous_intensity" n!"microcandela",
      .literal n!"_q_mcd" true n!"luminous_intensity" n!"millicandela",
      .literal n!"_q_mcd" false n!"luminous_intensity" n!"millicandela",
      .literal n!"_q_ccd" true n!"luminous_intensity" n!"centicandela",
      .literal n!"_q_ccd" false n!"luminous_intensity" n!"centicandela",
      .literal n!"_q_dcd" true n!"luminous_intensity" n!"decicandela",
      .literal n!"_q_dcd" false n!"luminous_intensity" n!"decicandela",
      .literal n!"_q_dacd" true n!"luminous_intensity" n!"decacandela",
      .literal n!"_q_dacd" false n!"luminous_intensity" n!"decacandela",
      .literal n!"_q_hcd" true n!"luminous_intensity" n!"hectocandela",
      .literal n!"_q_hcd" false n!"luminous_intensity" n!"hectocandela",
      .literal n!"_q_kcd" true n!"luminous_intensity" n!"kilocandela",
      .literal n!"_q_kcd" false n!"luminous_intensity" n!"kilocandela",
      .literal n!"_q_Mcd" true n!"luminous_intensity" n!"megacandela",
      .literal n!"_q_Mcd" false n!"luminous_intensity" n!"megacandela",
      .literal n!"_q_Gcd" true n!"luminous_intensity" n!"gigacandela",
      .literal n!"_q_Gcd" false n!"luminous_intensity" n!"gigacandela",
      .literal n!"_q_Tcd" true n!"luminous_intensity" n!"teracandela",
      .literal n!"_q_Tcd" false n!"luminous_intensity" n!"teracandela",
      .literal n!"_q_Pcd" true n!"luminous_intensity" n!"petacandela",
      .literal n!"_q_Pcd" false n!"luminous_intensity" n!"petacandela",
      .literal n!"_q_Ecd" true n!"luminous_intensity" n!"exacandela",
      .literal n!"_q_Ecd" false n!"luminous_intensity" n!"exacandela",
      .literal n!"_q_Zcd" true n!"luminous_intensity" n!"zettacandela",
      .literal n!"_q_Zcd" false n!"luminous_intensity" n!"zettacandela",
      .literal n!"_q_Ycd" true n!"luminous_intensity" n!"yottacandela",
      .literal n!"_q_Ycd" false n!"luminous_intensity" n!"yottacandela"]),
    ([n!"units::isq::si::luminous_intensity_references", n!"units::isq::si", n!"units::isq", n!"units", n!""], [
      .reference n!"cd" n!"dim_luminous_intensity" n!"candela",
      .reference n!"ycd" n!"dim_luminous_intensity" n!"yoctocandela",
      .reference n!"zcd" n!"dim_luminous_intensity" n!"zeptocandela",
      .reference n!"acd" n!"dim_luminous_intensity" n!"attocandela",
      .reference n!"fcd" n!"dim_luminous_intensity" n!"femtocandela",
      .reference n!"pcd" n!"dim_luminous_intensity" n!"picocandela",
      .reference n!"ncd" n!"dim_luminous_intensity" n!"nanocandela",
      .reference n!"ucd" n!"dim_luminous_intensity" n!"microcandela",
      .reference n!"mcd" n!"dim_luminous_intensity" n!"millicandela",
      .reference n!"ccd" n!"dim_luminous_intensity" n!"centicandela",
      .reference n!"dcd" n!"dim_luminous_intensity" n!"decicandela",
      .reference n!"dacd" n!"dim_luminous_intensity" n!"decacandela",
      .reference n!"hcd" n!"dim_luminous_intensity" n!"hectocandela",
      .reference n!"kcd" n!"dim_luminous_intensity" n!"kilocandela",
      .reference n!"Mcd" n!"dim_luminous_intensity" n!"megacandela",
      .reference n!"Gcd" n!"dim_luminous_intensity" n!"gigacandela",
      .reference n!"Tcd" n!"dim_luminous_intensity" n!"teracandela",
      .reference n!"Pcd" n!"dim_luminous_intensity" n!"petacandela",
      .reference n!"Ecd" n!"dim_luminous_intensity" n!"exacandela",
      .reference n!"Zcd" n!"dim_luminous_intensity" n!"zettacandela",
      .reference n!"Ycd" n!"dim_luminous_intensity" n!"yottacandela"]),
    ([n!"units::aliases::isq::si::luminous_intensity", n!"units::aliases::isq::si", n!"units::aliases::isq", n!"units::aliases", n!"units", n!""], [
      .repAlias n!"cd" n!"units::isq::si::luminous_intensity" n!"units::isq::si::candela",
      .repAlias n!"ycd" n!"units::isq::si::luminous_intensity" n!"units::isq::si::yoctocandela",
      .repAlias n!"zcd" n!"units::isq::si::luminous_intensity" n!"units::isq::si::zeptocandela",
      .repAlias n!"acd" n!"units::isq::si::luminous_intensity" n!"units::isq::si::attocandela",
      .repAlias n!"fcd" n!"units::isq::si::luminous_intensity" n!"units::isq::si::femtocandela",
      .repAlias n!"pcd" n!"units::isq::si::luminous_intensity" n!"units::isq::si::picocandela",
      .repAlias n!"ncd" n!"units::isq::si::luminous_intensity" n!"units::isq::si::nanocandela",
      .repAlias n!"ucd" n!"units::isq::si::luminous_intensity" n!"units::isq::si::microcandela",
      .repAlias n!"mcd" n!"units::isq::si::luminous_intensity" n!"units::isq::si::millicandela",
      .repAlias n!"ccd" n!"units::isq::si::luminous_intensity" n!"units::isq::si::centicandela",
      .repAlias n!"dcd" n!"units::isq::si::luminous_intensity" n!"units::isq::si::decicandela",
      .repAlias n!"dacd" n!"units::isq::si::luminous_intensity" n!"units::isq::si::decacandela",
      .repAlias n!"hcd" n!"units::isq::si::luminous_intensity" n!"units::isq::si::hectocandela",
      .repAlias n!"kcd" n!"units::isq::si::luminous_intensity" n!"units::isq::si::kilocandela",
      .repAlias n!"Mcd" n!"units::isq::si::luminous_intensity" n!"units::isq::si::megacandela",
      .repAlias n!"Gcd" n!"units::isq::si::luminous_intensity" n!"units::isq::si::gigacandela",
      .repAlias n!"Tcd" n!"units::isq::si::luminous_intensity" n!"units::isq::si::teracandela",
      .repAlias n!"Pcd" n!"units::isq::si::luminous_intensity" n!"units::isq::si::petacandela",
      .repAlias n!"Ecd" n!"units::isq::si::luminous_intensity" n!"units::isq::si::exacandela",
      .repAlias n!"Zcd" n!"units::isq::si::luminous_intensity" n!"units::isq::si::zettacandela",
      .repAlias n!"Ycd" n!"units::isq::si::luminous_intensity" n!"units::isq::si::yottacandela"])]

/-- src/systems/si/include/units/isq/si/luminance.h:37-61. -/
def h_isq_si_luminance : Header where
  path := n!"isq/si/luminance.h"
  includes := [n!"isq/dimensions/luminance.h", n!"generic/dimensionless.h", n!"isq/si/length.h", n!"isq/si/luminous_intensity.h"]
  sections := [
    ([n!"units::isq::si", n!"units::isq", n!"units", n!""], [
      .unit n!"candela_per_metre_sq",
      .derivedInst n!"dim_luminance" n!"isq::dim_luminance" n!"candela_per_metre_sq" [n!"dim_luminous_intensity", n!"dim_length"],
      .quantityAlias n!"luminance" n!"dim_luminance"]),
    ([n!"units::isq::si::literals", n!"units::isq::si", n!"units::isq", n!"units", n!""], [
      .literal n!"_q_cd_per_m2" true n!"luminance" n!"candela_per_metre_sq",
      .literal n!"_q_cd_per_m2" false n!"luminance" n!"candela_per_metre_sq"]),
    ([n!"units::aliases::isq::si::luminance", n!"units::aliases::isq::si", n!"units::aliases::isq", n!"units::aliases", n!"units", n!""], [
      .repAlias n!"cd_per_m2" n!"units::isq::si::luminance" n!"units::isq::si::candela_per_metre_sq"])]

/-- src/systems/si/include/units/isq/si/molar_energy.h:38-63. -/
def h_isq_si_molar_energy : Header where
  path := n!"isq/si/molar_energy.h"
  includes := [n!"isq/dimensions/molar_energy.h", n!"generic/dimensionless.h", n!"isq/si/energy.h", n!"isq/si/amount_of_substance.h", n!"isq/si/prefixes.h"]
  sections := [
    ([n!"units::isq::si", n!"units::isq", n!"units", n!""], [
      .unit n!"joule_per_mole",
      .derivedInst n!"dim_molar_energy" n!"isq::dim_molar_energy" n!"joule_per_mole" [n!"dim_energy", n!"dim_amount_of_substance"],
      .quantityAlias n!"molar_energy" n!"dim_molar_energy"]),
    ([n!"units::isq::si::literals", n!"units::isq::si", n!"units::isq", n!"units", n!""], [
      .literal n!"_q_J_per_mol" true n!"molar_energy" n!"joule_per_mole",
      .literal n!"_q_J_per_mol" false n!"molar_energy" n!"joule_per_mole"]),
    ([n!"units::aliases::isq::si::molar_energy", n!"units::aliases::isq::si", n!"units::aliases::isq", n!"units::aliases", n!"units", n!""], [
      .repAlias n!"J_per_mol" n!"units::isq::si::molar_energy" n!"units::isq::si::joule_per_mole"])]

/-- src/systems/si/include/units/isq/si/momentum.h:37-61. -/
def h_isq_si_momentum : Header where
  path := n!"isq/si/momentum.h"
  includes := [n!"isq/dimensions/momentum.h", n!"generic/dimensionless.h", n!"isq/si/mass.h", n!"isq/si/speed.h"]
  sections := [
    ([n!"units::isq::si", n!"units::isq", n!"units", n!""], [
      .unit n!"kilogram_metre_per_second",
      .derivedInst n!"dim_momentum" n!"isq::dim_momentum" n!"kilogram_metre_per_second" [n!"dim_mass", n!"dim_speed"],
      .quantityAlias n!"momentum" n!"dim_momentum"]),
    ([n!"units::isq::si::literals", n!"units::isq::si", n!"units::isq", n!"units", n!""], [
      .literal n!"_q_kg_m_per_s" true n!"momentum" n!"kilogram_metre_per_second",
      .literal n!"_q_kg_m_per_s" false n!"momentum" n!"kilogram_metre_per_second"]),
    ([n!"units::aliases::isq::si::momentum", n!"units::aliases::isq::si", n!"units::aliases::isq", n!"units::aliases", n!"units", n!""], [
      .repAlias n!"kg_m_per_s" n!"units::isq::si::momentum" n!"units::isq::si::kilogram_metre_per_second"])]

/-- src/systems/si/include/units/isq/si/permeability.h:37-62. -/
def h_isq_si_permeability : Header where
  path := n!"isq/si/permeability.h"
  includes := [n!"isq/dimensions/permeability.h", n!"generic/dimensionless.h", n!"isq/si/inductance.h", n!"isq/si/prefixes.h"]
  sections := [
    ([n!"units::isq::si", n!"units::isq", n!"units", n!""], [
      .unit n!"henry_per_metre",
      .derivedInst n!"dim_permeability" n!"isq::dim_permeability" n!"henry_per_metre" [n!"dim_inductance", n!"dim_length"],
      .quantityAlias n!"permeability" n!"dim_permeability"]),
    ([n!"units::isq::si::literals", n!"units::isq::si", n!"units::isq", n!"units", n!""], [
      .literal n!"_q_H_per_m" true n!"permeability" n!"henry_per_metre",
      .literal n!"_q_H_per_m" false n!"permeability" n!"henry_per_metre"]),
    ([n!"units::aliases::isq::si::permeability", n!"units::aliases::isq::si", n!"units::aliases::isq", n!"units::aliases", n!"units", n!""], [
      .repAlias n!"H_per_m" n!"units::isq::si::permeability" n!"units::isq::si::henry_per_metre"])]

/-- src/systems/si/include/units/isq/si/permittivity.h:37-62. -/
def h_isq_si_permittivity : Header where
  path := n!"isq/si/permittivity.h"
  includes := [n!"isq/dimensions/permittivity.h", n!"generic/dimensionless.h", n!"isq/si/capacitance.h", n!"isq/si/prefixes.h"]
  sections := [
    ([n!"units::isq::si", n!"units::isq", n!"units", n!""], [
      .unit n!"farad_per_metre",
      .derivedInst n!"dim_permittivity" n!"isq::dim_permittivity" n!"farad_per_metre" [n!"dim_capacitance", n!"dim_length"],
      .quantityAlias n!"permittivity" n!"dim_permittivity"]),
    ([n!"units::isq::si::literals", n!"units::isq::si", n!"units::isq", n!"units", n!""], [
      .literal n!"_q_F_per_m" true n!"permittivity" n!"farad_per_metre",
      .literal n!"_q_F_per_m" false n!"permittivity" n!"farad_per_metre"]),
    ([n!"units::aliases::isq::si::permittivity", n!"units::aliases::isq::si", n!"units::aliases::isq", n!"units::aliases", n!"units", n!""], [
      .repAlias n!"F_per_m" n!"units::isq::si::permittivity" n!"units::isq::si::farad_per_metre"])]

/-- src/systems/si/include/units/isq/si/radioactivity.h:37-218. -/
def h_isq_si_radioactivity : Header where
  path := n!"isq/si/radioactivity.h"
  includes := [n!"isq/dimensions/radioactivity.h", n!"generic/dimensionless.h", n!"isq/si/time.h"]
  sections := [
    ([n!"units::isq::si", n!"units::isq", n!"units", n!""], [
      .named n!"becquerel" ⟨"Bq", "Bq"⟩ n!"prefix",
      .prefixed n!"yoctobecquerel" n!"yocto" n!"becquerel",
      .prefixed n!"zeptobecquerel" n!"zepto" n!"becquerel",
      .prefixed n!"attobecquerel" n!"atto" n!"becquerel",
      .prefixed n!"femtobecquerel" n!"femto" n!"becquerel",
      .prefixed n!"picobecquerel" n!"pico" n!"becquerel",
      .prefixed n!"nanobecquerel" n!"nano" n!"becquerel",
      .prefixed n!"microbecquerel" n!"micro" n!"becquerel",
      .prefixed n!"millibecquerel" n!"milli" n!"becquerel",
      .prefixed n!"centibecquerel" n!"centi" n!"becquerel",
      .prefixed n!"decibecquerel" n!"deci" n!"becquerel",
      .prefixed n!"decabecquerel" n!"deca" n!"becquerel",
      .prefixed n!"hectobecquerel" n!"hecto" n!"becquerel",
      .prefixed n!"kilobecquerel" n!"kilo" n!"becquerel",
      .prefixed n!"megabecquerel" n!"mega" n!"becquerel",
      .prefixed n!"gigabecquerel" n!"giga" n!"becquerel",
      .prefixed n!"terabecquerel" n!"tera" n!"becquerel",
      .prefixed n!"petabecquerel" n!"peta" n!"becquerel",
      .prefixed n!"exabecquerel" n!"exa" n!"becquerel",
      .prefixed n!"zettabecquerel" n!"zetta" n!"becquerel",
      .prefixed n!"yottabecquerel" n!"yotta" n!"becquerel",
      .derivedInst n!"dim_radioactivity" n!"isq::dim_radioactivity" n!"becquerel" [n!"dim_time"],
      .quantityAlias n!"radioactivity" n!"dim_radioactivity"]),
    ([n!"units::isq::si::literals", n!"units::isq::si", n!"units::isq", n!"units", n!""], [
      .literal n!"_q_Bq" true n!"radioactivity" n!"becquerel",
      .literal n!"_q_Bq" false n!"radioactivity" n!"becquerel",
      .literal n!"_q_yBq" true n!"radioactivity" n!"yoctobecquerel",
      .literal n!"_q_yBq" false n!"radioactivity" n!"yoctobecquerel",
      .literal n!"_q_zBq" true n!"radioactivity" n!"zeptobecquerel",
      .literal n!"_q_zBq" false n!"radioactivity" n!"zeptobecquerel",
      .literal n!"_q_aBq" true n!"radioactivity" n!"attobecquerel",
      .literal n!"_q_aBq" false n!"radioactivity" n!"attobecquerel",
      .literal n!"_q_fBq" true n!"radioactivity" n!"femtobecquerel",
      .literal n!"_q_fBq" false n!"radioactivity" n!"femtobecquerel",
      .literal n!"_q_pBq" true n!"radioactivity" n!"picobecquerel",
      .literal n!"_q_pBq" false n!"radioactivity" n!"picobecquerel",
      .literal n!"_q_nBq" true n!"radioactivity" n!"nanobecquerel",
      .literal n!"_q_nBq" false n!"radioactivity" n!"nanobecquerel",
      .literal n!"_q_uBq" true n!"radioactivity" n!"microbecquerel",
      .literal n!"_q_uBq" false n!"radioactivity" n!"microbecquerel",
      .literal n!"_q_mBq" true n!"radioactivity" n!"millibecquerel",
      .literal n!"_q_mBq" false n!"radioactivity" n!"millibecquerel",
      .literal n!"_q_cBq" true n!"radioactivity" n!"centibecquerel",
      .literal n!"_q_cBq" false n!"radioactivity" n!"centibecquerel",
      .literal n!"_q_dBq" true n!"radioactivity" n!"decibecquerel",
      .literal n!"_q_dBq" false n!"radioactivity" n!"decibecquerel",
      .literal n!"_q_daBq" true n!"radioactivity" n!"decabecquerel",
      .literal n!"_q_daBq" false n!"radioactivity" n!"decabecquerel",
      .literal n!"_q_hBq" true n!"radioactivity" n!"hectobecquerel",
      .literal n!"_q_hBq" false n!"radioactivity" n!"hectobecquerel",
      .literal n!"_q_kBq" true n!"radioactivity" n!"kilobecquerel",
      .literal n!"_q_kBq" false n!"radioactivity" n!"kilobecquerel",
      .literal n!"_q_MBq" true n!"radioactivity" n!"megabecquerel",
      .literal n!"_q_MBq" false n!"radioactivity" n!"megabecquerel",
      .literal n!"_q_GBq" true n!"radioactivity" n!"gigabecquerel",
      .literal n!"_q_GBq" false n!"radioactivity" n!"gigabecquerel",
      .literal n!"_q_TBq" true n!"radioactivity" n!"terabecquerel",
      .literal n!"_q_TBq" false n!"radioactivity" n!"terabecquerel",
      .literal n!"_q_PBq" true n!"radioactivity" n!"petabecquerel",
      .literal n!"_q_PBq" false n!"radioactivity" n!"petabecquerel",
      .literal n!"_q_EBq" true n!"radioactivity" n!"exabecquerel",
      .literal n!"_q_EBq" false n!"radioactivity" n!"exabecquerel",
      .literal n!"_q_ZBq" true n!"radioactivity" n!"zettabecquerel",
      .literal n!"_q_ZBq" false n!"radioactivity" n!"zettabecquerel",
      .literal n!"_q_YBq" true n!"radioactivity" n!"yottabecquerel",
      .literal n!"_q_YBq" false n!"radioactivity" n!"yottabecquerel"]),
    ([n!"units::isq::si::radioactivity_references", n!"units::isq::si", n!"units::isq", n!"units", n!""], [
      .reference n!"Bq" n!"dim_radioactivity" n!"becquerel",
      .reference n!"yBq" n!"dim_radioactivity" n!"yoctobecquerel",
      .reference n!"zBq" n!"dim_radioactivity" n!"zeptobecquerel",
      .reference n!"aBq" n!"dim_radioactivity" n!"attobecquerel",
      .reference n!"fBq" n!"dim_radioactivity" n!"femtobecquerel",
      .reference n!"pBq" n!"dim_radioactivity" n!"picobecquerel",
      .reference n!"nBq" n!"dim_radioactivity" n!"nanobecquerel",
      .reference n!"uBq" n!"dim_radioactivity" n!"microbecquerel",
      .reference n!"mBq" n!"dim_radioactivity" n!"millibecquerel",
      .reference n!"cBq" n!"dim_radioactivity" n!"centibecquerel",
      .reference n!"dBq" n!"dim_radioactivity" n!"decibecquerel",
      .reference n!"daBq" n!"dim_radioactivity" n!"decabecquerel",
      .reference n!"hBq" n!"dim_radioactivity" n!"hectobecquerel",
      .reference n!"kBq" n!"dim_radioactivity" n!"kilobecquerel",
      .reference n!"MBq" n!"dim_radioactivity" n!"megabecquerel",
      .reference n!"GBq" n!"dim_radioactivity" n!"gigabecquerel",
      .reference n!"TBq" n!"dim_radioactivity" n!"terabecquerel",
      .reference n!"PBq" n!"dim_radioactivity" n!"petabecquerel",
      .reference n!"EBq" n!"dim_radioactivity" n!"exabecquerel",
      .reference n!"ZBq" n!"dim_radioactivity" n!"zettabecquerel",
      .reference n!"YBq" n!"dim_radioactivity" n!"yottabecquerel"]),
    ([n!"units::aliases::isq::si::radioactivity", n!"units::aliases::isq::si", n!"units::aliases::isq", n!"units::aliases", n!"units", n!""], [
      .repAlias n!"Bq" n!"units::isq::radioactivity" n!"units::isq::becquerel",
      .repAlias n!"yBq" n!"units::isq::radioactivity" n!"units::isq::yoctobecquerel",
      .repAlias n!"zBq" n!"units::isq::radioactivity" n!"units::isq::zeptobecquerel",
      .repAlias n!"aBq" n!"units::isq::radioactivity" n!"units::isq::attobecquerel",
      .repAlias n!"fBq" n!"units::isq::radioactivity" n!"units::isq::femtobecquerel",
      .repAlias n!"pBq" n!"units::isq::radioactivity" n!"units::isq::picobecquerel",
      .repAlias n!"nBq" n!"units::isq::radioactivity" n!"units::isq::nanobecquerel",
      .repAlias n!"uBq" n!"units::isq::radioactivity" n!"units::isq::microbecquerel",
      .repAlias n!"mBq" n!"units::isq::radioactivity" n!"units::isq::millibecquerel",
      .repAlias n!"cBq" n!"units::isq::radioactivity" n!"units::isq::centibecquerel",
      .repAlias n!"dBq" n!"units::isq::radioactivity" n!"units::isq::decibecquerel",
      .repAlias n!"daBq" n!"units::isq::radioactivity" n!"units::isq::decabecquerel",
      .repAlias n!"hBq" n!"units::isq::radioactivity" n!"units::isq::hectobecquerel",
      .repAlias n!"kBq" n!"units::isq::radioactivity" n!"units::isq::kilobecquerel",
      .repAlias n!"MBq" n!"units::isq::radioactivity" n!"units::isq::megabecquerel",
      .repAlias n!"GBq" n!"units::isq::radioactivity" n!"units::isq::gigabecquerel",
      .repAlias n!"TBq" n!"units::isq::radioactivity" n!"units::isq::terabecquerel",
      .repAlias n!"PBq" n!"units::isq::radioactivity" n!"units::isq::petabecquerel",
      .repAlias n!"EBq" n!"units::isq::radioactivity" n!"units::isq::exabecquerel",
      .repAlias n!"ZBq" n!"units::isq::radioactivity" n!"units::isq::zettabecquerel",
      .repAlias n!"YBq" n!"units::isq::radioactivity" n!"units::isq::yottabecquerel"])]

/-- src/systems/si/include/units/isq/si/surface_tension.h:36-61. -/
def h_isq_si_surface_tension : Header where
  path := n!"isq/si/surface_tension.h"
  includes := [n!"isq/dimensions/surface_tension.h", n!"generic/dimensionless.h", n!"isq/si/force.h"]
  sections := [
    ([n!"units::isq::si", n!"units::isq", n!"units", n!""], [
      .unit n!"newton_per_metre",
      .derivedInst n!"dim_surface_tension" n!"isq::dim_surface_tension" n!"newton_per_metre" [n!"dim_force", n!"dim_length"],
      .quantityAlias n!"surface_tension" n!"dim_surface_tension"]),
    ([n!"units::isq::si::literals", n!"units::isq::si", n!"units::isq", n!"units", n!""], [
      .literal n!"_q_N_per_m" true n!"surface_tension" n!"newton_per_metre",
      .literal n!"_q_N_per_m" false n!"surface_tension" n!"newton_per_metre"]),
    ([n!"units::aliases::isq::si::surface_tension", n!"units::aliases::isq::si", n!"units::aliases::isq", n!"units::aliases", n!"units", n!""], [
      .repAlias n!"N_per_m" n!"units::isq::si::surface_tension" n!"units::isq::si::newton_per_metre"])]

/-- src/systems/si/include/units/isq/si/thermal_conductivity.h:37-62. -/
def h_isq_si_thermal_conductivity : Header where
  path := n!"isq/si/thermal_conductivity.h"
  includes := [n!"isq/dimensions/thermal_conductivity.h", n!"generic/dimensionless.h", n!"isq/si/power.h", n!"isq/si/thermodynamic_temperature.h"]
  sections := [
    ([n!"units::isq::si", n!"units::isq", n!"units", n!""], [
      .unit n!"watt_per_metre_kelvin",
      .derivedInst n!"dim_thermal_conductivity" n!"isq::dim_thermal_conductivity" n!"watt_per_metre_kelvin" [n!"dim_power", n!"dim_length", n!"dim_thermodynamic_temperature"],
      .quantityAlias n!"thermal_conductivity" n!"dim_thermal_conductivity"]),
    ([n!"units::isq::si::literals", n!"units::isq::si", n!"units::isq", n!"units", n!""], [
      .literal n!"_q_W_per_m_K" true n!"thermal_conductivity" n!"watt_per_metre_kelvin",
      .literal n!"_q_W_per_m_K" false n!"thermal_conductivity" n!"watt_per_metre_kelvin"]),
    ([n!"units::aliases::isq::si::thermal_conductivity", n!"units::aliases::isq::si", n!"units::aliases::isq", n!"units::aliases", n!"units", n!""], [
      .repAlias n!"W_per_m_K" n!"units::isq::si::thermal_conductivity" n!"units::isq::si::watt_per_metre_kelvin"])]

/-- src/systems/si/include/units/isq/si/torque.h:38-63. -/
def h_isq_si_torque : Header where
  path := n!"isq/si/torque.h"
  includes := [n!"isq/dimensions/torque.h", n!"generic/dimensionless.h", n!"isq/si/energy.h", n!"generic/angle.h", n!"isq/si/prefixes.h"]
  sections := [
    ([n!"units::isq::si", n!"units::isq", n!"units", n!""], [
      .unit n!"newton_metre_per_radian",
      .derivedInst n!"dim_torque" n!"isq::dim_torque" n!"newton_metre_per_radian" [n!"dim_force", n!"dim_length", n!"dim_angle<>"],
      .quantityAlias n!"torque" n!"dim_torque"]),
    ([n!"units::isq::si::literals", n!"units::isq::si", n!"units::isq", n!"units", n!""], [
      .literal n!"_q_N_m_per_rad" true n!"torque" n!"newton_metre_per_radian",
      .literal n!"_q_N_m_per_rad" false n!"torque" n!"newton_metre_per_radian"]),
    ([n!"units::aliases::isq::si::torque", n!"units::aliases::isq::si", n!"units::aliases::isq", n!"units::aliases", n!"units", n!""], [
      .repAlias n!"N_m_per_rad" n!"units::isq::si::torque" n!"units::isq::si::newton_metre_per_radian"])]

/-- src/systems/si/include/units/isq/si/si.h:26-75. -/
def h_isq_si_si : Header where
  path := n!"isq/si/si.h"
  includes := [n!"isq/si/electric_current.h", n!"isq/si/length.h", n!"isq/si/luminous_intensity.h", n!"isq/si/mass.h", n!"isq/si/amount_of_substance.h", n!"isq/si/thermodynamic_temperature.h", n!"isq/si/time.h", n!"isq/si/absorbed_dose.h", n!"isq/si/acceleration.h", n!"isq/si/angular_velocity.h", n!"isq/si/area.h", n!"isq/si/capacitance.h", n!"isq/si/catalytic_activity.h", n!"isq/si/charge_density.h", n!"isq/si/concentration.h", n!"isq/si/conductance.h", n!"isq/si/current_density.h", n!"isq/si/density.h", n!"isq/si/dynamic_viscosity.h", n!"isq/si/electric_charge.h", n!"isq/si/electric_field_strength.h", n!"isq/si/energy.h", n!"isq/si/force.h", n!"isq/si/frequency.h", n!"isq/si/heat_capacity.h", n!"isq/si/inductance.h", n!"isq/si/luminance.h", n!"isq/si/magnetic_flux.h", n!"isq/si/magnetic_induction.h", n!"isq/si/molar_energy.h", n!"isq/si/momentum.h", n!"isq/si/permeability.h", n!"isq/si/permittivity.h", n!"isq/si/power.h", n!"isq/si/pressure.h", n!"isq/si/resistance.h", n!"isq/si/speed.h", n!"isq/si/surface_tension.h", n!"isq/si/thermal_conductivity.h", n!"isq/si/torque.h", n!"isq/si/voltage.h", n!"isq/si/volume.h", n!"isq/si/constants.h", n!"isq/si/prefixes.h"]
  sections := []

/-- src/systems/si-typographic/include/units/isq/si/typographic/length.h:39-96. -/
def h_isq_si_typographic_length : Header where
  path := n!"isq/si/typographic/length.h"
  includes := [n!"isq/dimensions/length.h", n!"generic/dimensionless.h", n!"isq/si/length.h"]
  sections := [
    ([n!"units::isq::si::typographic", n!"units::isq::si", n!"units::isq", n!"units", n!""], [
      .namedScaled n!"pica_comp" ⟨"pica(comp)", "pica(comp)"⟩ n!"no_prefix" (4233333) (1000000) (-3) n!"si::metre",
      .namedScaled n!"pica_prn" ⟨"pica(prn)", "pica(prn)"⟩ n!"no_prefix" (2108759) (500000) (-3) n!"si::metre",
      .namedScaled n!"point_comp" ⟨"point(comp)", "point(comp)"⟩ n!"no_prefix" (1763889) (500000) (-4) n!"si::metre",
      .namedScaled n!"point_prn" ⟨"point(prn)", "point(prn)"⟩ n!"no_prefix" (1757299) (500000) (-4) n!"si::metre"]),
    ([n!"units::isq::si::typographic::literals", n!"units::isq::si::typographic", n!"units::isq::si", n!"units::isq", n!"units", n!""], [
      .literal n!"_q_pica_comp" true n!"si::length" n!"pica_comp",
      .literal n!"_q_pica_comp" false n!"si::length" n!"pica_comp",
      .literal n!"_q_pica_prn" true n!"si::length" n!"pica_prn",
      .literal n!"_q_pica_prn" false n!"si::length" n!"pica_prn",
      .literal n!"_q_point_comp" true n!"si::length" n!"point_comp",
      .literal n!"_q_point_comp" false n!"si::length" n!"point_comp",
      .literal n!"_q_point_prn" true n!"si::length" n!"point_prn",
      .literal n!"_q_point_prn" false n!"si::length" n!"point_prn"]),
    ([n!"units::isq::si::typographic::length_references", n!"units::isq::si::typographic", n!"units::isq::si", n!"units::isq", n!"units", n!""], [
      .reference n!"pica_comp" n!"si::dim_length" n!"typographic::pica_comp",
      .reference n!"pica_prn" n!"si::dim_length" n!"typographic::pica_prn",
      .reference n!"point_comp" n!"si::dim_length" n!"typographic::point_comp",
      .reference n!"point_prn" n!"si::dim_length" n!"typographic::point_prn"]),
    ([n!"units::aliases::isq::si::typographic::length", n!"units::aliases::isq::si::typographic", n!"units::aliases::isq::si", n!"units::aliases::isq", n!"units::aliases", n!"units", n!""], [
      .repAlias n!"pica_comp" n!"units::isq::si::length" n!"units::isq::si::typographic::pica_comp",
      .repAlias n!"pica_prn" n!"units::isq::si::length" n!"units::isq::si::typographic::pica_prn",
      .repAlias n!"point_comp" n!"units::isq::si::length" n!"units::isq::si::typographic::point_comp",
      .repAlias n!"point_prn" n!"units::isq::si::length" n!"units::isq::si::typographic::point_prn"])]

/-- src/systems/si-typographic/include/units/isq/si/typographic/typographic.h:26-26. -/
def h_isq_si_typographic_typographic : Header where
  path := n!"isq/si/typographic/typographic.h"
  includes := [n!"isq/si/typographic/length.h"]
  sections := []

/-- src/systems/si-uscs/include/units/isq/si/uscs/length.h:39-94. -/
def h_isq_si_uscs_length : Header where
  path := n!"isq/si/uscs/length.h"
  includes := [n!"isq/dimensions/length.h", n!"generic/dimensionless.h", n!"isq/si/length.h"]
  sections := [
    ([n!"units::isq::si::uscs", n!"units::isq::si", n!"units::isq", n!"units", n!""], [
      .namedScaled n!"foot" ⟨"ft(us)", "ft(us)"⟩ n!"no_prefix" (1200) (3937) (0) n!"si::metre",
      .namedScaled n!"fathom" ⟨"fathom(us)", "fathom(us)"⟩ n!"no_prefix" (6) (1) (0) n!"foot",
      .namedScaled n!"mile" ⟨"mi(us)", "mi(us)"⟩ n!"no_prefix" (5280) (1) (0) n!"foot"]),
    ([n!"units::isq::si::uscs::literals", n!"units::isq::si::uscs", n!"units::isq::si", n!"units::isq", n!"units", n!""], [
      .literal n!"_q_ft_us" true n!"si::length" n!"units::isq::si::uscs::foot",
      .literal n!"_q_ft_us" false n!"si::length" n!"units::isq::si::uscs::foot",
      .literal n!"_q_fathom_us" true n!"si::length" n!"units::isq::si::uscs::fathom",
      .literal n!"_q_fathom_us" false n!"si::length" n!"units::isq::si::uscs::fathom",
      .literal n!"_q_mi_us" true n!"si::length" n!"units::isq::si::uscs::mile",
      .literal n!"_q_mi_us" false n!"si::length" n!"units::isq::si::uscs::mile"]),
    ([n!"units::isq::si::uscs::length_references", n!"units::isq::si::uscs", n!"units::isq::si", n!"units::isq", n!"units", n!""], [
      .reference n!"ft" n!"si::dim_length" n!"uscs::foot",
      .reference n!"fathom" n!"si::dim_length" n!"uscs::fathom",
      .reference n!"mi" n!"si::dim_length" n!"uscs::mile"]),
    ([n!"units::aliases::isq::si::uscs::length", n!"units::aliases::isq::si::uscs", n!"units::aliases::isq::si", n!"units::aliases::isq", n!"units::aliases", n!"units", n!""], [
      .repAlias n!"ft" n!"units::isq::si::length" n!"units::isq::si::uscs::foot",
      .repAlias n!"fathom" n!"units::isq::si::length" n!"units::isq::si::uscs::fathom",
      .repAlias n!"mi" n!"units::isq::si::length" n!"units::isq::si::uscs::mile"])]

/-- src/systems/si-uscs/include/units/isq/si/uscs/uscs.h:26-26. -/
def h_isq_si_uscs_uscs : Header where
  path := n!"isq/si/uscs/uscs.h"
  includes := [n!"isq/si/uscs/length.h"]
  sections := []

/-- All headers of src/systems and of src/core/include/units/generic. -/
def headers : List Header :=
  [h_generic_dimensionless,
   h_isq_si_prefixes,
   h_generic_angle,
   h_isq_dimensions_length,
   h_isq_dimensions_time,
   h_isq_dimensions_acceleration,
   h_isq_dimensions_mass,
   h_isq_dimensions_force,
   h_isq_dimensions_energy,
   h_isq_dimensions_absorbed_dose,
   h_isq_dimensions_amount_of_substance,
   h_isq_dimensions_angular_velocity,
   h_isq_dimensions_area,
   h_isq_dimensions_electric_current,
   h_isq_dimensions_electric_charge,
   h_isq_dimensions_power,
   h_isq_dimensions_voltage,
   h_isq_dimensions_capacitance,
   h_isq_dimensions_catalytic_activity,
   h_isq_dimensions_charge_density,
   h_isq_dimensions_concentration,
   h_isq_dimensions_resistance,
   h_isq_dimensions_conductance,
   h_isq_dimensions_current_density,
   h_isq_dimensions_density,
   h_isq_dimensions_pressure,
   h_isq_dimensions_dynamic_viscosity,
   h_isq_dimensions_electric_field_strength,
   h_isq_dimensions_frequency,
   h_isq_dimensions_thermodynamic_temperature,
   h_isq_dimensions_heat_capacity,
   h_isq_dimensions_magnetic_induction,
   h_isq_dimensions_magnetic_flux,
   h_isq_dimensions_inductance,
   h_isq_dimensions_luminous_intensity,
   h_isq_dimensions_luminance,
   h_isq_dimensions_molar_energy,
   h_isq_dimensions_speed,
   h_isq_dimensions_momentum,
   h_isq_dimensions_permeability,
   h_isq_dimensions_permittivity,
   h_isq_dimensions_surface_tension,
   h_isq_dimensions_thermal_conductivity,
   h_isq_dimensions_torque,
   h_isq_dimensions_volume,
   h_isq_dimensions,
   h_isq_dimensions_energy_density,
   h_isq_dimensions_radioactivity,
   h_isq_iec80000_binary_prefixes,
   h_isq_si_time,
   h_isq_si_frequency,
   h_isq_iec80000_modulation_rate,
   h_isq_iec80000_storage_capacity,
   h_isq_iec80000_traffic_intensity,
   h_isq_iec80000_transfer_rate,
   h_isq_iec80000_iec80000,
   h_isq_natural_units,
   h_isq_natural_length,
   h_isq_natural_time,
   h_isq_natural_acceleration,
   h_isq_natural_speed,
   h_isq_natural_constants,
   h_isq_natural_mass,
   h_isq_natural_force,
   h_isq_natural_energy,
   h_isq_natural_momentum,
   h_isq_natural_natural,
   h_isq_si_length,
   h_isq_si_speed,
   h_isq_si_acceleration,
   h_isq_si_mass,
   h_isq_si_force,
   h_isq_si_energy,
   h_isq_si_absorbed_dose,
   h_isq_si_amount_of_substance,
   h_isq_si_angular_velocity,
   h_isq_si_area,
   h_isq_si_electric_current,
   h_isq_si_electric_charge,
   h_isq_si_power,
   h_isq_si_voltage,
   h_isq_si_capacitance,
   h_isq_si_catalytic_activity,
   h_isq_si_cgs_length,
   h_isq_si_cgs_time,
   h_isq_si_cgs_speed,
   h_isq_si_cgs_acceleration,
   h_isq_si_cgs_area,
   h_isq_si_cgs_mass,
   h_isq_si_cgs_force,
   h_isq_si_cgs_energy,
   h_isq_si_cgs_power,
   h_isq_si_cgs_pressure,
   h_isq_si_cgs_cgs,
   h_isq_si_charge_density,
   h_isq_si_concentration,
   h_isq_si_resistance,
   h_isq_si_conductance,
   h_isq_si_thermodynamic_temperature,
   h_isq_si_constants,
   h_isq_si_current_density,
   h_isq_si_density,
   h_isq_si_pressure,
   h_isq_si_dynamic_viscosity,
   h_isq_si_electric_field_strength,
   h_isq_si_volume,
   h_isq_si_energy_density,
   h_isq_si_fps_length,
   h_isq_si_fps_time,
   h_isq_si_fps_speed,
   h_isq_si_fps_acceleration,
   h_isq_si_fps_area,
   h_isq_si_fps_mass,
   h_isq_si_fps_density,
   h_isq_si_fps_force,
   h_isq_si_fps_energy,
   h_isq_si_fps_power,
   h_isq_si_fps_pressure,
   h_isq_si_fps_volume,
   h_isq_si_fps_fps,
   h_isq_si_heat_capacity,
   h_isq_si_iau_length,
   h_isq_si_iau_iau,
   h_isq_si_international_length,
   h_isq_si_imperial_length,
   h_isq_si_imperial_imperial,
   h_isq_si_magnetic_induction,
   h_isq_si_magnetic_flux,
   h_isq_si_inductance,
   h_isq_si_international_area,
   h_isq_si_international_speed,
   h_isq_si_international_volume,
   h_isq_si_international_international,
   h_isq_si_luminous_intensity,
   h_isq_si_luminance,
   h_isq_si_molar_energy,
   h_isq_si_momentum,
   h_isq_si_permeability,
   h_isq_si_permittivity,
   h_isq_si_radioactivity,
   h_isq_si_surface_tension,
   h_isq_si_thermal_conductivity,
   h_isq_si_torque,
   h_isq_si_si,
   h_isq_si_typographic_length,
   h_isq_si_typographic_typographic,
   h_isq_si_uscs_length,
   h_isq_si_uscs_uscs]

end Verif.Systems
