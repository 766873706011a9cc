import Verif.SystemsRows

/-!
# What the shipped headers declare

Written by tools/gen_tables.txt from the model; `Verif/SystemsLoad.lean` proves that the tables are right.
-/

namespace Verif.Systems

/-- units::dim_angle<> -/
def b_dim_angle : BaseDim := ⟨"units::dim_angle<>", "A", ⟨.named "units::radian", ⟨1, 1, 0⟩, "units::radian", [.scaled ⟨1, 1, 0⟩ "units::radian"], true, "rad", some "units::isq::si::prefix"⟩⟩

/-- units::isq::si::dim_time -/
def b_isq_si_dim_time : BaseDim := ⟨"units::isq::si::dim_time", "T", ⟨.named "units::isq::si::second", ⟨1, 1, 0⟩, "units::isq::si::second", [.scaled ⟨1, 1, 0⟩ "units::isq::si::second"], true, "s", some "units::isq::si::prefix"⟩⟩

/-- units::isq::iec80000::dim_storage_capacity -/
def b_isq_iec80000_dim_storage_capacity : BaseDim := ⟨"units::isq::iec80000::dim_storage_capacity", "M", ⟨.named "units::isq::iec80000::byte", ⟨8, 1, 0⟩, "units::isq::iec80000::bit", [.scaled ⟨8, 1, 0⟩ "units::isq::iec80000::bit"], true, "B", some "units::isq::si::prefix"⟩⟩

/-- units::isq::iec80000::dim_traffic_intensity -/
def b_isq_iec80000_dim_traffic_intensity : BaseDim := ⟨"units::isq::iec80000::dim_traffic_intensity", "A", ⟨.named "units::isq::iec80000::erlang", ⟨1, 1, 0⟩, "units::isq::iec80000::erlang", [.scaled ⟨1, 1, 0⟩ "units::isq::iec80000::erlang"], true, "E", none⟩⟩

/-- units::isq::natural::dim_length -/
def b_isq_natural_dim_length : BaseDim := ⟨"units::isq::natural::dim_length", "L", ⟨.named "units::isq::natural::inverted_gigaelectronvolt", ⟨1, 1, 0⟩, "units::isq::natural::inverted_gigaelectronvolt", [.scaled ⟨1, 1, 0⟩ "units::isq::natural::inverted_gigaelectronvolt"], true, "GeV⁻¹", none⟩⟩

/-- units::isq::natural::dim_time -/
def b_isq_natural_dim_time : BaseDim := ⟨"units::isq::natural::dim_time", "T", ⟨.named "units::isq::natural::inverted_gigaelectronvolt", ⟨1, 1, 0⟩, "units::isq::natural::inverted_gigaelectronvolt", [.scaled ⟨1, 1, 0⟩ "units::isq::natural::inverted_gigaelectronvolt"], true, "GeV⁻¹", none⟩⟩

/-- units::isq::natural::dim_mass -/
def b_isq_natural_dim_mass : BaseDim := ⟨"units::isq::natural::dim_mass", "M", ⟨.named "units::isq::natural::gigaelectronvolt", ⟨1, 1, 9⟩, "units::isq::natural::electronvolt", [.scaled ⟨1, 1, 9⟩ "units::isq::natural::electronvolt"], true, "GeV", none⟩⟩

/-- units::isq::si::dim_length -/
def b_isq_si_dim_length : BaseDim := ⟨"units::isq::si::dim_length", "L", ⟨.named "units::isq::si::metre", ⟨1, 1, 0⟩, "units::isq::si::metre", [.scaled ⟨1, 1, 0⟩ "units::isq::si::metre"], true, "m", some "units::isq::si::prefix"⟩⟩

/-- units::isq::si::dim_mass -/
def b_isq_si_dim_mass : BaseDim := ⟨"units::isq::si::dim_mass", "M", ⟨.named "units::isq::si::kilogram", ⟨1, 1, 3⟩, "units::isq::si::gram", [.scaled ⟨1, 1, 3⟩ "units::isq::si::gram"], true, "kg", none⟩⟩

/-- units::isq::si::dim_amount_of_substance -/
def b_isq_si_dim_amount_of_substance : BaseDim := ⟨"units::isq::si::dim_amount_of_substance", "N", ⟨.named "units::isq::si::mole", ⟨1, 1, 0⟩, "units::isq::si::mole", [.scaled ⟨1, 1, 0⟩ "units::isq::si::mole"], true, "mol", some "units::isq::si::prefix"⟩⟩

/-- units::isq::si::dim_electric_current -/
def b_isq_si_dim_electric_current : BaseDim := ⟨"units::isq::si::dim_electric_current", "I", ⟨.named "units::isq::si::ampere", ⟨1, 1, 0⟩, "units::isq::si::ampere", [.scaled ⟨1, 1, 0⟩ "units::isq::si::ampere"], true, "A", some "units::isq::si::prefix"⟩⟩

/-- units::isq::si::cgs::dim_length -/
def b_isq_si_cgs_dim_length : BaseDim := ⟨"units::isq::si::cgs::dim_length", "L", ⟨.named "units::isq::si::centimetre", ⟨1, 1, (-2)⟩, "units::isq::si::metre", [.scaled ⟨1, 1, (-2)⟩ "units::isq::si::metre"], true, "cm", none⟩⟩

/-- units::isq::si::cgs::dim_mass -/
def b_isq_si_cgs_dim_mass : BaseDim := ⟨"units::isq::si::cgs::dim_mass", "M", ⟨.named "units::isq::si::gram", ⟨1, 1, 0⟩, "units::isq::si::gram", [.scaled ⟨1, 1, 0⟩ "units::isq::si::gram"], true, "g", some "units::isq::si::prefix"⟩⟩

/-- units::isq::si::dim_thermodynamic_temperature -/
def b_isq_si_dim_thermodynamic_temperature : BaseDim := ⟨"units::isq::si::dim_thermodynamic_temperature", "Θ", ⟨.named "units::isq::si::kelvin", ⟨1, 1, 0⟩, "units::isq::si::kelvin", [.scaled ⟨1, 1, 0⟩ "units::isq::si::kelvin"], true, "K", none⟩⟩

/-- units::isq::si::fps::dim_length -/
def b_isq_si_fps_dim_length : BaseDim := ⟨"units::isq::si::fps::dim_length", "L", ⟨.named "units::isq::si::fps::foot", ⟨381, 125, (-1)⟩, "units::isq::si::metre", [.scaled ⟨381, 125, (-1)⟩ "units::isq::si::metre"], true, "ft", none⟩⟩

/-- units::isq::si::fps::dim_mass -/
def b_isq_si_fps_dim_mass : BaseDim := ⟨"units::isq::si::fps::dim_mass", "M", ⟨.named "units::isq::si::fps::pound", ⟨45359237, 1, (-5)⟩, "units::isq::si::gram", [.scaled ⟨45359237, 1, (-5)⟩ "units::isq::si::gram"], true, "lb", none⟩⟩

/-- units::isq::si::dim_luminous_intensity -/
def b_isq_si_dim_luminous_intensity : BaseDim := ⟨"units::isq::si::dim_luminous_intensity", "J", ⟨.named "units::isq::si::candela", ⟨1, 1, 0⟩, "units::isq::si::candela", [.scaled ⟨1, 1, 0⟩ "units::isq::si::candela"], true, "cd", some "units::isq::si::prefix"⟩⟩

/-- units::dim_one -/
def d_dim_one : Dim := .named ⟨"units::dim_one", [], ⟨.named "units::one", ⟨1, 1, 0⟩, "units::one", [.scaled ⟨1, 1, 0⟩ "units::one"], true, "", none⟩⟩

/-- units::dim_angle<> -/
def d_dim_angle : Dim := .base b_dim_angle

/-- units::isq::si::dim_time -/
def d_isq_si_dim_time : Dim := .base b_isq_si_dim_time

/-- units::isq::si::dim_frequency -/
def d_isq_si_dim_frequency : Dim := .named ⟨"units::isq::si::dim_frequency", [⟨b_isq_si_dim_time, (-1), 1⟩], ⟨.named "units::isq::si::hertz", ⟨1, 1, 0⟩, "units::isq::si::hertz", [.scaled ⟨1, 1, 0⟩ "units::isq::si::hertz"], true, "Hz", some "units::isq::si::prefix"⟩⟩

/-- units::isq::iec80000::dim_storage_capacity -/
def d_isq_iec80000_dim_storage_capacity : Dim := .base b_isq_iec80000_dim_storage_capacity

/-- units::isq::iec80000::dim_traffic_intensity -/
def d_isq_iec80000_dim_traffic_intensity : Dim := .base b_isq_iec80000_dim_traffic_intensity

/-- units::isq::iec80000::dim_transfer_rate -/
def d_isq_iec80000_dim_transfer_rate : Dim := .named ⟨"units::isq::iec80000::dim_transfer_rate", [⟨b_isq_iec80000_dim_storage_capacity, 1, 1⟩, ⟨b_isq_si_dim_time, (-1), 1⟩], ⟨.named "units::isq::iec80000::byte_per_second", ⟨1, 1, 0⟩, "units::isq::iec80000::byte_per_second", [.scaled ⟨1, 1, 0⟩ "units::isq::iec80000::byte_per_second"], false, "", none⟩⟩

/-- units::isq::natural::dim_length -/
def d_isq_natural_dim_length : Dim := .base b_isq_natural_dim_length

/-- units::isq::natural::dim_time -/
def d_isq_natural_dim_time : Dim := .base b_isq_natural_dim_time

/-- units::isq::natural::dim_acceleration -/
def d_isq_natural_dim_acceleration : Dim := .named ⟨"units::isq::natural::dim_acceleration", [⟨b_isq_natural_dim_length, 1, 1⟩, ⟨b_isq_natural_dim_time, (-2), 1⟩], ⟨.named "units::isq::natural::gigaelectronvolt", ⟨1, 1, 9⟩, "units::isq::natural::electronvolt", [.scaled ⟨1, 1, 9⟩ "units::isq::natural::electronvolt"], true, "GeV", none⟩⟩

/-- units::isq::natural::dim_speed -/
def d_isq_natural_dim_speed : Dim := .named ⟨"units::isq::natural::dim_speed", [⟨b_isq_natural_dim_length, 1, 1⟩, ⟨b_isq_natural_dim_time, (-1), 1⟩], ⟨.named "units::one", ⟨1, 1, 0⟩, "units::one", [.scaled ⟨1, 1, 0⟩ "units::one"], true, "", none⟩⟩

/-- units::isq::natural::dim_mass -/
def d_isq_natural_dim_mass : Dim := .base b_isq_natural_dim_mass

/-- units::isq::natural::dim_force -/
def d_isq_natural_dim_force : Dim := .named ⟨"units::isq::natural::dim_force", [⟨b_isq_natural_dim_length, 1, 1⟩, ⟨b_isq_natural_dim_mass, 1, 1⟩, ⟨b_isq_natural_dim_time, (-2), 1⟩], ⟨.named "units::isq::natural::square_gigaelectronvolt", ⟨1, 1, 0⟩, "units::isq::natural::square_gigaelectronvolt", [.scaled ⟨1, 1, 0⟩ "units::isq::natural::square_gigaelectronvolt"], true, "GeV²", none⟩⟩

/-- units::isq::natural::dim_energy -/
def d_isq_natural_dim_energy : Dim := .named ⟨"units::isq::natural::dim_energy", [⟨b_isq_natural_dim_length, 2, 1⟩, ⟨b_isq_natural_dim_mass, 1, 1⟩, ⟨b_isq_natural_dim_time, (-2), 1⟩], ⟨.named "units::isq::natural::gigaelectronvolt", ⟨1, 1, 9⟩, "units::isq::natural::electronvolt", [.scaled ⟨1, 1, 9⟩ "units::isq::natural::electronvolt"], true, "GeV", none⟩⟩

/-- units::isq::natural::dim_momentum -/
def d_isq_natural_dim_momentum : Dim := .named ⟨"units::isq::natural::dim_momentum", [⟨b_isq_natural_dim_length, 1, 1⟩, ⟨b_isq_natural_dim_mass, 1, 1⟩, ⟨b_isq_natural_dim_time, (-1), 1⟩], ⟨.named "units::isq::natural::gigaelectronvolt", ⟨1, 1, 9⟩, "units::isq::natural::electronvolt", [.scaled ⟨1, 1, 9⟩ "units::isq::natural::electronvolt"], true, "GeV", none⟩⟩

/-- units::isq::si::dim_length -/
def d_isq_si_dim_length : Dim := .base b_isq_si_dim_length

/-- units::isq::si::dim_speed -/
def d_isq_si_dim_speed : Dim := .named ⟨"units::isq::si::dim_speed", [⟨b_isq_si_dim_length, 1, 1⟩, ⟨b_isq_si_dim_time, (-1), 1⟩], ⟨.named "units::isq::si::metre_per_second", ⟨1, 1, 0⟩, "units::isq::si::metre_per_second", [.scaled ⟨1, 1, 0⟩ "units::isq::si::metre_per_second"], false, "", none⟩⟩

/-- units::isq::si::dim_acceleration -/
def d_isq_si_dim_acceleration : Dim := .named ⟨"units::isq::si::dim_acceleration", [⟨b_isq_si_dim_length, 1, 1⟩, ⟨b_isq_si_dim_time, (-2), 1⟩], ⟨.named "units::isq::si::metre_per_second_sq", ⟨1, 1, 0⟩, "units::isq::si::metre_per_second_sq", [.scaled ⟨1, 1, 0⟩ "units::isq::si::metre_per_second_sq"], false, "", none⟩⟩

/-- units::isq::si::dim_mass -/
def d_isq_si_dim_mass : Dim := .base b_isq_si_dim_mass

/-- units::isq::si::dim_force -/
def d_isq_si_dim_force : Dim := .named ⟨"units::isq::si::dim_force", [⟨b_isq_si_dim_length, 1, 1⟩, ⟨b_isq_si_dim_mass, 1, 1⟩, ⟨b_isq_si_dim_time, (-2), 1⟩], ⟨.named "units::isq::si::newton", ⟨1, 1, 0⟩, "units::isq::si::newton", [.scaled ⟨1, 1, 0⟩ "units::isq::si::newton"], true, "N", some "units::isq::si::prefix"⟩⟩

/-- units::isq::si::dim_energy -/
def d_isq_si_dim_energy : Dim := .named ⟨"units::isq::si::dim_energy", [⟨b_isq_si_dim_length, 2, 1⟩, ⟨b_isq_si_dim_mass, 1, 1⟩, ⟨b_isq_si_dim_time, (-2), 1⟩], ⟨.named "units::isq::si::joule", ⟨1, 1, 0⟩, "units::isq::si::joule", [.scaled ⟨1, 1, 0⟩ "units::isq::si::joule"], true, "J", some "units::isq::si::prefix"⟩⟩

/-- units::isq::si::dim_absorbed_dose -/
def d_isq_si_dim_absorbed_dose : Dim := .named ⟨"units::isq::si::dim_absorbed_dose", [⟨b_isq_si_dim_length, 2, 1⟩, ⟨b_isq_si_dim_time, (-2), 1⟩], ⟨.named "units::isq::si::gray", ⟨1, 1, 0⟩, "units::isq::si::gray", [.scaled ⟨1, 1, 0⟩ "units::isq::si::gray"], true, "Gy", some "units::isq::si::prefix"⟩⟩

/-- units::isq::si::dim_amount_of_substance -/
def d_isq_si_dim_amount_of_substance : Dim := .base b_isq_si_dim_amount_of_substance

/-- units::isq::si::dim_angular_velocity -/
def d_isq_si_dim_angular_velocity : Dim := .named ⟨"units::isq::si::dim_angular_velocity", [⟨b_dim_angle, 1, 1⟩, ⟨b_isq_si_dim_time, (-1), 1⟩], ⟨.named "units::isq::si::radian_per_second", ⟨1, 1, 0⟩, "units::isq::si::radian_per_second", [.scaled ⟨1, 1, 0⟩ "units::isq::si::radian_per_second"], true, "ω", none⟩⟩

/-- units::isq::si::dim_area -/
def d_isq_si_dim_area : Dim := .named ⟨"units::isq::si::dim_area", [⟨b_isq_si_dim_length, 2, 1⟩], ⟨.named "units::isq::si::square_metre", ⟨1, 1, 0⟩, "units::isq::si::square_metre", [.scaled ⟨1, 1, 0⟩ "units::isq::si::square_metre"], false, "", none⟩⟩

/-- units::isq::si::dim_electric_current -/
def d_isq_si_dim_electric_current : Dim := .base b_isq_si_dim_electric_current

/-- units::isq::si::dim_electric_charge -/
def d_isq_si_dim_electric_charge : Dim := .named ⟨"units::isq::si::dim_electric_charge", [⟨b_isq_si_dim_electric_current, 1, 1⟩, ⟨b_isq_si_dim_time, 1, 1⟩], ⟨.named "units::isq::si::coulomb", ⟨1, 1, 0⟩, "units::isq::si::coulomb", [.scaled ⟨1, 1, 0⟩ "units::isq::si::coulomb"], true, "C", some "units::isq::si::prefix"⟩⟩

/-- units::isq::si::dim_power -/
def d_isq_si_dim_power : Dim := .named ⟨"units::isq::si::dim_power", [⟨b_isq_si_dim_length, 2, 1⟩, ⟨b_isq_si_dim_mass, 1, 1⟩, ⟨b_isq_si_dim_time, (-3), 1⟩], ⟨.named "units::isq::si::watt", ⟨1, 1, 0⟩, "units::isq::si::watt", [.scaled ⟨1, 1, 0⟩ "units::isq::si::watt"], true, "W", some "units::isq::si::prefix"⟩⟩

/-- units::isq::si::dim_voltage -/
def d_isq_si_dim_voltage : Dim := .named ⟨"units::isq::si::dim_voltage", [⟨b_isq_si_dim_electric_current, (-1), 1⟩, ⟨b_isq_si_dim_length, 2, 1⟩, ⟨b_isq_si_dim_mass, 1, 1⟩, ⟨b_isq_si_dim_time, (-3), 1⟩], ⟨.named "units::isq::si::volt", ⟨1, 1, 0⟩, "units::isq::si::volt", [.scaled ⟨1, 1, 0⟩ "units::isq::si::volt"], true, "V", some "units::isq::si::prefix"⟩⟩

/-- units::isq::si::dim_capacitance -/
def d_isq_si_dim_capacitance : Dim := .named ⟨"units::isq::si::dim_capacitance", [⟨b_isq_si_dim_electric_current, 2, 1⟩, ⟨b_isq_si_dim_length, (-2), 1⟩, ⟨b_isq_si_dim_mass, (-1), 1⟩, ⟨b_isq_si_dim_time, 4, 1⟩], ⟨.named "units::isq::si::farad", ⟨1, 1, 0⟩, "units::isq::si::farad", [.scaled ⟨1, 1, 0⟩ "units::isq::si::farad"], true, "F", some "units::isq::si::prefix"⟩⟩

/-- units::isq::si::dim_catalytic_activity -/
def d_isq_si_dim_catalytic_activity : Dim := .named ⟨"units::isq::si::dim_catalytic_activity", [⟨b_isq_si_dim_amount_of_substance, 1, 1⟩, ⟨b_isq_si_dim_time, (-1), 1⟩], ⟨.named "units::isq::si::katal", ⟨1, 1, 0⟩, "units::isq::si::katal", [.scaled ⟨1, 1, 0⟩ "units::isq::si::katal"], true, "kat", some "units::isq::si::prefix"⟩⟩

/-- units::isq::si::cgs::dim_length -/
def d_isq_si_cgs_dim_length : Dim := .base b_isq_si_cgs_dim_length

/-- units::isq::si::cgs::dim_speed -/
def d_isq_si_cgs_dim_speed : Dim := .named ⟨"units::isq::si::cgs::dim_speed", [⟨b_isq_si_cgs_dim_length, 1, 1⟩, ⟨b_isq_si_dim_time, (-1), 1⟩], ⟨.named "units::isq::si::cgs::centimetre_per_second", ⟨1, 1, 0⟩, "units::isq::si::cgs::centimetre_per_second", [.scaled ⟨1, 1, 0⟩ "units::isq::si::cgs::centimetre_per_second"], false, "", none⟩⟩

/-- units::isq::si::cgs::dim_acceleration -/
def d_isq_si_cgs_dim_acceleration : Dim := .named ⟨"units::isq::si::cgs::dim_acceleration", [⟨b_isq_si_cgs_dim_length, 1, 1⟩, ⟨b_isq_si_dim_time, (-2), 1⟩], ⟨.named "units::isq::si::cgs::gal", ⟨1, 1, 0⟩, "units::isq::si::cgs::gal", [.scaled ⟨1, 1, 0⟩ "units::isq::si::cgs::gal"], true, "Gal", some "units::isq::si::prefix"⟩⟩

/-- units::isq::si::cgs::dim_area -/
def d_isq_si_cgs_dim_area : Dim := .named ⟨"units::isq::si::cgs::dim_area", [⟨b_isq_si_cgs_dim_length, 2, 1⟩], ⟨.named "units::isq::si::square_centimetre", ⟨1, 1, (-4)⟩, "units::isq::si::square_metre", [.scaled ⟨1, 1, (-4)⟩ "units::isq::si::square_metre"], false, "cm²", none⟩⟩

/-- units::isq::si::cgs::dim_mass -/
def d_isq_si_cgs_dim_mass : Dim := .base b_isq_si_cgs_dim_mass

/-- units::isq::si::cgs::dim_force -/
def d_isq_si_cgs_dim_force : Dim := .named ⟨"units::isq::si::cgs::dim_force", [⟨b_isq_si_cgs_dim_length, 1, 1⟩, ⟨b_isq_si_cgs_dim_mass, 1, 1⟩, ⟨b_isq_si_dim_time, (-2), 1⟩], ⟨.named "units::isq::si::cgs::dyne", ⟨1, 1, 0⟩, "units::isq::si::cgs::dyne", [.scaled ⟨1, 1, 0⟩ "units::isq::si::cgs::dyne"], true, "dyn", some "units::isq::si::prefix"⟩⟩

/-- units::isq::si::cgs::dim_energy -/
def d_isq_si_cgs_dim_energy : Dim := .named ⟨"units::isq::si::cgs::dim_energy", [⟨b_isq_si_cgs_dim_length, 2, 1⟩, ⟨b_isq_si_cgs_dim_mass, 1, 1⟩, ⟨b_isq_si_dim_time, (-2), 1⟩], ⟨.named "units::isq::si::cgs::erg", ⟨1, 1, 0⟩, "units::isq::si::cgs::erg", [.scaled ⟨1, 1, 0⟩ "units::isq::si::cgs::erg"], true, "erg", some "units::isq::si::prefix"⟩⟩

/-- units::isq::si::cgs::dim_power -/
def d_isq_si_cgs_dim_power : Dim := .named ⟨"units::isq::si::cgs::dim_power", [⟨b_isq_si_cgs_dim_length, 2, 1⟩, ⟨b_isq_si_cgs_dim_mass, 1, 1⟩, ⟨b_isq_si_dim_time, (-3), 1⟩], ⟨.named "units::isq::si::cgs::erg_per_second", ⟨1, 1, 0⟩, "units::isq::si::cgs::erg_per_second", [.scaled ⟨1, 1, 0⟩ "units::isq::si::cgs::erg_per_second"], false, "", none⟩⟩

/-- units::isq::si::cgs::dim_pressure -/
def d_isq_si_cgs_dim_pressure : Dim := .named ⟨"units::isq::si::cgs::dim_pressure", [⟨b_isq_si_cgs_dim_length, (-1), 1⟩, ⟨b_isq_si_cgs_dim_mass, 1, 1⟩, ⟨b_isq_si_dim_time, (-2), 1⟩], ⟨.named "units::isq::si::cgs::barye", ⟨1, 1, 0⟩, "units::isq::si::cgs::barye", [.scaled ⟨1, 1, 0⟩ "units::isq::si::cgs::barye"], true, "Ba", some "units::isq::si::prefix"⟩⟩

/-- units::isq::si::dim_charge_density -/
def d_isq_si_dim_charge_density : Dim := .named ⟨"units::isq::si::dim_charge_density", [⟨b_isq_si_dim_electric_current, 1, 1⟩, ⟨b_isq_si_dim_length, (-3), 1⟩, ⟨b_isq_si_dim_time, 1, 1⟩], ⟨.named "units::isq::si::coulomb_per_metre_cub", ⟨1, 1, 0⟩, "units::isq::si::coulomb_per_metre_cub", [.scaled ⟨1, 1, 0⟩ "units::isq::si::coulomb_per_metre_cub"], false, "", none⟩⟩

/-- units::isq::si::dim_surface_charge_density -/
def d_isq_si_dim_surface_charge_density : Dim := .named ⟨"units::isq::si::dim_surface_charge_density", [⟨b_isq_si_dim_electric_current, 1, 1⟩, ⟨b_isq_si_dim_length, (-2), 1⟩, ⟨b_isq_si_dim_time, 1, 1⟩], ⟨.named "units::isq::si::coulomb_per_metre_sq", ⟨1, 1, 0⟩, "units::isq::si::coulomb_per_metre_sq", [.scaled ⟨1, 1, 0⟩ "units::isq::si::coulomb_per_metre_sq"], false, "", none⟩⟩

/-- units::isq::si::dim_concentration -/
def d_isq_si_dim_concentration : Dim := .named ⟨"units::isq::si::dim_concentration", [⟨b_isq_si_dim_length, (-3), 1⟩, ⟨b_isq_si_dim_amount_of_substance, 1, 1⟩], ⟨.named "units::isq::si::mol_per_metre_cub", ⟨1, 1, 0⟩, "units::isq::si::mol_per_metre_cub", [.scaled ⟨1, 1, 0⟩ "units::isq::si::mol_per_metre_cub"], false, "", none⟩⟩

/-- units::isq::si::dim_resistance -/
def d_isq_si_dim_resistance : Dim := .named ⟨"units::isq::si::dim_resistance", [⟨b_isq_si_dim_electric_current, (-2), 1⟩, ⟨b_isq_si_dim_length, 2, 1⟩, ⟨b_isq_si_dim_mass, 1, 1⟩, ⟨b_isq_si_dim_time, (-3), 1⟩], ⟨.named "units::isq::si::ohm", ⟨1, 1, 0⟩, "units::isq::si::ohm", [.scaled ⟨1, 1, 0⟩ "units::isq::si::ohm"], true, "Ω", some "units::isq::si::prefix"⟩⟩

/-- units::isq::si::dim_conductance -/
def d_isq_si_dim_conductance : Dim := .named ⟨"units::isq::si::dim_conductance", [⟨b_isq_si_dim_electric_current, 2, 1⟩, ⟨b_isq_si_dim_length, (-2), 1⟩, ⟨b_isq_si_dim_mass, (-1), 1⟩, ⟨b_isq_si_dim_time, 3, 1⟩], ⟨.named "units::isq::si::siemens", ⟨1, 1, 0⟩, "units::isq::si::siemens", [.scaled ⟨1, 1, 0⟩ "units::isq::si::siemens"], true, "S", some "units::isq::si::prefix"⟩⟩

/-- units::isq::si::dim_thermodynamic_temperature -/
def d_isq_si_dim_thermodynamic_temperature : Dim := .base b_isq_si_dim_thermodynamic_temperature

/-- units::isq::si::dim_current_density -/
def d_isq_si_dim_current_density : Dim := .named ⟨"units::isq::si::dim_current_density", [⟨b_isq_si_dim_electric_current, 1, 1⟩, ⟨b_isq_si_dim_length, (-2), 1⟩], ⟨.named "units::isq::si::ampere_per_metre_sq", ⟨1, 1, 0⟩, "units::isq::si::ampere_per_metre_sq", [.scaled ⟨1, 1, 0⟩ "units::isq::si::ampere_per_metre_sq"], false, "", none⟩⟩

/-- units::isq::si::dim_density -/
def d_isq_si_dim_density : Dim := .named ⟨"units::isq::si::dim_density", [⟨b_isq_si_dim_length, (-3), 1⟩, ⟨b_isq_si_dim_mass, 1, 1⟩], ⟨.named "units::isq::si::kilogram_per_metre_cub", ⟨1, 1, 0⟩, "units::isq::si::kilogram_per_metre_cub", [.scaled ⟨1, 1, 0⟩ "units::isq::si::kilogram_per_metre_cub"], false, "", none⟩⟩

/-- units::isq::si::dim_pressure -/
def d_isq_si_dim_pressure : Dim := .named ⟨"units::isq::si::dim_pressure", [⟨b_isq_si_dim_length, (-1), 1⟩, ⟨b_isq_si_dim_mass, 1, 1⟩, ⟨b_isq_si_dim_time, (-2), 1⟩], ⟨.named "units::isq::si::pascal", ⟨1, 1, 0⟩, "units::isq::si::pascal", [.scaled ⟨1, 1, 0⟩ "units::isq::si::pascal"], true, "Pa", some "units::isq::si::prefix"⟩⟩

/-- units::isq::si::dim_dynamic_viscosity -/
def d_isq_si_dim_dynamic_viscosity : Dim := .named ⟨"units::isq::si::dim_dynamic_viscosity", [⟨b_isq_si_dim_length, (-1), 1⟩, ⟨b_isq_si_dim_mass, 1, 1⟩, ⟨b_isq_si_dim_time, (-1), 1⟩], ⟨.named "units::isq::si::pascal_second", ⟨1, 1, 0⟩, "units::isq::si::pascal_second", [.scaled ⟨1, 1, 0⟩ "units::isq::si::pascal_second"], false, "", none⟩⟩

/-- units::isq::si::dim_electric_field_strength -/
def d_isq_si_dim_electric_field_strength : Dim := .named ⟨"units::isq::si::dim_electric_field_strength", [⟨b_isq_si_dim_electric_current, (-1), 1⟩, ⟨b_isq_si_dim_length, 1, 1⟩, ⟨b_isq_si_dim_mass, 1, 1⟩, ⟨b_isq_si_dim_time, (-3), 1⟩], ⟨.named "units::isq::si::volt_per_metre", ⟨1, 1, 0⟩, "units::isq::si::volt_per_metre", [.scaled ⟨1, 1, 0⟩ "units::isq::si::volt_per_metre"], false, "", none⟩⟩

/-- units::isq::si::dim_volume -/
def d_isq_si_dim_volume : Dim := .named ⟨"units::isq::si::dim_volume", [⟨b_isq_si_dim_length, 3, 1⟩], ⟨.named "units::isq::si::cubic_metre", ⟨1, 1, 0⟩, "units::isq::si::cubic_metre", [.scaled ⟨1, 1, 0⟩ "units::isq::si::cubic_metre"], false, "", none⟩⟩

/-- units::isq::si::dim_energy_density -/
def d_isq_si_dim_energy_density : Dim := .named ⟨"units::isq::si::dim_energy_density", [⟨b_isq_si_dim_length, (-1), 1⟩, ⟨b_isq_si_dim_mass, 1, 1⟩, ⟨b_isq_si_dim_time, (-2), 1⟩], ⟨.named "units::isq::si::joule_per_metre_cub", ⟨1, 1, 0⟩, "units::isq::si::joule_per_metre_cub", [.scaled ⟨1, 1, 0⟩ "units::isq::si::joule_per_metre_cub"], false, "", none⟩⟩

/-- units::isq::si::fps::dim_length -/
def d_isq_si_fps_dim_length : Dim := .base b_isq_si_fps_dim_length

/-- units::isq::si::fps::dim_speed -/
def d_isq_si_fps_dim_speed : Dim := .named ⟨"units::isq::si::fps::dim_speed", [⟨b_isq_si_fps_dim_length, 1, 1⟩, ⟨b_isq_si_dim_time, (-1), 1⟩], ⟨.named "units::isq::si::fps::foot_per_second", ⟨1, 1, 0⟩, "units::isq::si::fps::foot_per_second", [.scaled ⟨1, 1, 0⟩ "units::isq::si::fps::foot_per_second"], false, "", none⟩⟩

/-- units::isq::si::fps::dim_acceleration -/
def d_isq_si_fps_dim_acceleration : Dim := .named ⟨"units::isq::si::fps::dim_acceleration", [⟨b_isq_si_fps_dim_length, 1, 1⟩, ⟨b_isq_si_dim_time, (-2), 1⟩], ⟨.named "units::isq::si::fps::foot_per_second_sq", ⟨1, 1, 0⟩, "units::isq::si::fps::foot_per_second_sq", [.scaled ⟨1, 1, 0⟩ "units::isq::si::fps::foot_per_second_sq"], false, "", none⟩⟩

/-- units::isq::si::fps::dim_area -/
def d_isq_si_fps_dim_area : Dim := .named ⟨"units::isq::si::fps::dim_area", [⟨b_isq_si_fps_dim_length, 2, 1⟩], ⟨.named "units::isq::si::fps::square_foot", ⟨1, 1, 0⟩, "units::isq::si::fps::square_foot", [.scaled ⟨1, 1, 0⟩ "units::isq::si::fps::square_foot"], false, "", none⟩⟩

/-- units::isq::si::fps::dim_mass -/
def d_isq_si_fps_dim_mass : Dim := .base b_isq_si_fps_dim_mass

/-- units::isq::si::fps::dim_density -/
def d_isq_si_fps_dim_density : Dim := .named ⟨"units::isq::si::fps::dim_density", [⟨b_isq_si_fps_dim_length, (-3), 1⟩, ⟨b_isq_si_fps_dim_mass, 1, 1⟩], ⟨.named "units::isq::si::fps::pound_per_foot_cub", ⟨1, 1, 0⟩, "units::isq::si::fps::pound_per_foot_cub", [.scaled ⟨1, 1, 0⟩ "units::isq::si::fps::pound_per_foot_cub"], false, "", none⟩⟩

/-- units::isq::si::fps::dim_force -/
def d_isq_si_fps_dim_force : Dim := .named ⟨"units::isq::si::fps::dim_force", [⟨b_isq_si_fps_dim_length, 1, 1⟩, ⟨b_isq_si_fps_dim_mass, 1, 1⟩, ⟨b_isq_si_dim_time, (-2), 1⟩], ⟨.named "units::isq::si::fps::poundal", ⟨1, 1, 0⟩, "units::isq::si::fps::poundal", [.scaled ⟨1, 1, 0⟩ "units::isq::si::fps::poundal"], true, "pdl", none⟩⟩

/-- units::isq::si::fps::dim_energy -/
def d_isq_si_fps_dim_energy : Dim := .named ⟨"units::isq::si::fps::dim_energy", [⟨b_isq_si_fps_dim_length, 2, 1⟩, ⟨b_isq_si_fps_dim_mass, 1, 1⟩, ⟨b_isq_si_dim_time, (-2), 1⟩], ⟨.named "units::isq::si::fps::foot_poundal", ⟨1, 1, 0⟩, "units::isq::si::fps::foot_poundal", [.scaled ⟨1, 1, 0⟩ "units::isq::si::fps::foot_poundal"], false, "", none⟩⟩

/-- units::isq::si::fps::dim_power -/
def d_isq_si_fps_dim_power : Dim := .named ⟨"units::isq::si::fps::dim_power", [⟨b_isq_si_fps_dim_length, 2, 1⟩, ⟨b_isq_si_fps_dim_mass, 1, 1⟩, ⟨b_isq_si_dim_time, (-3), 1⟩], ⟨.named "units::isq::si::fps::foot_poundal_per_second", ⟨1, 1, 0⟩, "units::isq::si::fps::foot_poundal_per_second", [.scaled ⟨1, 1, 0⟩ "units::isq::si::fps::foot_poundal_per_second"], false, "", none⟩⟩

/-- units::isq::si::fps::dim_pressure -/
def d_isq_si_fps_dim_pressure : Dim := .named ⟨"units::isq::si::fps::dim_pressure", [⟨b_isq_si_fps_dim_length, (-1), 1⟩, ⟨b_isq_si_fps_dim_mass, 1, 1⟩, ⟨b_isq_si_dim_time, (-2), 1⟩], ⟨.named "units::isq::si::fps::poundal_per_foot_sq", ⟨1, 1, 0⟩, "units::isq::si::fps::poundal_per_foot_sq", [.scaled ⟨1, 1, 0⟩ "units::isq::si::fps::poundal_per_foot_sq"], false, "", none⟩⟩

/-- units::isq::si::fps::dim_volume -/
def d_isq_si_fps_dim_volume : Dim := .named ⟨"units::isq::si::fps::dim_volume", [⟨b_isq_si_fps_dim_length, 3, 1⟩], ⟨.named "units::isq::si::fps::cubic_foot", ⟨1, 1, 0⟩, "units::isq::si::fps::cubic_foot", [.scaled ⟨1, 1, 0⟩ "units::isq::si::fps::cubic_foot"], false, "", none⟩⟩

/-- units::isq::si::dim_heat_capacity -/
def d_isq_si_dim_heat_capacity : Dim := .named ⟨"units::isq::si::dim_heat_capacity", [⟨b_isq_si_dim_length, 2, 1⟩, ⟨b_isq_si_dim_mass, 1, 1⟩, ⟨b_isq_si_dim_time, (-2), 1⟩, ⟨b_isq_si_dim_thermodynamic_temperature, (-1), 1⟩], ⟨.named "units::isq::si::joule_per_kelvin", ⟨1, 1, 0⟩, "units::isq::si::joule_per_kelvin", [.scaled ⟨1, 1, 0⟩ "units::isq::si::joule_per_kelvin"], false, "", none⟩⟩

/-- units::isq::si::dim_specific_heat_capacity -/
def d_isq_si_dim_specific_heat_capacity : Dim := .named ⟨"units::isq::si::dim_specific_heat_capacity", [⟨b_isq_si_dim_length, 2, 1⟩, ⟨b_isq_si_dim_time, (-2), 1⟩, ⟨b_isq_si_dim_thermodynamic_temperature, (-1), 1⟩], ⟨.named "units::isq::si::joule_per_kilogram_kelvin", ⟨1, 1, 0⟩, "units::isq::si::joule_per_kilogram_kelvin", [.scaled ⟨1, 1, 0⟩ "units::isq::si::joule_per_kilogram_kelvin"], false, "", none⟩⟩

/-- units::isq::si::dim_molar_heat_capacity -/
def d_isq_si_dim_molar_heat_capacity : Dim := .named ⟨"units::isq::si::dim_molar_heat_capacity", [⟨b_isq_si_dim_length, 2, 1⟩, ⟨b_isq_si_dim_mass, 1, 1⟩, ⟨b_isq_si_dim_amount_of_substance, (-1), 1⟩, ⟨b_isq_si_dim_time, (-2), 1⟩, ⟨b_isq_si_dim_thermodynamic_temperature, (-1), 1⟩], ⟨.named "units::isq::si::joule_per_mole_kelvin", ⟨1, 1, 0⟩, "units::isq::si::joule_per_mole_kelvin", [.scaled ⟨1, 1, 0⟩ "units::isq::si::joule_per_mole_kelvin"], false, "", none⟩⟩

/-- units::isq::si::dim_magnetic_induction -/
def d_isq_si_dim_magnetic_induction : Dim := .named ⟨"units::isq::si::dim_magnetic_induction", [⟨b_isq_si_dim_electric_current, (-1), 1⟩, ⟨b_isq_si_dim_mass, 1, 1⟩, ⟨b_isq_si_dim_time, (-2), 1⟩], ⟨.named "units::isq::si::tesla", ⟨1, 1, 0⟩, "units::isq::si::tesla", [.scaled ⟨1, 1, 0⟩ "units::isq::si::tesla"], true, "T", some "units::isq::si::prefix"⟩⟩

/-- units::isq::si::dim_magnetic_flux -/
def d_isq_si_dim_magnetic_flux : Dim := .named ⟨"units::isq::si::dim_magnetic_flux", [⟨b_isq_si_dim_electric_current, (-1), 1⟩, ⟨b_isq_si_dim_length, 2, 1⟩, ⟨b_isq_si_dim_mass, 1, 1⟩, ⟨b_isq_si_dim_time, (-2), 1⟩], ⟨.named "units::isq::si::weber", ⟨1, 1, 0⟩, "units::isq::si::weber", [.scaled ⟨1, 1, 0⟩ "units::isq::si::weber"], true, "Wb", some "units::isq::si::prefix"⟩⟩

/-- units::isq::si::dim_inductance -/
def d_isq_si_dim_inductance : Dim := .named ⟨"units::isq::si::dim_inductance", [⟨b_isq_si_dim_electric_current, (-2), 1⟩, ⟨b_isq_si_dim_length, 2, 1⟩, ⟨b_isq_si_dim_mass, 1, 1⟩, ⟨b_isq_si_dim_time, (-2), 1⟩], ⟨.named "units::isq::si::henry", ⟨1, 1, 0⟩, "units::isq::si::henry", [.scaled ⟨1, 1, 0⟩ "units::isq::si::henry"], true, "H", some "units::isq::si::prefix"⟩⟩

/-- units::isq::si::dim_luminous_intensity -/
def d_isq_si_dim_luminous_intensity : Dim := .base b_isq_si_dim_luminous_intensity

/-- units::isq::si::dim_luminance -/
def d_isq_si_dim_luminance : Dim := .named ⟨"units::isq::si::dim_luminance", [⟨b_isq_si_dim_luminous_intensity, 1, 1⟩, ⟨b_isq_si_dim_length, (-2), 1⟩], ⟨.named "units::isq::si::candela_per_metre_sq", ⟨1, 1, 0⟩, "units::isq::si::candela_per_metre_sq", [.scaled ⟨1, 1, 0⟩ "units::isq::si::candela_per_metre_sq"], false, "", none⟩⟩

/-- units::isq::si::dim_molar_energy -/
def d_isq_si_dim_molar_energy : Dim := .named ⟨"units::isq::si::dim_molar_energy", [⟨b_isq_si_dim_length, 2, 1⟩, ⟨b_isq_si_dim_mass, 1, 1⟩, ⟨b_isq_si_dim_amount_of_substance, (-1), 1⟩, ⟨b_isq_si_dim_time, (-2), 1⟩], ⟨.named "units::isq::si::joule_per_mole", ⟨1, 1, 0⟩, "units::isq::si::joule_per_mole", [.scaled ⟨1, 1, 0⟩ "units::isq::si::joule_per_mole"], false, "", none⟩⟩

/-- units::isq::si::dim_momentum -/
def d_isq_si_dim_momentum : Dim := .named ⟨"units::isq::si::dim_momentum", [⟨b_isq_si_dim_length, 1, 1⟩, ⟨b_isq_si_dim_mass, 1, 1⟩, ⟨b_isq_si_dim_time, (-1), 1⟩], ⟨.named "units::isq::si::kilogram_metre_per_second", ⟨1, 1, 0⟩, "units::isq::si::kilogram_metre_per_second", [.scaled ⟨1, 1, 0⟩ "units::isq::si::kilogram_metre_per_second"], false, "", none⟩⟩

/-- units::isq::si::dim_permeability -/
def d_isq_si_dim_permeability : Dim := .named ⟨"units::isq::si::dim_permeability", [⟨b_isq_si_dim_electric_current, (-2), 1⟩, ⟨b_isq_si_dim_length, 1, 1⟩, ⟨b_isq_si_dim_mass, 1, 1⟩, ⟨b_isq_si_dim_time, (-2), 1⟩], ⟨.named "units::isq::si::henry_per_metre", ⟨1, 1, 0⟩, "units::isq::si::henry_per_metre", [.scaled ⟨1, 1, 0⟩ "units::isq::si::henry_per_metre"], false, "", none⟩⟩

/-- units::isq::si::dim_permittivity -/
def d_isq_si_dim_permittivity : Dim := .named ⟨"units::isq::si::dim_permittivity", [⟨b_isq_si_dim_electric_current, 2, 1⟩, ⟨b_isq_si_dim_length, (-3), 1⟩, ⟨b_isq_si_dim_mass, (-1), 1⟩, ⟨b_isq_si_dim_time, 4, 1⟩], ⟨.named "units::isq::si::farad_per_metre", ⟨1, 1, 0⟩, "units::isq::si::farad_per_metre", [.scaled ⟨1, 1, 0⟩ "units::isq::si::farad_per_metre"], false, "", none⟩⟩

/-- units::isq::si::dim_radioactivity -/
def d_isq_si_dim_radioactivity : Dim := .named ⟨"units::isq::si::dim_radioactivity", [⟨b_isq_si_dim_time, (-1), 1⟩], ⟨.named "units::isq::si::becquerel", ⟨1, 1, 0⟩, "units::isq::si::becquerel", [.scaled ⟨1, 1, 0⟩ "units::isq::si::becquerel"], true, "Bq", some "units::isq::si::prefix"⟩⟩

/-- units::isq::si::dim_surface_tension -/
def d_isq_si_dim_surface_tension : Dim := .named ⟨"units::isq::si::dim_surface_tension", [⟨b_isq_si_dim_mass, 1, 1⟩, ⟨b_isq_si_dim_time, (-2), 1⟩], ⟨.named "units::isq::si::newton_per_metre", ⟨1, 1, 0⟩, "units::isq::si::newton_per_metre", [.scaled ⟨1, 1, 0⟩ "units::isq::si::newton_per_metre"], false, "", none⟩⟩

/-- units::isq::si::dim_thermal_conductivity -/
def d_isq_si_dim_thermal_conductivity : Dim := .named ⟨"units::isq::si::dim_thermal_conductivity", [⟨b_isq_si_dim_length, 1, 1⟩, ⟨b_isq_si_dim_mass, 1, 1⟩, ⟨b_isq_si_dim_time, (-3), 1⟩, ⟨b_isq_si_dim_thermodynamic_temperature, (-1), 1⟩], ⟨.named "units::isq::si::watt_per_metre_kelvin", ⟨1, 1, 0⟩, "units::isq::si::watt_per_metre_kelvin", [.scaled ⟨1, 1, 0⟩ "units::isq::si::watt_per_metre_kelvin"], false, "", none⟩⟩

/-- units::isq::si::dim_torque -/
def d_isq_si_dim_torque : Dim := .named ⟨"units::isq::si::dim_torque", [⟨b_dim_angle, (-1), 1⟩, ⟨b_isq_si_dim_length, 2, 1⟩, ⟨b_isq_si_dim_mass, 1, 1⟩, ⟨b_isq_si_dim_time, (-2), 1⟩], ⟨.named "units::isq::si::newton_metre_per_radian", ⟨1, 1, 0⟩, "units::isq::si::newton_metre_per_radian", [.scaled ⟨1, 1, 0⟩ "units::isq::si::newton_metre_per_radian"], false, "", none⟩⟩

/-- Part 0 of `unitTable`. -/
def unitTable0 : List (URow) := [
  ⟨146, n!"units::isq::si::uscs", n!"mile", ⟨"units::isq::si::uscs::mile", ⟨.named "units::isq::si::uscs::mile", ⟨6336, 3937, 3⟩, "units::isq::si::metre", [.scaled ⟨6336, 3937, 3⟩ "units::isq::si::metre"], true, "mi(us)", none⟩, "mi(us)"⟩⟩,
  ⟨146, n!"units::isq::si::uscs", n!"fathom", ⟨"units::isq::si::uscs::fathom", ⟨.named "units::isq::si::uscs::fathom", ⟨72, 3937, 2⟩, "units::isq::si::metre", [.scaled ⟨72, 3937, 2⟩ "units::isq::si::metre"], true, "fathom(us)", none⟩, "fathom(us)"⟩⟩,
  ⟨146, n!"units::isq::si::uscs", n!"foot", ⟨"units::isq::si::uscs::foot", ⟨.named "units::isq::si::uscs::foot", ⟨12, 3937, 2⟩, "units::isq::si::metre", [.scaled ⟨12, 3937, 2⟩ "units::isq::si::metre"], true, "ft(us)", none⟩, "ft(us)"⟩⟩,
  ⟨144, n!"units::isq::si::typographic", n!"point_prn", ⟨"units::isq::si::typographic::point_prn", ⟨.named "units::isq::si::typographic::point_prn", ⟨1757299, 5, (-9)⟩, "units::isq::si::metre", [.scaled ⟨1757299, 5, (-9)⟩ "units::isq::si::metre"], true, "point(prn)", none⟩, "point(prn)"⟩⟩,
  ⟨144, n!"units::isq::si::typographic", n!"point_comp", ⟨"units::isq::si::typographic::point_comp", ⟨.named "units::isq::si::typographic::point_comp", ⟨1763889, 5, (-9)⟩, "units::isq::si::metre", [.scaled ⟨1763889, 5, (-9)⟩ "units::isq::si::metre"], true, "point(comp)", none⟩, "point(comp)"⟩⟩,
  ⟨144, n!"units::isq::si::typographic", n!"pica_prn", ⟨"units::isq::si::typographic::pica_prn", ⟨.named "units::isq::si::typographic::pica_prn", ⟨2108759, 5, (-8)⟩, "units::isq::si::metre", [.scaled ⟨2108759, 5, (-8)⟩ "units::isq::si::metre"], true, "pica(prn)", none⟩, "pica(prn)"⟩⟩,
  ⟨144, n!"units::isq::si::typographic", n!"pica_comp", ⟨"units::isq::si::typographic::pica_comp", ⟨.named "units::isq::si::typographic::pica_comp", ⟨4233333, 1, (-9)⟩, "units::isq::si::metre", [.scaled ⟨4233333, 1, (-9)⟩ "units::isq::si::metre"], true, "pica(comp)", none⟩, "pica(comp)"⟩⟩,
  ⟨142, n!"units::isq::si", n!"newton_metre_per_radian", ⟨"units::isq::si::newton_metre_per_radian", ⟨.named "units::isq::si::newton_metre_per_radian", ⟨1, 1, 0⟩, "units::isq::si::newton_metre_per_radian", [.scaled ⟨1, 1, 0⟩ "units::isq::si::newton_metre_per_radian"], false, "", none⟩, ""⟩⟩,
  ⟨141, n!"units::isq::si", n!"watt_per_metre_kelvin", ⟨"units::isq::si::watt_per_metre_kelvin", ⟨.named "units::isq::si::watt_per_metre_kelvin", ⟨1, 1, 0⟩, "units::isq::si::watt_per_metre_kelvin", [.scaled ⟨1, 1, 0⟩ "units::isq::si::watt_per_metre_kelvin"], false, "", none⟩, ""⟩⟩,
  ⟨140, n!"units::isq::si", n!"newton_per_metre", ⟨"units::isq::si::newton_per_metre", ⟨.named "units::isq::si::newton_per_metre", ⟨1, 1, 0⟩, "units::isq::si::newton_per_metre", [.scaled ⟨1, 1, 0⟩ "units::isq::si::newton_per_metre"], false, "", none⟩, ""⟩⟩,
  ⟨139, n!"units::isq::si", n!"yottabecquerel", ⟨"units::isq::si::yottabecquerel", ⟨.named "units::isq::si::yottabecquerel", ⟨1, 1, 24⟩, "units::isq::si::becquerel", [.scaled ⟨1, 1, 24⟩ "units::isq::si::becquerel"], true, "YBq", none⟩, "YBq"⟩⟩,
  ⟨139, n!"units::isq::si", n!"zettabecquerel", ⟨"units::isq::si::zettabecquerel", ⟨.named "units::isq::si::zettabecquerel", ⟨1, 1, 21⟩, "units::isq::si::becquerel", [.scaled ⟨1, 1, 21⟩ "units::isq::si::becquerel"], true, "ZBq", none⟩, "ZBq"⟩⟩,
  ⟨139, n!"units::isq::si", n!"exabecquerel", ⟨"units::isq::si::exabecquerel", ⟨.named "units::isq::si::exabecquerel", ⟨1, 1, 18⟩, "units::isq::si::becquerel", [.scaled ⟨1, 1, 18⟩ "units::isq::si::becquerel"], true, "EBq", none⟩, "EBq"⟩⟩,
  ⟨139, n!"units::isq::si", n!"petabecquerel", ⟨"units::isq::si::petabecquerel", ⟨.named "units::isq::si::petabecquerel", ⟨1, 1, 15⟩, "units::isq::si::becquerel", [.scaled ⟨1, 1, 15⟩ "units::isq::si::becquerel"], true, "PBq", none⟩, "PBq"⟩⟩,
  ⟨139, n!"units::isq::si", n!"terabecquerel", ⟨"units::isq::si::terabecquerel", ⟨.named "units::isq::si::terabecquerel", ⟨1, 1, 12⟩, "units::isq::si::becquerel", [.scaled ⟨1, 1, 12⟩ "units::isq::si::becquerel"], true, "TBq", none⟩, "TBq"⟩⟩,
  ⟨139, n!"units::isq::si", n!"gigabecquerel", ⟨"units::isq::si::gigabecquerel", ⟨.named "units::isq::si::gigabecquerel", ⟨1, 1, 9⟩, "units::isq::si::becquerel", [.scaled ⟨1, 1, 9⟩ "units::isq::si::becquerel"], true, "GBq", none⟩, "GBq"⟩⟩,
  ⟨139, n!"units::isq::si", n!"megabecquerel", ⟨"units::isq::si::megabecquerel", ⟨.named "units::isq::si::megabecquerel", ⟨1, 1, 6⟩, "units::isq::si::becquerel", [.scaled ⟨1, 1, 6⟩ "units::isq::si::becquerel"], true, "MBq", none⟩, "MBq"⟩⟩,
  ⟨139, n!"units::isq::si", n!"kilobecquerel", ⟨"units::isq::si::kilobecquerel", ⟨.named "units::isq::si::kilobecquerel", ⟨1, 1, 3⟩, "units::isq::si::becquerel", [.scaled ⟨1, 1, 3⟩ "units::isq::si::becquerel"], true, "kBq", none⟩, "kBq"⟩⟩,
  ⟨139, n!"units::isq::si", n!"hectobecquerel", ⟨"units::isq::si::hectobecquerel", ⟨.named "units::isq::si::hectobecquerel", ⟨1, 1, 2⟩, "units::isq::si::becquerel", [.scaled ⟨1, 1, 2⟩ "units::isq::si::becquerel"], true, "hBq", none⟩, "hBq"⟩⟩,
  ⟨139, n!"units::isq::si", n!"decabecquerel", ⟨"units::isq::si::decabecquerel", ⟨.named "units::isq::si::decabecquerel", ⟨1, 1, 1⟩, "units::isq::si::becquerel", [.scaled ⟨1, 1, 1⟩ "units::isq::si::becquerel"], true, "daBq", none⟩, "daBq"⟩⟩,
  ⟨139, n!"units::isq::si", n!"decibecquerel", ⟨"units::isq::si::decibecquerel", ⟨.named "units::isq::si::decibecquerel", ⟨1, 1, (-1)⟩, "units::isq::si::becquerel", [.scaled ⟨1, 1, (-1)⟩ "units::isq::si::becquerel"], true, "dBq", none⟩, "dBq"⟩⟩,
  ⟨139, n!"units::isq::si", n!"centibecquerel", ⟨"units::isq::si::centibecquerel", ⟨.named "units::isq::si::centibecquerel", ⟨1, 1, (-2)⟩, "units::isq::si::becquerel", [.scaled ⟨1, 1, (-2)⟩ "units::isq::si::becquerel"], true, "cBq", none⟩, "cBq"⟩⟩,
  ⟨139, n!"units::isq::si", n!"millibecquerel", ⟨"units::isq::si::millibecquerel", ⟨.named "units::isq::si::millibecquerel", ⟨1, 1, (-3)⟩, "units::isq::si::becquerel", [.scaled ⟨1, 1, (-3)⟩ "units::isq::si::becquerel"], true, "mBq", none⟩, "mBq"⟩⟩,
  ⟨139, n!"units::isq::si", n!"microbecquerel", ⟨"units::isq::si::microbecquerel", ⟨.named "units::isq::si::microbecquerel", ⟨1, 1, (-6)⟩, "units::isq::si::becquerel", [.scaled ⟨1, 1, (-6)⟩ "units::isq::si::becquerel"], true, "µBq", none⟩, "uBq"⟩⟩,
  ⟨139, n!"units::isq::si", n!"nanobecquerel", ⟨"units::isq::si::nanobecquerel", ⟨.named "units::isq::si::nanobecquerel", ⟨1, 1, (-9)⟩, "units::isq::si::becquerel", [.scaled ⟨1, 1, (-9)⟩ "units::isq::si::becquerel"], true, "nBq", none⟩, "nBq"⟩⟩,
  ⟨139, n!"units::isq::si", n!"picobecquerel", ⟨"units::isq::si::picobecquerel", ⟨.named "units::isq::si::picobecquerel", ⟨1, 1, (-12)⟩, "units::isq::si::becquerel", [.scaled ⟨1, 1, (-12)⟩ "units::isq::si::becquerel"], true, "pBq", none⟩, "pBq"⟩⟩,
  ⟨139, n!"units::isq::si", n!"femtobecquerel", ⟨"units::isq::si::femtobecquerel", ⟨.named "units::isq::si::femtobecquerel", ⟨1, 1, (-15)⟩, "units::isq::si::becquerel", [.scaled ⟨1, 1, (-15)⟩ "units::isq::si::becquerel"], true, "fBq", none⟩, "fBq"⟩⟩,
  ⟨139, n!"units::isq::si", n!"attobecquerel", ⟨"units::isq::si::attobecquerel", ⟨.named "units::isq::si::attobecquerel", ⟨1, 1, (-18)⟩, "units::isq::si::becquerel", [.scaled ⟨1, 1, (-18)⟩ "units::isq::si::becquerel"], true, "aBq", none⟩, "aBq"⟩⟩,
  ⟨139, n!"units::isq::si", n!"zeptobecquerel", ⟨"units::isq::si::zeptobecquerel", ⟨.named "units::isq::si::zeptobecquerel", ⟨1, 1, (-21)⟩, "units::isq::si::becquerel", [.scaled ⟨1, 1, (-21)⟩ "units::isq::si::becquerel"], true, "zBq", none⟩, "zBq"⟩⟩,
  ⟨139, n!"units::isq::si", n!"yoctobecquerel", ⟨"units::isq::si::yoctobecquerel", ⟨.named "units::isq::si::yoctobecquerel", ⟨1, 1, (-24)⟩, "units::isq::si::becquerel", [.scaled ⟨1, 1, (-24)⟩ "units::isq::si::becquerel"], true, "yBq", none⟩, "yBq"⟩⟩,
  ⟨139, n!"units::isq::si", n!"becquerel", ⟨"units::isq::si::becquerel", ⟨.named "units::isq::si::becquerel", ⟨1, 1, 0⟩, "units::isq::si::becquerel", [.scaled ⟨1, 1, 0⟩ "units::isq::si::becquerel"], true, "Bq", some "units::isq::si::prefix"⟩, "Bq"⟩⟩,
  ⟨138, n!"units::isq::si", n!"farad_per_metre", ⟨"units::isq::si::farad_per_metre", ⟨.named "units::isq::si::farad_per_metre", ⟨1, 1, 0⟩, "units::isq::si::farad_per_metre", [.scaled ⟨1, 1, 0⟩ "units::isq::si::farad_per_metre"], false, "", none⟩, ""⟩⟩,
  ⟨137, n!"units::isq::si", n!"henry_per_metre", ⟨"units::isq::si::henry_per_metre", ⟨.named "units::isq::si::henry_per_metre", ⟨1, 1, 0⟩, "units::isq::si::henry_per_metre", [.scaled ⟨1, 1, 0⟩ "units::isq::si::henry_per_metre"], false, "", none⟩, ""⟩⟩,
  ⟨136, n!"units::isq::si", n!"kilogram_metre_per_second", ⟨"units::isq::si::kilogram_metre_per_second", ⟨.named "units::isq::si::kilogram_metre_per_second", ⟨1, 1, 0⟩, "units::isq::si::kilogram_metre_per_second", [.scaled ⟨1, 1, 0⟩ "units::isq::si::kilogram_metre_per_second"], false, "", none⟩, ""⟩⟩,
  ⟨135, n!"units::isq::si", n!"joule_per_mole", ⟨"units::isq::si::joule_per_mole", ⟨.named "units::isq::si::joule_per_mole", ⟨1, 1, 0⟩, "units::isq::si::joule_per_mole", [.scaled ⟨1, 1, 0⟩ "units::isq::si::joule_per_mole"], false, "", none⟩, ""⟩⟩,
  ⟨134, n!"units::isq::si", n!"candela_per_metre_sq", ⟨"units::isq::si::candela_per_metre_sq", ⟨.named "units::isq::si::candela_per_metre_sq", ⟨1, 1, 0⟩, "units::isq::si::candela_per_metre_sq", [.scaled ⟨1, 1, 0⟩ "units::isq::si::candela_per_metre_sq"], false, "", none⟩, ""⟩⟩,
  ⟨133, n!"units::isq::si", n!"yottacandela", ⟨"units::isq::si::yottacandela", ⟨.named "units::isq::si::yottacandela", ⟨1, 1, 24⟩, "units::isq::si::candela", [.scaled ⟨1, 1, 24⟩ "units::isq::si::candela"], true, "Ycd", none⟩, "Ycd"⟩⟩,
  ⟨133, n!"units::isq::si", n!"zettacandela", ⟨"units::isq::si::zettacandela", ⟨.named "units::isq::si::zettacandela", ⟨1, 1, 21⟩, "units::isq::si::candela", [.scaled ⟨1, 1, 21⟩ "units::isq::si::candela"], true, "Zcd", none⟩, "Zcd"⟩⟩,
  ⟨133, n!"units::isq::si", n!"exacandela", ⟨"units::isq::si::exacandela", ⟨.named "units::isq::si::exacandela", ⟨1, 1, 18⟩, "units::isq::si::candela", [.scaled ⟨1, 1, 18⟩ "units::isq::si::candela"], true, "Ecd", none⟩, "Ecd"⟩⟩,
  ⟨133, n!"units::isq::si", n!"petacandela", ⟨"units::isq::si::petacandela", ⟨.named "units::isq::si::petacandela", ⟨1, 1, 15⟩, "units::isq::si::candela", [.scaled ⟨1, 1, 15⟩ "units::isq::si::candela"], true, "Pcd", none⟩, "Pcd"⟩⟩]

/-- Part 1 of `unitTable`. -/
def unitTable1 : List (URow) := [
  ⟨133, n!"units::isq::si", n!"teracandela", ⟨"units::isq::si::teracandela", ⟨.named "units::isq::si::teracandela", ⟨1, 1, 12⟩, "units::isq::si::candela", [.scaled ⟨1, 1, 12⟩ "units::isq::si::candela"], true, "Tcd", none⟩, "Tcd"⟩⟩,
  ⟨133, n!"units::isq::si", n!"gigacandela", ⟨"units::isq::si::gigacandela", ⟨.named "units::isq::si::gigacandela", ⟨1, 1, 9⟩, "units::isq::si::candela", [.scaled ⟨1, 1, 9⟩ "units::isq::si::candela"], true, "Gcd", none⟩, "Gcd"⟩⟩,
  ⟨133, n!"units::isq::si", n!"megacandela", ⟨"units::isq::si::megacandela", ⟨.named "units::isq::si::megacandela", ⟨1, 1, 6⟩, "units::isq::si::candela", [.scaled ⟨1, 1, 6⟩ "units::isq::si::candela"], true, "Mcd", none⟩, "Mcd"⟩⟩,
  ⟨133, n!"units::isq::si", n!"kilocandela", ⟨"units::isq::si::kilocandela", ⟨.named "units::isq::si::kilocandela", ⟨1, 1, 3⟩, "units::isq::si::candela", [.scaled ⟨1, 1, 3⟩ "units::isq::si::candela"], true, "kcd", none⟩, "kcd"⟩⟩,
  ⟨133, n!"units::isq::si", n!"hectocandela", ⟨"units::isq::si::hectocandela", ⟨.named "units::isq::si::hectocandela", ⟨1, 1, 2⟩, "units::isq::si::candela", [.scaled ⟨1, 1, 2⟩ "units::isq::si::candela"], true, "hcd", none⟩, "hcd"⟩⟩,
  ⟨133, n!"units::isq::si", n!"decacandela", ⟨"units::isq::si::decacandela", ⟨.named "units::isq::si::decacandela", ⟨1, 1, 1⟩, "units::isq::si::candela", [.scaled ⟨1, 1, 1⟩ "units::isq::si::candela"], true, "dacd", none⟩, "dacd"⟩⟩,
  ⟨133, n!"units::isq::si", n!"decicandela", ⟨"units::isq::si::decicandela", ⟨.named "units::isq::si::decicandela", ⟨1, 1, (-1)⟩, "units::isq::si::candela", [.scaled ⟨1, 1, (-1)⟩ "units::isq::si::candela"], true, "dcd", none⟩, "dcd"⟩⟩,
  ⟨133, n!"units::isq::si", n!"centicandela", ⟨"units::isq::si::centicandela", ⟨.named "units::isq::si::centicandela", ⟨1, 1, (-2)⟩, "units::isq::si::candela", [.scaled ⟨1, 1, (-2)⟩ "units::isq::si::candela"], true, "ccd", none⟩, "ccd"⟩⟩,
  ⟨133, n!"units::isq::si", n!"millicandela", ⟨"units::isq::si::millicandela", ⟨.named "units::isq::si::millicandela", ⟨1, 1, (-3)⟩, "units::isq::si::candela", [.scaled ⟨1, 1, (-3)⟩ "units::isq::si::candela"], true, "mcd", none⟩, "mcd"⟩⟩,
  ⟨133, n!"units::isq::si", n!"microcandela", ⟨"units::isq::si::microcandela", ⟨.named "units::isq::si::microcandela", ⟨1, 1, (-6)⟩, "units::isq::si::candela", [.scaled ⟨1, 1, (-6)⟩ "units::isq::si::candela"], true, "µcd", none⟩, "ucd"⟩⟩,
  ⟨133, n!"units::isq::si", n!"nanocandela", ⟨"units::isq::si::nanocandela", ⟨.named "units::isq::si::nanocandela", ⟨1, 1, (-9)⟩, "units::isq::si::candela", [.scaled ⟨1, 1, (-9)⟩ "units::isq::si::candela"], true, "ncd", none⟩, "ncd"⟩⟩,
  ⟨133, n!"units::isq::si", n!"picocandela", ⟨"units::isq::si::picocandela", ⟨.named "units::isq::si::picocandela", ⟨1, 1, (-12)⟩, "units::isq::si::candela", [.scaled ⟨1, 1, (-12)⟩ "units::isq::si::candela"], true, "pcd", none⟩, "pcd"⟩⟩,
  ⟨133, n!"units::isq::si", n!"femtocandela", ⟨"units::isq::si::femtocandela", ⟨.named "units::isq::si::femtocandela", ⟨1, 1, (-15)⟩, "units::isq::si::candela", [.scaled ⟨1, 1, (-15)⟩ "units::isq::si::candela"], true, "fcd", none⟩, "fcd"⟩⟩,
  ⟨133, n!"units::isq::si", n!"attocandela", ⟨"units::isq::si::attocandela", ⟨.named "units::isq::si::attocandela", ⟨1, 1, (-18)⟩, "units::isq::si::candela", [.scaled ⟨1, 1, (-18)⟩ "units::isq::si::candela"], true, "acd", none⟩, "acd"⟩⟩,
  ⟨133, n!"units::isq::si", n!"zeptocandela", ⟨"units::isq::si::zeptocandela", ⟨.named "units::isq::si::zeptocandela", ⟨1, 1, (-21)⟩, "units::isq::si::candela", [.scaled ⟨1, 1, (-21)⟩ "units::isq::si::candela"], true, "zcd", none⟩, "zcd"⟩⟩,
  ⟨133, n!"units::isq::si", n!"yoctocandela", ⟨"units::isq::si::yoctocandela", ⟨.named "units::isq::si::yoctocandela", ⟨1, 1, (-24)⟩, "units::isq::si::candela", [.scaled ⟨1, 1, (-24)⟩ "units::isq::si::candela"], true, "ycd", none⟩, "ycd"⟩⟩,
  ⟨133, n!"units::isq::si", n!"candela", ⟨"units::isq::si::candela", ⟨.named "units::isq::si::candela", ⟨1, 1, 0⟩, "units::isq::si::candela", [.scaled ⟨1, 1, 0⟩ "units::isq::si::candela"], true, "cd", some "units::isq::si::prefix"⟩, "cd"⟩⟩,
  ⟨131, n!"units::isq::si::international", n!"cubic_foot", ⟨"units::isq::si::international::cubic_foot", ⟨.named "units::isq::si::international::cubic_foot", ⟨55306341, 1953125, (-3)⟩, "units::isq::si::cubic_metre", [.scaled ⟨55306341, 1953125, (-3)⟩ "units::isq::si::cubic_metre"], false, "ft³", none⟩, "ft^3"⟩⟩,
  ⟨130, n!"units::isq::si::international", n!"mile_per_hour", ⟨"units::isq::si::international::mile_per_hour", ⟨.named "units::isq::si::international::mile_per_hour", ⟨1397, 3125, 0⟩, "units::isq::si::metre_per_second", [.scaled ⟨1397, 3125, 0⟩ "units::isq::si::metre_per_second"], false, "mi/h", none⟩, "mi/h"⟩⟩,
  ⟨129, n!"units::isq::si::international", n!"square_foot", ⟨"units::isq::si::international::square_foot", ⟨.named "units::isq::si::international::square_foot", ⟨145161, 15625, (-2)⟩, "units::isq::si::square_metre", [.scaled ⟨145161, 15625, (-2)⟩ "units::isq::si::square_metre"], false, "ft²", none⟩, "ft^2"⟩⟩,
  ⟨128, n!"units::isq::si", n!"yottahenry", ⟨"units::isq::si::yottahenry", ⟨.named "units::isq::si::yottahenry", ⟨1, 1, 24⟩, "units::isq::si::henry", [.scaled ⟨1, 1, 24⟩ "units::isq::si::henry"], true, "YH", none⟩, "YH"⟩⟩,
  ⟨128, n!"units::isq::si", n!"zettahenry", ⟨"units::isq::si::zettahenry", ⟨.named "units::isq::si::zettahenry", ⟨1, 1, 21⟩, "units::isq::si::henry", [.scaled ⟨1, 1, 21⟩ "units::isq::si::henry"], true, "ZH", none⟩, "ZH"⟩⟩,
  ⟨128, n!"units::isq::si", n!"exahenry", ⟨"units::isq::si::exahenry", ⟨.named "units::isq::si::exahenry", ⟨1, 1, 18⟩, "units::isq::si::henry", [.scaled ⟨1, 1, 18⟩ "units::isq::si::henry"], true, "EH", none⟩, "EH"⟩⟩,
  ⟨128, n!"units::isq::si", n!"petahenry", ⟨"units::isq::si::petahenry", ⟨.named "units::isq::si::petahenry", ⟨1, 1, 15⟩, "units::isq::si::henry", [.scaled ⟨1, 1, 15⟩ "units::isq::si::henry"], true, "PH", none⟩, "PH"⟩⟩,
  ⟨128, n!"units::isq::si", n!"terahenry", ⟨"units::isq::si::terahenry", ⟨.named "units::isq::si::terahenry", ⟨1, 1, 12⟩, "units::isq::si::henry", [.scaled ⟨1, 1, 12⟩ "units::isq::si::henry"], true, "TH", none⟩, "TH"⟩⟩,
  ⟨128, n!"units::isq::si", n!"gigahenry", ⟨"units::isq::si::gigahenry", ⟨.named "units::isq::si::gigahenry", ⟨1, 1, 9⟩, "units::isq::si::henry", [.scaled ⟨1, 1, 9⟩ "units::isq::si::henry"], true, "GH", none⟩, "GH"⟩⟩,
  ⟨128, n!"units::isq::si", n!"megahenry", ⟨"units::isq::si::megahenry", ⟨.named "units::isq::si::megahenry", ⟨1, 1, 6⟩, "units::isq::si::henry", [.scaled ⟨1, 1, 6⟩ "units::isq::si::henry"], true, "MH", none⟩, "MH"⟩⟩,
  ⟨128, n!"units::isq::si", n!"kilohenry", ⟨"units::isq::si::kilohenry", ⟨.named "units::isq::si::kilohenry", ⟨1, 1, 3⟩, "units::isq::si::henry", [.scaled ⟨1, 1, 3⟩ "units::isq::si::henry"], true, "kH", none⟩, "kH"⟩⟩,
  ⟨128, n!"units::isq::si", n!"millihenry", ⟨"units::isq::si::millihenry", ⟨.named "units::isq::si::millihenry", ⟨1, 1, (-3)⟩, "units::isq::si::henry", [.scaled ⟨1, 1, (-3)⟩ "units::isq::si::henry"], true, "mH", none⟩, "mH"⟩⟩,
  ⟨128, n!"units::isq::si", n!"microhenry", ⟨"units::isq::si::microhenry", ⟨.named "units::isq::si::microhenry", ⟨1, 1, (-6)⟩, "units::isq::si::henry", [.scaled ⟨1, 1, (-6)⟩ "units::isq::si::henry"], true, "µH", none⟩, "uH"⟩⟩,
  ⟨128, n!"units::isq::si", n!"nanohenry", ⟨"units::isq::si::nanohenry", ⟨.named "units::isq::si::nanohenry", ⟨1, 1, (-9)⟩, "units::isq::si::henry", [.scaled ⟨1, 1, (-9)⟩ "units::isq::si::henry"], true, "nH", none⟩, "nH"⟩⟩,
  ⟨128, n!"units::isq::si", n!"picohenry", ⟨"units::isq::si::picohenry", ⟨.named "units::isq::si::picohenry", ⟨1, 1, (-12)⟩, "units::isq::si::henry", [.scaled ⟨1, 1, (-12)⟩ "units::isq::si::henry"], true, "pH", none⟩, "pH"⟩⟩,
  ⟨128, n!"units::isq::si", n!"femtohenry", ⟨"units::isq::si::femtohenry", ⟨.named "units::isq::si::femtohenry", ⟨1, 1, (-15)⟩, "units::isq::si::henry", [.scaled ⟨1, 1, (-15)⟩ "units::isq::si::henry"], true, "fH", none⟩, "fH"⟩⟩,
  ⟨128, n!"units::isq::si", n!"attohenry", ⟨"units::isq::si::attohenry", ⟨.named "units::isq::si::attohenry", ⟨1, 1, (-18)⟩, "units::isq::si::henry", [.scaled ⟨1, 1, (-18)⟩ "units::isq::si::henry"], true, "aH", none⟩, "aH"⟩⟩,
  ⟨128, n!"units::isq::si", n!"zeptohenry", ⟨"units::isq::si::zeptohenry", ⟨.named "units::isq::si::zeptohenry", ⟨1, 1, (-21)⟩, "units::isq::si::henry", [.scaled ⟨1, 1, (-21)⟩ "units::isq::si::henry"], true, "zH", none⟩, "zH"⟩⟩,
  ⟨128, n!"units::isq::si", n!"yoctohenry", ⟨"units::isq::si::yoctohenry", ⟨.named "units::isq::si::yoctohenry", ⟨1, 1, (-24)⟩, "units::isq::si::henry", [.scaled ⟨1, 1, (-24)⟩ "units::isq::si::henry"], true, "yH", none⟩, "yH"⟩⟩,
  ⟨128, n!"units::isq::si", n!"henry", ⟨"units::isq::si::henry", ⟨.named "units::isq::si::henry", ⟨1, 1, 0⟩, "units::isq::si::henry", [.scaled ⟨1, 1, 0⟩ "units::isq::si::henry"], true, "H", some "units::isq::si::prefix"⟩, "H"⟩⟩,
  ⟨127, n!"units::isq::si", n!"yottaweber", ⟨"units::isq::si::yottaweber", ⟨.named "units::isq::si::yottaweber", ⟨1, 1, 24⟩, "units::isq::si::weber", [.scaled ⟨1, 1, 24⟩ "units::isq::si::weber"], true, "YWb", none⟩, "YWb"⟩⟩,
  ⟨127, n!"units::isq::si", n!"zettaweber", ⟨"units::isq::si::zettaweber", ⟨.named "units::isq::si::zettaweber", ⟨1, 1, 21⟩, "units::isq::si::weber", [.scaled ⟨1, 1, 21⟩ "units::isq::si::weber"], true, "ZWb", none⟩, "ZWb"⟩⟩,
  ⟨127, n!"units::isq::si", n!"exaweber", ⟨"units::isq::si::exaweber", ⟨.named "units::isq::si::exaweber", ⟨1, 1, 18⟩, "units::isq::si::weber", [.scaled ⟨1, 1, 18⟩ "units::isq::si::weber"], true, "EWb", none⟩, "EWb"⟩⟩]

/-- Part 2 of `unitTable`. -/
def unitTable2 : List (URow) := [
  ⟨127, n!"units::isq::si", n!"petaweber", ⟨"units::isq::si::petaweber", ⟨.named "units::isq::si::petaweber", ⟨1, 1, 15⟩, "units::isq::si::weber", [.scaled ⟨1, 1, 15⟩ "units::isq::si::weber"], true, "PWb", none⟩, "PWb"⟩⟩,
  ⟨127, n!"units::isq::si", n!"teraweber", ⟨"units::isq::si::teraweber", ⟨.named "units::isq::si::teraweber", ⟨1, 1, 12⟩, "units::isq::si::weber", [.scaled ⟨1, 1, 12⟩ "units::isq::si::weber"], true, "TWb", none⟩, "TWb"⟩⟩,
  ⟨127, n!"units::isq::si", n!"gigaweber", ⟨"units::isq::si::gigaweber", ⟨.named "units::isq::si::gigaweber", ⟨1, 1, 9⟩, "units::isq::si::weber", [.scaled ⟨1, 1, 9⟩ "units::isq::si::weber"], true, "GWb", none⟩, "GWb"⟩⟩,
  ⟨127, n!"units::isq::si", n!"megaweber", ⟨"units::isq::si::megaweber", ⟨.named "units::isq::si::megaweber", ⟨1, 1, 6⟩, "units::isq::si::weber", [.scaled ⟨1, 1, 6⟩ "units::isq::si::weber"], true, "MWb", none⟩, "MWb"⟩⟩,
  ⟨127, n!"units::isq::si", n!"kiloweber", ⟨"units::isq::si::kiloweber", ⟨.named "units::isq::si::kiloweber", ⟨1, 1, 3⟩, "units::isq::si::weber", [.scaled ⟨1, 1, 3⟩ "units::isq::si::weber"], true, "kWb", none⟩, "kWb"⟩⟩,
  ⟨127, n!"units::isq::si", n!"milliweber", ⟨"units::isq::si::milliweber", ⟨.named "units::isq::si::milliweber", ⟨1, 1, (-3)⟩, "units::isq::si::weber", [.scaled ⟨1, 1, (-3)⟩ "units::isq::si::weber"], true, "mWb", none⟩, "mWb"⟩⟩,
  ⟨127, n!"units::isq::si", n!"microweber", ⟨"units::isq::si::microweber", ⟨.named "units::isq::si::microweber", ⟨1, 1, (-6)⟩, "units::isq::si::weber", [.scaled ⟨1, 1, (-6)⟩ "units::isq::si::weber"], true, "µWb", none⟩, "uWb"⟩⟩,
  ⟨127, n!"units::isq::si", n!"nanoweber", ⟨"units::isq::si::nanoweber", ⟨.named "units::isq::si::nanoweber", ⟨1, 1, (-9)⟩, "units::isq::si::weber", [.scaled ⟨1, 1, (-9)⟩ "units::isq::si::weber"], true, "nWb", none⟩, "nWb"⟩⟩,
  ⟨127, n!"units::isq::si", n!"picoweber", ⟨"units::isq::si::picoweber", ⟨.named "units::isq::si::picoweber", ⟨1, 1, (-12)⟩, "units::isq::si::weber", [.scaled ⟨1, 1, (-12)⟩ "units::isq::si::weber"], true, "pWb", none⟩, "pWb"⟩⟩,
  ⟨127, n!"units::isq::si", n!"femtoweber", ⟨"units::isq::si::femtoweber", ⟨.named "units::isq::si::femtoweber", ⟨1, 1, (-15)⟩, "units::isq::si::weber", [.scaled ⟨1, 1, (-15)⟩ "units::isq::si::weber"], true, "fWb", none⟩, "fWb"⟩⟩,
  ⟨127, n!"units::isq::si", n!"attoweber", ⟨"units::isq::si::attoweber", ⟨.named "units::isq::si::attoweber", ⟨1, 1, (-18)⟩, "units::isq::si::weber", [.scaled ⟨1, 1, (-18)⟩ "units::isq::si::weber"], true, "aWb", none⟩, "aWb"⟩⟩,
  ⟨127, n!"units::isq::si", n!"zeptoweber", ⟨"units::isq::si::zeptoweber", ⟨.named "units::isq::si::zeptoweber", ⟨1, 1, (-21)⟩, "units::isq::si::weber", [.scaled ⟨1, 1, (-21)⟩ "units::isq::si::weber"], true, "zWb", none⟩, "zWb"⟩⟩,
  ⟨127, n!"units::isq::si", n!"yoctoweber", ⟨"units::isq::si::yoctoweber", ⟨.named "units::isq::si::yoctoweber", ⟨1, 1, (-24)⟩, "units::isq::si::weber", [.scaled ⟨1, 1, (-24)⟩ "units::isq::si::weber"], true, "yWb", none⟩, "yWb"⟩⟩,
  ⟨127, n!"units::isq::si", n!"weber", ⟨"units::isq::si::weber", ⟨.named "units::isq::si::weber", ⟨1, 1, 0⟩, "units::isq::si::weber", [.scaled ⟨1, 1, 0⟩ "units::isq::si::weber"], true, "Wb", some "units::isq::si::prefix"⟩, "Wb"⟩⟩,
  ⟨126, n!"units::isq::si", n!"gauss", ⟨"units::isq::si::gauss", ⟨.named "units::isq::si::gauss", ⟨1, 1, (-4)⟩, "units::isq::si::tesla", [.scaled ⟨1, 1, (-4)⟩ "units::isq::si::tesla"], true, "G", some "units::isq::si::prefix"⟩, "G"⟩⟩,
  ⟨126, n!"units::isq::si", n!"yottatesla", ⟨"units::isq::si::yottatesla", ⟨.named "units::isq::si::yottatesla", ⟨1, 1, 24⟩, "units::isq::si::tesla", [.scaled ⟨1, 1, 24⟩ "units::isq::si::tesla"], true, "YT", none⟩, "YT"⟩⟩,
  ⟨126, n!"units::isq::si", n!"zettatesla", ⟨"units::isq::si::zettatesla", ⟨.named "units::isq::si::zettatesla", ⟨1, 1, 21⟩, "units::isq::si::tesla", [.scaled ⟨1, 1, 21⟩ "units::isq::si::tesla"], true, "ZT", none⟩, "ZT"⟩⟩,
  ⟨126, n!"units::isq::si", n!"exatesla", ⟨"units::isq::si::exatesla", ⟨.named "units::isq::si::exatesla", ⟨1, 1, 18⟩, "units::isq::si::tesla", [.scaled ⟨1, 1, 18⟩ "units::isq::si::tesla"], true, "ET", none⟩, "ET"⟩⟩,
  ⟨126, n!"units::isq::si", n!"petatesla", ⟨"units::isq::si::petatesla", ⟨.named "units::isq::si::petatesla", ⟨1, 1, 15⟩, "units::isq::si::tesla", [.scaled ⟨1, 1, 15⟩ "units::isq::si::tesla"], true, "PT", none⟩, "PT"⟩⟩,
  ⟨126, n!"units::isq::si", n!"teratesla", ⟨"units::isq::si::teratesla", ⟨.named "units::isq::si::teratesla", ⟨1, 1, 12⟩, "units::isq::si::tesla", [.scaled ⟨1, 1, 12⟩ "units::isq::si::tesla"], true, "TT", none⟩, "TT"⟩⟩,
  ⟨126, n!"units::isq::si", n!"gigatesla", ⟨"units::isq::si::gigatesla", ⟨.named "units::isq::si::gigatesla", ⟨1, 1, 9⟩, "units::isq::si::tesla", [.scaled ⟨1, 1, 9⟩ "units::isq::si::tesla"], true, "GT", none⟩, "GT"⟩⟩,
  ⟨126, n!"units::isq::si", n!"megatesla", ⟨"units::isq::si::megatesla", ⟨.named "units::isq::si::megatesla", ⟨1, 1, 6⟩, "units::isq::si::tesla", [.scaled ⟨1, 1, 6⟩ "units::isq::si::tesla"], true, "MT", none⟩, "MT"⟩⟩,
  ⟨126, n!"units::isq::si", n!"kilotesla", ⟨"units::isq::si::kilotesla", ⟨.named "units::isq::si::kilotesla", ⟨1, 1, 3⟩, "units::isq::si::tesla", [.scaled ⟨1, 1, 3⟩ "units::isq::si::tesla"], true, "kT", none⟩, "kT"⟩⟩,
  ⟨126, n!"units::isq::si", n!"millitesla", ⟨"units::isq::si::millitesla", ⟨.named "units::isq::si::millitesla", ⟨1, 1, (-3)⟩, "units::isq::si::tesla", [.scaled ⟨1, 1, (-3)⟩ "units::isq::si::tesla"], true, "mT", none⟩, "mT"⟩⟩,
  ⟨126, n!"units::isq::si", n!"microtesla", ⟨"units::isq::si::microtesla", ⟨.named "units::isq::si::microtesla", ⟨1, 1, (-6)⟩, "units::isq::si::tesla", [.scaled ⟨1, 1, (-6)⟩ "units::isq::si::tesla"], true, "µT", none⟩, "uT"⟩⟩,
  ⟨126, n!"units::isq::si", n!"nanotesla", ⟨"units::isq::si::nanotesla", ⟨.named "units::isq::si::nanotesla", ⟨1, 1, (-9)⟩, "units::isq::si::tesla", [.scaled ⟨1, 1, (-9)⟩ "units::isq::si::tesla"], true, "nT", none⟩, "nT"⟩⟩,
  ⟨126, n!"units::isq::si", n!"picotesla", ⟨"units::isq::si::picotesla", ⟨.named "units::isq::si::picotesla", ⟨1, 1, (-12)⟩, "units::isq::si::tesla", [.scaled ⟨1, 1, (-12)⟩ "units::isq::si::tesla"], true, "pT", none⟩, "pT"⟩⟩,
  ⟨126, n!"units::isq::si", n!"femtotesla", ⟨"units::isq::si::femtotesla", ⟨.named "units::isq::si::femtotesla", ⟨1, 1, (-15)⟩, "units::isq::si::tesla", [.scaled ⟨1, 1, (-15)⟩ "units::isq::si::tesla"], true, "fT", none⟩, "fT"⟩⟩,
  ⟨126, n!"units::isq::si", n!"attotesla", ⟨"units::isq::si::attotesla", ⟨.named "units::isq::si::attotesla", ⟨1, 1, (-18)⟩, "units::isq::si::tesla", [.scaled ⟨1, 1, (-18)⟩ "units::isq::si::tesla"], true, "aT", none⟩, "aT"⟩⟩,
  ⟨126, n!"units::isq::si", n!"zeptotesla", ⟨"units::isq::si::zeptotesla", ⟨.named "units::isq::si::zeptotesla", ⟨1, 1, (-21)⟩, "units::isq::si::tesla", [.scaled ⟨1, 1, (-21)⟩ "units::isq::si::tesla"], true, "zT", none⟩, "zT"⟩⟩,
  ⟨126, n!"units::isq::si", n!"yoctotesla", ⟨"units::isq::si::yoctotesla", ⟨.named "units::isq::si::yoctotesla", ⟨1, 1, (-24)⟩, "units::isq::si::tesla", [.scaled ⟨1, 1, (-24)⟩ "units::isq::si::tesla"], true, "yT", none⟩, "yT"⟩⟩,
  ⟨126, n!"units::isq::si", n!"tesla", ⟨"units::isq::si::tesla", ⟨.named "units::isq::si::tesla", ⟨1, 1, 0⟩, "units::isq::si::tesla", [.scaled ⟨1, 1, 0⟩ "units::isq::si::tesla"], true, "T", some "units::isq::si::prefix"⟩, "T"⟩⟩,
  ⟨124, n!"units::isq::si::imperial", n!"rod", ⟨"units::isq::si::imperial::rod", ⟨.named "units::isq::si::imperial::rod", ⟨12573, 25, (-2)⟩, "units::isq::si::metre", [.scaled ⟨12573, 25, (-2)⟩ "units::isq::si::metre"], true, "rd", none⟩, "rd"⟩⟩,
  ⟨124, n!"units::isq::si::imperial", n!"chain", ⟨"units::isq::si::imperial::chain", ⟨.named "units::isq::si::imperial::chain", ⟨25146, 125, (-1)⟩, "units::isq::si::metre", [.scaled ⟨25146, 125, (-1)⟩ "units::isq::si::metre"], true, "ch", none⟩, "ch"⟩⟩,
  ⟨123, n!"units::isq::si::international", n!"mil", ⟨"units::isq::si::international::thou", ⟨.named "units::isq::si::international::thou", ⟨127, 5, (-6)⟩, "units::isq::si::metre", [.scaled ⟨127, 5, (-6)⟩ "units::isq::si::metre"], true, "thou", none⟩, "thou"⟩⟩,
  ⟨123, n!"units::isq::si::international", n!"thou", ⟨"units::isq::si::international::thou", ⟨.named "units::isq::si::international::thou", ⟨127, 5, (-6)⟩, "units::isq::si::metre", [.scaled ⟨127, 5, (-6)⟩ "units::isq::si::metre"], true, "thou", none⟩, "thou"⟩⟩,
  ⟨123, n!"units::isq::si::international", n!"nautical_mile", ⟨"units::isq::si::international::nautical_mile", ⟨.named "units::isq::si::international::nautical_mile", ⟨1852, 1, 0⟩, "units::isq::si::metre", [.scaled ⟨1852, 1, 0⟩ "units::isq::si::metre"], true, "mi(naut)", none⟩, "mi(naut)"⟩⟩,
  ⟨123, n!"units::isq::si::international", n!"mile", ⟨"units::isq::si::international::mile", ⟨.named "units::isq::si::international::mile", ⟨25146, 15625, 3⟩, "units::isq::si::metre", [.scaled ⟨25146, 15625, 3⟩ "units::isq::si::metre"], true, "mi", none⟩, "mi"⟩⟩,
  ⟨123, n!"units::isq::si::international", n!"inch", ⟨"units::isq::si::international::inch", ⟨.named "units::isq::si::international::inch", ⟨127, 5, (-3)⟩, "units::isq::si::metre", [.scaled ⟨127, 5, (-3)⟩ "units::isq::si::metre"], true, "in", none⟩, "in"⟩⟩,
  ⟨123, n!"units::isq::si::international", n!"fathom", ⟨"units::isq::si::international::fathom", ⟨.named "units::isq::si::international::fathom", ⟨2286, 125, (-1)⟩, "units::isq::si::metre", [.scaled ⟨2286, 125, (-1)⟩ "units::isq::si::metre"], true, "fathom", none⟩, "fathom"⟩⟩]

/-- Part 3 of `unitTable`. -/
def unitTable3 : List (URow) := [
  ⟨123, n!"units::isq::si::international", n!"foot", ⟨"units::isq::si::international::foot", ⟨.named "units::isq::si::international::foot", ⟨381, 125, (-1)⟩, "units::isq::si::metre", [.scaled ⟨381, 125, (-1)⟩ "units::isq::si::metre"], true, "ft", none⟩, "ft"⟩⟩,
  ⟨123, n!"units::isq::si::international", n!"yard", ⟨"units::isq::si::international::yard", ⟨.named "units::isq::si::international::yard", ⟨1143, 125, (-1)⟩, "units::isq::si::metre", [.scaled ⟨1143, 125, (-1)⟩ "units::isq::si::metre"], true, "yd", none⟩, "yd"⟩⟩,
  ⟨121, n!"units::isq::si::iau", n!"angstrom", ⟨"units::isq::si::iau::angstrom", ⟨.named "units::isq::si::iau::angstrom", ⟨1, 1, (-10)⟩, "units::isq::si::metre", [.scaled ⟨1, 1, (-10)⟩ "units::isq::si::metre"], true, "angstrom", none⟩, "angstrom"⟩⟩,
  ⟨121, n!"units::isq::si::iau", n!"parsec", ⟨"units::isq::si::iau::parsec", ⟨.named "units::isq::si::iau::parsec", ⟨30856775814913673, 1, 0⟩, "units::isq::si::metre", [.scaled ⟨30856775814913673, 1, 0⟩ "units::isq::si::metre"], true, "pc", some "units::isq::si::prefix"⟩, "pc"⟩⟩,
  ⟨121, n!"units::isq::si::iau", n!"light_year", ⟨"units::isq::si::iau::light_year", ⟨.named "units::isq::si::iau::light_year", ⟨94607304725808, 1, 2⟩, "units::isq::si::metre", [.scaled ⟨94607304725808, 1, 2⟩ "units::isq::si::metre"], true, "ly", none⟩, "ly"⟩⟩,
  ⟨120, n!"units::isq::si", n!"joule_per_mole_kelvin", ⟨"units::isq::si::joule_per_mole_kelvin", ⟨.named "units::isq::si::joule_per_mole_kelvin", ⟨1, 1, 0⟩, "units::isq::si::joule_per_mole_kelvin", [.scaled ⟨1, 1, 0⟩ "units::isq::si::joule_per_mole_kelvin"], false, "", none⟩, ""⟩⟩,
  ⟨120, n!"units::isq::si", n!"joule_per_kilogram_kelvin", ⟨"units::isq::si::joule_per_kilogram_kelvin", ⟨.named "units::isq::si::joule_per_kilogram_kelvin", ⟨1, 1, 0⟩, "units::isq::si::joule_per_kilogram_kelvin", [.scaled ⟨1, 1, 0⟩ "units::isq::si::joule_per_kilogram_kelvin"], false, "", none⟩, ""⟩⟩,
  ⟨120, n!"units::isq::si", n!"joule_per_kelvin", ⟨"units::isq::si::joule_per_kelvin", ⟨.named "units::isq::si::joule_per_kelvin", ⟨1, 1, 0⟩, "units::isq::si::joule_per_kelvin", [.scaled ⟨1, 1, 0⟩ "units::isq::si::joule_per_kelvin"], false, "", none⟩, ""⟩⟩,
  ⟨118, n!"units::isq::si::fps", n!"cubic_yard", ⟨"units::isq::si::fps::cubic_yard", ⟨.named "units::isq::si::fps::cubic_yard", ⟨3919347, 15625, (-2)⟩, "units::isq::si::fps::cubic_foot", [.scaled ⟨3919347, 15625, (-2)⟩ "units::isq::si::fps::cubic_foot"], false, "yd³", none⟩, "yd^3"⟩⟩,
  ⟨118, n!"units::isq::si::fps", n!"cubic_foot", ⟨"units::isq::si::fps::cubic_foot", ⟨.named "units::isq::si::fps::cubic_foot", ⟨1, 1, 0⟩, "units::isq::si::fps::cubic_foot", [.scaled ⟨1, 1, 0⟩ "units::isq::si::fps::cubic_foot"], false, "", none⟩, ""⟩⟩,
  ⟨117, n!"units::isq::si::fps", n!"kilopound_force_per_inch_sq", ⟨"units::isq::si::fps::kilopound_force_per_inch_sq", ⟨.named "units::isq::si::fps::kilopound_force_per_inch_sq", ⟨10724683, 48, (-3)⟩, "units::isq::si::fps::poundal_per_foot_sq", [.scaled ⟨10724683, 48, (-3)⟩ "units::isq::si::fps::poundal_per_foot_sq"], true, "kpsi", none⟩, "kpsi"⟩⟩,
  ⟨117, n!"units::isq::si::fps", n!"pound_force_per_inch_sq", ⟨"units::isq::si::fps::pound_force_per_inch_sq", ⟨.named "units::isq::si::fps::pound_force_per_inch_sq", ⟨10724683, 48, (-6)⟩, "units::isq::si::fps::poundal_per_foot_sq", [.scaled ⟨10724683, 48, (-6)⟩ "units::isq::si::fps::poundal_per_foot_sq"], true, "psi", some "units::isq::si::prefix"⟩, "psi"⟩⟩,
  ⟨117, n!"units::isq::si::fps", n!"pound_force_per_foot_sq", ⟨"units::isq::si::fps::pound_force_per_foot_sq", ⟨.named "units::isq::si::fps::pound_force_per_foot_sq", ⟨32174049, 1, (-6)⟩, "units::isq::si::fps::poundal_per_foot_sq", [.scaled ⟨32174049, 1, (-6)⟩ "units::isq::si::fps::poundal_per_foot_sq"], true, "lbf ft2", some "units::isq::si::prefix"⟩, "lbf ft2"⟩⟩,
  ⟨117, n!"units::isq::si::fps", n!"poundal_per_foot_sq", ⟨"units::isq::si::fps::poundal_per_foot_sq", ⟨.named "units::isq::si::fps::poundal_per_foot_sq", ⟨1, 1, 0⟩, "units::isq::si::fps::poundal_per_foot_sq", [.scaled ⟨1, 1, 0⟩ "units::isq::si::fps::poundal_per_foot_sq"], false, "", none⟩, ""⟩⟩,
  ⟨116, n!"units::isq::si::fps", n!"horse_power", ⟨"units::isq::si::fps::horse_power", ⟨.named "units::isq::si::fps::horse_power", ⟨1769572695, 1, (-5)⟩, "units::isq::si::fps::foot_poundal_per_second", [.scaled ⟨1769572695, 1, (-5)⟩ "units::isq::si::fps::foot_poundal_per_second"], true, "hp", none⟩, "hp"⟩⟩,
  ⟨116, n!"units::isq::si::fps", n!"foot_pound_force_per_second", ⟨"units::isq::si::fps::foot_pound_force_per_second", ⟨.named "units::isq::si::fps::foot_pound_force_per_second", ⟨32174049, 1, (-6)⟩, "units::isq::si::fps::foot_poundal_per_second", [.scaled ⟨32174049, 1, (-6)⟩ "units::isq::si::fps::foot_poundal_per_second"], false, "ft ⋅ lbf/s", none⟩, "ft lbf/s"⟩⟩,
  ⟨116, n!"units::isq::si::fps", n!"foot_poundal_per_second", ⟨"units::isq::si::fps::foot_poundal_per_second", ⟨.named "units::isq::si::fps::foot_poundal_per_second", ⟨1, 1, 0⟩, "units::isq::si::fps::foot_poundal_per_second", [.scaled ⟨1, 1, 0⟩ "units::isq::si::fps::foot_poundal_per_second"], false, "", none⟩, ""⟩⟩,
  ⟨115, n!"units::isq::si::fps", n!"foot_pound_force", ⟨"units::isq::si::fps::foot_pound_force", ⟨.named "units::isq::si::fps::foot_pound_force", ⟨32174049, 1, (-6)⟩, "units::isq::si::fps::foot_poundal", [.scaled ⟨32174049, 1, (-6)⟩ "units::isq::si::fps::foot_poundal"], false, "ft ⋅ lbf", none⟩, "ft lbf"⟩⟩,
  ⟨115, n!"units::isq::si::fps", n!"foot_poundal", ⟨"units::isq::si::fps::foot_poundal", ⟨.named "units::isq::si::fps::foot_poundal", ⟨1, 1, 0⟩, "units::isq::si::fps::foot_poundal", [.scaled ⟨1, 1, 0⟩ "units::isq::si::fps::foot_poundal"], false, "", none⟩, ""⟩⟩,
  ⟨114, n!"units::isq::si::fps", n!"kip", ⟨"units::isq::si::fps::kip", ⟨.named "units::isq::si::fps::kip", ⟨32174049, 1, (-3)⟩, "units::isq::si::fps::poundal", [.named "units::isq::si::fps::kilopound_force", .scaled ⟨32174049, 1, (-3)⟩ "units::isq::si::fps::poundal"], true, "klbf", none⟩, "klbf"⟩⟩,
  ⟨114, n!"units::isq::si::fps", n!"kilopound_force", ⟨"units::isq::si::fps::kilopound_force", ⟨.named "units::isq::si::fps::kilopound_force", ⟨32174049, 1, (-3)⟩, "units::isq::si::fps::poundal", [.scaled ⟨32174049, 1, (-3)⟩ "units::isq::si::fps::poundal"], true, "klbf", none⟩, "klbf"⟩⟩,
  ⟨114, n!"units::isq::si::fps", n!"pound_force", ⟨"units::isq::si::fps::pound_force", ⟨.named "units::isq::si::fps::pound_force", ⟨32174049, 1, (-6)⟩, "units::isq::si::fps::poundal", [.scaled ⟨32174049, 1, (-6)⟩ "units::isq::si::fps::poundal"], true, "lbf", some "units::isq::si::prefix"⟩, "lbf"⟩⟩,
  ⟨114, n!"units::isq::si::fps", n!"poundal", ⟨"units::isq::si::fps::poundal", ⟨.named "units::isq::si::fps::poundal", ⟨1, 1, 0⟩, "units::isq::si::fps::poundal", [.scaled ⟨1, 1, 0⟩ "units::isq::si::fps::poundal"], true, "pdl", none⟩, "pdl"⟩⟩,
  ⟨113, n!"units::isq::si::fps", n!"pound_per_foot_cub", ⟨"units::isq::si::fps::pound_per_foot_cub", ⟨.named "units::isq::si::fps::pound_per_foot_cub", ⟨1, 1, 0⟩, "units::isq::si::fps::pound_per_foot_cub", [.scaled ⟨1, 1, 0⟩ "units::isq::si::fps::pound_per_foot_cub"], false, "", none⟩, ""⟩⟩,
  ⟨112, n!"units::isq::si::fps", n!"long_ton", ⟨"units::isq::si::fps::long_ton", ⟨.named "units::isq::si::fps::long_ton", ⟨10160469088, 1, (-4)⟩, "units::isq::si::gram", [.scaled ⟨10160469088, 1, (-4)⟩ "units::isq::si::gram"], true, "ton (long)", none⟩, "ton (long)"⟩⟩,
  ⟨112, n!"units::isq::si::fps", n!"short_ton", ⟨"units::isq::si::fps::short_ton", ⟨.named "units::isq::si::fps::short_ton", ⟨90718474, 1, (-2)⟩, "units::isq::si::gram", [.scaled ⟨90718474, 1, (-2)⟩ "units::isq::si::gram"], true, "ton (short)", none⟩, "ton (short)"⟩⟩,
  ⟨112, n!"units::isq::si::fps", n!"hundredweight", ⟨"units::isq::si::fps::hundredweight", ⟨.named "units::isq::si::fps::hundredweight", ⟨5080234544, 1, (-5)⟩, "units::isq::si::gram", [.scaled ⟨5080234544, 1, (-5)⟩ "units::isq::si::gram"], true, "cwt", none⟩, "cwt"⟩⟩,
  ⟨112, n!"units::isq::si::fps", n!"quarter", ⟨"units::isq::si::fps::quarter", ⟨.named "units::isq::si::fps::quarter", ⟨1270058636, 1, (-5)⟩, "units::isq::si::gram", [.scaled ⟨1270058636, 1, (-5)⟩ "units::isq::si::gram"], true, "qr", none⟩, "qr"⟩⟩,
  ⟨112, n!"units::isq::si::fps", n!"stone", ⟨"units::isq::si::fps::stone", ⟨.named "units::isq::si::fps::stone", ⟨635029318, 1, (-5)⟩, "units::isq::si::gram", [.scaled ⟨635029318, 1, (-5)⟩ "units::isq::si::gram"], true, "st", none⟩, "st"⟩⟩,
  ⟨112, n!"units::isq::si::fps", n!"ounce", ⟨"units::isq::si::fps::ounce", ⟨.named "units::isq::si::fps::ounce", ⟨45359237, 16, (-5)⟩, "units::isq::si::gram", [.scaled ⟨45359237, 16, (-5)⟩ "units::isq::si::gram"], true, "oz", none⟩, "oz"⟩⟩,
  ⟨112, n!"units::isq::si::fps", n!"dram", ⟨"units::isq::si::fps::dram", ⟨.named "units::isq::si::fps::dram", ⟨45359237, 256, (-5)⟩, "units::isq::si::gram", [.scaled ⟨45359237, 256, (-5)⟩ "units::isq::si::gram"], true, "dr", none⟩, "dr"⟩⟩,
  ⟨112, n!"units::isq::si::fps", n!"grain", ⟨"units::isq::si::fps::grain", ⟨.named "units::isq::si::fps::grain", ⟨6479891, 1, (-8)⟩, "units::isq::si::gram", [.scaled ⟨6479891, 1, (-8)⟩ "units::isq::si::gram"], true, "gr", none⟩, "gr"⟩⟩,
  ⟨112, n!"units::isq::si::fps", n!"pound", ⟨"units::isq::si::fps::pound", ⟨.named "units::isq::si::fps::pound", ⟨45359237, 1, (-5)⟩, "units::isq::si::gram", [.scaled ⟨45359237, 1, (-5)⟩ "units::isq::si::gram"], true, "lb", none⟩, "lb"⟩⟩,
  ⟨111, n!"units::isq::si::fps", n!"square_foot", ⟨"units::isq::si::fps::square_foot", ⟨.named "units::isq::si::fps::square_foot", ⟨1, 1, 0⟩, "units::isq::si::fps::square_foot", [.scaled ⟨1, 1, 0⟩ "units::isq::si::fps::square_foot"], false, "", none⟩, ""⟩⟩,
  ⟨110, n!"units::isq::si::fps", n!"foot_per_second_sq", ⟨"units::isq::si::fps::foot_per_second_sq", ⟨.named "units::isq::si::fps::foot_per_second_sq", ⟨1, 1, 0⟩, "units::isq::si::fps::foot_per_second_sq", [.scaled ⟨1, 1, 0⟩ "units::isq::si::fps::foot_per_second_sq"], false, "", none⟩, ""⟩⟩,
  ⟨109, n!"units::isq::si::fps", n!"knot", ⟨"units::isq::si::fps::knot", ⟨.named "units::isq::si::fps::knot", ⟨1, 6, 1⟩, "units::isq::si::fps::foot_per_second", [.named "units::isq::si::fps::nautical_mile_per_hour", .scaled ⟨1, 6, 1⟩ "units::isq::si::fps::foot_per_second"], true, "knot", none⟩, "knot"⟩⟩,
  ⟨109, n!"units::isq::si::fps", n!"nautical_mile_per_hour", ⟨"units::isq::si::fps::nautical_mile_per_hour", ⟨.named "units::isq::si::fps::nautical_mile_per_hour", ⟨1, 6, 1⟩, "units::isq::si::fps::foot_per_second", [.scaled ⟨1, 6, 1⟩ "units::isq::si::fps::foot_per_second"], false, "mi(naut)/h", none⟩, "mi(naut)/h"⟩⟩,
  ⟨109, n!"units::isq::si::fps", n!"mile_per_hour", ⟨"units::isq::si::fps::mile_per_hour", ⟨.named "units::isq::si::fps::mile_per_hour", ⟨44, 3, (-1)⟩, "units::isq::si::fps::foot_per_second", [.scaled ⟨44, 3, (-1)⟩ "units::isq::si::fps::foot_per_second"], false, "mile/h", none⟩, "mile/h"⟩⟩,
  ⟨109, n!"units::isq::si::fps", n!"foot_per_second", ⟨"units::isq::si::fps::foot_per_second", ⟨.named "units::isq::si::fps::foot_per_second", ⟨1, 1, 0⟩, "units::isq::si::fps::foot_per_second", [.scaled ⟨1, 1, 0⟩ "units::isq::si::fps::foot_per_second"], false, "", none⟩, ""⟩⟩,
  ⟨108, n!"units::isq::si::fps", n!"hour", ⟨"units::isq::si::hour", ⟨.named "units::isq::si::hour", ⟨36, 1, 2⟩, "units::isq::si::second", [.scaled ⟨36, 1, 2⟩ "units::isq::si::second"], true, "h", none⟩, "h"⟩⟩]

/-- Part 4 of `unitTable`. -/
def unitTable4 : List (URow) := [
  ⟨108, n!"units::isq::si::fps", n!"minute", ⟨"units::isq::si::minute", ⟨.named "units::isq::si::minute", ⟨6, 1, 1⟩, "units::isq::si::second", [.scaled ⟨6, 1, 1⟩ "units::isq::si::second"], true, "min", none⟩, "min"⟩⟩,
  ⟨108, n!"units::isq::si::fps", n!"second", ⟨"units::isq::si::second", ⟨.named "units::isq::si::second", ⟨1, 1, 0⟩, "units::isq::si::second", [.scaled ⟨1, 1, 0⟩ "units::isq::si::second"], true, "s", some "units::isq::si::prefix"⟩, "s"⟩⟩,
  ⟨107, n!"units::isq::si::fps", n!"nautical_mile", ⟨"units::isq::si::fps::nautical_mile", ⟨.named "units::isq::si::fps::nautical_mile", ⟨2286, 125, 2⟩, "units::isq::si::metre", [.scaled ⟨2286, 125, 2⟩ "units::isq::si::metre"], true, "mi(naut)", none⟩, "mi(naut)"⟩⟩,
  ⟨107, n!"units::isq::si::fps", n!"mile", ⟨"units::isq::si::fps::mile", ⟨.named "units::isq::si::fps::mile", ⟨201168, 125, 0⟩, "units::isq::si::metre", [.scaled ⟨201168, 125, 0⟩ "units::isq::si::metre"], true, "mile", none⟩, "mile"⟩⟩,
  ⟨107, n!"units::isq::si::fps", n!"kiloyard", ⟨"units::isq::si::fps::kiloyard", ⟨.named "units::isq::si::fps::kiloyard", ⟨1143, 125, 2⟩, "units::isq::si::metre", [.scaled ⟨1143, 125, 2⟩ "units::isq::si::metre"], true, "kyd", none⟩, "kyd"⟩⟩,
  ⟨107, n!"units::isq::si::fps", n!"fathom", ⟨"units::isq::si::fps::fathom", ⟨.named "units::isq::si::fps::fathom", ⟨2286, 125, (-1)⟩, "units::isq::si::metre", [.scaled ⟨2286, 125, (-1)⟩ "units::isq::si::metre"], true, "ftm", none⟩, "ftm"⟩⟩,
  ⟨107, n!"units::isq::si::fps", n!"yard", ⟨"units::isq::si::fps::yard", ⟨.named "units::isq::si::fps::yard", ⟨1143, 125, (-1)⟩, "units::isq::si::metre", [.scaled ⟨1143, 125, (-1)⟩ "units::isq::si::metre"], true, "yd", some "units::isq::si::prefix"⟩, "yd"⟩⟩,
  ⟨107, n!"units::isq::si::fps", n!"mil", ⟨"units::isq::si::fps::mil", ⟨.named "units::isq::si::fps::mil", ⟨127, 5, (-6)⟩, "units::isq::si::metre", [.named "units::isq::si::fps::thousandth", .scaled ⟨127, 5, (-6)⟩ "units::isq::si::metre"], true, "mil", none⟩, "mil"⟩⟩,
  ⟨107, n!"units::isq::si::fps", n!"thou", ⟨"units::isq::si::fps::thou", ⟨.named "units::isq::si::fps::thou", ⟨127, 5, (-6)⟩, "units::isq::si::metre", [.named "units::isq::si::fps::thousandth", .scaled ⟨127, 5, (-6)⟩ "units::isq::si::metre"], true, "thou", none⟩, "thou"⟩⟩,
  ⟨107, n!"units::isq::si::fps", n!"thousandth", ⟨"units::isq::si::fps::thousandth", ⟨.named "units::isq::si::fps::thousandth", ⟨127, 5, (-6)⟩, "units::isq::si::metre", [.scaled ⟨127, 5, (-6)⟩ "units::isq::si::metre"], true, "thou", none⟩, "thou"⟩⟩,
  ⟨107, n!"units::isq::si::fps", n!"inch", ⟨"units::isq::si::fps::inch", ⟨.named "units::isq::si::fps::inch", ⟨127, 5, (-3)⟩, "units::isq::si::metre", [.scaled ⟨127, 5, (-3)⟩ "units::isq::si::metre"], true, "in", none⟩, "in"⟩⟩,
  ⟨107, n!"units::isq::si::fps", n!"foot", ⟨"units::isq::si::fps::foot", ⟨.named "units::isq::si::fps::foot", ⟨381, 125, (-1)⟩, "units::isq::si::metre", [.scaled ⟨381, 125, (-1)⟩ "units::isq::si::metre"], true, "ft", none⟩, "ft"⟩⟩,
  ⟨106, n!"units::isq::si", n!"joule_per_metre_cub", ⟨"units::isq::si::joule_per_metre_cub", ⟨.named "units::isq::si::joule_per_metre_cub", ⟨1, 1, 0⟩, "units::isq::si::joule_per_metre_cub", [.scaled ⟨1, 1, 0⟩ "units::isq::si::joule_per_metre_cub"], false, "", none⟩, ""⟩⟩,
  ⟨105, n!"units::isq::si", n!"yottalitre", ⟨"units::isq::si::yottalitre", ⟨.named "units::isq::si::yottalitre", ⟨1, 1, 21⟩, "units::isq::si::cubic_metre", [.scaled ⟨1, 1, 21⟩ "units::isq::si::cubic_metre"], true, "Yl", none⟩, "Yl"⟩⟩,
  ⟨105, n!"units::isq::si", n!"zettalitre", ⟨"units::isq::si::zettalitre", ⟨.named "units::isq::si::zettalitre", ⟨1, 1, 18⟩, "units::isq::si::cubic_metre", [.named "units::isq::si::cubic_megametre", .scaled ⟨1, 1, 18⟩ "units::isq::si::cubic_metre"], true, "Zl", none⟩, "Zl"⟩⟩,
  ⟨105, n!"units::isq::si", n!"exalitre", ⟨"units::isq::si::exalitre", ⟨.named "units::isq::si::exalitre", ⟨1, 1, 15⟩, "units::isq::si::cubic_metre", [.scaled ⟨1, 1, 15⟩ "units::isq::si::cubic_metre"], true, "El", none⟩, "El"⟩⟩,
  ⟨105, n!"units::isq::si", n!"petalitre", ⟨"units::isq::si::petalitre", ⟨.named "units::isq::si::petalitre", ⟨1, 1, 12⟩, "units::isq::si::cubic_metre", [.scaled ⟨1, 1, 12⟩ "units::isq::si::cubic_metre"], true, "Pl", none⟩, "Pl"⟩⟩,
  ⟨105, n!"units::isq::si", n!"teralitre", ⟨"units::isq::si::teralitre", ⟨.named "units::isq::si::teralitre", ⟨1, 1, 9⟩, "units::isq::si::cubic_metre", [.named "units::isq::si::cubic_kilometre", .scaled ⟨1, 1, 9⟩ "units::isq::si::cubic_metre"], true, "Tl", none⟩, "Tl"⟩⟩,
  ⟨105, n!"units::isq::si", n!"gigalitre", ⟨"units::isq::si::gigalitre", ⟨.named "units::isq::si::gigalitre", ⟨1, 1, 6⟩, "units::isq::si::cubic_metre", [.named "units::isq::si::cubic_hectometre", .scaled ⟨1, 1, 6⟩ "units::isq::si::cubic_metre"], true, "Gl", none⟩, "Gl"⟩⟩,
  ⟨105, n!"units::isq::si", n!"megalitre", ⟨"units::isq::si::megalitre", ⟨.named "units::isq::si::megalitre", ⟨1, 1, 3⟩, "units::isq::si::cubic_metre", [.named "units::isq::si::cubic_decametre", .scaled ⟨1, 1, 3⟩ "units::isq::si::cubic_metre"], true, "Ml", none⟩, "Ml"⟩⟩,
  ⟨105, n!"units::isq::si", n!"kilolitre", ⟨"units::isq::si::kilolitre", ⟨.named "units::isq::si::kilolitre", ⟨1, 1, 0⟩, "units::isq::si::cubic_metre", [.named "units::isq::si::cubic_metre", .scaled ⟨1, 1, 0⟩ "units::isq::si::cubic_metre"], true, "kl", none⟩, "kl"⟩⟩,
  ⟨105, n!"units::isq::si", n!"hectolitre", ⟨"units::isq::si::hectolitre", ⟨.named "units::isq::si::hectolitre", ⟨1, 1, (-3)⟩, "units::isq::si::cubic_metre", [.named "units::isq::si::cubic_decimetre", .scaled ⟨1, 1, (-3)⟩ "units::isq::si::cubic_metre"], true, "hl", none⟩, "hl"⟩⟩,
  ⟨105, n!"units::isq::si", n!"decalitre", ⟨"units::isq::si::decalitre", ⟨.named "units::isq::si::decalitre", ⟨1, 1, (-2)⟩, "units::isq::si::cubic_metre", [.scaled ⟨1, 1, (-2)⟩ "units::isq::si::cubic_metre"], true, "dal", none⟩, "dal"⟩⟩,
  ⟨105, n!"units::isq::si", n!"decilitre", ⟨"units::isq::si::decilitre", ⟨.named "units::isq::si::decilitre", ⟨1, 1, (-4)⟩, "units::isq::si::cubic_metre", [.scaled ⟨1, 1, (-4)⟩ "units::isq::si::cubic_metre"], true, "dl", none⟩, "dl"⟩⟩,
  ⟨105, n!"units::isq::si", n!"centilitre", ⟨"units::isq::si::centilitre", ⟨.named "units::isq::si::centilitre", ⟨1, 1, (-5)⟩, "units::isq::si::cubic_metre", [.scaled ⟨1, 1, (-5)⟩ "units::isq::si::cubic_metre"], true, "cl", none⟩, "cl"⟩⟩,
  ⟨105, n!"units::isq::si", n!"millilitre", ⟨"units::isq::si::millilitre", ⟨.named "units::isq::si::millilitre", ⟨1, 1, (-6)⟩, "units::isq::si::cubic_metre", [.named "units::isq::si::cubic_centimetre", .scaled ⟨1, 1, (-6)⟩ "units::isq::si::cubic_metre"], true, "ml", none⟩, "ml"⟩⟩,
  ⟨105, n!"units::isq::si", n!"microlitre", ⟨"units::isq::si::microlitre", ⟨.named "units::isq::si::microlitre", ⟨1, 1, (-9)⟩, "units::isq::si::cubic_metre", [.named "units::isq::si::cubic_millimetre", .scaled ⟨1, 1, (-9)⟩ "units::isq::si::cubic_metre"], true, "µl", none⟩, "ul"⟩⟩,
  ⟨105, n!"units::isq::si", n!"nanolitre", ⟨"units::isq::si::nanolitre", ⟨.named "units::isq::si::nanolitre", ⟨1, 1, (-12)⟩, "units::isq::si::cubic_metre", [.scaled ⟨1, 1, (-12)⟩ "units::isq::si::cubic_metre"], true, "nl", none⟩, "nl"⟩⟩,
  ⟨105, n!"units::isq::si", n!"picolitre", ⟨"units::isq::si::picolitre", ⟨.named "units::isq::si::picolitre", ⟨1, 1, (-15)⟩, "units::isq::si::cubic_metre", [.scaled ⟨1, 1, (-15)⟩ "units::isq::si::cubic_metre"], true, "pl", none⟩, "pl"⟩⟩,
  ⟨105, n!"units::isq::si", n!"femtolitre", ⟨"units::isq::si::femtolitre", ⟨.named "units::isq::si::femtolitre", ⟨1, 1, (-18)⟩, "units::isq::si::cubic_metre", [.named "units::isq::si::cubic_micrometre", .scaled ⟨1, 1, (-18)⟩ "units::isq::si::cubic_metre"], true, "fl", none⟩, "fl"⟩⟩,
  ⟨105, n!"units::isq::si", n!"attolitre", ⟨"units::isq::si::attolitre", ⟨.named "units::isq::si::attolitre", ⟨1, 1, (-21)⟩, "units::isq::si::cubic_metre", [.scaled ⟨1, 1, (-21)⟩ "units::isq::si::cubic_metre"], true, "al", none⟩, "al"⟩⟩,
  ⟨105, n!"units::isq::si", n!"zeptolitre", ⟨"units::isq::si::zeptolitre", ⟨.named "units::isq::si::zeptolitre", ⟨1, 1, (-24)⟩, "units::isq::si::cubic_metre", [.scaled ⟨1, 1, (-24)⟩ "units::isq::si::cubic_metre"], true, "zl", none⟩, "zl"⟩⟩,
  ⟨105, n!"units::isq::si", n!"yoctolitre", ⟨"units::isq::si::yoctolitre", ⟨.named "units::isq::si::yoctolitre", ⟨1, 1, (-27)⟩, "units::isq::si::cubic_metre", [.named "units::isq::si::cubic_nanometre", .scaled ⟨1, 1, (-27)⟩ "units::isq::si::cubic_metre"], true, "yl", none⟩, "yl"⟩⟩,
  ⟨105, n!"units::isq::si", n!"litre", ⟨"units::isq::si::litre", ⟨.named "units::isq::si::litre", ⟨1, 1, (-3)⟩, "units::isq::si::cubic_metre", [.named "units::isq::si::cubic_decimetre", .scaled ⟨1, 1, (-3)⟩ "units::isq::si::cubic_metre"], true, "l", some "units::isq::si::prefix"⟩, "l"⟩⟩,
  ⟨105, n!"units::isq::si", n!"cubic_yottametre", ⟨"units::isq::si::cubic_yottametre", ⟨.named "units::isq::si::cubic_yottametre", ⟨1, 1, 72⟩, "units::isq::si::cubic_metre", [.scaled ⟨1, 1, 72⟩ "units::isq::si::cubic_metre"], false, "Ym³", none⟩, "Ym^3"⟩⟩,
  ⟨105, n!"units::isq::si", n!"cubic_zettametre", ⟨"units::isq::si::cubic_zettametre", ⟨.named "units::isq::si::cubic_zettametre", ⟨1, 1, 63⟩, "units::isq::si::cubic_metre", [.scaled ⟨1, 1, 63⟩ "units::isq::si::cubic_metre"], false, "Zm³", none⟩, "Zm^3"⟩⟩,
  ⟨105, n!"units::isq::si", n!"cubic_exametre", ⟨"units::isq::si::cubic_exametre", ⟨.named "units::isq::si::cubic_exametre", ⟨1, 1, 54⟩, "units::isq::si::cubic_metre", [.scaled ⟨1, 1, 54⟩ "units::isq::si::cubic_metre"], false, "Em³", none⟩, "Em^3"⟩⟩,
  ⟨105, n!"units::isq::si", n!"cubic_petametre", ⟨"units::isq::si::cubic_petametre", ⟨.named "units::isq::si::cubic_petametre", ⟨1, 1, 45⟩, "units::isq::si::cubic_metre", [.scaled ⟨1, 1, 45⟩ "units::isq::si::cubic_metre"], false, "Pm³", none⟩, "Pm^3"⟩⟩,
  ⟨105, n!"units::isq::si", n!"cubic_terametre", ⟨"units::isq::si::cubic_terametre", ⟨.named "units::isq::si::cubic_terametre", ⟨1, 1, 36⟩, "units::isq::si::cubic_metre", [.scaled ⟨1, 1, 36⟩ "units::isq::si::cubic_metre"], false, "Tm³", none⟩, "Tm^3"⟩⟩,
  ⟨105, n!"units::isq::si", n!"cubic_gigametre", ⟨"units::isq::si::cubic_gigametre", ⟨.named "units::isq::si::cubic_gigametre", ⟨1, 1, 27⟩, "units::isq::si::cubic_metre", [.scaled ⟨1, 1, 27⟩ "units::isq::si::cubic_metre"], false, "Gm³", none⟩, "Gm^3"⟩⟩]

/-- Part 5 of `unitTable`. -/
def unitTable5 : List (URow) := [
  ⟨105, n!"units::isq::si", n!"cubic_megametre", ⟨"units::isq::si::cubic_megametre", ⟨.named "units::isq::si::cubic_megametre", ⟨1, 1, 18⟩, "units::isq::si::cubic_metre", [.scaled ⟨1, 1, 18⟩ "units::isq::si::cubic_metre"], false, "Mm³", none⟩, "Mm^3"⟩⟩,
  ⟨105, n!"units::isq::si", n!"cubic_kilometre", ⟨"units::isq::si::cubic_kilometre", ⟨.named "units::isq::si::cubic_kilometre", ⟨1, 1, 9⟩, "units::isq::si::cubic_metre", [.scaled ⟨1, 1, 9⟩ "units::isq::si::cubic_metre"], false, "km³", none⟩, "km^3"⟩⟩,
  ⟨105, n!"units::isq::si", n!"cubic_hectometre", ⟨"units::isq::si::cubic_hectometre", ⟨.named "units::isq::si::cubic_hectometre", ⟨1, 1, 6⟩, "units::isq::si::cubic_metre", [.scaled ⟨1, 1, 6⟩ "units::isq::si::cubic_metre"], false, "hm³", none⟩, "hm^3"⟩⟩,
  ⟨105, n!"units::isq::si", n!"cubic_decametre", ⟨"units::isq::si::cubic_decametre", ⟨.named "units::isq::si::cubic_decametre", ⟨1, 1, 3⟩, "units::isq::si::cubic_metre", [.scaled ⟨1, 1, 3⟩ "units::isq::si::cubic_metre"], false, "dam³", none⟩, "dam^3"⟩⟩,
  ⟨105, n!"units::isq::si", n!"cubic_decimetre", ⟨"units::isq::si::cubic_decimetre", ⟨.named "units::isq::si::cubic_decimetre", ⟨1, 1, (-3)⟩, "units::isq::si::cubic_metre", [.scaled ⟨1, 1, (-3)⟩ "units::isq::si::cubic_metre"], false, "dm³", none⟩, "dm^3"⟩⟩,
  ⟨105, n!"units::isq::si", n!"cubic_centimetre", ⟨"units::isq::si::cubic_centimetre", ⟨.named "units::isq::si::cubic_centimetre", ⟨1, 1, (-6)⟩, "units::isq::si::cubic_metre", [.scaled ⟨1, 1, (-6)⟩ "units::isq::si::cubic_metre"], false, "cm³", none⟩, "cm^3"⟩⟩,
  ⟨105, n!"units::isq::si", n!"cubic_millimetre", ⟨"units::isq::si::cubic_millimetre", ⟨.named "units::isq::si::cubic_millimetre", ⟨1, 1, (-9)⟩, "units::isq::si::cubic_metre", [.scaled ⟨1, 1, (-9)⟩ "units::isq::si::cubic_metre"], false, "mm³", none⟩, "mm^3"⟩⟩,
  ⟨105, n!"units::isq::si", n!"cubic_micrometre", ⟨"units::isq::si::cubic_micrometre", ⟨.named "units::isq::si::cubic_micrometre", ⟨1, 1, (-18)⟩, "units::isq::si::cubic_metre", [.scaled ⟨1, 1, (-18)⟩ "units::isq::si::cubic_metre"], false, "µm³", none⟩, "um^3"⟩⟩,
  ⟨105, n!"units::isq::si", n!"cubic_nanometre", ⟨"units::isq::si::cubic_nanometre", ⟨.named "units::isq::si::cubic_nanometre", ⟨1, 1, (-27)⟩, "units::isq::si::cubic_metre", [.scaled ⟨1, 1, (-27)⟩ "units::isq::si::cubic_metre"], false, "nm³", none⟩, "nm^3"⟩⟩,
  ⟨105, n!"units::isq::si", n!"cubic_picometre", ⟨"units::isq::si::cubic_picometre", ⟨.named "units::isq::si::cubic_picometre", ⟨1, 1, (-36)⟩, "units::isq::si::cubic_metre", [.scaled ⟨1, 1, (-36)⟩ "units::isq::si::cubic_metre"], false, "pm³", none⟩, "pm^3"⟩⟩,
  ⟨105, n!"units::isq::si", n!"cubic_femtometre", ⟨"units::isq::si::cubic_femtometre", ⟨.named "units::isq::si::cubic_femtometre", ⟨1, 1, (-45)⟩, "units::isq::si::cubic_metre", [.scaled ⟨1, 1, (-45)⟩ "units::isq::si::cubic_metre"], false, "fm³", none⟩, "fm^3"⟩⟩,
  ⟨105, n!"units::isq::si", n!"cubic_attometre", ⟨"units::isq::si::cubic_attometre", ⟨.named "units::isq::si::cubic_attometre", ⟨1, 1, (-54)⟩, "units::isq::si::cubic_metre", [.scaled ⟨1, 1, (-54)⟩ "units::isq::si::cubic_metre"], false, "am³", none⟩, "am^3"⟩⟩,
  ⟨105, n!"units::isq::si", n!"cubic_zeptometre", ⟨"units::isq::si::cubic_zeptometre", ⟨.named "units::isq::si::cubic_zeptometre", ⟨1, 1, (-63)⟩, "units::isq::si::cubic_metre", [.scaled ⟨1, 1, (-63)⟩ "units::isq::si::cubic_metre"], false, "zm³", none⟩, "zm^3"⟩⟩,
  ⟨105, n!"units::isq::si", n!"cubic_yoctometre", ⟨"units::isq::si::cubic_yoctometre", ⟨.named "units::isq::si::cubic_yoctometre", ⟨1, 1, (-72)⟩, "units::isq::si::cubic_metre", [.scaled ⟨1, 1, (-72)⟩ "units::isq::si::cubic_metre"], false, "ym³", none⟩, "ym^3"⟩⟩,
  ⟨105, n!"units::isq::si", n!"cubic_metre", ⟨"units::isq::si::cubic_metre", ⟨.named "units::isq::si::cubic_metre", ⟨1, 1, 0⟩, "units::isq::si::cubic_metre", [.scaled ⟨1, 1, 0⟩ "units::isq::si::cubic_metre"], false, "", none⟩, ""⟩⟩,
  ⟨104, n!"units::isq::si", n!"volt_per_metre", ⟨"units::isq::si::volt_per_metre", ⟨.named "units::isq::si::volt_per_metre", ⟨1, 1, 0⟩, "units::isq::si::volt_per_metre", [.scaled ⟨1, 1, 0⟩ "units::isq::si::volt_per_metre"], false, "", none⟩, ""⟩⟩,
  ⟨103, n!"units::isq::si", n!"pascal_second", ⟨"units::isq::si::pascal_second", ⟨.named "units::isq::si::pascal_second", ⟨1, 1, 0⟩, "units::isq::si::pascal_second", [.scaled ⟨1, 1, 0⟩ "units::isq::si::pascal_second"], false, "", none⟩, ""⟩⟩,
  ⟨102, n!"units::isq::si", n!"yottapascal", ⟨"units::isq::si::yottapascal", ⟨.named "units::isq::si::yottapascal", ⟨1, 1, 24⟩, "units::isq::si::pascal", [.scaled ⟨1, 1, 24⟩ "units::isq::si::pascal"], true, "YPa", none⟩, "YPa"⟩⟩,
  ⟨102, n!"units::isq::si", n!"zettapascal", ⟨"units::isq::si::zettapascal", ⟨.named "units::isq::si::zettapascal", ⟨1, 1, 21⟩, "units::isq::si::pascal", [.scaled ⟨1, 1, 21⟩ "units::isq::si::pascal"], true, "ZPa", none⟩, "ZPa"⟩⟩,
  ⟨102, n!"units::isq::si", n!"exapascal", ⟨"units::isq::si::exapascal", ⟨.named "units::isq::si::exapascal", ⟨1, 1, 18⟩, "units::isq::si::pascal", [.scaled ⟨1, 1, 18⟩ "units::isq::si::pascal"], true, "EPa", none⟩, "EPa"⟩⟩,
  ⟨102, n!"units::isq::si", n!"petapascal", ⟨"units::isq::si::petapascal", ⟨.named "units::isq::si::petapascal", ⟨1, 1, 15⟩, "units::isq::si::pascal", [.scaled ⟨1, 1, 15⟩ "units::isq::si::pascal"], true, "PPa", none⟩, "PPa"⟩⟩,
  ⟨102, n!"units::isq::si", n!"terapascal", ⟨"units::isq::si::terapascal", ⟨.named "units::isq::si::terapascal", ⟨1, 1, 12⟩, "units::isq::si::pascal", [.scaled ⟨1, 1, 12⟩ "units::isq::si::pascal"], true, "TPa", none⟩, "TPa"⟩⟩,
  ⟨102, n!"units::isq::si", n!"gigapascal", ⟨"units::isq::si::gigapascal", ⟨.named "units::isq::si::gigapascal", ⟨1, 1, 9⟩, "units::isq::si::pascal", [.scaled ⟨1, 1, 9⟩ "units::isq::si::pascal"], true, "GPa", none⟩, "GPa"⟩⟩,
  ⟨102, n!"units::isq::si", n!"megapascal", ⟨"units::isq::si::megapascal", ⟨.named "units::isq::si::megapascal", ⟨1, 1, 6⟩, "units::isq::si::pascal", [.scaled ⟨1, 1, 6⟩ "units::isq::si::pascal"], true, "MPa", none⟩, "MPa"⟩⟩,
  ⟨102, n!"units::isq::si", n!"kilopascal", ⟨"units::isq::si::kilopascal", ⟨.named "units::isq::si::kilopascal", ⟨1, 1, 3⟩, "units::isq::si::pascal", [.scaled ⟨1, 1, 3⟩ "units::isq::si::pascal"], true, "kPa", none⟩, "kPa"⟩⟩,
  ⟨102, n!"units::isq::si", n!"hectopascal", ⟨"units::isq::si::hectopascal", ⟨.named "units::isq::si::hectopascal", ⟨1, 1, 2⟩, "units::isq::si::pascal", [.scaled ⟨1, 1, 2⟩ "units::isq::si::pascal"], true, "hPa", none⟩, "hPa"⟩⟩,
  ⟨102, n!"units::isq::si", n!"decapascal", ⟨"units::isq::si::decapascal", ⟨.named "units::isq::si::decapascal", ⟨1, 1, 1⟩, "units::isq::si::pascal", [.scaled ⟨1, 1, 1⟩ "units::isq::si::pascal"], true, "daPa", none⟩, "daPa"⟩⟩,
  ⟨102, n!"units::isq::si", n!"decipascal", ⟨"units::isq::si::decipascal", ⟨.named "units::isq::si::decipascal", ⟨1, 1, (-1)⟩, "units::isq::si::pascal", [.scaled ⟨1, 1, (-1)⟩ "units::isq::si::pascal"], true, "dPa", none⟩, "dPa"⟩⟩,
  ⟨102, n!"units::isq::si", n!"centipascal", ⟨"units::isq::si::centipascal", ⟨.named "units::isq::si::centipascal", ⟨1, 1, (-2)⟩, "units::isq::si::pascal", [.scaled ⟨1, 1, (-2)⟩ "units::isq::si::pascal"], true, "cPa", none⟩, "cPa"⟩⟩,
  ⟨102, n!"units::isq::si", n!"millipascal", ⟨"units::isq::si::millipascal", ⟨.named "units::isq::si::millipascal", ⟨1, 1, (-3)⟩, "units::isq::si::pascal", [.scaled ⟨1, 1, (-3)⟩ "units::isq::si::pascal"], true, "mPa", none⟩, "mPa"⟩⟩,
  ⟨102, n!"units::isq::si", n!"micropascal", ⟨"units::isq::si::micropascal", ⟨.named "units::isq::si::micropascal", ⟨1, 1, (-6)⟩, "units::isq::si::pascal", [.scaled ⟨1, 1, (-6)⟩ "units::isq::si::pascal"], true, "µPa", none⟩, "uPa"⟩⟩,
  ⟨102, n!"units::isq::si", n!"nanopascal", ⟨"units::isq::si::nanopascal", ⟨.named "units::isq::si::nanopascal", ⟨1, 1, (-9)⟩, "units::isq::si::pascal", [.scaled ⟨1, 1, (-9)⟩ "units::isq::si::pascal"], true, "nPa", none⟩, "nPa"⟩⟩,
  ⟨102, n!"units::isq::si", n!"picopascal", ⟨"units::isq::si::picopascal", ⟨.named "units::isq::si::picopascal", ⟨1, 1, (-12)⟩, "units::isq::si::pascal", [.scaled ⟨1, 1, (-12)⟩ "units::isq::si::pascal"], true, "pPa", none⟩, "pPa"⟩⟩,
  ⟨102, n!"units::isq::si", n!"femtopascal", ⟨"units::isq::si::femtopascal", ⟨.named "units::isq::si::femtopascal", ⟨1, 1, (-15)⟩, "units::isq::si::pascal", [.scaled ⟨1, 1, (-15)⟩ "units::isq::si::pascal"], true, "fPa", none⟩, "fPa"⟩⟩,
  ⟨102, n!"units::isq::si", n!"attopascal", ⟨"units::isq::si::attopascal", ⟨.named "units::isq::si::attopascal", ⟨1, 1, (-18)⟩, "units::isq::si::pascal", [.scaled ⟨1, 1, (-18)⟩ "units::isq::si::pascal"], true, "aPa", none⟩, "aPa"⟩⟩,
  ⟨102, n!"units::isq::si", n!"zeptopascal", ⟨"units::isq::si::zeptopascal", ⟨.named "units::isq::si::zeptopascal", ⟨1, 1, (-21)⟩, "units::isq::si::pascal", [.scaled ⟨1, 1, (-21)⟩ "units::isq::si::pascal"], true, "zPa", none⟩, "zPa"⟩⟩,
  ⟨102, n!"units::isq::si", n!"yoctopascal", ⟨"units::isq::si::yoctopascal", ⟨.named "units::isq::si::yoctopascal", ⟨1, 1, (-24)⟩, "units::isq::si::pascal", [.scaled ⟨1, 1, (-24)⟩ "units::isq::si::pascal"], true, "yPa", none⟩, "yPa"⟩⟩,
  ⟨102, n!"units::isq::si", n!"pascal", ⟨"units::isq::si::pascal", ⟨.named "units::isq::si::pascal", ⟨1, 1, 0⟩, "units::isq::si::pascal", [.scaled ⟨1, 1, 0⟩ "units::isq::si::pascal"], true, "Pa", some "units::isq::si::prefix"⟩, "Pa"⟩⟩,
  ⟨101, n!"units::isq::si", n!"kilogram_per_metre_cub", ⟨"units::isq::si::kilogram_per_metre_cub", ⟨.named "units::isq::si::kilogram_per_metre_cub", ⟨1, 1, 0⟩, "units::isq::si::kilogram_per_metre_cub", [.scaled ⟨1, 1, 0⟩ "units::isq::si::kilogram_per_metre_cub"], false, "", none⟩, ""⟩⟩,
  ⟨100, n!"units::isq::si", n!"ampere_per_metre_sq", ⟨"units::isq::si::ampere_per_metre_sq", ⟨.named "units::isq::si::ampere_per_metre_sq", ⟨1, 1, 0⟩, "units::isq::si::ampere_per_metre_sq", [.scaled ⟨1, 1, 0⟩ "units::isq::si::ampere_per_metre_sq"], false, "", none⟩, ""⟩⟩]

/-- Part 6 of `unitTable`. -/
def unitTable6 : List (URow) := [
  ⟨98, n!"units::isq::si", n!"kelvin", ⟨"units::isq::si::kelvin", ⟨.named "units::isq::si::kelvin", ⟨1, 1, 0⟩, "units::isq::si::kelvin", [.scaled ⟨1, 1, 0⟩ "units::isq::si::kelvin"], true, "K", none⟩, "K"⟩⟩,
  ⟨97, n!"units::isq::si", n!"yottasiemens", ⟨"units::isq::si::yottasiemens", ⟨.named "units::isq::si::yottasiemens", ⟨1, 1, 24⟩, "units::isq::si::siemens", [.scaled ⟨1, 1, 24⟩ "units::isq::si::siemens"], true, "YS", none⟩, "YS"⟩⟩,
  ⟨97, n!"units::isq::si", n!"zettasiemens", ⟨"units::isq::si::zettasiemens", ⟨.named "units::isq::si::zettasiemens", ⟨1, 1, 21⟩, "units::isq::si::siemens", [.scaled ⟨1, 1, 21⟩ "units::isq::si::siemens"], true, "ZS", none⟩, "ZS"⟩⟩,
  ⟨97, n!"units::isq::si", n!"exasiemens", ⟨"units::isq::si::exasiemens", ⟨.named "units::isq::si::exasiemens", ⟨1, 1, 18⟩, "units::isq::si::siemens", [.scaled ⟨1, 1, 18⟩ "units::isq::si::siemens"], true, "ES", none⟩, "ES"⟩⟩,
  ⟨97, n!"units::isq::si", n!"petasiemens", ⟨"units::isq::si::petasiemens", ⟨.named "units::isq::si::petasiemens", ⟨1, 1, 15⟩, "units::isq::si::siemens", [.scaled ⟨1, 1, 15⟩ "units::isq::si::siemens"], true, "PS", none⟩, "PS"⟩⟩,
  ⟨97, n!"units::isq::si", n!"terasiemens", ⟨"units::isq::si::terasiemens", ⟨.named "units::isq::si::terasiemens", ⟨1, 1, 12⟩, "units::isq::si::siemens", [.scaled ⟨1, 1, 12⟩ "units::isq::si::siemens"], true, "TS", none⟩, "TS"⟩⟩,
  ⟨97, n!"units::isq::si", n!"gigasiemens", ⟨"units::isq::si::gigasiemens", ⟨.named "units::isq::si::gigasiemens", ⟨1, 1, 9⟩, "units::isq::si::siemens", [.scaled ⟨1, 1, 9⟩ "units::isq::si::siemens"], true, "GS", none⟩, "GS"⟩⟩,
  ⟨97, n!"units::isq::si", n!"megasiemens", ⟨"units::isq::si::megasiemens", ⟨.named "units::isq::si::megasiemens", ⟨1, 1, 6⟩, "units::isq::si::siemens", [.scaled ⟨1, 1, 6⟩ "units::isq::si::siemens"], true, "MS", none⟩, "MS"⟩⟩,
  ⟨97, n!"units::isq::si", n!"kilosiemens", ⟨"units::isq::si::kilosiemens", ⟨.named "units::isq::si::kilosiemens", ⟨1, 1, 3⟩, "units::isq::si::siemens", [.scaled ⟨1, 1, 3⟩ "units::isq::si::siemens"], true, "kS", none⟩, "kS"⟩⟩,
  ⟨97, n!"units::isq::si", n!"millisiemens", ⟨"units::isq::si::millisiemens", ⟨.named "units::isq::si::millisiemens", ⟨1, 1, (-3)⟩, "units::isq::si::siemens", [.scaled ⟨1, 1, (-3)⟩ "units::isq::si::siemens"], true, "mS", none⟩, "mS"⟩⟩,
  ⟨97, n!"units::isq::si", n!"microsiemens", ⟨"units::isq::si::microsiemens", ⟨.named "units::isq::si::microsiemens", ⟨1, 1, (-6)⟩, "units::isq::si::siemens", [.scaled ⟨1, 1, (-6)⟩ "units::isq::si::siemens"], true, "µS", none⟩, "uS"⟩⟩,
  ⟨97, n!"units::isq::si", n!"nanosiemens", ⟨"units::isq::si::nanosiemens", ⟨.named "units::isq::si::nanosiemens", ⟨1, 1, (-9)⟩, "units::isq::si::siemens", [.scaled ⟨1, 1, (-9)⟩ "units::isq::si::siemens"], true, "nS", none⟩, "nS"⟩⟩,
  ⟨97, n!"units::isq::si", n!"picosiemens", ⟨"units::isq::si::picosiemens", ⟨.named "units::isq::si::picosiemens", ⟨1, 1, (-12)⟩, "units::isq::si::siemens", [.scaled ⟨1, 1, (-12)⟩ "units::isq::si::siemens"], true, "pS", none⟩, "pS"⟩⟩,
  ⟨97, n!"units::isq::si", n!"femtosiemens", ⟨"units::isq::si::femtosiemens", ⟨.named "units::isq::si::femtosiemens", ⟨1, 1, (-15)⟩, "units::isq::si::siemens", [.scaled ⟨1, 1, (-15)⟩ "units::isq::si::siemens"], true, "fS", none⟩, "fS"⟩⟩,
  ⟨97, n!"units::isq::si", n!"attosiemens", ⟨"units::isq::si::attosiemens", ⟨.named "units::isq::si::attosiemens", ⟨1, 1, (-18)⟩, "units::isq::si::siemens", [.scaled ⟨1, 1, (-18)⟩ "units::isq::si::siemens"], true, "aS", none⟩, "aS"⟩⟩,
  ⟨97, n!"units::isq::si", n!"zeptosiemens", ⟨"units::isq::si::zeptosiemens", ⟨.named "units::isq::si::zeptosiemens", ⟨1, 1, (-21)⟩, "units::isq::si::siemens", [.scaled ⟨1, 1, (-21)⟩ "units::isq::si::siemens"], true, "zS", none⟩, "zS"⟩⟩,
  ⟨97, n!"units::isq::si", n!"yoctosiemens", ⟨"units::isq::si::yoctosiemens", ⟨.named "units::isq::si::yoctosiemens", ⟨1, 1, (-24)⟩, "units::isq::si::siemens", [.scaled ⟨1, 1, (-24)⟩ "units::isq::si::siemens"], true, "yS", none⟩, "yS"⟩⟩,
  ⟨97, n!"units::isq::si", n!"siemens", ⟨"units::isq::si::siemens", ⟨.named "units::isq::si::siemens", ⟨1, 1, 0⟩, "units::isq::si::siemens", [.scaled ⟨1, 1, 0⟩ "units::isq::si::siemens"], true, "S", some "units::isq::si::prefix"⟩, "S"⟩⟩,
  ⟨96, n!"units::isq::si", n!"yottaohm", ⟨"units::isq::si::yottaohm", ⟨.named "units::isq::si::yottaohm", ⟨1, 1, 24⟩, "units::isq::si::ohm", [.scaled ⟨1, 1, 24⟩ "units::isq::si::ohm"], true, "YΩ", none⟩, "Yohm"⟩⟩,
  ⟨96, n!"units::isq::si", n!"zettaohm", ⟨"units::isq::si::zettaohm", ⟨.named "units::isq::si::zettaohm", ⟨1, 1, 21⟩, "units::isq::si::ohm", [.scaled ⟨1, 1, 21⟩ "units::isq::si::ohm"], true, "ZΩ", none⟩, "Zohm"⟩⟩,
  ⟨96, n!"units::isq::si", n!"exaohm", ⟨"units::isq::si::exaohm", ⟨.named "units::isq::si::exaohm", ⟨1, 1, 18⟩, "units::isq::si::ohm", [.scaled ⟨1, 1, 18⟩ "units::isq::si::ohm"], true, "EΩ", none⟩, "Eohm"⟩⟩,
  ⟨96, n!"units::isq::si", n!"petaohm", ⟨"units::isq::si::petaohm", ⟨.named "units::isq::si::petaohm", ⟨1, 1, 15⟩, "units::isq::si::ohm", [.scaled ⟨1, 1, 15⟩ "units::isq::si::ohm"], true, "PΩ", none⟩, "Pohm"⟩⟩,
  ⟨96, n!"units::isq::si", n!"teraohm", ⟨"units::isq::si::teraohm", ⟨.named "units::isq::si::teraohm", ⟨1, 1, 12⟩, "units::isq::si::ohm", [.scaled ⟨1, 1, 12⟩ "units::isq::si::ohm"], true, "TΩ", none⟩, "Tohm"⟩⟩,
  ⟨96, n!"units::isq::si", n!"gigaohm", ⟨"units::isq::si::gigaohm", ⟨.named "units::isq::si::gigaohm", ⟨1, 1, 9⟩, "units::isq::si::ohm", [.scaled ⟨1, 1, 9⟩ "units::isq::si::ohm"], true, "GΩ", none⟩, "Gohm"⟩⟩,
  ⟨96, n!"units::isq::si", n!"megaohm", ⟨"units::isq::si::megaohm", ⟨.named "units::isq::si::megaohm", ⟨1, 1, 6⟩, "units::isq::si::ohm", [.scaled ⟨1, 1, 6⟩ "units::isq::si::ohm"], true, "MΩ", none⟩, "Mohm"⟩⟩,
  ⟨96, n!"units::isq::si", n!"kiloohm", ⟨"units::isq::si::kiloohm", ⟨.named "units::isq::si::kiloohm", ⟨1, 1, 3⟩, "units::isq::si::ohm", [.scaled ⟨1, 1, 3⟩ "units::isq::si::ohm"], true, "kΩ", none⟩, "kohm"⟩⟩,
  ⟨96, n!"units::isq::si", n!"milliohm", ⟨"units::isq::si::milliohm", ⟨.named "units::isq::si::milliohm", ⟨1, 1, (-3)⟩, "units::isq::si::ohm", [.scaled ⟨1, 1, (-3)⟩ "units::isq::si::ohm"], true, "mΩ", none⟩, "mohm"⟩⟩,
  ⟨96, n!"units::isq::si", n!"microohm", ⟨"units::isq::si::microohm", ⟨.named "units::isq::si::microohm", ⟨1, 1, (-6)⟩, "units::isq::si::ohm", [.scaled ⟨1, 1, (-6)⟩ "units::isq::si::ohm"], true, "µΩ", none⟩, "uohm"⟩⟩,
  ⟨96, n!"units::isq::si", n!"nanoohm", ⟨"units::isq::si::nanoohm", ⟨.named "units::isq::si::nanoohm", ⟨1, 1, (-9)⟩, "units::isq::si::ohm", [.scaled ⟨1, 1, (-9)⟩ "units::isq::si::ohm"], true, "nΩ", none⟩, "nohm"⟩⟩,
  ⟨96, n!"units::isq::si", n!"picoohm", ⟨"units::isq::si::picoohm", ⟨.named "units::isq::si::picoohm", ⟨1, 1, (-12)⟩, "units::isq::si::ohm", [.scaled ⟨1, 1, (-12)⟩ "units::isq::si::ohm"], true, "pΩ", none⟩, "pohm"⟩⟩,
  ⟨96, n!"units::isq::si", n!"femtoohm", ⟨"units::isq::si::femtoohm", ⟨.named "units::isq::si::femtoohm", ⟨1, 1, (-15)⟩, "units::isq::si::ohm", [.scaled ⟨1, 1, (-15)⟩ "units::isq::si::ohm"], true, "fΩ", none⟩, "fohm"⟩⟩,
  ⟨96, n!"units::isq::si", n!"attoohm", ⟨"units::isq::si::attoohm", ⟨.named "units::isq::si::attoohm", ⟨1, 1, (-18)⟩, "units::isq::si::ohm", [.scaled ⟨1, 1, (-18)⟩ "units::isq::si::ohm"], true, "aΩ", none⟩, "aohm"⟩⟩,
  ⟨96, n!"units::isq::si", n!"zeptoohm", ⟨"units::isq::si::zeptoohm", ⟨.named "units::isq::si::zeptoohm", ⟨1, 1, (-21)⟩, "units::isq::si::ohm", [.scaled ⟨1, 1, (-21)⟩ "units::isq::si::ohm"], true, "zΩ", none⟩, "zohm"⟩⟩,
  ⟨96, n!"units::isq::si", n!"yoctoohm", ⟨"units::isq::si::yoctoohm", ⟨.named "units::isq::si::yoctoohm", ⟨1, 1, (-24)⟩, "units::isq::si::ohm", [.scaled ⟨1, 1, (-24)⟩ "units::isq::si::ohm"], true, "yΩ", none⟩, "yohm"⟩⟩,
  ⟨96, n!"units::isq::si", n!"ohm", ⟨"units::isq::si::ohm", ⟨.named "units::isq::si::ohm", ⟨1, 1, 0⟩, "units::isq::si::ohm", [.scaled ⟨1, 1, 0⟩ "units::isq::si::ohm"], true, "Ω", some "units::isq::si::prefix"⟩, "ohm"⟩⟩,
  ⟨95, n!"units::isq::si", n!"mol_per_metre_cub", ⟨"units::isq::si::mol_per_metre_cub", ⟨.named "units::isq::si::mol_per_metre_cub", ⟨1, 1, 0⟩, "units::isq::si::mol_per_metre_cub", [.scaled ⟨1, 1, 0⟩ "units::isq::si::mol_per_metre_cub"], false, "", none⟩, ""⟩⟩,
  ⟨94, n!"units::isq::si", n!"coulomb_per_metre_sq", ⟨"units::isq::si::coulomb_per_metre_sq", ⟨.named "units::isq::si::coulomb_per_metre_sq", ⟨1, 1, 0⟩, "units::isq::si::coulomb_per_metre_sq", [.scaled ⟨1, 1, 0⟩ "units::isq::si::coulomb_per_metre_sq"], false, "", none⟩, ""⟩⟩,
  ⟨94, n!"units::isq::si", n!"coulomb_per_metre_cub", ⟨"units::isq::si::coulomb_per_metre_cub", ⟨.named "units::isq::si::coulomb_per_metre_cub", ⟨1, 1, 0⟩, "units::isq::si::coulomb_per_metre_cub", [.scaled ⟨1, 1, 0⟩ "units::isq::si::coulomb_per_metre_cub"], false, "", none⟩, ""⟩⟩,
  ⟨92, n!"units::isq::si::cgs", n!"barye", ⟨"units::isq::si::cgs::barye", ⟨.named "units::isq::si::cgs::barye", ⟨1, 1, 0⟩, "units::isq::si::cgs::barye", [.scaled ⟨1, 1, 0⟩ "units::isq::si::cgs::barye"], true, "Ba", some "units::isq::si::prefix"⟩, "Ba"⟩⟩,
  ⟨91, n!"units::isq::si::cgs", n!"erg_per_second", ⟨"units::isq::si::cgs::erg_per_second", ⟨.named "units::isq::si::cgs::erg_per_second", ⟨1, 1, 0⟩, "units::isq::si::cgs::erg_per_second", [.scaled ⟨1, 1, 0⟩ "units::isq::si::cgs::erg_per_second"], false, "", none⟩, ""⟩⟩]

/-- Part 7 of `unitTable`. -/
def unitTable7 : List (URow) := [
  ⟨90, n!"units::isq::si::cgs", n!"erg", ⟨"units::isq::si::cgs::erg", ⟨.named "units::isq::si::cgs::erg", ⟨1, 1, 0⟩, "units::isq::si::cgs::erg", [.scaled ⟨1, 1, 0⟩ "units::isq::si::cgs::erg"], true, "erg", some "units::isq::si::prefix"⟩, "erg"⟩⟩,
  ⟨89, n!"units::isq::si::cgs", n!"dyne", ⟨"units::isq::si::cgs::dyne", ⟨.named "units::isq::si::cgs::dyne", ⟨1, 1, 0⟩, "units::isq::si::cgs::dyne", [.scaled ⟨1, 1, 0⟩ "units::isq::si::cgs::dyne"], true, "dyn", some "units::isq::si::prefix"⟩, "dyn"⟩⟩,
  ⟨88, n!"units::isq::si::cgs", n!"gram", ⟨"units::isq::si::gram", ⟨.named "units::isq::si::gram", ⟨1, 1, 0⟩, "units::isq::si::gram", [.scaled ⟨1, 1, 0⟩ "units::isq::si::gram"], true, "g", some "units::isq::si::prefix"⟩, "g"⟩⟩,
  ⟨87, n!"units::isq::si::cgs", n!"square_centimetre", ⟨"units::isq::si::square_centimetre", ⟨.named "units::isq::si::square_centimetre", ⟨1, 1, (-4)⟩, "units::isq::si::square_metre", [.scaled ⟨1, 1, (-4)⟩ "units::isq::si::square_metre"], false, "cm²", none⟩, "cm^2"⟩⟩,
  ⟨86, n!"units::isq::si::cgs", n!"gal", ⟨"units::isq::si::cgs::gal", ⟨.named "units::isq::si::cgs::gal", ⟨1, 1, 0⟩, "units::isq::si::cgs::gal", [.scaled ⟨1, 1, 0⟩ "units::isq::si::cgs::gal"], true, "Gal", some "units::isq::si::prefix"⟩, "Gal"⟩⟩,
  ⟨85, n!"units::isq::si::cgs", n!"centimetre_per_second", ⟨"units::isq::si::cgs::centimetre_per_second", ⟨.named "units::isq::si::cgs::centimetre_per_second", ⟨1, 1, 0⟩, "units::isq::si::cgs::centimetre_per_second", [.scaled ⟨1, 1, 0⟩ "units::isq::si::cgs::centimetre_per_second"], false, "", none⟩, ""⟩⟩,
  ⟨84, n!"units::isq::si::cgs", n!"second", ⟨"units::isq::si::second", ⟨.named "units::isq::si::second", ⟨1, 1, 0⟩, "units::isq::si::second", [.scaled ⟨1, 1, 0⟩ "units::isq::si::second"], true, "s", some "units::isq::si::prefix"⟩, "s"⟩⟩,
  ⟨83, n!"units::isq::si::cgs", n!"centimetre", ⟨"units::isq::si::centimetre", ⟨.named "units::isq::si::centimetre", ⟨1, 1, (-2)⟩, "units::isq::si::metre", [.scaled ⟨1, 1, (-2)⟩ "units::isq::si::metre"], true, "cm", none⟩, "cm"⟩⟩,
  ⟨82, n!"units::isq::si", n!"enzyme_unit", ⟨"units::isq::si::enzyme_unit", ⟨.named "units::isq::si::enzyme_unit", ⟨1, 6, (-7)⟩, "units::isq::si::katal", [.scaled ⟨1, 6, (-7)⟩ "units::isq::si::katal"], true, "U", some "units::isq::si::prefix"⟩, "U"⟩⟩,
  ⟨82, n!"units::isq::si", n!"yottakatal", ⟨"units::isq::si::yottakatal", ⟨.named "units::isq::si::yottakatal", ⟨1, 1, 24⟩, "units::isq::si::katal", [.scaled ⟨1, 1, 24⟩ "units::isq::si::katal"], true, "Ykat", none⟩, "Ykat"⟩⟩,
  ⟨82, n!"units::isq::si", n!"zettakatal", ⟨"units::isq::si::zettakatal", ⟨.named "units::isq::si::zettakatal", ⟨1, 1, 21⟩, "units::isq::si::katal", [.scaled ⟨1, 1, 21⟩ "units::isq::si::katal"], true, "Zkat", none⟩, "Zkat"⟩⟩,
  ⟨82, n!"units::isq::si", n!"exakatal", ⟨"units::isq::si::exakatal", ⟨.named "units::isq::si::exakatal", ⟨1, 1, 18⟩, "units::isq::si::katal", [.scaled ⟨1, 1, 18⟩ "units::isq::si::katal"], true, "Ekat", none⟩, "Ekat"⟩⟩,
  ⟨82, n!"units::isq::si", n!"petakatal", ⟨"units::isq::si::petakatal", ⟨.named "units::isq::si::petakatal", ⟨1, 1, 15⟩, "units::isq::si::katal", [.scaled ⟨1, 1, 15⟩ "units::isq::si::katal"], true, "Pkat", none⟩, "Pkat"⟩⟩,
  ⟨82, n!"units::isq::si", n!"terakatal", ⟨"units::isq::si::terakatal", ⟨.named "units::isq::si::terakatal", ⟨1, 1, 12⟩, "units::isq::si::katal", [.scaled ⟨1, 1, 12⟩ "units::isq::si::katal"], true, "Tkat", none⟩, "Tkat"⟩⟩,
  ⟨82, n!"units::isq::si", n!"gigakatal", ⟨"units::isq::si::gigakatal", ⟨.named "units::isq::si::gigakatal", ⟨1, 1, 9⟩, "units::isq::si::katal", [.scaled ⟨1, 1, 9⟩ "units::isq::si::katal"], true, "Gkat", none⟩, "Gkat"⟩⟩,
  ⟨82, n!"units::isq::si", n!"megakatal", ⟨"units::isq::si::megakatal", ⟨.named "units::isq::si::megakatal", ⟨1, 1, 6⟩, "units::isq::si::katal", [.scaled ⟨1, 1, 6⟩ "units::isq::si::katal"], true, "Mkat", none⟩, "Mkat"⟩⟩,
  ⟨82, n!"units::isq::si", n!"kilokatal", ⟨"units::isq::si::kilokatal", ⟨.named "units::isq::si::kilokatal", ⟨1, 1, 3⟩, "units::isq::si::katal", [.scaled ⟨1, 1, 3⟩ "units::isq::si::katal"], true, "kkat", none⟩, "kkat"⟩⟩,
  ⟨82, n!"units::isq::si", n!"hectokatal", ⟨"units::isq::si::hectokatal", ⟨.named "units::isq::si::hectokatal", ⟨1, 1, 2⟩, "units::isq::si::katal", [.scaled ⟨1, 1, 2⟩ "units::isq::si::katal"], true, "hkat", none⟩, "hkat"⟩⟩,
  ⟨82, n!"units::isq::si", n!"decakatal", ⟨"units::isq::si::decakatal", ⟨.named "units::isq::si::decakatal", ⟨1, 1, 1⟩, "units::isq::si::katal", [.scaled ⟨1, 1, 1⟩ "units::isq::si::katal"], true, "dakat", none⟩, "dakat"⟩⟩,
  ⟨82, n!"units::isq::si", n!"decikatal", ⟨"units::isq::si::decikatal", ⟨.named "units::isq::si::decikatal", ⟨1, 1, (-1)⟩, "units::isq::si::katal", [.scaled ⟨1, 1, (-1)⟩ "units::isq::si::katal"], true, "dkat", none⟩, "dkat"⟩⟩,
  ⟨82, n!"units::isq::si", n!"centikatal", ⟨"units::isq::si::centikatal", ⟨.named "units::isq::si::centikatal", ⟨1, 1, (-2)⟩, "units::isq::si::katal", [.scaled ⟨1, 1, (-2)⟩ "units::isq::si::katal"], true, "ckat", none⟩, "ckat"⟩⟩,
  ⟨82, n!"units::isq::si", n!"millikatal", ⟨"units::isq::si::millikatal", ⟨.named "units::isq::si::millikatal", ⟨1, 1, (-3)⟩, "units::isq::si::katal", [.scaled ⟨1, 1, (-3)⟩ "units::isq::si::katal"], true, "mkat", none⟩, "mkat"⟩⟩,
  ⟨82, n!"units::isq::si", n!"microkatal", ⟨"units::isq::si::microkatal", ⟨.named "units::isq::si::microkatal", ⟨1, 1, (-6)⟩, "units::isq::si::katal", [.scaled ⟨1, 1, (-6)⟩ "units::isq::si::katal"], true, "µkat", none⟩, "ukat"⟩⟩,
  ⟨82, n!"units::isq::si", n!"nanokatal", ⟨"units::isq::si::nanokatal", ⟨.named "units::isq::si::nanokatal", ⟨1, 1, (-9)⟩, "units::isq::si::katal", [.scaled ⟨1, 1, (-9)⟩ "units::isq::si::katal"], true, "nkat", none⟩, "nkat"⟩⟩,
  ⟨82, n!"units::isq::si", n!"picokatal", ⟨"units::isq::si::picokatal", ⟨.named "units::isq::si::picokatal", ⟨1, 1, (-12)⟩, "units::isq::si::katal", [.scaled ⟨1, 1, (-12)⟩ "units::isq::si::katal"], true, "pkat", none⟩, "pkat"⟩⟩,
  ⟨82, n!"units::isq::si", n!"femtokatal", ⟨"units::isq::si::femtokatal", ⟨.named "units::isq::si::femtokatal", ⟨1, 1, (-15)⟩, "units::isq::si::katal", [.scaled ⟨1, 1, (-15)⟩ "units::isq::si::katal"], true, "fkat", none⟩, "fkat"⟩⟩,
  ⟨82, n!"units::isq::si", n!"attokatal", ⟨"units::isq::si::attokatal", ⟨.named "units::isq::si::attokatal", ⟨1, 1, (-18)⟩, "units::isq::si::katal", [.scaled ⟨1, 1, (-18)⟩ "units::isq::si::katal"], true, "akat", none⟩, "akat"⟩⟩,
  ⟨82, n!"units::isq::si", n!"zeptokatal", ⟨"units::isq::si::zeptokatal", ⟨.named "units::isq::si::zeptokatal", ⟨1, 1, (-21)⟩, "units::isq::si::katal", [.scaled ⟨1, 1, (-21)⟩ "units::isq::si::katal"], true, "zkat", none⟩, "zkat"⟩⟩,
  ⟨82, n!"units::isq::si", n!"yoctokatal", ⟨"units::isq::si::yoctokatal", ⟨.named "units::isq::si::yoctokatal", ⟨1, 1, (-24)⟩, "units::isq::si::katal", [.scaled ⟨1, 1, (-24)⟩ "units::isq::si::katal"], true, "ykat", none⟩, "ykat"⟩⟩,
  ⟨82, n!"units::isq::si", n!"katal", ⟨"units::isq::si::katal", ⟨.named "units::isq::si::katal", ⟨1, 1, 0⟩, "units::isq::si::katal", [.scaled ⟨1, 1, 0⟩ "units::isq::si::katal"], true, "kat", some "units::isq::si::prefix"⟩, "kat"⟩⟩,
  ⟨81, n!"units::isq::si", n!"yottafarad", ⟨"units::isq::si::yottafarad", ⟨.named "units::isq::si::yottafarad", ⟨1, 1, 24⟩, "units::isq::si::farad", [.scaled ⟨1, 1, 24⟩ "units::isq::si::farad"], true, "YF", none⟩, "YF"⟩⟩,
  ⟨81, n!"units::isq::si", n!"zettafarad", ⟨"units::isq::si::zettafarad", ⟨.named "units::isq::si::zettafarad", ⟨1, 1, 21⟩, "units::isq::si::farad", [.scaled ⟨1, 1, 21⟩ "units::isq::si::farad"], true, "ZF", none⟩, "ZF"⟩⟩,
  ⟨81, n!"units::isq::si", n!"exafarad", ⟨"units::isq::si::exafarad", ⟨.named "units::isq::si::exafarad", ⟨1, 1, 18⟩, "units::isq::si::farad", [.scaled ⟨1, 1, 18⟩ "units::isq::si::farad"], true, "EF", none⟩, "EF"⟩⟩,
  ⟨81, n!"units::isq::si", n!"petafarad", ⟨"units::isq::si::petafarad", ⟨.named "units::isq::si::petafarad", ⟨1, 1, 15⟩, "units::isq::si::farad", [.scaled ⟨1, 1, 15⟩ "units::isq::si::farad"], true, "PF", none⟩, "PF"⟩⟩,
  ⟨81, n!"units::isq::si", n!"terafarad", ⟨"units::isq::si::terafarad", ⟨.named "units::isq::si::terafarad", ⟨1, 1, 12⟩, "units::isq::si::farad", [.scaled ⟨1, 1, 12⟩ "units::isq::si::farad"], true, "TF", none⟩, "TF"⟩⟩,
  ⟨81, n!"units::isq::si", n!"gigafarad", ⟨"units::isq::si::gigafarad", ⟨.named "units::isq::si::gigafarad", ⟨1, 1, 9⟩, "units::isq::si::farad", [.scaled ⟨1, 1, 9⟩ "units::isq::si::farad"], true, "GF", none⟩, "GF"⟩⟩,
  ⟨81, n!"units::isq::si", n!"megafarad", ⟨"units::isq::si::megafarad", ⟨.named "units::isq::si::megafarad", ⟨1, 1, 6⟩, "units::isq::si::farad", [.scaled ⟨1, 1, 6⟩ "units::isq::si::farad"], true, "MF", none⟩, "MF"⟩⟩,
  ⟨81, n!"units::isq::si", n!"kilofarad", ⟨"units::isq::si::kilofarad", ⟨.named "units::isq::si::kilofarad", ⟨1, 1, 3⟩, "units::isq::si::farad", [.scaled ⟨1, 1, 3⟩ "units::isq::si::farad"], true, "kF", none⟩, "kF"⟩⟩,
  ⟨81, n!"units::isq::si", n!"hectofarad", ⟨"units::isq::si::hectofarad", ⟨.named "units::isq::si::hectofarad", ⟨1, 1, 2⟩, "units::isq::si::farad", [.scaled ⟨1, 1, 2⟩ "units::isq::si::farad"], true, "hF", none⟩, "hF"⟩⟩,
  ⟨81, n!"units::isq::si", n!"decafarad", ⟨"units::isq::si::decafarad", ⟨.named "units::isq::si::decafarad", ⟨1, 1, 1⟩, "units::isq::si::farad", [.scaled ⟨1, 1, 1⟩ "units::isq::si::farad"], true, "daF", none⟩, "daF"⟩⟩]

/-- Part 8 of `unitTable`. -/
def unitTable8 : List (URow) := [
  ⟨81, n!"units::isq::si", n!"decifarad", ⟨"units::isq::si::decifarad", ⟨.named "units::isq::si::decifarad", ⟨1, 1, (-1)⟩, "units::isq::si::farad", [.scaled ⟨1, 1, (-1)⟩ "units::isq::si::farad"], true, "dF", none⟩, "dF"⟩⟩,
  ⟨81, n!"units::isq::si", n!"centifarad", ⟨"units::isq::si::centifarad", ⟨.named "units::isq::si::centifarad", ⟨1, 1, (-2)⟩, "units::isq::si::farad", [.scaled ⟨1, 1, (-2)⟩ "units::isq::si::farad"], true, "cF", none⟩, "cF"⟩⟩,
  ⟨81, n!"units::isq::si", n!"millifarad", ⟨"units::isq::si::millifarad", ⟨.named "units::isq::si::millifarad", ⟨1, 1, (-3)⟩, "units::isq::si::farad", [.scaled ⟨1, 1, (-3)⟩ "units::isq::si::farad"], true, "mF", none⟩, "mF"⟩⟩,
  ⟨81, n!"units::isq::si", n!"microfarad", ⟨"units::isq::si::microfarad", ⟨.named "units::isq::si::microfarad", ⟨1, 1, (-6)⟩, "units::isq::si::farad", [.scaled ⟨1, 1, (-6)⟩ "units::isq::si::farad"], true, "µF", none⟩, "uF"⟩⟩,
  ⟨81, n!"units::isq::si", n!"nanofarad", ⟨"units::isq::si::nanofarad", ⟨.named "units::isq::si::nanofarad", ⟨1, 1, (-9)⟩, "units::isq::si::farad", [.scaled ⟨1, 1, (-9)⟩ "units::isq::si::farad"], true, "nF", none⟩, "nF"⟩⟩,
  ⟨81, n!"units::isq::si", n!"picofarad", ⟨"units::isq::si::picofarad", ⟨.named "units::isq::si::picofarad", ⟨1, 1, (-12)⟩, "units::isq::si::farad", [.scaled ⟨1, 1, (-12)⟩ "units::isq::si::farad"], true, "pF", none⟩, "pF"⟩⟩,
  ⟨81, n!"units::isq::si", n!"femtofarad", ⟨"units::isq::si::femtofarad", ⟨.named "units::isq::si::femtofarad", ⟨1, 1, (-15)⟩, "units::isq::si::farad", [.scaled ⟨1, 1, (-15)⟩ "units::isq::si::farad"], true, "fF", none⟩, "fF"⟩⟩,
  ⟨81, n!"units::isq::si", n!"attofarad", ⟨"units::isq::si::attofarad", ⟨.named "units::isq::si::attofarad", ⟨1, 1, (-18)⟩, "units::isq::si::farad", [.scaled ⟨1, 1, (-18)⟩ "units::isq::si::farad"], true, "aF", none⟩, "aF"⟩⟩,
  ⟨81, n!"units::isq::si", n!"zeptofarad", ⟨"units::isq::si::zeptofarad", ⟨.named "units::isq::si::zeptofarad", ⟨1, 1, (-21)⟩, "units::isq::si::farad", [.scaled ⟨1, 1, (-21)⟩ "units::isq::si::farad"], true, "zF", none⟩, "zF"⟩⟩,
  ⟨81, n!"units::isq::si", n!"yoctofarad", ⟨"units::isq::si::yoctofarad", ⟨.named "units::isq::si::yoctofarad", ⟨1, 1, (-24)⟩, "units::isq::si::farad", [.scaled ⟨1, 1, (-24)⟩ "units::isq::si::farad"], true, "yF", none⟩, "yF"⟩⟩,
  ⟨81, n!"units::isq::si", n!"farad", ⟨"units::isq::si::farad", ⟨.named "units::isq::si::farad", ⟨1, 1, 0⟩, "units::isq::si::farad", [.scaled ⟨1, 1, 0⟩ "units::isq::si::farad"], true, "F", some "units::isq::si::prefix"⟩, "F"⟩⟩,
  ⟨80, n!"units::isq::si", n!"yottavolt", ⟨"units::isq::si::yottavolt", ⟨.named "units::isq::si::yottavolt", ⟨1, 1, 24⟩, "units::isq::si::volt", [.scaled ⟨1, 1, 24⟩ "units::isq::si::volt"], true, "YV", none⟩, "YV"⟩⟩,
  ⟨80, n!"units::isq::si", n!"zettavolt", ⟨"units::isq::si::zettavolt", ⟨.named "units::isq::si::zettavolt", ⟨1, 1, 21⟩, "units::isq::si::volt", [.scaled ⟨1, 1, 21⟩ "units::isq::si::volt"], true, "ZV", none⟩, "ZV"⟩⟩,
  ⟨80, n!"units::isq::si", n!"exavolt", ⟨"units::isq::si::exavolt", ⟨.named "units::isq::si::exavolt", ⟨1, 1, 18⟩, "units::isq::si::volt", [.scaled ⟨1, 1, 18⟩ "units::isq::si::volt"], true, "EV", none⟩, "EV"⟩⟩,
  ⟨80, n!"units::isq::si", n!"petavolt", ⟨"units::isq::si::petavolt", ⟨.named "units::isq::si::petavolt", ⟨1, 1, 15⟩, "units::isq::si::volt", [.scaled ⟨1, 1, 15⟩ "units::isq::si::volt"], true, "PV", none⟩, "PV"⟩⟩,
  ⟨80, n!"units::isq::si", n!"teravolt", ⟨"units::isq::si::teravolt", ⟨.named "units::isq::si::teravolt", ⟨1, 1, 12⟩, "units::isq::si::volt", [.scaled ⟨1, 1, 12⟩ "units::isq::si::volt"], true, "TV", none⟩, "TV"⟩⟩,
  ⟨80, n!"units::isq::si", n!"gigavolt", ⟨"units::isq::si::gigavolt", ⟨.named "units::isq::si::gigavolt", ⟨1, 1, 9⟩, "units::isq::si::volt", [.scaled ⟨1, 1, 9⟩ "units::isq::si::volt"], true, "GV", none⟩, "GV"⟩⟩,
  ⟨80, n!"units::isq::si", n!"megavolt", ⟨"units::isq::si::megavolt", ⟨.named "units::isq::si::megavolt", ⟨1, 1, 6⟩, "units::isq::si::volt", [.scaled ⟨1, 1, 6⟩ "units::isq::si::volt"], true, "MV", none⟩, "MV"⟩⟩,
  ⟨80, n!"units::isq::si", n!"kilovolt", ⟨"units::isq::si::kilovolt", ⟨.named "units::isq::si::kilovolt", ⟨1, 1, 3⟩, "units::isq::si::volt", [.scaled ⟨1, 1, 3⟩ "units::isq::si::volt"], true, "kV", none⟩, "kV"⟩⟩,
  ⟨80, n!"units::isq::si", n!"hectovolt", ⟨"units::isq::si::hectovolt", ⟨.named "units::isq::si::hectovolt", ⟨1, 1, 2⟩, "units::isq::si::volt", [.scaled ⟨1, 1, 2⟩ "units::isq::si::volt"], true, "hV", none⟩, "hV"⟩⟩,
  ⟨80, n!"units::isq::si", n!"decavolt", ⟨"units::isq::si::decavolt", ⟨.named "units::isq::si::decavolt", ⟨1, 1, 1⟩, "units::isq::si::volt", [.scaled ⟨1, 1, 1⟩ "units::isq::si::volt"], true, "daV", none⟩, "daV"⟩⟩,
  ⟨80, n!"units::isq::si", n!"decivolt", ⟨"units::isq::si::decivolt", ⟨.named "units::isq::si::decivolt", ⟨1, 1, (-1)⟩, "units::isq::si::volt", [.scaled ⟨1, 1, (-1)⟩ "units::isq::si::volt"], true, "dV", none⟩, "dV"⟩⟩,
  ⟨80, n!"units::isq::si", n!"centivolt", ⟨"units::isq::si::centivolt", ⟨.named "units::isq::si::centivolt", ⟨1, 1, (-2)⟩, "units::isq::si::volt", [.scaled ⟨1, 1, (-2)⟩ "units::isq::si::volt"], true, "cV", none⟩, "cV"⟩⟩,
  ⟨80, n!"units::isq::si", n!"millivolt", ⟨"units::isq::si::millivolt", ⟨.named "units::isq::si::millivolt", ⟨1, 1, (-3)⟩, "units::isq::si::volt", [.scaled ⟨1, 1, (-3)⟩ "units::isq::si::volt"], true, "mV", none⟩, "mV"⟩⟩,
  ⟨80, n!"units::isq::si", n!"microvolt", ⟨"units::isq::si::microvolt", ⟨.named "units::isq::si::microvolt", ⟨1, 1, (-6)⟩, "units::isq::si::volt", [.scaled ⟨1, 1, (-6)⟩ "units::isq::si::volt"], true, "µV", none⟩, "uV"⟩⟩,
  ⟨80, n!"units::isq::si", n!"nanovolt", ⟨"units::isq::si::nanovolt", ⟨.named "units::isq::si::nanovolt", ⟨1, 1, (-9)⟩, "units::isq::si::volt", [.scaled ⟨1, 1, (-9)⟩ "units::isq::si::volt"], true, "nV", none⟩, "nV"⟩⟩,
  ⟨80, n!"units::isq::si", n!"picovolt", ⟨"units::isq::si::picovolt", ⟨.named "units::isq::si::picovolt", ⟨1, 1, (-12)⟩, "units::isq::si::volt", [.scaled ⟨1, 1, (-12)⟩ "units::isq::si::volt"], true, "pV", none⟩, "pV"⟩⟩,
  ⟨80, n!"units::isq::si", n!"femtovolt", ⟨"units::isq::si::femtovolt", ⟨.named "units::isq::si::femtovolt", ⟨1, 1, (-15)⟩, "units::isq::si::volt", [.scaled ⟨1, 1, (-15)⟩ "units::isq::si::volt"], true, "fV", none⟩, "fV"⟩⟩,
  ⟨80, n!"units::isq::si", n!"attovolt", ⟨"units::isq::si::attovolt", ⟨.named "units::isq::si::attovolt", ⟨1, 1, (-18)⟩, "units::isq::si::volt", [.scaled ⟨1, 1, (-18)⟩ "units::isq::si::volt"], true, "aV", none⟩, "aV"⟩⟩,
  ⟨80, n!"units::isq::si", n!"zeptovolt", ⟨"units::isq::si::zeptovolt", ⟨.named "units::isq::si::zeptovolt", ⟨1, 1, (-21)⟩, "units::isq::si::volt", [.scaled ⟨1, 1, (-21)⟩ "units::isq::si::volt"], true, "zV", none⟩, "zV"⟩⟩,
  ⟨80, n!"units::isq::si", n!"yoctovolt", ⟨"units::isq::si::yoctovolt", ⟨.named "units::isq::si::yoctovolt", ⟨1, 1, (-24)⟩, "units::isq::si::volt", [.scaled ⟨1, 1, (-24)⟩ "units::isq::si::volt"], true, "yV", none⟩, "yV"⟩⟩,
  ⟨80, n!"units::isq::si", n!"volt", ⟨"units::isq::si::volt", ⟨.named "units::isq::si::volt", ⟨1, 1, 0⟩, "units::isq::si::volt", [.scaled ⟨1, 1, 0⟩ "units::isq::si::volt"], true, "V", some "units::isq::si::prefix"⟩, "V"⟩⟩,
  ⟨79, n!"units::isq::si", n!"yottawatt", ⟨"units::isq::si::yottawatt", ⟨.named "units::isq::si::yottawatt", ⟨1, 1, 24⟩, "units::isq::si::watt", [.scaled ⟨1, 1, 24⟩ "units::isq::si::watt"], true, "YW", none⟩, "YW"⟩⟩,
  ⟨79, n!"units::isq::si", n!"zettawatt", ⟨"units::isq::si::zettawatt", ⟨.named "units::isq::si::zettawatt", ⟨1, 1, 21⟩, "units::isq::si::watt", [.scaled ⟨1, 1, 21⟩ "units::isq::si::watt"], true, "ZW", none⟩, "ZW"⟩⟩,
  ⟨79, n!"units::isq::si", n!"exawatt", ⟨"units::isq::si::exawatt", ⟨.named "units::isq::si::exawatt", ⟨1, 1, 18⟩, "units::isq::si::watt", [.scaled ⟨1, 1, 18⟩ "units::isq::si::watt"], true, "EW", none⟩, "EW"⟩⟩,
  ⟨79, n!"units::isq::si", n!"petawatt", ⟨"units::isq::si::petawatt", ⟨.named "units::isq::si::petawatt", ⟨1, 1, 15⟩, "units::isq::si::watt", [.scaled ⟨1, 1, 15⟩ "units::isq::si::watt"], true, "PW", none⟩, "PW"⟩⟩,
  ⟨79, n!"units::isq::si", n!"terawatt", ⟨"units::isq::si::terawatt", ⟨.named "units::isq::si::terawatt", ⟨1, 1, 12⟩, "units::isq::si::watt", [.scaled ⟨1, 1, 12⟩ "units::isq::si::watt"], true, "TW", none⟩, "TW"⟩⟩,
  ⟨79, n!"units::isq::si", n!"gigawatt", ⟨"units::isq::si::gigawatt", ⟨.named "units::isq::si::gigawatt", ⟨1, 1, 9⟩, "units::isq::si::watt", [.scaled ⟨1, 1, 9⟩ "units::isq::si::watt"], true, "GW", none⟩, "GW"⟩⟩,
  ⟨79, n!"units::isq::si", n!"megawatt", ⟨"units::isq::si::megawatt", ⟨.named "units::isq::si::megawatt", ⟨1, 1, 6⟩, "units::isq::si::watt", [.scaled ⟨1, 1, 6⟩ "units::isq::si::watt"], true, "MW", none⟩, "MW"⟩⟩,
  ⟨79, n!"units::isq::si", n!"kilowatt", ⟨"units::isq::si::kilowatt", ⟨.named "units::isq::si::kilowatt", ⟨1, 1, 3⟩, "units::isq::si::watt", [.scaled ⟨1, 1, 3⟩ "units::isq::si::watt"], true, "kW", none⟩, "kW"⟩⟩]

/-- Part 9 of `unitTable`. -/
def unitTable9 : List (URow) := [
  ⟨79, n!"units::isq::si", n!"milliwatt", ⟨"units::isq::si::milliwatt", ⟨.named "units::isq::si::milliwatt", ⟨1, 1, (-3)⟩, "units::isq::si::watt", [.scaled ⟨1, 1, (-3)⟩ "units::isq::si::watt"], true, "mW", none⟩, "mW"⟩⟩,
  ⟨79, n!"units::isq::si", n!"microwatt", ⟨"units::isq::si::microwatt", ⟨.named "units::isq::si::microwatt", ⟨1, 1, (-6)⟩, "units::isq::si::watt", [.scaled ⟨1, 1, (-6)⟩ "units::isq::si::watt"], true, "µW", none⟩, "uW"⟩⟩,
  ⟨79, n!"units::isq::si", n!"nanowatt", ⟨"units::isq::si::nanowatt", ⟨.named "units::isq::si::nanowatt", ⟨1, 1, (-9)⟩, "units::isq::si::watt", [.scaled ⟨1, 1, (-9)⟩ "units::isq::si::watt"], true, "nW", none⟩, "nW"⟩⟩,
  ⟨79, n!"units::isq::si", n!"picowatt", ⟨"units::isq::si::picowatt", ⟨.named "units::isq::si::picowatt", ⟨1, 1, (-12)⟩, "units::isq::si::watt", [.scaled ⟨1, 1, (-12)⟩ "units::isq::si::watt"], true, "pW", none⟩, "pW"⟩⟩,
  ⟨79, n!"units::isq::si", n!"femtowatt", ⟨"units::isq::si::femtowatt", ⟨.named "units::isq::si::femtowatt", ⟨1, 1, (-15)⟩, "units::isq::si::watt", [.scaled ⟨1, 1, (-15)⟩ "units::isq::si::watt"], true, "fW", none⟩, "fW"⟩⟩,
  ⟨79, n!"units::isq::si", n!"attowatt", ⟨"units::isq::si::attowatt", ⟨.named "units::isq::si::attowatt", ⟨1, 1, (-18)⟩, "units::isq::si::watt", [.scaled ⟨1, 1, (-18)⟩ "units::isq::si::watt"], true, "aW", none⟩, "aW"⟩⟩,
  ⟨79, n!"units::isq::si", n!"zeptowatt", ⟨"units::isq::si::zeptowatt", ⟨.named "units::isq::si::zeptowatt", ⟨1, 1, (-21)⟩, "units::isq::si::watt", [.scaled ⟨1, 1, (-21)⟩ "units::isq::si::watt"], true, "zW", none⟩, "zW"⟩⟩,
  ⟨79, n!"units::isq::si", n!"yoctowatt", ⟨"units::isq::si::yoctowatt", ⟨.named "units::isq::si::yoctowatt", ⟨1, 1, (-24)⟩, "units::isq::si::watt", [.scaled ⟨1, 1, (-24)⟩ "units::isq::si::watt"], true, "yW", none⟩, "yW"⟩⟩,
  ⟨79, n!"units::isq::si", n!"watt", ⟨"units::isq::si::watt", ⟨.named "units::isq::si::watt", ⟨1, 1, 0⟩, "units::isq::si::watt", [.scaled ⟨1, 1, 0⟩ "units::isq::si::watt"], true, "W", some "units::isq::si::prefix"⟩, "W"⟩⟩,
  ⟨78, n!"units::isq::si", n!"coulomb", ⟨"units::isq::si::coulomb", ⟨.named "units::isq::si::coulomb", ⟨1, 1, 0⟩, "units::isq::si::coulomb", [.scaled ⟨1, 1, 0⟩ "units::isq::si::coulomb"], true, "C", some "units::isq::si::prefix"⟩, "C"⟩⟩,
  ⟨77, n!"units::isq::si", n!"yottaampere", ⟨"units::isq::si::yottaampere", ⟨.named "units::isq::si::yottaampere", ⟨1, 1, 24⟩, "units::isq::si::ampere", [.scaled ⟨1, 1, 24⟩ "units::isq::si::ampere"], true, "YA", none⟩, "YA"⟩⟩,
  ⟨77, n!"units::isq::si", n!"zettaampere", ⟨"units::isq::si::zettaampere", ⟨.named "units::isq::si::zettaampere", ⟨1, 1, 21⟩, "units::isq::si::ampere", [.scaled ⟨1, 1, 21⟩ "units::isq::si::ampere"], true, "ZA", none⟩, "ZA"⟩⟩,
  ⟨77, n!"units::isq::si", n!"exaampere", ⟨"units::isq::si::exaampere", ⟨.named "units::isq::si::exaampere", ⟨1, 1, 18⟩, "units::isq::si::ampere", [.scaled ⟨1, 1, 18⟩ "units::isq::si::ampere"], true, "EA", none⟩, "EA"⟩⟩,
  ⟨77, n!"units::isq::si", n!"petaampere", ⟨"units::isq::si::petaampere", ⟨.named "units::isq::si::petaampere", ⟨1, 1, 15⟩, "units::isq::si::ampere", [.scaled ⟨1, 1, 15⟩ "units::isq::si::ampere"], true, "PA", none⟩, "PA"⟩⟩,
  ⟨77, n!"units::isq::si", n!"teraampere", ⟨"units::isq::si::teraampere", ⟨.named "units::isq::si::teraampere", ⟨1, 1, 12⟩, "units::isq::si::ampere", [.scaled ⟨1, 1, 12⟩ "units::isq::si::ampere"], true, "TA", none⟩, "TA"⟩⟩,
  ⟨77, n!"units::isq::si", n!"gigaampere", ⟨"units::isq::si::gigaampere", ⟨.named "units::isq::si::gigaampere", ⟨1, 1, 9⟩, "units::isq::si::ampere", [.scaled ⟨1, 1, 9⟩ "units::isq::si::ampere"], true, "GA", none⟩, "GA"⟩⟩,
  ⟨77, n!"units::isq::si", n!"megaampere", ⟨"units::isq::si::megaampere", ⟨.named "units::isq::si::megaampere", ⟨1, 1, 6⟩, "units::isq::si::ampere", [.scaled ⟨1, 1, 6⟩ "units::isq::si::ampere"], true, "MA", none⟩, "MA"⟩⟩,
  ⟨77, n!"units::isq::si", n!"kiloampere", ⟨"units::isq::si::kiloampere", ⟨.named "units::isq::si::kiloampere", ⟨1, 1, 3⟩, "units::isq::si::ampere", [.scaled ⟨1, 1, 3⟩ "units::isq::si::ampere"], true, "kA", none⟩, "kA"⟩⟩,
  ⟨77, n!"units::isq::si", n!"hectoampere", ⟨"units::isq::si::hectoampere", ⟨.named "units::isq::si::hectoampere", ⟨1, 1, 2⟩, "units::isq::si::ampere", [.scaled ⟨1, 1, 2⟩ "units::isq::si::ampere"], true, "hA", none⟩, "hA"⟩⟩,
  ⟨77, n!"units::isq::si", n!"decaampere", ⟨"units::isq::si::decaampere", ⟨.named "units::isq::si::decaampere", ⟨1, 1, 1⟩, "units::isq::si::ampere", [.scaled ⟨1, 1, 1⟩ "units::isq::si::ampere"], true, "daA", none⟩, "daA"⟩⟩,
  ⟨77, n!"units::isq::si", n!"deciampere", ⟨"units::isq::si::deciampere", ⟨.named "units::isq::si::deciampere", ⟨1, 1, (-1)⟩, "units::isq::si::ampere", [.scaled ⟨1, 1, (-1)⟩ "units::isq::si::ampere"], true, "dA", none⟩, "dA"⟩⟩,
  ⟨77, n!"units::isq::si", n!"centiampere", ⟨"units::isq::si::centiampere", ⟨.named "units::isq::si::centiampere", ⟨1, 1, (-2)⟩, "units::isq::si::ampere", [.scaled ⟨1, 1, (-2)⟩ "units::isq::si::ampere"], true, "cA", none⟩, "cA"⟩⟩,
  ⟨77, n!"units::isq::si", n!"milliampere", ⟨"units::isq::si::milliampere", ⟨.named "units::isq::si::milliampere", ⟨1, 1, (-3)⟩, "units::isq::si::ampere", [.scaled ⟨1, 1, (-3)⟩ "units::isq::si::ampere"], true, "mA", none⟩, "mA"⟩⟩,
  ⟨77, n!"units::isq::si", n!"microampere", ⟨"units::isq::si::microampere", ⟨.named "units::isq::si::microampere", ⟨1, 1, (-6)⟩, "units::isq::si::ampere", [.scaled ⟨1, 1, (-6)⟩ "units::isq::si::ampere"], true, "µA", none⟩, "uA"⟩⟩,
  ⟨77, n!"units::isq::si", n!"nanoampere", ⟨"units::isq::si::nanoampere", ⟨.named "units::isq::si::nanoampere", ⟨1, 1, (-9)⟩, "units::isq::si::ampere", [.scaled ⟨1, 1, (-9)⟩ "units::isq::si::ampere"], true, "nA", none⟩, "nA"⟩⟩,
  ⟨77, n!"units::isq::si", n!"picoampere", ⟨"units::isq::si::picoampere", ⟨.named "units::isq::si::picoampere", ⟨1, 1, (-12)⟩, "units::isq::si::ampere", [.scaled ⟨1, 1, (-12)⟩ "units::isq::si::ampere"], true, "pA", none⟩, "pA"⟩⟩,
  ⟨77, n!"units::isq::si", n!"femtoampere", ⟨"units::isq::si::femtoampere", ⟨.named "units::isq::si::femtoampere", ⟨1, 1, (-15)⟩, "units::isq::si::ampere", [.scaled ⟨1, 1, (-15)⟩ "units::isq::si::ampere"], true, "fA", none⟩, "fA"⟩⟩,
  ⟨77, n!"units::isq::si", n!"attoampere", ⟨"units::isq::si::attoampere", ⟨.named "units::isq::si::attoampere", ⟨1, 1, (-18)⟩, "units::isq::si::ampere", [.scaled ⟨1, 1, (-18)⟩ "units::isq::si::ampere"], true, "aA", none⟩, "aA"⟩⟩,
  ⟨77, n!"units::isq::si", n!"zeptoampere", ⟨"units::isq::si::zeptoampere", ⟨.named "units::isq::si::zeptoampere", ⟨1, 1, (-21)⟩, "units::isq::si::ampere", [.scaled ⟨1, 1, (-21)⟩ "units::isq::si::ampere"], true, "zA", none⟩, "zA"⟩⟩,
  ⟨77, n!"units::isq::si", n!"yoctoampere", ⟨"units::isq::si::yoctoampere", ⟨.named "units::isq::si::yoctoampere", ⟨1, 1, (-24)⟩, "units::isq::si::ampere", [.scaled ⟨1, 1, (-24)⟩ "units::isq::si::ampere"], true, "yA", none⟩, "yA"⟩⟩,
  ⟨77, n!"units::isq::si", n!"ampere", ⟨"units::isq::si::ampere", ⟨.named "units::isq::si::ampere", ⟨1, 1, 0⟩, "units::isq::si::ampere", [.scaled ⟨1, 1, 0⟩ "units::isq::si::ampere"], true, "A", some "units::isq::si::prefix"⟩, "A"⟩⟩,
  ⟨76, n!"units::isq::si", n!"hectare", ⟨"units::isq::si::hectare", ⟨.named "units::isq::si::hectare", ⟨1, 1, 4⟩, "units::isq::si::square_metre", [.named "units::isq::si::square_hectometre", .scaled ⟨1, 1, 4⟩ "units::isq::si::square_metre"], true, "ha", none⟩, "ha"⟩⟩,
  ⟨76, n!"units::isq::si", n!"square_yottametre", ⟨"units::isq::si::square_yottametre", ⟨.named "units::isq::si::square_yottametre", ⟨1, 1, 48⟩, "units::isq::si::square_metre", [.scaled ⟨1, 1, 48⟩ "units::isq::si::square_metre"], false, "Ym²", none⟩, "Ym^2"⟩⟩,
  ⟨76, n!"units::isq::si", n!"square_zettametre", ⟨"units::isq::si::square_zettametre", ⟨.named "units::isq::si::square_zettametre", ⟨1, 1, 42⟩, "units::isq::si::square_metre", [.scaled ⟨1, 1, 42⟩ "units::isq::si::square_metre"], false, "Zm²", none⟩, "Zm^2"⟩⟩,
  ⟨76, n!"units::isq::si", n!"square_exametre", ⟨"units::isq::si::square_exametre", ⟨.named "units::isq::si::square_exametre", ⟨1, 1, 36⟩, "units::isq::si::square_metre", [.scaled ⟨1, 1, 36⟩ "units::isq::si::square_metre"], false, "Em²", none⟩, "Em^2"⟩⟩,
  ⟨76, n!"units::isq::si", n!"square_petametre", ⟨"units::isq::si::square_petametre", ⟨.named "units::isq::si::square_petametre", ⟨1, 1, 30⟩, "units::isq::si::square_metre", [.scaled ⟨1, 1, 30⟩ "units::isq::si::square_metre"], false, "Pm²", none⟩, "Pm^2"⟩⟩,
  ⟨76, n!"units::isq::si", n!"square_terametre", ⟨"units::isq::si::square_terametre", ⟨.named "units::isq::si::square_terametre", ⟨1, 1, 24⟩, "units::isq::si::square_metre", [.scaled ⟨1, 1, 24⟩ "units::isq::si::square_metre"], false, "Tm²", none⟩, "Tm^2"⟩⟩,
  ⟨76, n!"units::isq::si", n!"square_gigametre", ⟨"units::isq::si::square_gigametre", ⟨.named "units::isq::si::square_gigametre", ⟨1, 1, 18⟩, "units::isq::si::square_metre", [.scaled ⟨1, 1, 18⟩ "units::isq::si::square_metre"], false, "Gm²", none⟩, "Gm^2"⟩⟩,
  ⟨76, n!"units::isq::si", n!"square_megametre", ⟨"units::isq::si::square_megametre", ⟨.named "units::isq::si::square_megametre", ⟨1, 1, 12⟩, "units::isq::si::square_metre", [.scaled ⟨1, 1, 12⟩ "units::isq::si::square_metre"], false, "Mm²", none⟩, "Mm^2"⟩⟩,
  ⟨76, n!"units::isq::si", n!"square_kilometre", ⟨"units::isq::si::square_kilometre", ⟨.named "units::isq::si::square_kilometre", ⟨1, 1, 6⟩, "units::isq::si::square_metre", [.scaled ⟨1, 1, 6⟩ "units::isq::si::square_metre"], false, "km²", none⟩, "km^2"⟩⟩]

/-- Part 10 of `unitTable`. -/
def unitTable10 : List (URow) := [
  ⟨76, n!"units::isq::si", n!"square_hectometre", ⟨"units::isq::si::square_hectometre", ⟨.named "units::isq::si::square_hectometre", ⟨1, 1, 4⟩, "units::isq::si::square_metre", [.scaled ⟨1, 1, 4⟩ "units::isq::si::square_metre"], false, "hm²", none⟩, "hm^2"⟩⟩,
  ⟨76, n!"units::isq::si", n!"square_decametre", ⟨"units::isq::si::square_decametre", ⟨.named "units::isq::si::square_decametre", ⟨1, 1, 2⟩, "units::isq::si::square_metre", [.scaled ⟨1, 1, 2⟩ "units::isq::si::square_metre"], false, "dam²", none⟩, "dam^2"⟩⟩,
  ⟨76, n!"units::isq::si", n!"square_decimetre", ⟨"units::isq::si::square_decimetre", ⟨.named "units::isq::si::square_decimetre", ⟨1, 1, (-2)⟩, "units::isq::si::square_metre", [.scaled ⟨1, 1, (-2)⟩ "units::isq::si::square_metre"], false, "dm²", none⟩, "dm^2"⟩⟩,
  ⟨76, n!"units::isq::si", n!"square_centimetre", ⟨"units::isq::si::square_centimetre", ⟨.named "units::isq::si::square_centimetre", ⟨1, 1, (-4)⟩, "units::isq::si::square_metre", [.scaled ⟨1, 1, (-4)⟩ "units::isq::si::square_metre"], false, "cm²", none⟩, "cm^2"⟩⟩,
  ⟨76, n!"units::isq::si", n!"square_millimetre", ⟨"units::isq::si::square_millimetre", ⟨.named "units::isq::si::square_millimetre", ⟨1, 1, (-6)⟩, "units::isq::si::square_metre", [.scaled ⟨1, 1, (-6)⟩ "units::isq::si::square_metre"], false, "mm²", none⟩, "mm^2"⟩⟩,
  ⟨76, n!"units::isq::si", n!"square_micrometre", ⟨"units::isq::si::square_micrometre", ⟨.named "units::isq::si::square_micrometre", ⟨1, 1, (-12)⟩, "units::isq::si::square_metre", [.scaled ⟨1, 1, (-12)⟩ "units::isq::si::square_metre"], false, "µm²", none⟩, "um^2"⟩⟩,
  ⟨76, n!"units::isq::si", n!"square_nanometre", ⟨"units::isq::si::square_nanometre", ⟨.named "units::isq::si::square_nanometre", ⟨1, 1, (-18)⟩, "units::isq::si::square_metre", [.scaled ⟨1, 1, (-18)⟩ "units::isq::si::square_metre"], false, "nm²", none⟩, "nm^2"⟩⟩,
  ⟨76, n!"units::isq::si", n!"square_picometre", ⟨"units::isq::si::square_picometre", ⟨.named "units::isq::si::square_picometre", ⟨1, 1, (-24)⟩, "units::isq::si::square_metre", [.scaled ⟨1, 1, (-24)⟩ "units::isq::si::square_metre"], false, "pm²", none⟩, "pm^2"⟩⟩,
  ⟨76, n!"units::isq::si", n!"square_femtometre", ⟨"units::isq::si::square_femtometre", ⟨.named "units::isq::si::square_femtometre", ⟨1, 1, (-30)⟩, "units::isq::si::square_metre", [.scaled ⟨1, 1, (-30)⟩ "units::isq::si::square_metre"], false, "fm²", none⟩, "fm^2"⟩⟩,
  ⟨76, n!"units::isq::si", n!"square_attometre", ⟨"units::isq::si::square_attometre", ⟨.named "units::isq::si::square_attometre", ⟨1, 1, (-36)⟩, "units::isq::si::square_metre", [.scaled ⟨1, 1, (-36)⟩ "units::isq::si::square_metre"], false, "am²", none⟩, "am^2"⟩⟩,
  ⟨76, n!"units::isq::si", n!"square_zeptometre", ⟨"units::isq::si::square_zeptometre", ⟨.named "units::isq::si::square_zeptometre", ⟨1, 1, (-42)⟩, "units::isq::si::square_metre", [.scaled ⟨1, 1, (-42)⟩ "units::isq::si::square_metre"], false, "zm²", none⟩, "zm^2"⟩⟩,
  ⟨76, n!"units::isq::si", n!"square_yoctometre", ⟨"units::isq::si::square_yoctometre", ⟨.named "units::isq::si::square_yoctometre", ⟨1, 1, (-48)⟩, "units::isq::si::square_metre", [.scaled ⟨1, 1, (-48)⟩ "units::isq::si::square_metre"], false, "ym²", none⟩, "ym^2"⟩⟩,
  ⟨76, n!"units::isq::si", n!"square_metre", ⟨"units::isq::si::square_metre", ⟨.named "units::isq::si::square_metre", ⟨1, 1, 0⟩, "units::isq::si::square_metre", [.scaled ⟨1, 1, 0⟩ "units::isq::si::square_metre"], false, "", none⟩, ""⟩⟩,
  ⟨75, n!"units::isq::si", n!"radian_per_second", ⟨"units::isq::si::radian_per_second", ⟨.named "units::isq::si::radian_per_second", ⟨1, 1, 0⟩, "units::isq::si::radian_per_second", [.scaled ⟨1, 1, 0⟩ "units::isq::si::radian_per_second"], true, "ω", none⟩, "w"⟩⟩,
  ⟨74, n!"units::isq::si", n!"mole", ⟨"units::isq::si::mole", ⟨.named "units::isq::si::mole", ⟨1, 1, 0⟩, "units::isq::si::mole", [.scaled ⟨1, 1, 0⟩ "units::isq::si::mole"], true, "mol", some "units::isq::si::prefix"⟩, "mol"⟩⟩,
  ⟨73, n!"units::isq::si", n!"yottagray", ⟨"units::isq::si::yottagray", ⟨.named "units::isq::si::yottagray", ⟨1, 1, 24⟩, "units::isq::si::gray", [.scaled ⟨1, 1, 24⟩ "units::isq::si::gray"], true, "YGy", none⟩, "YGy"⟩⟩,
  ⟨73, n!"units::isq::si", n!"zettagray", ⟨"units::isq::si::zettagray", ⟨.named "units::isq::si::zettagray", ⟨1, 1, 21⟩, "units::isq::si::gray", [.scaled ⟨1, 1, 21⟩ "units::isq::si::gray"], true, "ZGy", none⟩, "ZGy"⟩⟩,
  ⟨73, n!"units::isq::si", n!"exagray", ⟨"units::isq::si::exagray", ⟨.named "units::isq::si::exagray", ⟨1, 1, 18⟩, "units::isq::si::gray", [.scaled ⟨1, 1, 18⟩ "units::isq::si::gray"], true, "EGy", none⟩, "EGy"⟩⟩,
  ⟨73, n!"units::isq::si", n!"petagray", ⟨"units::isq::si::petagray", ⟨.named "units::isq::si::petagray", ⟨1, 1, 15⟩, "units::isq::si::gray", [.scaled ⟨1, 1, 15⟩ "units::isq::si::gray"], true, "PGy", none⟩, "PGy"⟩⟩,
  ⟨73, n!"units::isq::si", n!"teragray", ⟨"units::isq::si::teragray", ⟨.named "units::isq::si::teragray", ⟨1, 1, 12⟩, "units::isq::si::gray", [.scaled ⟨1, 1, 12⟩ "units::isq::si::gray"], true, "TGy", none⟩, "TGy"⟩⟩,
  ⟨73, n!"units::isq::si", n!"gigagray", ⟨"units::isq::si::gigagray", ⟨.named "units::isq::si::gigagray", ⟨1, 1, 9⟩, "units::isq::si::gray", [.scaled ⟨1, 1, 9⟩ "units::isq::si::gray"], true, "GGy", none⟩, "GGy"⟩⟩,
  ⟨73, n!"units::isq::si", n!"megagray", ⟨"units::isq::si::megagray", ⟨.named "units::isq::si::megagray", ⟨1, 1, 6⟩, "units::isq::si::gray", [.scaled ⟨1, 1, 6⟩ "units::isq::si::gray"], true, "MGy", none⟩, "MGy"⟩⟩,
  ⟨73, n!"units::isq::si", n!"kilogray", ⟨"units::isq::si::kilogray", ⟨.named "units::isq::si::kilogray", ⟨1, 1, 3⟩, "units::isq::si::gray", [.scaled ⟨1, 1, 3⟩ "units::isq::si::gray"], true, "kGy", none⟩, "kGy"⟩⟩,
  ⟨73, n!"units::isq::si", n!"hectogray", ⟨"units::isq::si::hectogray", ⟨.named "units::isq::si::hectogray", ⟨1, 1, 2⟩, "units::isq::si::gray", [.scaled ⟨1, 1, 2⟩ "units::isq::si::gray"], true, "hGy", none⟩, "hGy"⟩⟩,
  ⟨73, n!"units::isq::si", n!"decagray", ⟨"units::isq::si::decagray", ⟨.named "units::isq::si::decagray", ⟨1, 1, 1⟩, "units::isq::si::gray", [.scaled ⟨1, 1, 1⟩ "units::isq::si::gray"], true, "daGy", none⟩, "daGy"⟩⟩,
  ⟨73, n!"units::isq::si", n!"decigray", ⟨"units::isq::si::decigray", ⟨.named "units::isq::si::decigray", ⟨1, 1, (-1)⟩, "units::isq::si::gray", [.scaled ⟨1, 1, (-1)⟩ "units::isq::si::gray"], true, "dGy", none⟩, "dGy"⟩⟩,
  ⟨73, n!"units::isq::si", n!"centigray", ⟨"units::isq::si::centigray", ⟨.named "units::isq::si::centigray", ⟨1, 1, (-2)⟩, "units::isq::si::gray", [.scaled ⟨1, 1, (-2)⟩ "units::isq::si::gray"], true, "cGy", none⟩, "cGy"⟩⟩,
  ⟨73, n!"units::isq::si", n!"milligray", ⟨"units::isq::si::milligray", ⟨.named "units::isq::si::milligray", ⟨1, 1, (-3)⟩, "units::isq::si::gray", [.scaled ⟨1, 1, (-3)⟩ "units::isq::si::gray"], true, "mGy", none⟩, "mGy"⟩⟩,
  ⟨73, n!"units::isq::si", n!"microgray", ⟨"units::isq::si::microgray", ⟨.named "units::isq::si::microgray", ⟨1, 1, (-6)⟩, "units::isq::si::gray", [.scaled ⟨1, 1, (-6)⟩ "units::isq::si::gray"], true, "µGy", none⟩, "uGy"⟩⟩,
  ⟨73, n!"units::isq::si", n!"nanogray", ⟨"units::isq::si::nanogray", ⟨.named "units::isq::si::nanogray", ⟨1, 1, (-9)⟩, "units::isq::si::gray", [.scaled ⟨1, 1, (-9)⟩ "units::isq::si::gray"], true, "nGy", none⟩, "nGy"⟩⟩,
  ⟨73, n!"units::isq::si", n!"picogray", ⟨"units::isq::si::picogray", ⟨.named "units::isq::si::picogray", ⟨1, 1, (-12)⟩, "units::isq::si::gray", [.scaled ⟨1, 1, (-12)⟩ "units::isq::si::gray"], true, "pGy", none⟩, "pGy"⟩⟩,
  ⟨73, n!"units::isq::si", n!"femtogray", ⟨"units::isq::si::femtogray", ⟨.named "units::isq::si::femtogray", ⟨1, 1, (-15)⟩, "units::isq::si::gray", [.scaled ⟨1, 1, (-15)⟩ "units::isq::si::gray"], true, "fGy", none⟩, "fGy"⟩⟩,
  ⟨73, n!"units::isq::si", n!"attogray", ⟨"units::isq::si::attogray", ⟨.named "units::isq::si::attogray", ⟨1, 1, (-18)⟩, "units::isq::si::gray", [.scaled ⟨1, 1, (-18)⟩ "units::isq::si::gray"], true, "aGy", none⟩, "aGy"⟩⟩,
  ⟨73, n!"units::isq::si", n!"zeptogray", ⟨"units::isq::si::zeptogray", ⟨.named "units::isq::si::zeptogray", ⟨1, 1, (-21)⟩, "units::isq::si::gray", [.scaled ⟨1, 1, (-21)⟩ "units::isq::si::gray"], true, "zGy", none⟩, "zGy"⟩⟩,
  ⟨73, n!"units::isq::si", n!"yoctogray", ⟨"units::isq::si::yoctogray", ⟨.named "units::isq::si::yoctogray", ⟨1, 1, (-24)⟩, "units::isq::si::gray", [.scaled ⟨1, 1, (-24)⟩ "units::isq::si::gray"], true, "yGy", none⟩, "yGy"⟩⟩,
  ⟨73, n!"units::isq::si", n!"gray", ⟨"units::isq::si::gray", ⟨.named "units::isq::si::gray", ⟨1, 1, 0⟩, "units::isq::si::gray", [.scaled ⟨1, 1, 0⟩ "units::isq::si::gray"], true, "Gy", some "units::isq::si::prefix"⟩, "Gy"⟩⟩,
  ⟨72, n!"units::isq::si", n!"gigaelectronvolt", ⟨"units::isq::si::gigaelectronvolt", ⟨.named "units::isq::si::gigaelectronvolt", ⟨801088317, 5, (-18)⟩, "units::isq::si::joule", [.scaled ⟨801088317, 5, (-18)⟩ "units::isq::si::joule"], true, "GeV", none⟩, "GeV"⟩⟩,
  ⟨72, n!"units::isq::si", n!"electronvolt", ⟨"units::isq::si::electronvolt", ⟨.named "units::isq::si::electronvolt", ⟨801088317, 5, (-27)⟩, "units::isq::si::joule", [.scaled ⟨801088317, 5, (-27)⟩ "units::isq::si::joule"], true, "eV", some "units::isq::si::prefix"⟩, "eV"⟩⟩,
  ⟨72, n!"units::isq::si", n!"yottajoule", ⟨"units::isq::si::yottajoule", ⟨.named "units::isq::si::yottajoule", ⟨1, 1, 24⟩, "units::isq::si::joule", [.scaled ⟨1, 1, 24⟩ "units::isq::si::joule"], true, "YJ", none⟩, "YJ"⟩⟩,
  ⟨72, n!"units::isq::si", n!"zettajoule", ⟨"units::isq::si::zettajoule", ⟨.named "units::isq::si::zettajoule", ⟨1, 1, 21⟩, "units::isq::si::joule", [.scaled ⟨1, 1, 21⟩ "units::isq::si::joule"], true, "ZJ", none⟩, "ZJ"⟩⟩]

/-- Part 11 of `unitTable`. -/
def unitTable11 : List (URow) := [
  ⟨72, n!"units::isq::si", n!"exajoule", ⟨"units::isq::si::exajoule", ⟨.named "units::isq::si::exajoule", ⟨1, 1, 18⟩, "units::isq::si::joule", [.scaled ⟨1, 1, 18⟩ "units::isq::si::joule"], true, "EJ", none⟩, "EJ"⟩⟩,
  ⟨72, n!"units::isq::si", n!"petajoule", ⟨"units::isq::si::petajoule", ⟨.named "units::isq::si::petajoule", ⟨1, 1, 15⟩, "units::isq::si::joule", [.scaled ⟨1, 1, 15⟩ "units::isq::si::joule"], true, "PJ", none⟩, "PJ"⟩⟩,
  ⟨72, n!"units::isq::si", n!"terajoule", ⟨"units::isq::si::terajoule", ⟨.named "units::isq::si::terajoule", ⟨1, 1, 12⟩, "units::isq::si::joule", [.scaled ⟨1, 1, 12⟩ "units::isq::si::joule"], true, "TJ", none⟩, "TJ"⟩⟩,
  ⟨72, n!"units::isq::si", n!"gigajoule", ⟨"units::isq::si::gigajoule", ⟨.named "units::isq::si::gigajoule", ⟨1, 1, 9⟩, "units::isq::si::joule", [.scaled ⟨1, 1, 9⟩ "units::isq::si::joule"], true, "GJ", none⟩, "GJ"⟩⟩,
  ⟨72, n!"units::isq::si", n!"megajoule", ⟨"units::isq::si::megajoule", ⟨.named "units::isq::si::megajoule", ⟨1, 1, 6⟩, "units::isq::si::joule", [.scaled ⟨1, 1, 6⟩ "units::isq::si::joule"], true, "MJ", none⟩, "MJ"⟩⟩,
  ⟨72, n!"units::isq::si", n!"kilojoule", ⟨"units::isq::si::kilojoule", ⟨.named "units::isq::si::kilojoule", ⟨1, 1, 3⟩, "units::isq::si::joule", [.scaled ⟨1, 1, 3⟩ "units::isq::si::joule"], true, "kJ", none⟩, "kJ"⟩⟩,
  ⟨72, n!"units::isq::si", n!"millijoule", ⟨"units::isq::si::millijoule", ⟨.named "units::isq::si::millijoule", ⟨1, 1, (-3)⟩, "units::isq::si::joule", [.scaled ⟨1, 1, (-3)⟩ "units::isq::si::joule"], true, "mJ", none⟩, "mJ"⟩⟩,
  ⟨72, n!"units::isq::si", n!"microjoule", ⟨"units::isq::si::microjoule", ⟨.named "units::isq::si::microjoule", ⟨1, 1, (-6)⟩, "units::isq::si::joule", [.scaled ⟨1, 1, (-6)⟩ "units::isq::si::joule"], true, "µJ", none⟩, "uJ"⟩⟩,
  ⟨72, n!"units::isq::si", n!"nanojoule", ⟨"units::isq::si::nanojoule", ⟨.named "units::isq::si::nanojoule", ⟨1, 1, (-9)⟩, "units::isq::si::joule", [.scaled ⟨1, 1, (-9)⟩ "units::isq::si::joule"], true, "nJ", none⟩, "nJ"⟩⟩,
  ⟨72, n!"units::isq::si", n!"picojoule", ⟨"units::isq::si::picojoule", ⟨.named "units::isq::si::picojoule", ⟨1, 1, (-12)⟩, "units::isq::si::joule", [.scaled ⟨1, 1, (-12)⟩ "units::isq::si::joule"], true, "pJ", none⟩, "pJ"⟩⟩,
  ⟨72, n!"units::isq::si", n!"femtojoule", ⟨"units::isq::si::femtojoule", ⟨.named "units::isq::si::femtojoule", ⟨1, 1, (-15)⟩, "units::isq::si::joule", [.scaled ⟨1, 1, (-15)⟩ "units::isq::si::joule"], true, "fJ", none⟩, "fJ"⟩⟩,
  ⟨72, n!"units::isq::si", n!"attojoule", ⟨"units::isq::si::attojoule", ⟨.named "units::isq::si::attojoule", ⟨1, 1, (-18)⟩, "units::isq::si::joule", [.scaled ⟨1, 1, (-18)⟩ "units::isq::si::joule"], true, "aJ", none⟩, "aJ"⟩⟩,
  ⟨72, n!"units::isq::si", n!"zeptojoule", ⟨"units::isq::si::zeptojoule", ⟨.named "units::isq::si::zeptojoule", ⟨1, 1, (-21)⟩, "units::isq::si::joule", [.scaled ⟨1, 1, (-21)⟩ "units::isq::si::joule"], true, "zJ", none⟩, "zJ"⟩⟩,
  ⟨72, n!"units::isq::si", n!"yoctojoule", ⟨"units::isq::si::yoctojoule", ⟨.named "units::isq::si::yoctojoule", ⟨1, 1, (-24)⟩, "units::isq::si::joule", [.scaled ⟨1, 1, (-24)⟩ "units::isq::si::joule"], true, "yJ", none⟩, "yJ"⟩⟩,
  ⟨72, n!"units::isq::si", n!"joule", ⟨"units::isq::si::joule", ⟨.named "units::isq::si::joule", ⟨1, 1, 0⟩, "units::isq::si::joule", [.scaled ⟨1, 1, 0⟩ "units::isq::si::joule"], true, "J", some "units::isq::si::prefix"⟩, "J"⟩⟩,
  ⟨71, n!"units::isq::si", n!"yottanewton", ⟨"units::isq::si::yottanewton", ⟨.named "units::isq::si::yottanewton", ⟨1, 1, 24⟩, "units::isq::si::newton", [.scaled ⟨1, 1, 24⟩ "units::isq::si::newton"], true, "YN", none⟩, "YN"⟩⟩,
  ⟨71, n!"units::isq::si", n!"zettanewton", ⟨"units::isq::si::zettanewton", ⟨.named "units::isq::si::zettanewton", ⟨1, 1, 21⟩, "units::isq::si::newton", [.scaled ⟨1, 1, 21⟩ "units::isq::si::newton"], true, "ZN", none⟩, "ZN"⟩⟩,
  ⟨71, n!"units::isq::si", n!"exanewton", ⟨"units::isq::si::exanewton", ⟨.named "units::isq::si::exanewton", ⟨1, 1, 18⟩, "units::isq::si::newton", [.scaled ⟨1, 1, 18⟩ "units::isq::si::newton"], true, "EN", none⟩, "EN"⟩⟩,
  ⟨71, n!"units::isq::si", n!"petanewton", ⟨"units::isq::si::petanewton", ⟨.named "units::isq::si::petanewton", ⟨1, 1, 15⟩, "units::isq::si::newton", [.scaled ⟨1, 1, 15⟩ "units::isq::si::newton"], true, "PN", none⟩, "PN"⟩⟩,
  ⟨71, n!"units::isq::si", n!"teranewton", ⟨"units::isq::si::teranewton", ⟨.named "units::isq::si::teranewton", ⟨1, 1, 12⟩, "units::isq::si::newton", [.scaled ⟨1, 1, 12⟩ "units::isq::si::newton"], true, "TN", none⟩, "TN"⟩⟩,
  ⟨71, n!"units::isq::si", n!"giganewton", ⟨"units::isq::si::giganewton", ⟨.named "units::isq::si::giganewton", ⟨1, 1, 9⟩, "units::isq::si::newton", [.scaled ⟨1, 1, 9⟩ "units::isq::si::newton"], true, "GN", none⟩, "GN"⟩⟩,
  ⟨71, n!"units::isq::si", n!"meganewton", ⟨"units::isq::si::meganewton", ⟨.named "units::isq::si::meganewton", ⟨1, 1, 6⟩, "units::isq::si::newton", [.scaled ⟨1, 1, 6⟩ "units::isq::si::newton"], true, "MN", none⟩, "MN"⟩⟩,
  ⟨71, n!"units::isq::si", n!"kilonewton", ⟨"units::isq::si::kilonewton", ⟨.named "units::isq::si::kilonewton", ⟨1, 1, 3⟩, "units::isq::si::newton", [.scaled ⟨1, 1, 3⟩ "units::isq::si::newton"], true, "kN", none⟩, "kN"⟩⟩,
  ⟨71, n!"units::isq::si", n!"hectonewton", ⟨"units::isq::si::hectonewton", ⟨.named "units::isq::si::hectonewton", ⟨1, 1, 2⟩, "units::isq::si::newton", [.scaled ⟨1, 1, 2⟩ "units::isq::si::newton"], true, "hN", none⟩, "hN"⟩⟩,
  ⟨71, n!"units::isq::si", n!"decanewton", ⟨"units::isq::si::decanewton", ⟨.named "units::isq::si::decanewton", ⟨1, 1, 1⟩, "units::isq::si::newton", [.scaled ⟨1, 1, 1⟩ "units::isq::si::newton"], true, "daN", none⟩, "daN"⟩⟩,
  ⟨71, n!"units::isq::si", n!"decinewton", ⟨"units::isq::si::decinewton", ⟨.named "units::isq::si::decinewton", ⟨1, 1, (-1)⟩, "units::isq::si::newton", [.scaled ⟨1, 1, (-1)⟩ "units::isq::si::newton"], true, "dN", none⟩, "dN"⟩⟩,
  ⟨71, n!"units::isq::si", n!"centinewton", ⟨"units::isq::si::centinewton", ⟨.named "units::isq::si::centinewton", ⟨1, 1, (-2)⟩, "units::isq::si::newton", [.scaled ⟨1, 1, (-2)⟩ "units::isq::si::newton"], true, "cN", none⟩, "cN"⟩⟩,
  ⟨71, n!"units::isq::si", n!"millinewton", ⟨"units::isq::si::millinewton", ⟨.named "units::isq::si::millinewton", ⟨1, 1, (-3)⟩, "units::isq::si::newton", [.scaled ⟨1, 1, (-3)⟩ "units::isq::si::newton"], true, "mN", none⟩, "mN"⟩⟩,
  ⟨71, n!"units::isq::si", n!"micronewton", ⟨"units::isq::si::micronewton", ⟨.named "units::isq::si::micronewton", ⟨1, 1, (-6)⟩, "units::isq::si::newton", [.scaled ⟨1, 1, (-6)⟩ "units::isq::si::newton"], true, "µN", none⟩, "uN"⟩⟩,
  ⟨71, n!"units::isq::si", n!"nanonewton", ⟨"units::isq::si::nanonewton", ⟨.named "units::isq::si::nanonewton", ⟨1, 1, (-9)⟩, "units::isq::si::newton", [.scaled ⟨1, 1, (-9)⟩ "units::isq::si::newton"], true, "nN", none⟩, "nN"⟩⟩,
  ⟨71, n!"units::isq::si", n!"piconewton", ⟨"units::isq::si::piconewton", ⟨.named "units::isq::si::piconewton", ⟨1, 1, (-12)⟩, "units::isq::si::newton", [.scaled ⟨1, 1, (-12)⟩ "units::isq::si::newton"], true, "pN", none⟩, "pN"⟩⟩,
  ⟨71, n!"units::isq::si", n!"femtonewton", ⟨"units::isq::si::femtonewton", ⟨.named "units::isq::si::femtonewton", ⟨1, 1, (-15)⟩, "units::isq::si::newton", [.scaled ⟨1, 1, (-15)⟩ "units::isq::si::newton"], true, "fN", none⟩, "fN"⟩⟩,
  ⟨71, n!"units::isq::si", n!"attonewton", ⟨"units::isq::si::attonewton", ⟨.named "units::isq::si::attonewton", ⟨1, 1, (-18)⟩, "units::isq::si::newton", [.scaled ⟨1, 1, (-18)⟩ "units::isq::si::newton"], true, "aN", none⟩, "aN"⟩⟩,
  ⟨71, n!"units::isq::si", n!"zeptonewton", ⟨"units::isq::si::zeptonewton", ⟨.named "units::isq::si::zeptonewton", ⟨1, 1, (-21)⟩, "units::isq::si::newton", [.scaled ⟨1, 1, (-21)⟩ "units::isq::si::newton"], true, "zN", none⟩, "zN"⟩⟩,
  ⟨71, n!"units::isq::si", n!"yoctonewton", ⟨"units::isq::si::yoctonewton", ⟨.named "units::isq::si::yoctonewton", ⟨1, 1, (-24)⟩, "units::isq::si::newton", [.scaled ⟨1, 1, (-24)⟩ "units::isq::si::newton"], true, "yN", none⟩, "yN"⟩⟩,
  ⟨71, n!"units::isq::si", n!"newton", ⟨"units::isq::si::newton", ⟨.named "units::isq::si::newton", ⟨1, 1, 0⟩, "units::isq::si::newton", [.scaled ⟨1, 1, 0⟩ "units::isq::si::newton"], true, "N", some "units::isq::si::prefix"⟩, "N"⟩⟩,
  ⟨70, n!"units::isq::si", n!"dalton", ⟨"units::isq::si::dalton", ⟨.named "units::isq::si::dalton", ⟨332107813321, 2, (-35)⟩, "units::isq::si::gram", [.scaled ⟨332107813321, 2, (-35)⟩ "units::isq::si::gram"], true, "Da", none⟩, "Da"⟩⟩,
  ⟨70, n!"units::isq::si", n!"yottatonne", ⟨"units::isq::si::yottatonne", ⟨.named "units::isq::si::yottatonne", ⟨1, 1, 30⟩, "units::isq::si::gram", [.scaled ⟨1, 1, 30⟩ "units::isq::si::gram"], true, "Yt", none⟩, "Yt"⟩⟩,
  ⟨70, n!"units::isq::si", n!"zettatonne", ⟨"units::isq::si::zettatonne", ⟨.named "units::isq::si::zettatonne", ⟨1, 1, 27⟩, "units::isq::si::gram", [.scaled ⟨1, 1, 27⟩ "units::isq::si::gram"], true, "Zt", none⟩, "Zt"⟩⟩,
  ⟨70, n!"units::isq::si", n!"exatonne", ⟨"units::isq::si::exatonne", ⟨.named "units::isq::si::exatonne", ⟨1, 1, 24⟩, "units::isq::si::gram", [.named "units::isq::si::yottagram", .scaled ⟨1, 1, 24⟩ "units::isq::si::gram"], true, "Et", none⟩, "Et"⟩⟩]

/-- Part 12 of `unitTable`. -/
def unitTable12 : List (URow) := [
  ⟨70, n!"units::isq::si", n!"petatonne", ⟨"units::isq::si::petatonne", ⟨.named "units::isq::si::petatonne", ⟨1, 1, 21⟩, "units::isq::si::gram", [.named "units::isq::si::zettagram", .scaled ⟨1, 1, 21⟩ "units::isq::si::gram"], true, "Pt", none⟩, "Pt"⟩⟩,
  ⟨70, n!"units::isq::si", n!"teratonne", ⟨"units::isq::si::teratonne", ⟨.named "units::isq::si::teratonne", ⟨1, 1, 18⟩, "units::isq::si::gram", [.named "units::isq::si::exagram", .scaled ⟨1, 1, 18⟩ "units::isq::si::gram"], true, "Tt", none⟩, "Tt"⟩⟩,
  ⟨70, n!"units::isq::si", n!"gigatonne", ⟨"units::isq::si::gigatonne", ⟨.named "units::isq::si::gigatonne", ⟨1, 1, 15⟩, "units::isq::si::gram", [.named "units::isq::si::petagram", .scaled ⟨1, 1, 15⟩ "units::isq::si::gram"], true, "Gt", none⟩, "Gt"⟩⟩,
  ⟨70, n!"units::isq::si", n!"megatonne", ⟨"units::isq::si::megatonne", ⟨.named "units::isq::si::megatonne", ⟨1, 1, 12⟩, "units::isq::si::gram", [.named "units::isq::si::teragram", .scaled ⟨1, 1, 12⟩ "units::isq::si::gram"], true, "Mt", none⟩, "Mt"⟩⟩,
  ⟨70, n!"units::isq::si", n!"kilotonne", ⟨"units::isq::si::kilotonne", ⟨.named "units::isq::si::kilotonne", ⟨1, 1, 9⟩, "units::isq::si::gram", [.named "units::isq::si::gigagram", .scaled ⟨1, 1, 9⟩ "units::isq::si::gram"], true, "kt", none⟩, "kt"⟩⟩,
  ⟨70, n!"units::isq::si", n!"hectotonne", ⟨"units::isq::si::hectotonne", ⟨.named "units::isq::si::hectotonne", ⟨1, 1, 8⟩, "units::isq::si::gram", [.scaled ⟨1, 1, 8⟩ "units::isq::si::gram"], true, "ht", none⟩, "ht"⟩⟩,
  ⟨70, n!"units::isq::si", n!"decatonne", ⟨"units::isq::si::decatonne", ⟨.named "units::isq::si::decatonne", ⟨1, 1, 7⟩, "units::isq::si::gram", [.scaled ⟨1, 1, 7⟩ "units::isq::si::gram"], true, "dat", none⟩, "dat"⟩⟩,
  ⟨70, n!"units::isq::si", n!"decitonne", ⟨"units::isq::si::decitonne", ⟨.named "units::isq::si::decitonne", ⟨1, 1, 5⟩, "units::isq::si::gram", [.scaled ⟨1, 1, 5⟩ "units::isq::si::gram"], true, "dt", none⟩, "dt"⟩⟩,
  ⟨70, n!"units::isq::si", n!"centitonne", ⟨"units::isq::si::centitonne", ⟨.named "units::isq::si::centitonne", ⟨1, 1, 4⟩, "units::isq::si::gram", [.scaled ⟨1, 1, 4⟩ "units::isq::si::gram"], true, "ct", none⟩, "ct"⟩⟩,
  ⟨70, n!"units::isq::si", n!"millitonne", ⟨"units::isq::si::millitonne", ⟨.named "units::isq::si::millitonne", ⟨1, 1, 3⟩, "units::isq::si::gram", [.named "units::isq::si::kilogram", .scaled ⟨1, 1, 3⟩ "units::isq::si::gram"], true, "mt", none⟩, "mt"⟩⟩,
  ⟨70, n!"units::isq::si", n!"microtonne", ⟨"units::isq::si::microtonne", ⟨.named "units::isq::si::microtonne", ⟨1, 1, 0⟩, "units::isq::si::gram", [.named "units::isq::si::gram", .scaled ⟨1, 1, 0⟩ "units::isq::si::gram"], true, "µt", none⟩, "ut"⟩⟩,
  ⟨70, n!"units::isq::si", n!"nanotonne", ⟨"units::isq::si::nanotonne", ⟨.named "units::isq::si::nanotonne", ⟨1, 1, (-3)⟩, "units::isq::si::gram", [.named "units::isq::si::milligram", .scaled ⟨1, 1, (-3)⟩ "units::isq::si::gram"], true, "nt", none⟩, "nt"⟩⟩,
  ⟨70, n!"units::isq::si", n!"picotonne", ⟨"units::isq::si::picotonne", ⟨.named "units::isq::si::picotonne", ⟨1, 1, (-6)⟩, "units::isq::si::gram", [.named "units::isq::si::microgram", .scaled ⟨1, 1, (-6)⟩ "units::isq::si::gram"], true, "pt", none⟩, "pt"⟩⟩,
  ⟨70, n!"units::isq::si", n!"femtotonne", ⟨"units::isq::si::femtotonne", ⟨.named "units::isq::si::femtotonne", ⟨1, 1, (-9)⟩, "units::isq::si::gram", [.named "units::isq::si::nanogram", .scaled ⟨1, 1, (-9)⟩ "units::isq::si::gram"], true, "ft", none⟩, "ft"⟩⟩,
  ⟨70, n!"units::isq::si", n!"attotonne", ⟨"units::isq::si::attotonne", ⟨.named "units::isq::si::attotonne", ⟨1, 1, (-12)⟩, "units::isq::si::gram", [.named "units::isq::si::picogram", .scaled ⟨1, 1, (-12)⟩ "units::isq::si::gram"], true, "at", none⟩, "at"⟩⟩,
  ⟨70, n!"units::isq::si", n!"zeptotonne", ⟨"units::isq::si::zeptotonne", ⟨.named "units::isq::si::zeptotonne", ⟨1, 1, (-15)⟩, "units::isq::si::gram", [.named "units::isq::si::femtogram", .scaled ⟨1, 1, (-15)⟩ "units::isq::si::gram"], true, "zt", none⟩, "zt"⟩⟩,
  ⟨70, n!"units::isq::si", n!"yoctotonne", ⟨"units::isq::si::yoctotonne", ⟨.named "units::isq::si::yoctotonne", ⟨1, 1, (-18)⟩, "units::isq::si::gram", [.named "units::isq::si::attogram", .scaled ⟨1, 1, (-18)⟩ "units::isq::si::gram"], true, "yt", none⟩, "yt"⟩⟩,
  ⟨70, n!"units::isq::si", n!"tonne", ⟨"units::isq::si::tonne", ⟨.named "units::isq::si::tonne", ⟨1, 1, 6⟩, "units::isq::si::gram", [.named "units::isq::si::megagram", .scaled ⟨1, 1, 6⟩ "units::isq::si::gram"], true, "t", some "units::isq::si::prefix"⟩, "t"⟩⟩,
  ⟨70, n!"units::isq::si", n!"yottagram", ⟨"units::isq::si::yottagram", ⟨.named "units::isq::si::yottagram", ⟨1, 1, 24⟩, "units::isq::si::gram", [.scaled ⟨1, 1, 24⟩ "units::isq::si::gram"], true, "Yg", none⟩, "Yg"⟩⟩,
  ⟨70, n!"units::isq::si", n!"zettagram", ⟨"units::isq::si::zettagram", ⟨.named "units::isq::si::zettagram", ⟨1, 1, 21⟩, "units::isq::si::gram", [.scaled ⟨1, 1, 21⟩ "units::isq::si::gram"], true, "Zg", none⟩, "Zg"⟩⟩,
  ⟨70, n!"units::isq::si", n!"exagram", ⟨"units::isq::si::exagram", ⟨.named "units::isq::si::exagram", ⟨1, 1, 18⟩, "units::isq::si::gram", [.scaled ⟨1, 1, 18⟩ "units::isq::si::gram"], true, "Eg", none⟩, "Eg"⟩⟩,
  ⟨70, n!"units::isq::si", n!"petagram", ⟨"units::isq::si::petagram", ⟨.named "units::isq::si::petagram", ⟨1, 1, 15⟩, "units::isq::si::gram", [.scaled ⟨1, 1, 15⟩ "units::isq::si::gram"], true, "Pg", none⟩, "Pg"⟩⟩,
  ⟨70, n!"units::isq::si", n!"teragram", ⟨"units::isq::si::teragram", ⟨.named "units::isq::si::teragram", ⟨1, 1, 12⟩, "units::isq::si::gram", [.scaled ⟨1, 1, 12⟩ "units::isq::si::gram"], true, "Tg", none⟩, "Tg"⟩⟩,
  ⟨70, n!"units::isq::si", n!"gigagram", ⟨"units::isq::si::gigagram", ⟨.named "units::isq::si::gigagram", ⟨1, 1, 9⟩, "units::isq::si::gram", [.scaled ⟨1, 1, 9⟩ "units::isq::si::gram"], true, "Gg", none⟩, "Gg"⟩⟩,
  ⟨70, n!"units::isq::si", n!"megagram", ⟨"units::isq::si::megagram", ⟨.named "units::isq::si::megagram", ⟨1, 1, 6⟩, "units::isq::si::gram", [.scaled ⟨1, 1, 6⟩ "units::isq::si::gram"], true, "Mg", none⟩, "Mg"⟩⟩,
  ⟨70, n!"units::isq::si", n!"kilogram", ⟨"units::isq::si::kilogram", ⟨.named "units::isq::si::kilogram", ⟨1, 1, 3⟩, "units::isq::si::gram", [.scaled ⟨1, 1, 3⟩ "units::isq::si::gram"], true, "kg", none⟩, "kg"⟩⟩,
  ⟨70, n!"units::isq::si", n!"hectogram", ⟨"units::isq::si::hectogram", ⟨.named "units::isq::si::hectogram", ⟨1, 1, 2⟩, "units::isq::si::gram", [.scaled ⟨1, 1, 2⟩ "units::isq::si::gram"], true, "hg", none⟩, "hg"⟩⟩,
  ⟨70, n!"units::isq::si", n!"decagram", ⟨"units::isq::si::decagram", ⟨.named "units::isq::si::decagram", ⟨1, 1, 1⟩, "units::isq::si::gram", [.scaled ⟨1, 1, 1⟩ "units::isq::si::gram"], true, "dag", none⟩, "dag"⟩⟩,
  ⟨70, n!"units::isq::si", n!"decigram", ⟨"units::isq::si::decigram", ⟨.named "units::isq::si::decigram", ⟨1, 1, (-1)⟩, "units::isq::si::gram", [.scaled ⟨1, 1, (-1)⟩ "units::isq::si::gram"], true, "dg", none⟩, "dg"⟩⟩,
  ⟨70, n!"units::isq::si", n!"centigram", ⟨"units::isq::si::centigram", ⟨.named "units::isq::si::centigram", ⟨1, 1, (-2)⟩, "units::isq::si::gram", [.scaled ⟨1, 1, (-2)⟩ "units::isq::si::gram"], true, "cg", none⟩, "cg"⟩⟩,
  ⟨70, n!"units::isq::si", n!"milligram", ⟨"units::isq::si::milligram", ⟨.named "units::isq::si::milligram", ⟨1, 1, (-3)⟩, "units::isq::si::gram", [.scaled ⟨1, 1, (-3)⟩ "units::isq::si::gram"], true, "mg", none⟩, "mg"⟩⟩,
  ⟨70, n!"units::isq::si", n!"microgram", ⟨"units::isq::si::microgram", ⟨.named "units::isq::si::microgram", ⟨1, 1, (-6)⟩, "units::isq::si::gram", [.scaled ⟨1, 1, (-6)⟩ "units::isq::si::gram"], true, "µg", none⟩, "ug"⟩⟩,
  ⟨70, n!"units::isq::si", n!"nanogram", ⟨"units::isq::si::nanogram", ⟨.named "units::isq::si::nanogram", ⟨1, 1, (-9)⟩, "units::isq::si::gram", [.scaled ⟨1, 1, (-9)⟩ "units::isq::si::gram"], true, "ng", none⟩, "ng"⟩⟩,
  ⟨70, n!"units::isq::si", n!"picogram", ⟨"units::isq::si::picogram", ⟨.named "units::isq::si::picogram", ⟨1, 1, (-12)⟩, "units::isq::si::gram", [.scaled ⟨1, 1, (-12)⟩ "units::isq::si::gram"], true, "pg", none⟩, "pg"⟩⟩,
  ⟨70, n!"units::isq::si", n!"femtogram", ⟨"units::isq::si::femtogram", ⟨.named "units::isq::si::femtogram", ⟨1, 1, (-15)⟩, "units::isq::si::gram", [.scaled ⟨1, 1, (-15)⟩ "units::isq::si::gram"], true, "fg", none⟩, "fg"⟩⟩,
  ⟨70, n!"units::isq::si", n!"attogram", ⟨"units::isq::si::attogram", ⟨.named "units::isq::si::attogram", ⟨1, 1, (-18)⟩, "units::isq::si::gram", [.scaled ⟨1, 1, (-18)⟩ "units::isq::si::gram"], true, "ag", none⟩, "ag"⟩⟩,
  ⟨70, n!"units::isq::si", n!"zeptogram", ⟨"units::isq::si::zeptogram", ⟨.named "units::isq::si::zeptogram", ⟨1, 1, (-21)⟩, "units::isq::si::gram", [.scaled ⟨1, 1, (-21)⟩ "units::isq::si::gram"], true, "zg", none⟩, "zg"⟩⟩,
  ⟨70, n!"units::isq::si", n!"yoctogram", ⟨"units::isq::si::yoctogram", ⟨.named "units::isq::si::yoctogram", ⟨1, 1, (-24)⟩, "units::isq::si::gram", [.scaled ⟨1, 1, (-24)⟩ "units::isq::si::gram"], true, "yg", none⟩, "yg"⟩⟩,
  ⟨70, n!"units::isq::si", n!"gram", ⟨"units::isq::si::gram", ⟨.named "units::isq::si::gram", ⟨1, 1, 0⟩, "units::isq::si::gram", [.scaled ⟨1, 1, 0⟩ "units::isq::si::gram"], true, "g", some "units::isq::si::prefix"⟩, "g"⟩⟩,
  ⟨69, n!"units::isq::si", n!"metre_per_second_sq", ⟨"units::isq::si::metre_per_second_sq", ⟨.named "units::isq::si::metre_per_second_sq", ⟨1, 1, 0⟩, "units::isq::si::metre_per_second_sq", [.scaled ⟨1, 1, 0⟩ "units::isq::si::metre_per_second_sq"], false, "", none⟩, ""⟩⟩]

/-- Part 13 of `unitTable`. -/
def unitTable13 : List (URow) := [
  ⟨68, n!"units::isq::si", n!"kilometre_per_hour", ⟨"units::isq::si::kilometre_per_hour", ⟨.named "units::isq::si::kilometre_per_hour", ⟨1, 36, 1⟩, "units::isq::si::metre_per_second", [.scaled ⟨1, 36, 1⟩ "units::isq::si::metre_per_second"], false, "km/h", none⟩, "km/h"⟩⟩,
  ⟨68, n!"units::isq::si", n!"metre_per_second", ⟨"units::isq::si::metre_per_second", ⟨.named "units::isq::si::metre_per_second", ⟨1, 1, 0⟩, "units::isq::si::metre_per_second", [.scaled ⟨1, 1, 0⟩ "units::isq::si::metre_per_second"], false, "", none⟩, ""⟩⟩,
  ⟨67, n!"units::isq::si", n!"astronomical_unit", ⟨"units::isq::si::astronomical_unit", ⟨.named "units::isq::si::astronomical_unit", ⟨1495978707, 1, 2⟩, "units::isq::si::metre", [.scaled ⟨1495978707, 1, 2⟩ "units::isq::si::metre"], true, "au", none⟩, "au"⟩⟩,
  ⟨67, n!"units::isq::si", n!"yottametre", ⟨"units::isq::si::yottametre", ⟨.named "units::isq::si::yottametre", ⟨1, 1, 24⟩, "units::isq::si::metre", [.scaled ⟨1, 1, 24⟩ "units::isq::si::metre"], true, "Ym", none⟩, "Ym"⟩⟩,
  ⟨67, n!"units::isq::si", n!"zettametre", ⟨"units::isq::si::zettametre", ⟨.named "units::isq::si::zettametre", ⟨1, 1, 21⟩, "units::isq::si::metre", [.scaled ⟨1, 1, 21⟩ "units::isq::si::metre"], true, "Zm", none⟩, "Zm"⟩⟩,
  ⟨67, n!"units::isq::si", n!"exametre", ⟨"units::isq::si::exametre", ⟨.named "units::isq::si::exametre", ⟨1, 1, 18⟩, "units::isq::si::metre", [.scaled ⟨1, 1, 18⟩ "units::isq::si::metre"], true, "Em", none⟩, "Em"⟩⟩,
  ⟨67, n!"units::isq::si", n!"petametre", ⟨"units::isq::si::petametre", ⟨.named "units::isq::si::petametre", ⟨1, 1, 15⟩, "units::isq::si::metre", [.scaled ⟨1, 1, 15⟩ "units::isq::si::metre"], true, "Pm", none⟩, "Pm"⟩⟩,
  ⟨67, n!"units::isq::si", n!"terametre", ⟨"units::isq::si::terametre", ⟨.named "units::isq::si::terametre", ⟨1, 1, 12⟩, "units::isq::si::metre", [.scaled ⟨1, 1, 12⟩ "units::isq::si::metre"], true, "Tm", none⟩, "Tm"⟩⟩,
  ⟨67, n!"units::isq::si", n!"gigametre", ⟨"units::isq::si::gigametre", ⟨.named "units::isq::si::gigametre", ⟨1, 1, 9⟩, "units::isq::si::metre", [.scaled ⟨1, 1, 9⟩ "units::isq::si::metre"], true, "Gm", none⟩, "Gm"⟩⟩,
  ⟨67, n!"units::isq::si", n!"megametre", ⟨"units::isq::si::megametre", ⟨.named "units::isq::si::megametre", ⟨1, 1, 6⟩, "units::isq::si::metre", [.scaled ⟨1, 1, 6⟩ "units::isq::si::metre"], true, "Mm", none⟩, "Mm"⟩⟩,
  ⟨67, n!"units::isq::si", n!"kilometre", ⟨"units::isq::si::kilometre", ⟨.named "units::isq::si::kilometre", ⟨1, 1, 3⟩, "units::isq::si::metre", [.scaled ⟨1, 1, 3⟩ "units::isq::si::metre"], true, "km", none⟩, "km"⟩⟩,
  ⟨67, n!"units::isq::si", n!"hectometre", ⟨"units::isq::si::hectometre", ⟨.named "units::isq::si::hectometre", ⟨1, 1, 2⟩, "units::isq::si::metre", [.scaled ⟨1, 1, 2⟩ "units::isq::si::metre"], true, "hm", none⟩, "hm"⟩⟩,
  ⟨67, n!"units::isq::si", n!"decametre", ⟨"units::isq::si::decametre", ⟨.named "units::isq::si::decametre", ⟨1, 1, 1⟩, "units::isq::si::metre", [.scaled ⟨1, 1, 1⟩ "units::isq::si::metre"], true, "dam", none⟩, "dam"⟩⟩,
  ⟨67, n!"units::isq::si", n!"decimetre", ⟨"units::isq::si::decimetre", ⟨.named "units::isq::si::decimetre", ⟨1, 1, (-1)⟩, "units::isq::si::metre", [.scaled ⟨1, 1, (-1)⟩ "units::isq::si::metre"], true, "dm", none⟩, "dm"⟩⟩,
  ⟨67, n!"units::isq::si", n!"centimetre", ⟨"units::isq::si::centimetre", ⟨.named "units::isq::si::centimetre", ⟨1, 1, (-2)⟩, "units::isq::si::metre", [.scaled ⟨1, 1, (-2)⟩ "units::isq::si::metre"], true, "cm", none⟩, "cm"⟩⟩,
  ⟨67, n!"units::isq::si", n!"millimetre", ⟨"units::isq::si::millimetre", ⟨.named "units::isq::si::millimetre", ⟨1, 1, (-3)⟩, "units::isq::si::metre", [.scaled ⟨1, 1, (-3)⟩ "units::isq::si::metre"], true, "mm", none⟩, "mm"⟩⟩,
  ⟨67, n!"units::isq::si", n!"micrometre", ⟨"units::isq::si::micrometre", ⟨.named "units::isq::si::micrometre", ⟨1, 1, (-6)⟩, "units::isq::si::metre", [.scaled ⟨1, 1, (-6)⟩ "units::isq::si::metre"], true, "µm", none⟩, "um"⟩⟩,
  ⟨67, n!"units::isq::si", n!"nanometre", ⟨"units::isq::si::nanometre", ⟨.named "units::isq::si::nanometre", ⟨1, 1, (-9)⟩, "units::isq::si::metre", [.scaled ⟨1, 1, (-9)⟩ "units::isq::si::metre"], true, "nm", none⟩, "nm"⟩⟩,
  ⟨67, n!"units::isq::si", n!"picometre", ⟨"units::isq::si::picometre", ⟨.named "units::isq::si::picometre", ⟨1, 1, (-12)⟩, "units::isq::si::metre", [.scaled ⟨1, 1, (-12)⟩ "units::isq::si::metre"], true, "pm", none⟩, "pm"⟩⟩,
  ⟨67, n!"units::isq::si", n!"femtometre", ⟨"units::isq::si::femtometre", ⟨.named "units::isq::si::femtometre", ⟨1, 1, (-15)⟩, "units::isq::si::metre", [.scaled ⟨1, 1, (-15)⟩ "units::isq::si::metre"], true, "fm", none⟩, "fm"⟩⟩,
  ⟨67, n!"units::isq::si", n!"attometre", ⟨"units::isq::si::attometre", ⟨.named "units::isq::si::attometre", ⟨1, 1, (-18)⟩, "units::isq::si::metre", [.scaled ⟨1, 1, (-18)⟩ "units::isq::si::metre"], true, "am", none⟩, "am"⟩⟩,
  ⟨67, n!"units::isq::si", n!"zeptometre", ⟨"units::isq::si::zeptometre", ⟨.named "units::isq::si::zeptometre", ⟨1, 1, (-21)⟩, "units::isq::si::metre", [.scaled ⟨1, 1, (-21)⟩ "units::isq::si::metre"], true, "zm", none⟩, "zm"⟩⟩,
  ⟨67, n!"units::isq::si", n!"yoctometre", ⟨"units::isq::si::yoctometre", ⟨.named "units::isq::si::yoctometre", ⟨1, 1, (-24)⟩, "units::isq::si::metre", [.scaled ⟨1, 1, (-24)⟩ "units::isq::si::metre"], true, "ym", none⟩, "ym"⟩⟩,
  ⟨67, n!"units::isq::si", n!"metre", ⟨"units::isq::si::metre", ⟨.named "units::isq::si::metre", ⟨1, 1, 0⟩, "units::isq::si::metre", [.scaled ⟨1, 1, 0⟩ "units::isq::si::metre"], true, "m", some "units::isq::si::prefix"⟩, "m"⟩⟩,
  ⟨56, n!"units::isq::natural", n!"square_gigaelectronvolt", ⟨"units::isq::natural::square_gigaelectronvolt", ⟨.named "units::isq::natural::square_gigaelectronvolt", ⟨1, 1, 0⟩, "units::isq::natural::square_gigaelectronvolt", [.scaled ⟨1, 1, 0⟩ "units::isq::natural::square_gigaelectronvolt"], true, "GeV²", none⟩, "GeV^2"⟩⟩,
  ⟨56, n!"units::isq::natural", n!"inverted_gigaelectronvolt", ⟨"units::isq::natural::inverted_gigaelectronvolt", ⟨.named "units::isq::natural::inverted_gigaelectronvolt", ⟨1, 1, 0⟩, "units::isq::natural::inverted_gigaelectronvolt", [.scaled ⟨1, 1, 0⟩ "units::isq::natural::inverted_gigaelectronvolt"], true, "GeV⁻¹", none⟩, "GeV^-1"⟩⟩,
  ⟨56, n!"units::isq::natural", n!"gigaelectronvolt", ⟨"units::isq::natural::gigaelectronvolt", ⟨.named "units::isq::natural::gigaelectronvolt", ⟨1, 1, 9⟩, "units::isq::natural::electronvolt", [.scaled ⟨1, 1, 9⟩ "units::isq::natural::electronvolt"], true, "GeV", none⟩, "GeV"⟩⟩,
  ⟨56, n!"units::isq::natural", n!"electronvolt", ⟨"units::isq::natural::electronvolt", ⟨.named "units::isq::natural::electronvolt", ⟨1, 1, 0⟩, "units::isq::natural::electronvolt", [.scaled ⟨1, 1, 0⟩ "units::isq::natural::electronvolt"], true, "eV", some "units::isq::si::prefix"⟩, "eV"⟩⟩,
  ⟨54, n!"units::isq::iec80000", n!"yottabyte_per_second", ⟨"units::isq::iec80000::yottabyte_per_second", ⟨.named "units::isq::iec80000::yottabyte_per_second", ⟨1, 1, 24⟩, "units::isq::iec80000::byte_per_second", [.scaled ⟨1, 1, 24⟩ "units::isq::iec80000::byte_per_second"], false, "YB/s", none⟩, "YB/s"⟩⟩,
  ⟨54, n!"units::isq::iec80000", n!"zettabyte_per_second", ⟨"units::isq::iec80000::zettabyte_per_second", ⟨.named "units::isq::iec80000::zettabyte_per_second", ⟨1, 1, 21⟩, "units::isq::iec80000::byte_per_second", [.scaled ⟨1, 1, 21⟩ "units::isq::iec80000::byte_per_second"], false, "ZB/s", none⟩, "ZB/s"⟩⟩,
  ⟨54, n!"units::isq::iec80000", n!"exabyte_per_second", ⟨"units::isq::iec80000::exabyte_per_second", ⟨.named "units::isq::iec80000::exabyte_per_second", ⟨1, 1, 18⟩, "units::isq::iec80000::byte_per_second", [.scaled ⟨1, 1, 18⟩ "units::isq::iec80000::byte_per_second"], false, "EB/s", none⟩, "EB/s"⟩⟩,
  ⟨54, n!"units::isq::iec80000", n!"petabyte_per_second", ⟨"units::isq::iec80000::petabyte_per_second", ⟨.named "units::isq::iec80000::petabyte_per_second", ⟨1, 1, 15⟩, "units::isq::iec80000::byte_per_second", [.scaled ⟨1, 1, 15⟩ "units::isq::iec80000::byte_per_second"], false, "PB/s", none⟩, "PB/s"⟩⟩,
  ⟨54, n!"units::isq::iec80000", n!"terabyte_per_second", ⟨"units::isq::iec80000::terabyte_per_second", ⟨.named "units::isq::iec80000::terabyte_per_second", ⟨1, 1, 12⟩, "units::isq::iec80000::byte_per_second", [.scaled ⟨1, 1, 12⟩ "units::isq::iec80000::byte_per_second"], false, "TB/s", none⟩, "TB/s"⟩⟩,
  ⟨54, n!"units::isq::iec80000", n!"gigabyte_per_second", ⟨"units::isq::iec80000::gigabyte_per_second", ⟨.named "units::isq::iec80000::gigabyte_per_second", ⟨1, 1, 9⟩, "units::isq::iec80000::byte_per_second", [.scaled ⟨1, 1, 9⟩ "units::isq::iec80000::byte_per_second"], false, "GB/s", none⟩, "GB/s"⟩⟩,
  ⟨54, n!"units::isq::iec80000", n!"megabyte_per_second", ⟨"units::isq::iec80000::megabyte_per_second", ⟨.named "units::isq::iec80000::megabyte_per_second", ⟨1, 1, 6⟩, "units::isq::iec80000::byte_per_second", [.scaled ⟨1, 1, 6⟩ "units::isq::iec80000::byte_per_second"], false, "MB/s", none⟩, "MB/s"⟩⟩,
  ⟨54, n!"units::isq::iec80000", n!"kilobyte_per_second", ⟨"units::isq::iec80000::kilobyte_per_second", ⟨.named "units::isq::iec80000::kilobyte_per_second", ⟨1, 1, 3⟩, "units::isq::iec80000::byte_per_second", [.scaled ⟨1, 1, 3⟩ "units::isq::iec80000::byte_per_second"], false, "kB/s", none⟩, "kB/s"⟩⟩,
  ⟨54, n!"units::isq::iec80000", n!"byte_per_second", ⟨"units::isq::iec80000::byte_per_second", ⟨.named "units::isq::iec80000::byte_per_second", ⟨1, 1, 0⟩, "units::isq::iec80000::byte_per_second", [.scaled ⟨1, 1, 0⟩ "units::isq::iec80000::byte_per_second"], false, "", none⟩, ""⟩⟩,
  ⟨53, n!"units::isq::iec80000", n!"erlang", ⟨"units::isq::iec80000::erlang", ⟨.named "units::isq::iec80000::erlang", ⟨1, 1, 0⟩, "units::isq::iec80000::erlang", [.scaled ⟨1, 1, 0⟩ "units::isq::iec80000::erlang"], true, "E", none⟩, "E"⟩⟩,
  ⟨52, n!"units::isq::iec80000", n!"pebibyte", ⟨"units::isq::iec80000::pebibyte", ⟨.named "units::isq::iec80000::pebibyte", ⟨9007199254740992, 1, 0⟩, "units::isq::iec80000::bit", [.scaled ⟨9007199254740992, 1, 0⟩ "units::isq::iec80000::bit"], true, "PiB", none⟩, "PiB"⟩⟩,
  ⟨52, n!"units::isq::iec80000", n!"tebibyte", ⟨"units::isq::iec80000::tebibyte", ⟨.named "units::isq::iec80000::tebibyte", ⟨8796093022208, 1, 0⟩, "units::isq::iec80000::bit", [.scaled ⟨8796093022208, 1, 0⟩ "units::isq::iec80000::bit"], true, "TiB", none⟩, "TiB"⟩⟩]

/-- Part 14 of `unitTable`. -/
def unitTable14 : List (URow) := [
  ⟨52, n!"units::isq::iec80000", n!"gibibyte", ⟨"units::isq::iec80000::gibibyte", ⟨.named "units::isq::iec80000::gibibyte", ⟨8589934592, 1, 0⟩, "units::isq::iec80000::bit", [.scaled ⟨8589934592, 1, 0⟩ "units::isq::iec80000::bit"], true, "GiB", none⟩, "GiB"⟩⟩,
  ⟨52, n!"units::isq::iec80000", n!"mebibyte", ⟨"units::isq::iec80000::mebibyte", ⟨.named "units::isq::iec80000::mebibyte", ⟨8388608, 1, 0⟩, "units::isq::iec80000::bit", [.scaled ⟨8388608, 1, 0⟩ "units::isq::iec80000::bit"], true, "MiB", none⟩, "MiB"⟩⟩,
  ⟨52, n!"units::isq::iec80000", n!"kibibyte", ⟨"units::isq::iec80000::kibibyte", ⟨.named "units::isq::iec80000::kibibyte", ⟨8192, 1, 0⟩, "units::isq::iec80000::bit", [.scaled ⟨8192, 1, 0⟩ "units::isq::iec80000::bit"], true, "KiB", none⟩, "KiB"⟩⟩,
  ⟨52, n!"units::isq::iec80000", n!"binary_prefix_byte", ⟨"units::isq::iec80000::binary_prefix_byte", ⟨.named "units::isq::iec80000::binary_prefix_byte", ⟨8, 1, 0⟩, "units::isq::iec80000::bit", [.named "units::isq::iec80000::byte", .scaled ⟨8, 1, 0⟩ "units::isq::iec80000::bit"], true, "B", some "units::isq::iec80000::binary_prefix"⟩, "B"⟩⟩,
  ⟨52, n!"units::isq::iec80000", n!"yottabyte", ⟨"units::isq::iec80000::yottabyte", ⟨.named "units::isq::iec80000::yottabyte", ⟨8, 1, 24⟩, "units::isq::iec80000::bit", [.scaled ⟨8, 1, 24⟩ "units::isq::iec80000::bit"], true, "YB", none⟩, "YB"⟩⟩,
  ⟨52, n!"units::isq::iec80000", n!"zettabyte", ⟨"units::isq::iec80000::zettabyte", ⟨.named "units::isq::iec80000::zettabyte", ⟨8, 1, 21⟩, "units::isq::iec80000::bit", [.scaled ⟨8, 1, 21⟩ "units::isq::iec80000::bit"], true, "ZB", none⟩, "ZB"⟩⟩,
  ⟨52, n!"units::isq::iec80000", n!"exabyte", ⟨"units::isq::iec80000::exabyte", ⟨.named "units::isq::iec80000::exabyte", ⟨8, 1, 18⟩, "units::isq::iec80000::bit", [.scaled ⟨8, 1, 18⟩ "units::isq::iec80000::bit"], true, "EB", none⟩, "EB"⟩⟩,
  ⟨52, n!"units::isq::iec80000", n!"petabyte", ⟨"units::isq::iec80000::petabyte", ⟨.named "units::isq::iec80000::petabyte", ⟨8, 1, 15⟩, "units::isq::iec80000::bit", [.scaled ⟨8, 1, 15⟩ "units::isq::iec80000::bit"], true, "PB", none⟩, "PB"⟩⟩,
  ⟨52, n!"units::isq::iec80000", n!"terabyte", ⟨"units::isq::iec80000::terabyte", ⟨.named "units::isq::iec80000::terabyte", ⟨8, 1, 12⟩, "units::isq::iec80000::bit", [.scaled ⟨8, 1, 12⟩ "units::isq::iec80000::bit"], true, "TB", none⟩, "TB"⟩⟩,
  ⟨52, n!"units::isq::iec80000", n!"gigabyte", ⟨"units::isq::iec80000::gigabyte", ⟨.named "units::isq::iec80000::gigabyte", ⟨8, 1, 9⟩, "units::isq::iec80000::bit", [.scaled ⟨8, 1, 9⟩ "units::isq::iec80000::bit"], true, "GB", none⟩, "GB"⟩⟩,
  ⟨52, n!"units::isq::iec80000", n!"megabyte", ⟨"units::isq::iec80000::megabyte", ⟨.named "units::isq::iec80000::megabyte", ⟨8, 1, 6⟩, "units::isq::iec80000::bit", [.scaled ⟨8, 1, 6⟩ "units::isq::iec80000::bit"], true, "MB", none⟩, "MB"⟩⟩,
  ⟨52, n!"units::isq::iec80000", n!"kilobyte", ⟨"units::isq::iec80000::kilobyte", ⟨.named "units::isq::iec80000::kilobyte", ⟨8, 1, 3⟩, "units::isq::iec80000::bit", [.scaled ⟨8, 1, 3⟩ "units::isq::iec80000::bit"], true, "kB", none⟩, "kB"⟩⟩,
  ⟨52, n!"units::isq::iec80000", n!"byte", ⟨"units::isq::iec80000::byte", ⟨.named "units::isq::iec80000::byte", ⟨8, 1, 0⟩, "units::isq::iec80000::bit", [.scaled ⟨8, 1, 0⟩ "units::isq::iec80000::bit"], true, "B", some "units::isq::si::prefix"⟩, "B"⟩⟩,
  ⟨52, n!"units::isq::iec80000", n!"exbibit", ⟨"units::isq::iec80000::exbibit", ⟨.named "units::isq::iec80000::exbibit", ⟨1152921504606846976, 1, 0⟩, "units::isq::iec80000::bit", [.scaled ⟨1152921504606846976, 1, 0⟩ "units::isq::iec80000::bit"], true, "Eibit", none⟩, "Eibit"⟩⟩,
  ⟨52, n!"units::isq::iec80000", n!"pebibit", ⟨"units::isq::iec80000::pebibit", ⟨.named "units::isq::iec80000::pebibit", ⟨1125899906842624, 1, 0⟩, "units::isq::iec80000::bit", [.scaled ⟨1125899906842624, 1, 0⟩ "units::isq::iec80000::bit"], true, "Pibit", none⟩, "Pibit"⟩⟩,
  ⟨52, n!"units::isq::iec80000", n!"tebibit", ⟨"units::isq::iec80000::tebibit", ⟨.named "units::isq::iec80000::tebibit", ⟨1099511627776, 1, 0⟩, "units::isq::iec80000::bit", [.scaled ⟨1099511627776, 1, 0⟩ "units::isq::iec80000::bit"], true, "Tibit", none⟩, "Tibit"⟩⟩,
  ⟨52, n!"units::isq::iec80000", n!"gibibit", ⟨"units::isq::iec80000::gibibit", ⟨.named "units::isq::iec80000::gibibit", ⟨1073741824, 1, 0⟩, "units::isq::iec80000::bit", [.scaled ⟨1073741824, 1, 0⟩ "units::isq::iec80000::bit"], true, "Gibit", none⟩, "Gibit"⟩⟩,
  ⟨52, n!"units::isq::iec80000", n!"mebibit", ⟨"units::isq::iec80000::mebibit", ⟨.named "units::isq::iec80000::mebibit", ⟨1048576, 1, 0⟩, "units::isq::iec80000::bit", [.scaled ⟨1048576, 1, 0⟩ "units::isq::iec80000::bit"], true, "Mibit", none⟩, "Mibit"⟩⟩,
  ⟨52, n!"units::isq::iec80000", n!"kibibit", ⟨"units::isq::iec80000::kibibit", ⟨.named "units::isq::iec80000::kibibit", ⟨1024, 1, 0⟩, "units::isq::iec80000::bit", [.scaled ⟨1024, 1, 0⟩ "units::isq::iec80000::bit"], true, "Kibit", none⟩, "Kibit"⟩⟩,
  ⟨52, n!"units::isq::iec80000", n!"binary_prefix_bit", ⟨"units::isq::iec80000::binary_prefix_bit", ⟨.named "units::isq::iec80000::binary_prefix_bit", ⟨1, 1, 0⟩, "units::isq::iec80000::bit", [.named "units::isq::iec80000::bit", .scaled ⟨1, 1, 0⟩ "units::isq::iec80000::bit"], true, "bit", some "units::isq::iec80000::binary_prefix"⟩, "bit"⟩⟩,
  ⟨52, n!"units::isq::iec80000", n!"yottabit", ⟨"units::isq::iec80000::yottabit", ⟨.named "units::isq::iec80000::yottabit", ⟨1, 1, 24⟩, "units::isq::iec80000::bit", [.scaled ⟨1, 1, 24⟩ "units::isq::iec80000::bit"], true, "Ybit", none⟩, "Ybit"⟩⟩,
  ⟨52, n!"units::isq::iec80000", n!"zettabit", ⟨"units::isq::iec80000::zettabit", ⟨.named "units::isq::iec80000::zettabit", ⟨1, 1, 21⟩, "units::isq::iec80000::bit", [.scaled ⟨1, 1, 21⟩ "units::isq::iec80000::bit"], true, "Zbit", none⟩, "Zbit"⟩⟩,
  ⟨52, n!"units::isq::iec80000", n!"exabit", ⟨"units::isq::iec80000::exabit", ⟨.named "units::isq::iec80000::exabit", ⟨1, 1, 18⟩, "units::isq::iec80000::bit", [.scaled ⟨1, 1, 18⟩ "units::isq::iec80000::bit"], true, "Ebit", none⟩, "Ebit"⟩⟩,
  ⟨52, n!"units::isq::iec80000", n!"petabit", ⟨"units::isq::iec80000::petabit", ⟨.named "units::isq::iec80000::petabit", ⟨1, 1, 15⟩, "units::isq::iec80000::bit", [.scaled ⟨1, 1, 15⟩ "units::isq::iec80000::bit"], true, "Pbit", none⟩, "Pbit"⟩⟩,
  ⟨52, n!"units::isq::iec80000", n!"terabit", ⟨"units::isq::iec80000::terabit", ⟨.named "units::isq::iec80000::terabit", ⟨1, 1, 12⟩, "units::isq::iec80000::bit", [.scaled ⟨1, 1, 12⟩ "units::isq::iec80000::bit"], true, "Tbit", none⟩, "Tbit"⟩⟩,
  ⟨52, n!"units::isq::iec80000", n!"gigabit", ⟨"units::isq::iec80000::gigabit", ⟨.named "units::isq::iec80000::gigabit", ⟨1, 1, 9⟩, "units::isq::iec80000::bit", [.scaled ⟨1, 1, 9⟩ "units::isq::iec80000::bit"], true, "Gbit", none⟩, "Gbit"⟩⟩,
  ⟨52, n!"units::isq::iec80000", n!"megabit", ⟨"units::isq::iec80000::megabit", ⟨.named "units::isq::iec80000::megabit", ⟨1, 1, 6⟩, "units::isq::iec80000::bit", [.scaled ⟨1, 1, 6⟩ "units::isq::iec80000::bit"], true, "Mbit", none⟩, "Mbit"⟩⟩,
  ⟨52, n!"units::isq::iec80000", n!"kilobit", ⟨"units::isq::iec80000::kilobit", ⟨.named "units::isq::iec80000::kilobit", ⟨1, 1, 3⟩, "units::isq::iec80000::bit", [.scaled ⟨1, 1, 3⟩ "units::isq::iec80000::bit"], true, "kbit", none⟩, "kbit"⟩⟩,
  ⟨52, n!"units::isq::iec80000", n!"bit", ⟨"units::isq::iec80000::bit", ⟨.named "units::isq::iec80000::bit", ⟨1, 1, 0⟩, "units::isq::iec80000::bit", [.scaled ⟨1, 1, 0⟩ "units::isq::iec80000::bit"], true, "bit", some "units::isq::si::prefix"⟩, "bit"⟩⟩,
  ⟨51, n!"units::isq::iec80000", n!"yottabaud", ⟨"units::isq::iec80000::yottabaud", ⟨.named "units::isq::iec80000::yottabaud", ⟨1, 1, 24⟩, "units::isq::si::hertz", [.named "units::isq::si::yottahertz", .scaled ⟨1, 1, 24⟩ "units::isq::si::hertz"], true, "YBd", none⟩, "YBd"⟩⟩,
  ⟨51, n!"units::isq::iec80000", n!"zettabaud", ⟨"units::isq::iec80000::zettabaud", ⟨.named "units::isq::iec80000::zettabaud", ⟨1, 1, 21⟩, "units::isq::si::hertz", [.named "units::isq::si::zettahertz", .scaled ⟨1, 1, 21⟩ "units::isq::si::hertz"], true, "ZBd", none⟩, "ZBd"⟩⟩,
  ⟨51, n!"units::isq::iec80000", n!"exabaud", ⟨"units::isq::iec80000::exabaud", ⟨.named "units::isq::iec80000::exabaud", ⟨1, 1, 18⟩, "units::isq::si::hertz", [.named "units::isq::si::exahertz", .scaled ⟨1, 1, 18⟩ "units::isq::si::hertz"], true, "EBd", none⟩, "EBd"⟩⟩,
  ⟨51, n!"units::isq::iec80000", n!"petabaud", ⟨"units::isq::iec80000::petabaud", ⟨.named "units::isq::iec80000::petabaud", ⟨1, 1, 15⟩, "units::isq::si::hertz", [.named "units::isq::si::petahertz", .scaled ⟨1, 1, 15⟩ "units::isq::si::hertz"], true, "PBd", none⟩, "PBd"⟩⟩,
  ⟨51, n!"units::isq::iec80000", n!"terabaud", ⟨"units::isq::iec80000::terabaud", ⟨.named "units::isq::iec80000::terabaud", ⟨1, 1, 12⟩, "units::isq::si::hertz", [.named "units::isq::si::terahertz", .scaled ⟨1, 1, 12⟩ "units::isq::si::hertz"], true, "TBd", none⟩, "TBd"⟩⟩,
  ⟨51, n!"units::isq::iec80000", n!"gigabaud", ⟨"units::isq::iec80000::gigabaud", ⟨.named "units::isq::iec80000::gigabaud", ⟨1, 1, 9⟩, "units::isq::si::hertz", [.named "units::isq::si::gigahertz", .scaled ⟨1, 1, 9⟩ "units::isq::si::hertz"], true, "GBd", none⟩, "GBd"⟩⟩,
  ⟨51, n!"units::isq::iec80000", n!"megabaud", ⟨"units::isq::iec80000::megabaud", ⟨.named "units::isq::iec80000::megabaud", ⟨1, 1, 6⟩, "units::isq::si::hertz", [.named "units::isq::si::megahertz", .scaled ⟨1, 1, 6⟩ "units::isq::si::hertz"], true, "MBd", none⟩, "MBd"⟩⟩,
  ⟨51, n!"units::isq::iec80000", n!"kilobaud", ⟨"units::isq::iec80000::kilobaud", ⟨.named "units::isq::iec80000::kilobaud", ⟨1, 1, 3⟩, "units::isq::si::hertz", [.named "units::isq::si::kilohertz", .scaled ⟨1, 1, 3⟩ "units::isq::si::hertz"], true, "kBd", none⟩, "kBd"⟩⟩,
  ⟨51, n!"units::isq::iec80000", n!"baud", ⟨"units::isq::iec80000::baud", ⟨.named "units::isq::iec80000::baud", ⟨1, 1, 0⟩, "units::isq::si::hertz", [.named "units::isq::si::hertz", .scaled ⟨1, 1, 0⟩ "units::isq::si::hertz"], true, "Bd", some "units::isq::si::prefix"⟩, "Bd"⟩⟩,
  ⟨50, n!"units::isq::si", n!"yottahertz", ⟨"units::isq::si::yottahertz", ⟨.named "units::isq::si::yottahertz", ⟨1, 1, 24⟩, "units::isq::si::hertz", [.scaled ⟨1, 1, 24⟩ "units::isq::si::hertz"], true, "YHz", none⟩, "YHz"⟩⟩,
  ⟨50, n!"units::isq::si", n!"zettahertz", ⟨"units::isq::si::zettahertz", ⟨.named "units::isq::si::zettahertz", ⟨1, 1, 21⟩, "units::isq::si::hertz", [.scaled ⟨1, 1, 21⟩ "units::isq::si::hertz"], true, "ZHz", none⟩, "ZHz"⟩⟩]

/-- Part 15 of `unitTable`. -/
def unitTable15 : List (URow) := [
  ⟨50, n!"units::isq::si", n!"exahertz", ⟨"units::isq::si::exahertz", ⟨.named "units::isq::si::exahertz", ⟨1, 1, 18⟩, "units::isq::si::hertz", [.scaled ⟨1, 1, 18⟩ "units::isq::si::hertz"], true, "EHz", none⟩, "EHz"⟩⟩,
  ⟨50, n!"units::isq::si", n!"petahertz", ⟨"units::isq::si::petahertz", ⟨.named "units::isq::si::petahertz", ⟨1, 1, 15⟩, "units::isq::si::hertz", [.scaled ⟨1, 1, 15⟩ "units::isq::si::hertz"], true, "PHz", none⟩, "PHz"⟩⟩,
  ⟨50, n!"units::isq::si", n!"terahertz", ⟨"units::isq::si::terahertz", ⟨.named "units::isq::si::terahertz", ⟨1, 1, 12⟩, "units::isq::si::hertz", [.scaled ⟨1, 1, 12⟩ "units::isq::si::hertz"], true, "THz", none⟩, "THz"⟩⟩,
  ⟨50, n!"units::isq::si", n!"gigahertz", ⟨"units::isq::si::gigahertz", ⟨.named "units::isq::si::gigahertz", ⟨1, 1, 9⟩, "units::isq::si::hertz", [.scaled ⟨1, 1, 9⟩ "units::isq::si::hertz"], true, "GHz", none⟩, "GHz"⟩⟩,
  ⟨50, n!"units::isq::si", n!"megahertz", ⟨"units::isq::si::megahertz", ⟨.named "units::isq::si::megahertz", ⟨1, 1, 6⟩, "units::isq::si::hertz", [.scaled ⟨1, 1, 6⟩ "units::isq::si::hertz"], true, "MHz", none⟩, "MHz"⟩⟩,
  ⟨50, n!"units::isq::si", n!"kilohertz", ⟨"units::isq::si::kilohertz", ⟨.named "units::isq::si::kilohertz", ⟨1, 1, 3⟩, "units::isq::si::hertz", [.scaled ⟨1, 1, 3⟩ "units::isq::si::hertz"], true, "kHz", none⟩, "kHz"⟩⟩,
  ⟨50, n!"units::isq::si", n!"millihertz", ⟨"units::isq::si::millihertz", ⟨.named "units::isq::si::millihertz", ⟨1, 1, (-3)⟩, "units::isq::si::hertz", [.scaled ⟨1, 1, (-3)⟩ "units::isq::si::hertz"], true, "mHz", none⟩, "mHz"⟩⟩,
  ⟨50, n!"units::isq::si", n!"microhertz", ⟨"units::isq::si::microhertz", ⟨.named "units::isq::si::microhertz", ⟨1, 1, (-6)⟩, "units::isq::si::hertz", [.scaled ⟨1, 1, (-6)⟩ "units::isq::si::hertz"], true, "µHz", none⟩, "uHz"⟩⟩,
  ⟨50, n!"units::isq::si", n!"nanohertz", ⟨"units::isq::si::nanohertz", ⟨.named "units::isq::si::nanohertz", ⟨1, 1, (-9)⟩, "units::isq::si::hertz", [.scaled ⟨1, 1, (-9)⟩ "units::isq::si::hertz"], true, "nHz", none⟩, "nHz"⟩⟩,
  ⟨50, n!"units::isq::si", n!"picohertz", ⟨"units::isq::si::picohertz", ⟨.named "units::isq::si::picohertz", ⟨1, 1, (-12)⟩, "units::isq::si::hertz", [.scaled ⟨1, 1, (-12)⟩ "units::isq::si::hertz"], true, "pHz", none⟩, "pHz"⟩⟩,
  ⟨50, n!"units::isq::si", n!"femtohertz", ⟨"units::isq::si::femtohertz", ⟨.named "units::isq::si::femtohertz", ⟨1, 1, (-15)⟩, "units::isq::si::hertz", [.scaled ⟨1, 1, (-15)⟩ "units::isq::si::hertz"], true, "fHz", none⟩, "fHz"⟩⟩,
  ⟨50, n!"units::isq::si", n!"attohertz", ⟨"units::isq::si::attohertz", ⟨.named "units::isq::si::attohertz", ⟨1, 1, (-18)⟩, "units::isq::si::hertz", [.scaled ⟨1, 1, (-18)⟩ "units::isq::si::hertz"], true, "aHz", none⟩, "aHz"⟩⟩,
  ⟨50, n!"units::isq::si", n!"zeptohertz", ⟨"units::isq::si::zeptohertz", ⟨.named "units::isq::si::zeptohertz", ⟨1, 1, (-21)⟩, "units::isq::si::hertz", [.scaled ⟨1, 1, (-21)⟩ "units::isq::si::hertz"], true, "zHz", none⟩, "zHz"⟩⟩,
  ⟨50, n!"units::isq::si", n!"yoctohertz", ⟨"units::isq::si::yoctohertz", ⟨.named "units::isq::si::yoctohertz", ⟨1, 1, (-24)⟩, "units::isq::si::hertz", [.scaled ⟨1, 1, (-24)⟩ "units::isq::si::hertz"], true, "yHz", none⟩, "yHz"⟩⟩,
  ⟨50, n!"units::isq::si", n!"hertz", ⟨"units::isq::si::hertz", ⟨.named "units::isq::si::hertz", ⟨1, 1, 0⟩, "units::isq::si::hertz", [.scaled ⟨1, 1, 0⟩ "units::isq::si::hertz"], true, "Hz", some "units::isq::si::prefix"⟩, "Hz"⟩⟩,
  ⟨49, n!"units::isq::si", n!"day", ⟨"units::isq::si::day", ⟨.named "units::isq::si::day", ⟨864, 1, 2⟩, "units::isq::si::second", [.scaled ⟨864, 1, 2⟩ "units::isq::si::second"], true, "d", none⟩, "d"⟩⟩,
  ⟨49, n!"units::isq::si", n!"hour", ⟨"units::isq::si::hour", ⟨.named "units::isq::si::hour", ⟨36, 1, 2⟩, "units::isq::si::second", [.scaled ⟨36, 1, 2⟩ "units::isq::si::second"], true, "h", none⟩, "h"⟩⟩,
  ⟨49, n!"units::isq::si", n!"minute", ⟨"units::isq::si::minute", ⟨.named "units::isq::si::minute", ⟨6, 1, 1⟩, "units::isq::si::second", [.scaled ⟨6, 1, 1⟩ "units::isq::si::second"], true, "min", none⟩, "min"⟩⟩,
  ⟨49, n!"units::isq::si", n!"millisecond", ⟨"units::isq::si::millisecond", ⟨.named "units::isq::si::millisecond", ⟨1, 1, (-3)⟩, "units::isq::si::second", [.scaled ⟨1, 1, (-3)⟩ "units::isq::si::second"], true, "ms", none⟩, "ms"⟩⟩,
  ⟨49, n!"units::isq::si", n!"microsecond", ⟨"units::isq::si::microsecond", ⟨.named "units::isq::si::microsecond", ⟨1, 1, (-6)⟩, "units::isq::si::second", [.scaled ⟨1, 1, (-6)⟩ "units::isq::si::second"], true, "µs", none⟩, "us"⟩⟩,
  ⟨49, n!"units::isq::si", n!"nanosecond", ⟨"units::isq::si::nanosecond", ⟨.named "units::isq::si::nanosecond", ⟨1, 1, (-9)⟩, "units::isq::si::second", [.scaled ⟨1, 1, (-9)⟩ "units::isq::si::second"], true, "ns", none⟩, "ns"⟩⟩,
  ⟨49, n!"units::isq::si", n!"picosecond", ⟨"units::isq::si::picosecond", ⟨.named "units::isq::si::picosecond", ⟨1, 1, (-12)⟩, "units::isq::si::second", [.scaled ⟨1, 1, (-12)⟩ "units::isq::si::second"], true, "ps", none⟩, "ps"⟩⟩,
  ⟨49, n!"units::isq::si", n!"femtosecond", ⟨"units::isq::si::femtosecond", ⟨.named "units::isq::si::femtosecond", ⟨1, 1, (-15)⟩, "units::isq::si::second", [.scaled ⟨1, 1, (-15)⟩ "units::isq::si::second"], true, "fs", none⟩, "fs"⟩⟩,
  ⟨49, n!"units::isq::si", n!"attosecond", ⟨"units::isq::si::attosecond", ⟨.named "units::isq::si::attosecond", ⟨1, 1, (-18)⟩, "units::isq::si::second", [.scaled ⟨1, 1, (-18)⟩ "units::isq::si::second"], true, "as", none⟩, "as"⟩⟩,
  ⟨49, n!"units::isq::si", n!"zeptosecond", ⟨"units::isq::si::zeptosecond", ⟨.named "units::isq::si::zeptosecond", ⟨1, 1, (-21)⟩, "units::isq::si::second", [.scaled ⟨1, 1, (-21)⟩ "units::isq::si::second"], true, "zs", none⟩, "zs"⟩⟩,
  ⟨49, n!"units::isq::si", n!"yoctosecond", ⟨"units::isq::si::yoctosecond", ⟨.named "units::isq::si::yoctosecond", ⟨1, 1, (-24)⟩, "units::isq::si::second", [.scaled ⟨1, 1, (-24)⟩ "units::isq::si::second"], true, "ys", none⟩, "ys"⟩⟩,
  ⟨49, n!"units::isq::si", n!"second", ⟨"units::isq::si::second", ⟨.named "units::isq::si::second", ⟨1, 1, 0⟩, "units::isq::si::second", [.scaled ⟨1, 1, 0⟩ "units::isq::si::second"], true, "s", some "units::isq::si::prefix"⟩, "s"⟩⟩,
  ⟨2, n!"units", n!"radian", ⟨"units::radian", ⟨.named "units::radian", ⟨1, 1, 0⟩, "units::radian", [.scaled ⟨1, 1, 0⟩ "units::radian"], true, "rad", some "units::isq::si::prefix"⟩, "rad"⟩⟩,
  ⟨0, n!"units", n!"percent", ⟨"units::percent", ⟨.named "units::percent", ⟨1, 1, (-2)⟩, "units::one", [.scaled ⟨1, 1, (-2)⟩ "units::one"], true, "%", none⟩, "%"⟩⟩,
  ⟨0, n!"units", n!"one", ⟨"units::one", ⟨.named "units::one", ⟨1, 1, 0⟩, "units::one", [.scaled ⟨1, 1, 0⟩ "units::one"], true, "", none⟩, ""⟩⟩]

/-- The units, last declared first. -/
def unitTable : List (URow) :=
  unitTable0 ++ (unitTable1 ++ (unitTable2 ++ (unitTable3 ++ (unitTable4 ++ (unitTable5 ++ (unitTable6 ++ (unitTable7 ++ (unitTable8 ++ (unitTable9 ++ (unitTable10 ++ (unitTable11 ++ (unitTable12 ++ (unitTable13 ++ (unitTable14 ++ (unitTable15)))))))))))))))

/-- Part 0 of `dimTable`. -/
def dimTable0 : List (DRow) := [
  ⟨142, n!"units::isq::si", n!"dim_torque", "units::isq::si::dim_torque", d_isq_si_dim_torque⟩,
  ⟨141, n!"units::isq::si", n!"dim_thermal_conductivity", "units::isq::si::dim_thermal_conductivity", d_isq_si_dim_thermal_conductivity⟩,
  ⟨140, n!"units::isq::si", n!"dim_surface_tension", "units::isq::si::dim_surface_tension", d_isq_si_dim_surface_tension⟩,
  ⟨139, n!"units::isq::si", n!"dim_radioactivity", "units::isq::si::dim_radioactivity", d_isq_si_dim_radioactivity⟩,
  ⟨138, n!"units::isq::si", n!"dim_permittivity", "units::isq::si::dim_permittivity", d_isq_si_dim_permittivity⟩,
  ⟨137, n!"units::isq::si", n!"dim_permeability", "units::isq::si::dim_permeability", d_isq_si_dim_permeability⟩,
  ⟨136, n!"units::isq::si", n!"dim_momentum", "units::isq::si::dim_momentum", d_isq_si_dim_momentum⟩,
  ⟨135, n!"units::isq::si", n!"dim_molar_energy", "units::isq::si::dim_molar_energy", d_isq_si_dim_molar_energy⟩,
  ⟨134, n!"units::isq::si", n!"dim_luminance", "units::isq::si::dim_luminance", d_isq_si_dim_luminance⟩,
  ⟨133, n!"units::isq::si", n!"dim_luminous_intensity", "units::isq::si::dim_luminous_intensity", d_isq_si_dim_luminous_intensity⟩,
  ⟨128, n!"units::isq::si", n!"dim_inductance", "units::isq::si::dim_inductance", d_isq_si_dim_inductance⟩,
  ⟨127, n!"units::isq::si", n!"dim_magnetic_flux", "units::isq::si::dim_magnetic_flux", d_isq_si_dim_magnetic_flux⟩,
  ⟨126, n!"units::isq::si", n!"dim_magnetic_induction", "units::isq::si::dim_magnetic_induction", d_isq_si_dim_magnetic_induction⟩,
  ⟨120, n!"units::isq::si", n!"dim_molar_heat_capacity", "units::isq::si::dim_molar_heat_capacity", d_isq_si_dim_molar_heat_capacity⟩,
  ⟨120, n!"units::isq::si", n!"dim_specific_heat_capacity", "units::isq::si::dim_specific_heat_capacity", d_isq_si_dim_specific_heat_capacity⟩,
  ⟨120, n!"units::isq::si", n!"dim_heat_capacity", "units::isq::si::dim_heat_capacity", d_isq_si_dim_heat_capacity⟩,
  ⟨118, n!"units::isq::si::fps", n!"dim_volume", "units::isq::si::fps::dim_volume", d_isq_si_fps_dim_volume⟩,
  ⟨117, n!"units::isq::si::fps", n!"dim_pressure", "units::isq::si::fps::dim_pressure", d_isq_si_fps_dim_pressure⟩,
  ⟨116, n!"units::isq::si::fps", n!"dim_power", "units::isq::si::fps::dim_power", d_isq_si_fps_dim_power⟩,
  ⟨115, n!"units::isq::si::fps", n!"dim_energy", "units::isq::si::fps::dim_energy", d_isq_si_fps_dim_energy⟩,
  ⟨114, n!"units::isq::si::fps", n!"dim_force", "units::isq::si::fps::dim_force", d_isq_si_fps_dim_force⟩,
  ⟨113, n!"units::isq::si::fps", n!"dim_density", "units::isq::si::fps::dim_density", d_isq_si_fps_dim_density⟩,
  ⟨112, n!"units::isq::si::fps", n!"dim_mass", "units::isq::si::fps::dim_mass", d_isq_si_fps_dim_mass⟩,
  ⟨111, n!"units::isq::si::fps", n!"dim_area", "units::isq::si::fps::dim_area", d_isq_si_fps_dim_area⟩,
  ⟨110, n!"units::isq::si::fps", n!"dim_acceleration", "units::isq::si::fps::dim_acceleration", d_isq_si_fps_dim_acceleration⟩,
  ⟨109, n!"units::isq::si::fps", n!"dim_speed", "units::isq::si::fps::dim_speed", d_isq_si_fps_dim_speed⟩,
  ⟨108, n!"units::isq::si::fps", n!"dim_time", "units::isq::si::dim_time", d_isq_si_dim_time⟩,
  ⟨107, n!"units::isq::si::fps", n!"dim_length", "units::isq::si::fps::dim_length", d_isq_si_fps_dim_length⟩,
  ⟨106, n!"units::isq::si", n!"dim_energy_density", "units::isq::si::dim_energy_density", d_isq_si_dim_energy_density⟩,
  ⟨105, n!"units::isq::si", n!"dim_volume", "units::isq::si::dim_volume", d_isq_si_dim_volume⟩,
  ⟨104, n!"units::isq::si", n!"dim_electric_field_strength", "units::isq::si::dim_electric_field_strength", d_isq_si_dim_electric_field_strength⟩,
  ⟨103, n!"units::isq::si", n!"dim_dynamic_viscosity", "units::isq::si::dim_dynamic_viscosity", d_isq_si_dim_dynamic_viscosity⟩,
  ⟨102, n!"units::isq::si", n!"dim_pressure", "units::isq::si::dim_pressure", d_isq_si_dim_pressure⟩,
  ⟨101, n!"units::isq::si", n!"dim_density", "units::isq::si::dim_density", d_isq_si_dim_density⟩,
  ⟨100, n!"units::isq::si", n!"dim_current_density", "units::isq::si::dim_current_density", d_isq_si_dim_current_density⟩,
  ⟨98, n!"units::isq::si", n!"dim_thermodynamic_temperature", "units::isq::si::dim_thermodynamic_temperature", d_isq_si_dim_thermodynamic_temperature⟩,
  ⟨97, n!"units::isq::si", n!"dim_conductance", "units::isq::si::dim_conductance", d_isq_si_dim_conductance⟩,
  ⟨96, n!"units::isq::si", n!"dim_resistance", "units::isq::si::dim_resistance", d_isq_si_dim_resistance⟩,
  ⟨95, n!"units::isq::si", n!"dim_concentration", "units::isq::si::dim_concentration", d_isq_si_dim_concentration⟩,
  ⟨94, n!"units::isq::si", n!"dim_surface_charge_density", "units::isq::si::dim_surface_charge_density", d_isq_si_dim_surface_charge_density⟩]

/-- Part 1 of `dimTable`. -/
def dimTable1 : List (DRow) := [
  ⟨94, n!"units::isq::si", n!"dim_charge_density", "units::isq::si::dim_charge_density", d_isq_si_dim_charge_density⟩,
  ⟨92, n!"units::isq::si::cgs", n!"dim_pressure", "units::isq::si::cgs::dim_pressure", d_isq_si_cgs_dim_pressure⟩,
  ⟨91, n!"units::isq::si::cgs", n!"dim_power", "units::isq::si::cgs::dim_power", d_isq_si_cgs_dim_power⟩,
  ⟨90, n!"units::isq::si::cgs", n!"dim_energy", "units::isq::si::cgs::dim_energy", d_isq_si_cgs_dim_energy⟩,
  ⟨89, n!"units::isq::si::cgs", n!"dim_force", "units::isq::si::cgs::dim_force", d_isq_si_cgs_dim_force⟩,
  ⟨88, n!"units::isq::si::cgs", n!"dim_mass", "units::isq::si::cgs::dim_mass", d_isq_si_cgs_dim_mass⟩,
  ⟨87, n!"units::isq::si::cgs", n!"dim_area", "units::isq::si::cgs::dim_area", d_isq_si_cgs_dim_area⟩,
  ⟨86, n!"units::isq::si::cgs", n!"dim_acceleration", "units::isq::si::cgs::dim_acceleration", d_isq_si_cgs_dim_acceleration⟩,
  ⟨85, n!"units::isq::si::cgs", n!"dim_speed", "units::isq::si::cgs::dim_speed", d_isq_si_cgs_dim_speed⟩,
  ⟨84, n!"units::isq::si::cgs", n!"dim_time", "units::isq::si::dim_time", d_isq_si_dim_time⟩,
  ⟨83, n!"units::isq::si::cgs", n!"dim_length", "units::isq::si::cgs::dim_length", d_isq_si_cgs_dim_length⟩,
  ⟨82, n!"units::isq::si", n!"dim_catalytic_activity", "units::isq::si::dim_catalytic_activity", d_isq_si_dim_catalytic_activity⟩,
  ⟨81, n!"units::isq::si", n!"dim_capacitance", "units::isq::si::dim_capacitance", d_isq_si_dim_capacitance⟩,
  ⟨80, n!"units::isq::si", n!"dim_voltage", "units::isq::si::dim_voltage", d_isq_si_dim_voltage⟩,
  ⟨79, n!"units::isq::si", n!"dim_power", "units::isq::si::dim_power", d_isq_si_dim_power⟩,
  ⟨78, n!"units::isq::si", n!"dim_electric_charge", "units::isq::si::dim_electric_charge", d_isq_si_dim_electric_charge⟩,
  ⟨77, n!"units::isq::si", n!"dim_electric_current", "units::isq::si::dim_electric_current", d_isq_si_dim_electric_current⟩,
  ⟨76, n!"units::isq::si", n!"dim_area", "units::isq::si::dim_area", d_isq_si_dim_area⟩,
  ⟨75, n!"units::isq::si", n!"dim_angular_velocity", "units::isq::si::dim_angular_velocity", d_isq_si_dim_angular_velocity⟩,
  ⟨74, n!"units::isq::si", n!"dim_amount_of_substance", "units::isq::si::dim_amount_of_substance", d_isq_si_dim_amount_of_substance⟩,
  ⟨73, n!"units::isq::si", n!"dim_absorbed_dose", "units::isq::si::dim_absorbed_dose", d_isq_si_dim_absorbed_dose⟩,
  ⟨72, n!"units::isq::si", n!"dim_energy", "units::isq::si::dim_energy", d_isq_si_dim_energy⟩,
  ⟨71, n!"units::isq::si", n!"dim_force", "units::isq::si::dim_force", d_isq_si_dim_force⟩,
  ⟨70, n!"units::isq::si", n!"dim_mass", "units::isq::si::dim_mass", d_isq_si_dim_mass⟩,
  ⟨69, n!"units::isq::si", n!"dim_acceleration", "units::isq::si::dim_acceleration", d_isq_si_dim_acceleration⟩,
  ⟨68, n!"units::isq::si", n!"dim_speed", "units::isq::si::dim_speed", d_isq_si_dim_speed⟩,
  ⟨67, n!"units::isq::si", n!"dim_length", "units::isq::si::dim_length", d_isq_si_dim_length⟩,
  ⟨65, n!"units::isq::natural", n!"dim_momentum", "units::isq::natural::dim_momentum", d_isq_natural_dim_momentum⟩,
  ⟨64, n!"units::isq::natural", n!"dim_energy", "units::isq::natural::dim_energy", d_isq_natural_dim_energy⟩,
  ⟨63, n!"units::isq::natural", n!"dim_force", "units::isq::natural::dim_force", d_isq_natural_dim_force⟩,
  ⟨62, n!"units::isq::natural", n!"dim_mass", "units::isq::natural::dim_mass", d_isq_natural_dim_mass⟩,
  ⟨60, n!"units::isq::natural", n!"dim_speed", "units::isq::natural::dim_speed", d_isq_natural_dim_speed⟩,
  ⟨59, n!"units::isq::natural", n!"dim_acceleration", "units::isq::natural::dim_acceleration", d_isq_natural_dim_acceleration⟩,
  ⟨58, n!"units::isq::natural", n!"dim_time", "units::isq::natural::dim_time", d_isq_natural_dim_time⟩,
  ⟨57, n!"units::isq::natural", n!"dim_length", "units::isq::natural::dim_length", d_isq_natural_dim_length⟩,
  ⟨54, n!"units::isq::iec80000", n!"dim_transfer_rate", "units::isq::iec80000::dim_transfer_rate", d_isq_iec80000_dim_transfer_rate⟩,
  ⟨53, n!"units::isq::iec80000", n!"dim_traffic_intensity", "units::isq::iec80000::dim_traffic_intensity", d_isq_iec80000_dim_traffic_intensity⟩,
  ⟨52, n!"units::isq::iec80000", n!"dim_storage_capacity", "units::isq::iec80000::dim_storage_capacity", d_isq_iec80000_dim_storage_capacity⟩,
  ⟨51, n!"units::isq::iec80000", n!"dim_modulation_rate", "units::isq::si::dim_frequency", d_isq_si_dim_frequency⟩,
  ⟨50, n!"units::isq::si", n!"dim_frequency", "units::isq::si::dim_frequency", d_isq_si_dim_frequency⟩]

/-- Part 2 of `dimTable`. -/
def dimTable2 : List (DRow) := [
  ⟨49, n!"units::isq::si", n!"dim_time", "units::isq::si::dim_time", d_isq_si_dim_time⟩,
  ⟨2, n!"units", n!"dim_angle<>", "units::dim_angle<>", d_dim_angle⟩,
  ⟨0, n!"units", n!"dim_one", "units::dim_one", d_dim_one⟩]

/-- The dimensions, last declared first. -/
def dimTable : List (DRow) :=
  dimTable0 ++ (dimTable1 ++ (dimTable2))

/-- Part 0 of `dentTable`. -/
def dentTable0 : List (DEnt) := [
  ⟨"units::isq::si::dim_torque", d_isq_si_dim_torque, [⟨d_isq_si_dim_force, 1, 1⟩, ⟨d_isq_si_dim_length, 1, 1⟩, ⟨d_dim_angle, (-1), 1⟩], 43936264262396709961931718713394044720722850574595429⟩,
  ⟨"units::isq::si::dim_thermal_conductivity", d_isq_si_dim_thermal_conductivity, [⟨d_isq_si_dim_power, 1, 1⟩, ⟨d_isq_si_dim_length, (-1), 1⟩, ⟨d_isq_si_dim_thermodynamic_temperature, (-1), 1⟩], 228130126905398452706822191580885155732347308859136455797399584677121326721140683011193⟩,
  ⟨"units::isq::si::dim_surface_tension", d_isq_si_dim_surface_tension, [⟨d_isq_si_dim_force, 1, 1⟩, ⟨d_isq_si_dim_length, (-1), 1⟩], 207483141735245638034777759076755642793015695957741264530778440850494549870⟩,
  ⟨"units::isq::si::dim_radioactivity", d_isq_si_dim_radioactivity, [⟨d_isq_si_dim_time, (-1), 1⟩], 3165941493762903412395900864818659100235139418097560912793930406917241⟩,
  ⟨"units::isq::si::dim_permittivity", d_isq_si_dim_permittivity, [⟨d_isq_si_dim_capacitance, 1, 1⟩, ⟨d_isq_si_dim_length, (-1), 1⟩], 12366958960011341454671487753197887110292899283813723841555411334265⟩,
  ⟨"units::isq::si::dim_permeability", d_isq_si_dim_permeability, [⟨d_isq_si_dim_inductance, 1, 1⟩, ⟨d_isq_si_dim_length, (-1), 1⟩], 12366958960011341454671487753197887110292899283813430243363325047929⟩,
  ⟨"units::isq::si::dim_momentum", d_isq_si_dim_momentum, [⟨d_isq_si_dim_mass, 1, 1⟩, ⟨d_isq_si_dim_speed, 1, 1⟩], 2879407014700430784065157117600992114816788326549206365549⟩,
  ⟨"units::isq::si::dim_molar_energy", d_isq_si_dim_molar_energy, [⟨d_isq_si_dim_energy, 1, 1⟩, ⟨d_isq_si_dim_amount_of_substance, (-1), 1⟩], 12366958960011341454671487753197887110291982889487538717438944372601⟩,
  ⟨"units::isq::si::dim_luminance", d_isq_si_dim_luminance, [⟨d_isq_si_dim_luminous_intensity, 1, 1⟩, ⟨d_isq_si_dim_length, (-2), 1⟩], 737128195763310280720680222105853981393079797202485074879333⟩,
  ⟨"units::isq::si::dim_luminous_intensity", d_isq_si_dim_luminous_intensity, [], 3480989485250830882367281976026689998356657829841531284109144521874498453842261113⟩,
  ⟨"units::isq::si::dim_inductance", d_isq_si_dim_inductance, [⟨d_isq_si_dim_magnetic_flux, 1, 1⟩, ⟨d_isq_si_dim_electric_current, (-1), 1⟩], 188704818115407431864494136859098619236614131212026394404873061⟩,
  ⟨"units::isq::si::dim_magnetic_flux", d_isq_si_dim_magnetic_flux, [⟨d_isq_si_dim_magnetic_induction, 1, 1⟩, ⟨d_isq_si_dim_area, 1, 1⟩], 3165941493762903412395900864818659100234743280935195785687863007147384⟩,
  ⟨"units::isq::si::dim_magnetic_induction", d_isq_si_dim_magnetic_induction, [⟨d_isq_si_dim_voltage, 1, 1⟩, ⟨d_isq_si_dim_time, 1, 1⟩, ⟨d_isq_si_dim_length, (-2), 1⟩], 3480989485250830882367281976026689998356738128530535985890917554315073967400513390⟩,
  ⟨"units::isq::si::dim_molar_heat_capacity", d_isq_si_dim_molar_heat_capacity, [⟨d_isq_si_dim_heat_capacity, 1, 1⟩, ⟨d_isq_si_dim_amount_of_substance, (-1), 1⟩], 891133308224212705886024185862832639579326182160019201540968910708737569428083405945⟩,
  ⟨"units::isq::si::dim_specific_heat_capacity", d_isq_si_dim_specific_heat_capacity, [⟨d_isq_si_dim_heat_capacity, 1, 1⟩, ⟨d_isq_si_dim_mass, (-1), 1⟩], 14950735996872192996594299147444889566074750780651450773537816397198847499032098396111991929⟩,
  ⟨"units::isq::si::dim_heat_capacity", d_isq_si_dim_heat_capacity, [⟨d_isq_si_dim_energy, 1, 1⟩, ⟨d_isq_si_dim_thermodynamic_temperature, (-1), 1⟩], 3165941493762903412395900864818659100234348370837331122908574484362361⟩,
  ⟨"units::isq::si::fps::dim_volume", d_isq_si_fps_dim_volume, [⟨d_isq_si_fps_dim_length, 3, 1⟩], 43936264262396709961931718713394044720725049497447781⟩,
  ⟨"units::isq::si::fps::dim_pressure", d_isq_si_fps_dim_pressure, [⟨d_isq_si_fps_dim_force, 1, 1⟩, ⟨d_isq_si_fps_dim_area, (-1), 1⟩], 2879407014700430784065157117600992114817005335020370752101⟩,
  ⟨"units::isq::si::fps::dim_power", d_isq_si_fps_dim_power, [⟨d_isq_si_fps_dim_length, 1, 1⟩, ⟨d_isq_si_fps_dim_force, 1, 1⟩, ⟨d_isq_si_dim_time, (-1), 1⟩], 171626032274987148288795776224195487190306455512434⟩,
  ⟨"units::isq::si::fps::dim_energy", d_isq_si_fps_dim_energy, [⟨d_isq_si_fps_dim_length, 1, 1⟩, ⟨d_isq_si_fps_dim_force, 1, 1⟩], 43936264262396709961931718713394044720706353387169657⟩,
  ⟨"units::isq::si::fps::dim_force", d_isq_si_fps_dim_force, [⟨d_isq_si_fps_dim_mass, 1, 1⟩, ⟨d_isq_si_fps_dim_acceleration, 1, 1⟩], 171626032274987148288795776224195487190263505511269⟩,
  ⟨"units::isq::si::fps::dim_density", d_isq_si_fps_dim_density, [⟨d_isq_si_fps_dim_mass, 1, 1⟩, ⟨d_isq_si_fps_dim_length, (-3), 1⟩], 11247683651173557750254519990628875448500535135205684345⟩,
  ⟨"units::isq::si::fps::dim_mass", d_isq_si_fps_dim_mass, [], 670414188574168548003108500875763621837083341683⟩,
  ⟨"units::isq::si::fps::dim_area", d_isq_si_fps_dim_area, [⟨d_isq_si_fps_dim_length, 2, 1⟩], 670414188574168548003108500875763621836883125601⟩,
  ⟨"units::isq::si::fps::dim_acceleration", d_isq_si_fps_dim_acceleration, [⟨d_isq_si_fps_dim_length, 1, 1⟩, ⟨d_isq_si_dim_time, (-2), 1⟩], 12366958960011341454671487753197887110288254519831905189055882162030⟩,
  ⟨"units::isq::si::fps::dim_speed", d_isq_si_fps_dim_speed, [⟨d_isq_si_fps_dim_length, 1, 1⟩, ⟨d_isq_si_dim_time, (-1), 1⟩], 171626032274987148288795776224195487190319356011876⟩,
  ⟨"units::isq::si::dim_time", d_isq_si_dim_time, [], 670414188574168548003108500875763621837201304933⟩,
  ⟨"units::isq::si::fps::dim_length", d_isq_si_fps_dim_length, [], 43936264262396709961931718713394044720714011464135784⟩,
  ⟨"units::isq::si::dim_energy_density", d_isq_si_dim_energy_density, [⟨d_isq_si_dim_energy, 1, 1⟩, ⟨d_isq_si_dim_volume, (-1), 1⟩], 810481022403303273573350621393576729659933049994568813091256721121834105⟩,
  ⟨"units::isq::si::dim_volume", d_isq_si_dim_volume, [⟨d_isq_si_dim_length, 3, 1⟩], 43936264262396709961931718713394044720725049497447781⟩,
  ⟨"units::isq::si::dim_electric_field_strength", d_isq_si_dim_electric_field_strength, [⟨d_isq_si_dim_voltage, 1, 1⟩, ⟨d_isq_si_dim_length, (-1), 1⟩], 3827388415199281407128140581745891728913793769671083471974644181191718125056320412433869403240⟩,
  ⟨"units::isq::si::dim_dynamic_viscosity", d_isq_si_dim_dynamic_viscosity, [⟨d_isq_si_dim_pressure, 1, 1⟩, ⟨d_isq_si_dim_time, 1, 1⟩], 13597615176761058134247195218854257806077977710825053685285483673453662476792953⟩,
  ⟨"units::isq::si::dim_pressure", d_isq_si_dim_pressure, [⟨d_isq_si_dim_force, 1, 1⟩, ⟨d_isq_si_dim_area, (-1), 1⟩], 2879407014700430784065157117600992114817005335020370752101⟩,
  ⟨"units::isq::si::dim_density", d_isq_si_dim_density, [⟨d_isq_si_dim_mass, 1, 1⟩, ⟨d_isq_si_dim_length, (-3), 1⟩], 11247683651173557750254519990628875448500535135205684345⟩,
  ⟨"units::isq::si::dim_current_density", d_isq_si_dim_current_density, [⟨d_isq_si_dim_electric_current, 1, 1⟩, ⟨d_isq_si_dim_length, (-2), 1⟩], 207483141735245638034777759076755642792932619211723415332584521322736481401⟩,
  ⟨"units::isq::si::dim_thermodynamic_temperature", d_isq_si_dim_thermodynamic_temperature, [], 250831727178500106297549821165298760346188446941082229753235763287734015052421837747800639653900901⟩,
  ⟨"units::isq::si::dim_conductance", d_isq_si_dim_conductance, [⟨d_isq_si_dim_resistance, (-1), 1⟩], 48308433437544302557310499035929246524565968940975061639965336421⟩,
  ⟨"units::isq::si::dim_resistance", d_isq_si_dim_resistance, [⟨d_isq_si_dim_voltage, 1, 1⟩, ⟨d_isq_si_dim_electric_current, (-1), 1⟩], 188704818115407431864494136859098619236656467567179360860267365⟩,
  ⟨"units::isq::si::dim_concentration", d_isq_si_dim_concentration, [⟨d_isq_si_dim_amount_of_substance, 1, 1⟩, ⟨d_isq_si_dim_length, (-3), 1⟩], 3165941493762903412395900864818659100233955340510724917900889855455086⟩,
  ⟨"units::isq::si::dim_surface_charge_density", d_isq_si_dim_surface_charge_density, [⟨d_isq_si_dim_electric_charge, 1, 1⟩, ⟨d_isq_si_dim_length, (-2), 1⟩], 14950735996872192996594299147444889566074758162442721759885758213137087489148249426354599033⟩]

/-- Part 1 of `dentTable`. -/
def dentTable1 : List (DEnt) := [
  ⟨"units::isq::si::dim_charge_density", d_isq_si_dim_charge_density, [⟨d_isq_si_dim_electric_charge, 1, 1⟩, ⟨d_isq_si_dim_length, (-3), 1⟩], 810481022403303273573350621393576729659892008568446015944121516265403513⟩,
  ⟨"units::isq::si::cgs::dim_pressure", d_isq_si_cgs_dim_pressure, [⟨d_isq_si_cgs_dim_force, 1, 1⟩, ⟨d_isq_si_cgs_dim_area, (-1), 1⟩], 2879407014700430784065157117600992114817005335020370752101⟩,
  ⟨"units::isq::si::cgs::dim_power", d_isq_si_cgs_dim_power, [⟨d_isq_si_cgs_dim_energy, 1, 1⟩, ⟨d_isq_si_dim_time, (-1), 1⟩], 171626032274987148288795776224195487190306455512434⟩,
  ⟨"units::isq::si::cgs::dim_energy", d_isq_si_cgs_dim_energy, [⟨d_isq_si_cgs_dim_force, 1, 1⟩, ⟨d_isq_si_cgs_dim_length, 1, 1⟩], 43936264262396709961931718713394044720706353387169657⟩,
  ⟨"units::isq::si::cgs::dim_force", d_isq_si_cgs_dim_force, [⟨d_isq_si_cgs_dim_mass, 1, 1⟩, ⟨d_isq_si_cgs_dim_acceleration, 1, 1⟩], 171626032274987148288795776224195487190263505511269⟩,
  ⟨"units::isq::si::cgs::dim_mass", d_isq_si_cgs_dim_mass, [], 670414188574168548003108500875763621837083341683⟩,
  ⟨"units::isq::si::cgs::dim_area", d_isq_si_cgs_dim_area, [⟨d_isq_si_cgs_dim_length, 2, 1⟩], 670414188574168548003108500875763621836883125601⟩,
  ⟨"units::isq::si::cgs::dim_acceleration", d_isq_si_cgs_dim_acceleration, [⟨d_isq_si_cgs_dim_length, 1, 1⟩, ⟨d_isq_si_dim_time, (-2), 1⟩], 12366958960011341454671487753197887110288254519831905189055882162030⟩,
  ⟨"units::isq::si::cgs::dim_speed", d_isq_si_cgs_dim_speed, [⟨d_isq_si_cgs_dim_length, 1, 1⟩, ⟨d_isq_si_dim_time, (-1), 1⟩], 171626032274987148288795776224195487190319356011876⟩,
  ⟨"units::isq::si::dim_time", d_isq_si_dim_time, [], 670414188574168548003108500875763621837201304933⟩,
  ⟨"units::isq::si::cgs::dim_length", d_isq_si_cgs_dim_length, [], 43936264262396709961931718713394044720714011464135784⟩,
  ⟨"units::isq::si::dim_catalytic_activity", d_isq_si_dim_catalytic_activity, [⟨d_isq_si_dim_time, (-1), 1⟩, ⟨d_isq_si_dim_amount_of_substance, 1, 1⟩], 3480989485250830882367281976026689998355867022883824845887050403927242571950683257⟩,
  ⟨"units::isq::si::dim_capacitance", d_isq_si_dim_capacitance, [⟨d_isq_si_dim_electric_charge, 1, 1⟩, ⟨d_isq_si_dim_voltage, (-1), 1⟩], 48308433437544302557310499035929246524565902864516556877726638949⟩,
  ⟨"units::isq::si::dim_voltage", d_isq_si_dim_voltage, [⟨d_isq_si_dim_power, 1, 1⟩, ⟨d_isq_si_dim_electric_current, (-1), 1⟩], 11247683651173557750254519990628875448505612671329068901⟩,
  ⟨"units::isq::si::dim_power", d_isq_si_dim_power, [⟨d_isq_si_dim_energy, 1, 1⟩, ⟨d_isq_si_dim_time, (-1), 1⟩], 171626032274987148288795776224195487190306455512434⟩,
  ⟨"units::isq::si::dim_electric_charge", d_isq_si_dim_electric_charge, [⟨d_isq_si_dim_time, 1, 1⟩, ⟨d_isq_si_dim_electric_current, 1, 1⟩], 207483141735245638034777759076755642792942820229163816864183988924760352613⟩,
  ⟨"units::isq::si::dim_electric_current", d_isq_si_dim_electric_current, [], 53115684284222883336903106323649444554993361978665937117231101179105315745396⟩,
  ⟨"units::isq::si::dim_area", d_isq_si_dim_area, [⟨d_isq_si_dim_length, 2, 1⟩], 670414188574168548003108500875763621836883125601⟩,
  ⟨"units::isq::si::dim_angular_velocity", d_isq_si_dim_angular_velocity, [⟨d_dim_angle, 1, 1⟩, ⟨d_isq_si_dim_time, (-1), 1⟩], 53115684284222883336903106323649444554988055493264944266566506974425431766137⟩,
  ⟨"units::isq::si::dim_amount_of_substance", d_isq_si_dim_amount_of_substance, [], 891133308224212705886024185862832639579058400040476287254505767363900076683191804773⟩,
  ⟨"units::isq::si::dim_absorbed_dose", d_isq_si_dim_absorbed_dose, [⟨d_isq_si_dim_energy, 1, 1⟩, ⟨d_isq_si_dim_mass, (-1), 1⟩], 3165941493762903412395900864818659100233792866982105146351694059107173⟩,
  ⟨"units::isq::si::dim_energy", d_isq_si_dim_energy, [⟨d_isq_si_dim_force, 1, 1⟩, ⟨d_isq_si_dim_length, 1, 1⟩], 43936264262396709961931718713394044720706353387169657⟩,
  ⟨"units::isq::si::dim_force", d_isq_si_dim_force, [⟨d_isq_si_dim_mass, 1, 1⟩, ⟨d_isq_si_dim_acceleration, 1, 1⟩], 171626032274987148288795776224195487190263505511269⟩,
  ⟨"units::isq::si::dim_mass", d_isq_si_dim_mass, [], 670414188574168548003108500875763621837083341683⟩,
  ⟨"units::isq::si::dim_acceleration", d_isq_si_dim_acceleration, [⟨d_isq_si_dim_length, 1, 1⟩, ⟨d_isq_si_dim_time, (-2), 1⟩], 12366958960011341454671487753197887110288254519831905189055882162030⟩,
  ⟨"units::isq::si::dim_speed", d_isq_si_dim_speed, [⟨d_isq_si_dim_length, 1, 1⟩, ⟨d_isq_si_dim_time, (-1), 1⟩], 171626032274987148288795776224195487190319356011876⟩,
  ⟨"units::isq::si::dim_length", d_isq_si_dim_length, [], 43936264262396709961931718713394044720714011464135784⟩,
  ⟨"units::isq::natural::dim_momentum", d_isq_natural_dim_momentum, [⟨d_isq_natural_dim_mass, 1, 1⟩, ⟨d_isq_natural_dim_speed, 1, 1⟩], 2879407014700430784065157117600992114816788326549206365549⟩,
  ⟨"units::isq::natural::dim_energy", d_isq_natural_dim_energy, [⟨d_isq_natural_dim_force, 1, 1⟩, ⟨d_isq_natural_dim_length, 1, 1⟩], 43936264262396709961931718713394044720706353387169657⟩,
  ⟨"units::isq::natural::dim_force", d_isq_natural_dim_force, [⟨d_isq_natural_dim_mass, 1, 1⟩, ⟨d_isq_natural_dim_acceleration, 1, 1⟩], 171626032274987148288795776224195487190263505511269⟩,
  ⟨"units::isq::natural::dim_mass", d_isq_natural_dim_mass, [], 670414188574168548003108500875763621837083341683⟩,
  ⟨"units::isq::natural::dim_speed", d_isq_natural_dim_speed, [⟨d_isq_natural_dim_length, 1, 1⟩, ⟨d_isq_natural_dim_time, (-1), 1⟩], 171626032274987148288795776224195487190319356011876⟩,
  ⟨"units::isq::natural::dim_acceleration", d_isq_natural_dim_acceleration, [⟨d_isq_natural_dim_length, 1, 1⟩, ⟨d_isq_natural_dim_time, (-2), 1⟩], 12366958960011341454671487753197887110288254519831905189055882162030⟩,
  ⟨"units::isq::natural::dim_time", d_isq_natural_dim_time, [], 670414188574168548003108500875763621837201304933⟩,
  ⟨"units::isq::natural::dim_length", d_isq_natural_dim_length, [], 43936264262396709961931718713394044720714011464135784⟩,
  ⟨"units::isq::iec80000::dim_transfer_rate", d_isq_iec80000_dim_transfer_rate, [⟨d_isq_iec80000_dim_storage_capacity, 1, 1⟩, ⟨d_isq_si_dim_time, (-1), 1⟩], 0⟩,
  ⟨"units::isq::iec80000::dim_traffic_intensity", d_isq_iec80000_dim_traffic_intensity, [], 0⟩,
  ⟨"units::isq::iec80000::dim_storage_capacity", d_isq_iec80000_dim_storage_capacity, [], 0⟩,
  ⟨"units::isq::si::dim_frequency", d_isq_si_dim_frequency, [⟨d_isq_si_dim_time, (-1), 1⟩], 737128195763310280720680222105853981392968898322287115002745⟩,
  ⟨"units::isq::si::dim_frequency", d_isq_si_dim_frequency, [⟨d_isq_si_dim_time, (-1), 1⟩], 737128195763310280720680222105853981392968898322287115002745⟩]

/-- Part 2 of `dentTable`. -/
def dentTable2 : List (DEnt) := [
  ⟨"units::isq::si::dim_time", d_isq_si_dim_time, [], 670414188574168548003108500875763621837201304933⟩,
  ⟨"units::dim_angle<>", d_dim_angle, [], 156092967040410392825461034185870765157⟩,
  ⟨"units::dim_one", d_dim_one, [], 0⟩]

/-- The dimensions with their recipes, last declared first. -/
def dentTable : List (DEnt) :=
  dentTable0 ++ (dentTable1 ++ (dentTable2))

/-- Part 0 of `prefixTable`. -/
def prefixTable0 : List (PRow) := [
  ⟨48, n!"units::isq::iec80000", n!"exbi", ⟨"units::isq::iec80000::binary_prefix", "Ei", ⟨1152921504606846976, 1, 0⟩⟩, "Ei"⟩,
  ⟨48, n!"units::isq::iec80000", n!"pebi", ⟨"units::isq::iec80000::binary_prefix", "Pi", ⟨1125899906842624, 1, 0⟩⟩, "Pi"⟩,
  ⟨48, n!"units::isq::iec80000", n!"tebi", ⟨"units::isq::iec80000::binary_prefix", "Ti", ⟨1099511627776, 1, 0⟩⟩, "Ti"⟩,
  ⟨48, n!"units::isq::iec80000", n!"gibi", ⟨"units::isq::iec80000::binary_prefix", "Gi", ⟨1073741824, 1, 0⟩⟩, "Gi"⟩,
  ⟨48, n!"units::isq::iec80000", n!"mebi", ⟨"units::isq::iec80000::binary_prefix", "Mi", ⟨1048576, 1, 0⟩⟩, "Mi"⟩,
  ⟨48, n!"units::isq::iec80000", n!"kibi", ⟨"units::isq::iec80000::binary_prefix", "Ki", ⟨1024, 1, 0⟩⟩, "Ki"⟩,
  ⟨1, n!"units::isq::si", n!"yotta", ⟨"units::isq::si::prefix", "Y", ⟨1, 1, 24⟩⟩, "Y"⟩,
  ⟨1, n!"units::isq::si", n!"zetta", ⟨"units::isq::si::prefix", "Z", ⟨1, 1, 21⟩⟩, "Z"⟩,
  ⟨1, n!"units::isq::si", n!"exa", ⟨"units::isq::si::prefix", "E", ⟨1, 1, 18⟩⟩, "E"⟩,
  ⟨1, n!"units::isq::si", n!"peta", ⟨"units::isq::si::prefix", "P", ⟨1, 1, 15⟩⟩, "P"⟩,
  ⟨1, n!"units::isq::si", n!"tera", ⟨"units::isq::si::prefix", "T", ⟨1, 1, 12⟩⟩, "T"⟩,
  ⟨1, n!"units::isq::si", n!"giga", ⟨"units::isq::si::prefix", "G", ⟨1, 1, 9⟩⟩, "G"⟩,
  ⟨1, n!"units::isq::si", n!"mega", ⟨"units::isq::si::prefix", "M", ⟨1, 1, 6⟩⟩, "M"⟩,
  ⟨1, n!"units::isq::si", n!"kilo", ⟨"units::isq::si::prefix", "k", ⟨1, 1, 3⟩⟩, "k"⟩,
  ⟨1, n!"units::isq::si", n!"hecto", ⟨"units::isq::si::prefix", "h", ⟨1, 1, 2⟩⟩, "h"⟩,
  ⟨1, n!"units::isq::si", n!"deca", ⟨"units::isq::si::prefix", "da", ⟨1, 1, 1⟩⟩, "da"⟩,
  ⟨1, n!"units::isq::si", n!"deci", ⟨"units::isq::si::prefix", "d", ⟨1, 1, (-1)⟩⟩, "d"⟩,
  ⟨1, n!"units::isq::si", n!"centi", ⟨"units::isq::si::prefix", "c", ⟨1, 1, (-2)⟩⟩, "c"⟩,
  ⟨1, n!"units::isq::si", n!"milli", ⟨"units::isq::si::prefix", "m", ⟨1, 1, (-3)⟩⟩, "m"⟩,
  ⟨1, n!"units::isq::si", n!"micro", ⟨"units::isq::si::prefix", "µ", ⟨1, 1, (-6)⟩⟩, "u"⟩,
  ⟨1, n!"units::isq::si", n!"nano", ⟨"units::isq::si::prefix", "n", ⟨1, 1, (-9)⟩⟩, "n"⟩,
  ⟨1, n!"units::isq::si", n!"pico", ⟨"units::isq::si::prefix", "p", ⟨1, 1, (-12)⟩⟩, "p"⟩,
  ⟨1, n!"units::isq::si", n!"femto", ⟨"units::isq::si::prefix", "f", ⟨1, 1, (-15)⟩⟩, "f"⟩,
  ⟨1, n!"units::isq::si", n!"atto", ⟨"units::isq::si::prefix", "a", ⟨1, 1, (-18)⟩⟩, "a"⟩,
  ⟨1, n!"units::isq::si", n!"zepto", ⟨"units::isq::si::prefix", "z", ⟨1, 1, (-21)⟩⟩, "z"⟩,
  ⟨1, n!"units::isq::si", n!"yocto", ⟨"units::isq::si::prefix", "y", ⟨1, 1, (-24)⟩⟩, "y"⟩]

/-- The prefixes, last declared first. -/
def prefixTable : List (PRow) :=
  prefixTable0

/-- Part 0 of `tagTable`. -/
def tagTable0 : List (TRow) := [
  ⟨146, .rep, "units::aliases::isq::si::uscs::length", "mi", "units::isq::si::dim_length", "units::isq::si::uscs::mile"⟩,
  ⟨146, .rep, "units::aliases::isq::si::uscs::length", "fathom", "units::isq::si::dim_length", "units::isq::si::uscs::fathom"⟩,
  ⟨146, .rep, "units::aliases::isq::si::uscs::length", "ft", "units::isq::si::dim_length", "units::isq::si::uscs::foot"⟩,
  ⟨146, .reference, "units::isq::si::uscs::length_references", "mi", "units::isq::si::dim_length", "units::isq::si::uscs::mile"⟩,
  ⟨146, .reference, "units::isq::si::uscs::length_references", "fathom", "units::isq::si::dim_length", "units::isq::si::uscs::fathom"⟩,
  ⟨146, .reference, "units::isq::si::uscs::length_references", "ft", "units::isq::si::dim_length", "units::isq::si::uscs::foot"⟩,
  ⟨146, .literal, "units::isq::si::uscs::literals", "_q_mi_us", "units::isq::si::dim_length", "units::isq::si::uscs::mile"⟩,
  ⟨146, .literal, "units::isq::si::uscs::literals", "_q_mi_us", "units::isq::si::dim_length", "units::isq::si::uscs::mile"⟩,
  ⟨146, .literal, "units::isq::si::uscs::literals", "_q_mi_us", "units::isq::si::dim_length", "units::isq::si::uscs::mile"⟩,
  ⟨146, .literal, "units::isq::si::uscs::literals", "_q_fathom_us", "units::isq::si::dim_length", "units::isq::si::uscs::fathom"⟩,
  ⟨146, .literal, "units::isq::si::uscs::literals", "_q_fathom_us", "units::isq::si::dim_length", "units::isq::si::uscs::fathom"⟩,
  ⟨146, .literal, "units::isq::si::uscs::literals", "_q_fathom_us", "units::isq::si::dim_length", "units::isq::si::uscs::fathom"⟩,
  ⟨146, .literal, "units::isq::si::uscs::literals", "_q_ft_us", "units::isq::si::dim_length", "units::isq::si::uscs::foot"⟩,
  ⟨146, .literal, "units::isq::si::uscs::literals", "_q_ft_us", "units::isq::si::dim_length", "units::isq::si::uscs::foot"⟩,
  ⟨146, .literal, "units::isq::si::uscs::literals", "_q_ft_us", "units::isq::si::dim_length", "units::isq::si::uscs::foot"⟩,
  ⟨144, .rep, "units::aliases::isq::si::typographic::length", "point_prn", "units::isq::si::dim_length", "units::isq::si::typographic::point_prn"⟩,
  ⟨144, .rep, "units::aliases::isq::si::typographic::length", "point_comp", "units::isq::si::dim_length", "units::isq::si::typographic::point_comp"⟩,
  ⟨144, .rep, "units::aliases::isq::si::typographic::length", "pica_prn", "units::isq::si::dim_length", "units::isq::si::typographic::pica_prn"⟩,
  ⟨144, .rep, "units::aliases::isq::si::typographic::length", "pica_comp", "units::isq::si::dim_length", "units::isq::si::typographic::pica_comp"⟩,
  ⟨144, .reference, "units::isq::si::typographic::length_references", "point_prn", "units::isq::si::dim_length", "units::isq::si::typographic::point_prn"⟩,
  ⟨144, .reference, "units::isq::si::typographic::length_references", "point_comp", "units::isq::si::dim_length", "units::isq::si::typographic::point_comp"⟩,
  ⟨144, .reference, "units::isq::si::typographic::length_references", "pica_prn", "units::isq::si::dim_length", "units::isq::si::typographic::pica_prn"⟩,
  ⟨144, .reference, "units::isq::si::typographic::length_references", "pica_comp", "units::isq::si::dim_length", "units::isq::si::typographic::pica_comp"⟩,
  ⟨144, .literal, "units::isq::si::typographic::literals", "_q_point_prn", "units::isq::si::dim_length", "units::isq::si::typographic::point_prn"⟩,
  ⟨144, .literal, "units::isq::si::typographic::literals", "_q_point_prn", "units::isq::si::dim_length", "units::isq::si::typographic::point_prn"⟩,
  ⟨144, .literal, "units::isq::si::typographic::literals", "_q_point_prn", "units::isq::si::dim_length", "units::isq::si::typographic::point_prn"⟩,
  ⟨144, .literal, "units::isq::si::typographic::literals", "_q_point_comp", "units::isq::si::dim_length", "units::isq::si::typographic::point_comp"⟩,
  ⟨144, .literal, "units::isq::si::typographic::literals", "_q_point_comp", "units::isq::si::dim_length", "units::isq::si::typographic::point_comp"⟩,
  ⟨144, .literal, "units::isq::si::typographic::literals", "_q_point_comp", "units::isq::si::dim_length", "units::isq::si::typographic::point_comp"⟩,
  ⟨144, .literal, "units::isq::si::typographic::literals", "_q_pica_prn", "units::isq::si::dim_length", "units::isq::si::typographic::pica_prn"⟩,
  ⟨144, .literal, "units::isq::si::typographic::literals", "_q_pica_prn", "units::isq::si::dim_length", "units::isq::si::typographic::pica_prn"⟩,
  ⟨144, .literal, "units::isq::si::typographic::literals", "_q_pica_prn", "units::isq::si::dim_length", "units::isq::si::typographic::pica_prn"⟩,
  ⟨144, .literal, "units::isq::si::typographic::literals", "_q_pica_comp", "units::isq::si::dim_length", "units::isq::si::typographic::pica_comp"⟩,
  ⟨144, .literal, "units::isq::si::typographic::literals", "_q_pica_comp", "units::isq::si::dim_length", "units::isq::si::typographic::pica_comp"⟩,
  ⟨144, .literal, "units::isq::si::typographic::literals", "_q_pica_comp", "units::isq::si::dim_length", "units::isq::si::typographic::pica_comp"⟩,
  ⟨142, .rep, "units::aliases::isq::si::torque", "N_m_per_rad", "units::isq::si::dim_torque", "units::isq::si::newton_metre_per_radian"⟩,
  ⟨142, .literal, "units::isq::si::literals", "_q_N_m_per_rad", "units::isq::si::dim_torque", "units::isq::si::newton_metre_per_radian"⟩,
  ⟨142, .literal, "units::isq::si::literals", "_q_N_m_per_rad", "units::isq::si::dim_torque", "units::isq::si::newton_metre_per_radian"⟩,
  ⟨142, .literal, "units::isq::si::literals", "_q_N_m_per_rad", "units::isq::si::dim_torque", "units::isq::si::newton_metre_per_radian"⟩,
  ⟨141, .rep, "units::aliases::isq::si::thermal_conductivity", "W_per_m_K", "units::isq::si::dim_thermal_conductivity", "units::isq::si::watt_per_metre_kelvin"⟩]

/-- Part 1 of `tagTable`. -/
def tagTable1 : List (TRow) := [
  ⟨141, .literal, "units::isq::si::literals", "_q_W_per_m_K", "units::isq::si::dim_thermal_conductivity", "units::isq::si::watt_per_metre_kelvin"⟩,
  ⟨141, .literal, "units::isq::si::literals", "_q_W_per_m_K", "units::isq::si::dim_thermal_conductivity", "units::isq::si::watt_per_metre_kelvin"⟩,
  ⟨141, .literal, "units::isq::si::literals", "_q_W_per_m_K", "units::isq::si::dim_thermal_conductivity", "units::isq::si::watt_per_metre_kelvin"⟩,
  ⟨140, .rep, "units::aliases::isq::si::surface_tension", "N_per_m", "units::isq::si::dim_surface_tension", "units::isq::si::newton_per_metre"⟩,
  ⟨140, .literal, "units::isq::si::literals", "_q_N_per_m", "units::isq::si::dim_surface_tension", "units::isq::si::newton_per_metre"⟩,
  ⟨140, .literal, "units::isq::si::literals", "_q_N_per_m", "units::isq::si::dim_surface_tension", "units::isq::si::newton_per_metre"⟩,
  ⟨140, .literal, "units::isq::si::literals", "_q_N_per_m", "units::isq::si::dim_surface_tension", "units::isq::si::newton_per_metre"⟩,
  ⟨139, .reference, "units::isq::si::radioactivity_references", "YBq", "units::isq::si::dim_radioactivity", "units::isq::si::yottabecquerel"⟩,
  ⟨139, .reference, "units::isq::si::radioactivity_references", "ZBq", "units::isq::si::dim_radioactivity", "units::isq::si::zettabecquerel"⟩,
  ⟨139, .reference, "units::isq::si::radioactivity_references", "EBq", "units::isq::si::dim_radioactivity", "units::isq::si::exabecquerel"⟩,
  ⟨139, .reference, "units::isq::si::radioactivity_references", "PBq", "units::isq::si::dim_radioactivity", "units::isq::si::petabecquerel"⟩,
  ⟨139, .reference, "units::isq::si::radioactivity_references", "TBq", "units::isq::si::dim_radioactivity", "units::isq::si::terabecquerel"⟩,
  ⟨139, .reference, "units::isq::si::radioactivity_references", "GBq", "units::isq::si::dim_radioactivity", "units::isq::si::gigabecquerel"⟩,
  ⟨139, .reference, "units::isq::si::radioactivity_references", "MBq", "units::isq::si::dim_radioactivity", "units::isq::si::megabecquerel"⟩,
  ⟨139, .reference, "units::isq::si::radioactivity_references", "kBq", "units::isq::si::dim_radioactivity", "units::isq::si::kilobecquerel"⟩,
  ⟨139, .reference, "units::isq::si::radioactivity_references", "hBq", "units::isq::si::dim_radioactivity", "units::isq::si::hectobecquerel"⟩,
  ⟨139, .reference, "units::isq::si::radioactivity_references", "daBq", "units::isq::si::dim_radioactivity", "units::isq::si::decabecquerel"⟩,
  ⟨139, .reference, "units::isq::si::radioactivity_references", "dBq", "units::isq::si::dim_radioactivity", "units::isq::si::decibecquerel"⟩,
  ⟨139, .reference, "units::isq::si::radioactivity_references", "cBq", "units::isq::si::dim_radioactivity", "units::isq::si::centibecquerel"⟩,
  ⟨139, .reference, "units::isq::si::radioactivity_references", "mBq", "units::isq::si::dim_radioactivity", "units::isq::si::millibecquerel"⟩,
  ⟨139, .reference, "units::isq::si::radioactivity_references", "uBq", "units::isq::si::dim_radioactivity", "units::isq::si::microbecquerel"⟩,
  ⟨139, .reference, "units::isq::si::radioactivity_references", "nBq", "units::isq::si::dim_radioactivity", "units::isq::si::nanobecquerel"⟩,
  ⟨139, .reference, "units::isq::si::radioactivity_references", "pBq", "units::isq::si::dim_radioactivity", "units::isq::si::picobecquerel"⟩,
  ⟨139, .reference, "units::isq::si::radioactivity_references", "fBq", "units::isq::si::dim_radioactivity", "units::isq::si::femtobecquerel"⟩,
  ⟨139, .reference, "units::isq::si::radioactivity_references", "aBq", "units::isq::si::dim_radioactivity", "units::isq::si::attobecquerel"⟩,
  ⟨139, .reference, "units::isq::si::radioactivity_references", "zBq", "units::isq::si::dim_radioactivity", "units::isq::si::zeptobecquerel"⟩,
  ⟨139, .reference, "units::isq::si::radioactivity_references", "yBq", "units::isq::si::dim_radioactivity", "units::isq::si::yoctobecquerel"⟩,
  ⟨139, .reference, "units::isq::si::radioactivity_references", "Bq", "units::isq::si::dim_radioactivity", "units::isq::si::becquerel"⟩,
  ⟨139, .literal, "units::isq::si::literals", "_q_YBq", "units::isq::si::dim_radioactivity", "units::isq::si::yottabecquerel"⟩,
  ⟨139, .literal, "units::isq::si::literals", "_q_YBq", "units::isq::si::dim_radioactivity", "units::isq::si::yottabecquerel"⟩,
  ⟨139, .literal, "units::isq::si::literals", "_q_YBq", "units::isq::si::dim_radioactivity", "units::isq::si::yottabecquerel"⟩,
  ⟨139, .literal, "units::isq::si::literals", "_q_ZBq", "units::isq::si::dim_radioactivity", "units::isq::si::zettabecquerel"⟩,
  ⟨139, .literal, "units::isq::si::literals", "_q_ZBq", "units::isq::si::dim_radioactivity", "units::isq::si::zettabecquerel"⟩,
  ⟨139, .literal, "units::isq::si::literals", "_q_ZBq", "units::isq::si::dim_radioactivity", "units::isq::si::zettabecquerel"⟩,
  ⟨139, .literal, "units::isq::si::literals", "_q_EBq", "units::isq::si::dim_radioactivity", "units::isq::si::exabecquerel"⟩,
  ⟨139, .literal, "units::isq::si::literals", "_q_EBq", "units::isq::si::dim_radioactivity", "units::isq::si::exabecquerel"⟩,
  ⟨139, .literal, "units::isq::si::literals", "_q_EBq", "units::isq::si::dim_radioactivity", "units::isq::si::exabecquerel"⟩,
  ⟨139, .literal, "units::isq::si::literals", "_q_PBq", "units::isq::si::dim_radioactivity", "units::isq::si::petabecquerel"⟩,
  ⟨139, .literal, "units::isq::si::literals", "_q_PBq", "units::isq::si::dim_radioactivity", "units::isq::si::petabecquerel"⟩,
  ⟨139, .literal, "units::isq::si::literals", "_q_PBq", "units::isq::si::dim_radioactivity", "units::isq::si::petabecquerel"⟩]

/-- Part 2 of `tagTable`. -/
def tagTable2 : List (TRow) := [
  ⟨139, .literal, "units::isq::si::literals", "_q_TBq", "units::isq::si::dim_radioactivity", "units::isq::si::terabecquerel"⟩,
  ⟨139, .literal, "units::isq::si::literals", "_q_TBq", "units::isq::si::dim_radioactivity", "units::isq::si::terabecquerel"⟩,
  ⟨139, .literal, "units::isq::si::literals", "_q_TBq", "units::isq::si::dim_radioactivity", "units::isq::si::terabecquerel"⟩,
  ⟨139, .literal, "units::isq::si::literals", "_q_GBq", "units::isq::si::dim_radioactivity", "units::isq::si::gigabecquerel"⟩,
  ⟨139, .literal, "units::isq::si::literals", "_q_GBq", "units::isq::si::dim_radioactivity", "units::isq::si::gigabecquerel"⟩,
  ⟨139, .literal, "units::isq::si::literals", "_q_GBq", "units::isq::si::dim_radioactivity", "units::isq::si::gigabecquerel"⟩,
  ⟨139, .literal, "units::isq::si::literals", "_q_MBq", "units::isq::si::dim_radioactivity", "units::isq::si::megabecquerel"⟩,
  ⟨139, .literal, "units::isq::si::literals", "_q_MBq", "units::isq::si::dim_radioactivity", "units::isq::si::megabecquerel"⟩,
  ⟨139, .literal, "units::isq::si::literals", "_q_MBq", "units::isq::si::dim_radioactivity", "units::isq::si::megabecquerel"⟩,
  ⟨139, .literal, "units::isq::si::literals", "_q_kBq", "units::isq::si::dim_radioactivity", "units::isq::si::kilobecquerel"⟩,
  ⟨139, .literal, "units::isq::si::literals", "_q_kBq", "units::isq::si::dim_radioactivity", "units::isq::si::kilobecquerel"⟩,
  ⟨139, .literal, "units::isq::si::literals", "_q_kBq", "units::isq::si::dim_radioactivity", "units::isq::si::kilobecquerel"⟩,
  ⟨139, .literal, "units::isq::si::literals", "_q_hBq", "units::isq::si::dim_radioactivity", "units::isq::si::hectobecquerel"⟩,
  ⟨139, .literal, "units::isq::si::literals", "_q_hBq", "units::isq::si::dim_radioactivity", "units::isq::si::hectobecquerel"⟩,
  ⟨139, .literal, "units::isq::si::literals", "_q_hBq", "units::isq::si::dim_radioactivity", "units::isq::si::hectobecquerel"⟩,
  ⟨139, .literal, "units::isq::si::literals", "_q_daBq", "units::isq::si::dim_radioactivity", "units::isq::si::decabecquerel"⟩,
  ⟨139, .literal, "units::isq::si::literals", "_q_daBq", "units::isq::si::dim_radioactivity", "units::isq::si::decabecquerel"⟩,
  ⟨139, .literal, "units::isq::si::literals", "_q_daBq", "units::isq::si::dim_radioactivity", "units::isq::si::decabecquerel"⟩,
  ⟨139, .literal, "units::isq::si::literals", "_q_dBq", "units::isq::si::dim_radioactivity", "units::isq::si::decibecquerel"⟩,
  ⟨139, .literal, "units::isq::si::literals", "_q_dBq", "units::isq::si::dim_radioactivity", "units::isq::si::decibecquerel"⟩,
  ⟨139, .literal, "units::isq::si::literals", "_q_dBq", "units::isq::si::dim_radioactivity", "units::isq::si::decibecquerel"⟩,
  ⟨139, .literal, "units::isq::si::literals", "_q_cBq", "units::isq::si::dim_radioactivity", "units::isq::si::centibecquerel"⟩,
  ⟨139, .literal, "units::isq::si::literals", "_q_cBq", "units::isq::si::dim_radioactivity", "units::isq::si::centibecquerel"⟩,
  ⟨139, .literal, "units::isq::si::literals", "_q_cBq", "units::isq::si::dim_radioactivity", "units::isq::si::centibecquerel"⟩,
  ⟨139, .literal, "units::isq::si::literals", "_q_mBq", "units::isq::si::dim_radioactivity", "units::isq::si::millibecquerel"⟩,
  ⟨139, .literal, "units::isq::si::literals", "_q_mBq", "units::isq::si::dim_radioactivity", "units::isq::si::millibecquerel"⟩,
  ⟨139, .literal, "units::isq::si::literals", "_q_mBq", "units::isq::si::dim_radioactivity", "units::isq::si::millibecquerel"⟩,
  ⟨139, .literal, "units::isq::si::literals", "_q_uBq", "units::isq::si::dim_radioactivity", "units::isq::si::microbecquerel"⟩,
  ⟨139, .literal, "units::isq::si::literals", "_q_uBq", "units::isq::si::dim_radioactivity", "units::isq::si::microbecquerel"⟩,
  ⟨139, .literal, "units::isq::si::literals", "_q_uBq", "units::isq::si::dim_radioactivity", "units::isq::si::microbecquerel"⟩,
  ⟨139, .literal, "units::isq::si::literals", "_q_nBq", "units::isq::si::dim_radioactivity", "units::isq::si::nanobecquerel"⟩,
  ⟨139, .literal, "units::isq::si::literals", "_q_nBq", "units::isq::si::dim_radioactivity", "units::isq::si::nanobecquerel"⟩,
  ⟨139, .literal, "units::isq::si::literals", "_q_nBq", "units::isq::si::dim_radioactivity", "units::isq::si::nanobecquerel"⟩,
  ⟨139, .literal, "units::isq::si::literals", "_q_pBq", "units::isq::si::dim_radioactivity", "units::isq::si::picobecquerel"⟩,
  ⟨139, .literal, "units::isq::si::literals", "_q_pBq", "units::isq::si::dim_radioactivity", "units::isq::si::picobecquerel"⟩,
  ⟨139, .literal, "units::isq::si::literals", "_q_pBq", "units::isq::si::dim_radioactivity", "units::isq::si::picobecquerel"⟩,
  ⟨139, .literal, "units::isq::si::literals", "_q_fBq", "units::isq::si::dim_radioactivity", "units::isq::si::femtobecquerel"⟩,
  ⟨139, .literal, "units::isq::si::literals", "_q_fBq", "units::isq::si::dim_radioactivity", "units::isq::si::femtobecquerel"⟩,
  ⟨139, .literal, "units::isq::si::literals", "_q_fBq", "units::isq::si::dim_radioactivity", "units::isq::si::femtobecquerel"⟩,
  ⟨139, .literal, "units::isq::si::literals", "_q_aBq", "units::isq::si::dim_radioactivity", "units::isq::si::attobecquerel"⟩]

/-- Part 3 of `tagTable`. -/
def tagTable3 : List (TRow) := [
  ⟨139, .literal, "units::isq::si::literals", "_q_aBq", "units::isq::si::dim_radioactivity", "units::isq::si::attobecquerel"⟩,
  ⟨139, .literal, "units::isq::si::literals", "_q_aBq", "units::isq::si::dim_radioactivity", "units::isq::si::attobecquerel"⟩,
  ⟨139, .literal, "units::isq::si::literals", "_q_zBq", "units::isq::si::dim_radioactivity", "units::isq::si::zeptobecquerel"⟩,
  ⟨139, .literal, "units::isq::si::literals", "_q_zBq", "units::isq::si::dim_radioactivity", "units::isq::si::zeptobecquerel"⟩,
  ⟨139, .literal, "units::isq::si::literals", "_q_zBq", "units::isq::si::dim_radioactivity", "units::isq::si::zeptobecquerel"⟩,
  ⟨139, .literal, "units::isq::si::literals", "_q_yBq", "units::isq::si::dim_radioactivity", "units::isq::si::yoctobecquerel"⟩,
  ⟨139, .literal, "units::isq::si::literals", "_q_yBq", "units::isq::si::dim_radioactivity", "units::isq::si::yoctobecquerel"⟩,
  ⟨139, .literal, "units::isq::si::literals", "_q_yBq", "units::isq::si::dim_radioactivity", "units::isq::si::yoctobecquerel"⟩,
  ⟨139, .literal, "units::isq::si::literals", "_q_Bq", "units::isq::si::dim_radioactivity", "units::isq::si::becquerel"⟩,
  ⟨139, .literal, "units::isq::si::literals", "_q_Bq", "units::isq::si::dim_radioactivity", "units::isq::si::becquerel"⟩,
  ⟨139, .literal, "units::isq::si::literals", "_q_Bq", "units::isq::si::dim_radioactivity", "units::isq::si::becquerel"⟩,
  ⟨138, .rep, "units::aliases::isq::si::permittivity", "F_per_m", "units::isq::si::dim_permittivity", "units::isq::si::farad_per_metre"⟩,
  ⟨138, .literal, "units::isq::si::literals", "_q_F_per_m", "units::isq::si::dim_permittivity", "units::isq::si::farad_per_metre"⟩,
  ⟨138, .literal, "units::isq::si::literals", "_q_F_per_m", "units::isq::si::dim_permittivity", "units::isq::si::farad_per_metre"⟩,
  ⟨138, .literal, "units::isq::si::literals", "_q_F_per_m", "units::isq::si::dim_permittivity", "units::isq::si::farad_per_metre"⟩,
  ⟨137, .rep, "units::aliases::isq::si::permeability", "H_per_m", "units::isq::si::dim_permeability", "units::isq::si::henry_per_metre"⟩,
  ⟨137, .literal, "units::isq::si::literals", "_q_H_per_m", "units::isq::si::dim_permeability", "units::isq::si::henry_per_metre"⟩,
  ⟨137, .literal, "units::isq::si::literals", "_q_H_per_m", "units::isq::si::dim_permeability", "units::isq::si::henry_per_metre"⟩,
  ⟨137, .literal, "units::isq::si::literals", "_q_H_per_m", "units::isq::si::dim_permeability", "units::isq::si::henry_per_metre"⟩,
  ⟨136, .rep, "units::aliases::isq::si::momentum", "kg_m_per_s", "units::isq::si::dim_momentum", "units::isq::si::kilogram_metre_per_second"⟩,
  ⟨136, .literal, "units::isq::si::literals", "_q_kg_m_per_s", "units::isq::si::dim_momentum", "units::isq::si::kilogram_metre_per_second"⟩,
  ⟨136, .literal, "units::isq::si::literals", "_q_kg_m_per_s", "units::isq::si::dim_momentum", "units::isq::si::kilogram_metre_per_second"⟩,
  ⟨136, .literal, "units::isq::si::literals", "_q_kg_m_per_s", "units::isq::si::dim_momentum", "units::isq::si::kilogram_metre_per_second"⟩,
  ⟨135, .rep, "units::aliases::isq::si::molar_energy", "J_per_mol", "units::isq::si::dim_molar_energy", "units::isq::si::joule_per_mole"⟩,
  ⟨135, .literal, "units::isq::si::literals", "_q_J_per_mol", "units::isq::si::dim_molar_energy", "units::isq::si::joule_per_mole"⟩,
  ⟨135, .literal, "units::isq::si::literals", "_q_J_per_mol", "units::isq::si::dim_molar_energy", "units::isq::si::joule_per_mole"⟩,
  ⟨135, .literal, "units::isq::si::literals", "_q_J_per_mol", "units::isq::si::dim_molar_energy", "units::isq::si::joule_per_mole"⟩,
  ⟨134, .rep, "units::aliases::isq::si::luminance", "cd_per_m2", "units::isq::si::dim_luminance", "units::isq::si::candela_per_metre_sq"⟩,
  ⟨134, .literal, "units::isq::si::literals", "_q_cd_per_m2", "units::isq::si::dim_luminance", "units::isq::si::candela_per_metre_sq"⟩,
  ⟨134, .literal, "units::isq::si::literals", "_q_cd_per_m2", "units::isq::si::dim_luminance", "units::isq::si::candela_per_metre_sq"⟩,
  ⟨134, .literal, "units::isq::si::literals", "_q_cd_per_m2", "units::isq::si::dim_luminance", "units::isq::si::candela_per_metre_sq"⟩,
  ⟨133, .rep, "units::aliases::isq::si::luminous_intensity", "Ycd", "units::isq::si::dim_luminous_intensity", "units::isq::si::yottacandela"⟩,
  ⟨133, .rep, "units::aliases::isq::si::luminous_intensity", "Zcd", "units::isq::si::dim_luminous_intensity", "units::isq::si::zettacandela"⟩,
  ⟨133, .rep, "units::aliases::isq::si::luminous_intensity", "Ecd", "units::isq::si::dim_luminous_intensity", "units::isq::si::exacandela"⟩,
  ⟨133, .rep, "units::aliases::isq::si::luminous_intensity", "Pcd", "units::isq::si::dim_luminous_intensity", "units::isq::si::petacandela"⟩,
  ⟨133, .rep, "units::aliases::isq::si::luminous_intensity", "Tcd", "units::isq::si::dim_luminous_intensity", "units::isq::si::teracandela"⟩,
  ⟨133, .rep, "units::aliases::isq::si::luminous_intensity", "Gcd", "units::isq::si::dim_luminous_intensity", "units::isq::si::gigacandela"⟩,
  ⟨133, .rep, "units::aliases::isq::si::luminous_intensity", "Mcd", "units::isq::si::dim_luminous_intensity", "units::isq::si::megacandela"⟩,
  ⟨133, .rep, "units::aliases::isq::si::luminous_intensity", "kcd", "units::isq::si::dim_luminous_intensity", "units::isq::si::kilocandela"⟩,
  ⟨133, .rep, "units::aliases::isq::si::luminous_intensity", "hcd", "units::isq::si::dim_luminous_intensity", "units::isq::si::hectocandela"⟩]

/-- Part 4 of `tagTable`. -/
def tagTable4 : List (TRow) := [
  ⟨133, .rep, "units::aliases::isq::si::luminous_intensity", "dacd", "units::isq::si::dim_luminous_intensity", "units::isq::si::decacandela"⟩,
  ⟨133, .rep, "units::aliases::isq::si::luminous_intensity", "dcd", "units::isq::si::dim_luminous_intensity", "units::isq::si::decicandela"⟩,
  ⟨133, .rep, "units::aliases::isq::si::luminous_intensity", "ccd", "units::isq::si::dim_luminous_intensity", "units::isq::si::centicandela"⟩,
  ⟨133, .rep, "units::aliases::isq::si::luminous_intensity", "mcd", "units::isq::si::dim_luminous_intensity", "units::isq::si::millicandela"⟩,
  ⟨133, .rep, "units::aliases::isq::si::luminous_intensity", "ucd", "units::isq::si::dim_luminous_intensity", "units::isq::si::microcandela"⟩,
  ⟨133, .rep, "units::aliases::isq::si::luminous_intensity", "ncd", "units::isq::si::dim_luminous_intensity", "units::isq::si::nanocandela"⟩,
  ⟨133, .rep, "units::aliases::isq::si::luminous_intensity", "pcd", "units::isq::si::dim_luminous_intensity", "units::isq::si::picocandela"⟩,
  ⟨133, .rep, "units::aliases::isq::si::luminous_intensity", "fcd", "units::isq::si::dim_luminous_intensity", "units::isq::si::femtocandela"⟩,
  ⟨133, .rep, "units::aliases::isq::si::luminous_intensity", "acd", "units::isq::si::dim_luminous_intensity", "units::isq::si::attocandela"⟩,
  ⟨133, .rep, "units::aliases::isq::si::luminous_intensity", "zcd", "units::isq::si::dim_luminous_intensity", "units::isq::si::zeptocandela"⟩,
  ⟨133, .rep, "units::aliases::isq::si::luminous_intensity", "ycd", "units::isq::si::dim_luminous_intensity", "units::isq::si::yoctocandela"⟩,
  ⟨133, .rep, "units::aliases::isq::si::luminous_intensity", "cd", "units::isq::si::dim_luminous_intensity", "units::isq::si::candela"⟩,
  ⟨133, .reference, "units::isq::si::luminous_intensity_references", "Ycd", "units::isq::si::dim_luminous_intensity", "units::isq::si::yottacandela"⟩,
  ⟨133, .reference, "units::isq::si::luminous_intensity_references", "Zcd", "units::isq::si::dim_luminous_intensity", "units::isq::si::zettacandela"⟩,
  ⟨133, .reference, "units::isq::si::luminous_intensity_references", "Ecd", "units::isq::si::dim_luminous_intensity", "units::isq::si::exacandela"⟩,
  ⟨133, .reference, "units::isq::si::luminous_intensity_references", "Pcd", "units::isq::si::dim_luminous_intensity", "units::isq::si::petacandela"⟩,
  ⟨133, .reference, "units::isq::si::luminous_intensity_references", "Tcd", "units::isq::si::dim_luminous_intensity", "units::isq::si::teracandela"⟩,
  ⟨133, .reference, "units::isq::si::luminous_intensity_references", "Gcd", "units::isq::si::dim_luminous_intensity", "units::isq::si::gigacandela"⟩,
  ⟨133, .reference, "units::isq::si::luminous_intensity_references", "Mcd", "units::isq::si::dim_luminous_intensity", "units::isq::si::megacandela"⟩,
  ⟨133, .reference, "units::isq::si::luminous_intensity_references", "kcd", "units::isq::si::dim_luminous_intensity", "units::isq::si::kilocandela"⟩,
  ⟨133, .reference, "units::isq::si::luminous_intensity_references", "hcd", "units::isq::si::dim_luminous_intensity", "units::isq::si::hectocandela"⟩,
  ⟨133, .reference, "units::isq::si::luminous_intensity_references", "dacd", "units::isq::si::dim_luminous_intensity", "units::isq::si::decacandela"⟩,
  ⟨133, .reference, "units::isq::si::luminous_intensity_references", "dcd", "units::isq::si::dim_luminous_intensity", "units::isq::si::decicandela"⟩,
  ⟨133, .reference, "units::isq::si::luminous_intensity_references", "ccd", "units::isq::si::dim_luminous_intensity", "units::isq::si::centicandela"⟩,
  ⟨133, .reference, "units::isq::si::luminous_intensity_references", "mcd", "units::isq::si::dim_luminous_intensity", "units::isq::si::millicandela"⟩,
  ⟨133, .reference, "units::isq::si::luminous_intensity_references", "ucd", "units::isq::si::dim_luminous_intensity", "units::isq::si::microcandela"⟩,
  ⟨133, .reference, "units::isq::si::luminous_intensity_references", "ncd", "units::isq::si::dim_luminous_intensity", "units::isq::si::nanocandela"⟩,
  ⟨133, .reference, "units::isq::si::luminous_intensity_references", "pcd", "units::isq::si::dim_luminous_intensity", "units::isq::si::picocandela"⟩,
  ⟨133, .reference, "units::isq::si::luminous_intensity_references", "fcd", "units::isq::si::dim_luminous_intensity", "units::isq::si::femtocandela"⟩,
  ⟨133, .reference, "units::isq::si::luminous_intensity_references", "acd", "units::isq::si::dim_luminous_intensity", "units::isq::si::attocandela"⟩,
  ⟨133, .reference, "units::isq::si::luminous_intensity_references", "zcd", "units::isq::si::dim_luminous_intensity", "units::isq::si::zeptocandela"⟩,
  ⟨133, .reference, "units::isq::si::luminous_intensity_references", "ycd", "units::isq::si::dim_luminous_intensity", "units::isq::si::yoctocandela"⟩,
  ⟨133, .reference, "units::isq::si::luminous_intensity_references", "cd", "units::isq::si::dim_luminous_intensity", "units::isq::si::candela"⟩,
  ⟨133, .literal, "units::isq::si::literals", "_q_Ycd", "units::isq::si::dim_luminous_intensity", "units::isq::si::yottacandela"⟩,
  ⟨133, .literal, "units::isq::si::literals", "_q_Ycd", "units::isq::si::dim_luminous_intensity", "units::isq::si::yottacandela"⟩,
  ⟨133, .literal, "units::isq::si::literals", "_q_Ycd", "units::isq::si::dim_luminous_intensity", "units::isq::si::yottacandela"⟩,
  ⟨133, .literal, "units::isq::si::literals", "_q_Zcd", "units::isq::si::dim_luminous_intensity", "units::isq::si::zettacandela"⟩,
  ⟨133, .literal, "units::isq::si::literals", "_q_Zcd", "units::isq::si::dim_luminous_intensity", "units::isq::si::zettacandela"⟩,
  ⟨133, .literal, "units::isq::si::literals", "_q_Zcd", "units::isq::si::dim_luminous_intensity", "units::isq::si::zettacandela"⟩,
  ⟨133, .literal, "units::isq::si::literals", "_q_Ecd", "units::isq::si::dim_luminous_intensity", "units::isq::si::exacandela"⟩]

/-- Part 5 of `tagTable`. -/
def tagTable5 : List (TRow) := [
  ⟨133, .literal, "units::isq::si::literals", "_q_Ecd", "units::isq::si::dim_luminous_intensity", "units::isq::si::exacandela"⟩,
  ⟨133, .literal, "units::isq::si::literals", "_q_Ecd", "units::isq::si::dim_luminous_intensity", "units::isq::si::exacandela"⟩,
  ⟨133, .literal, "units::isq::si::literals", "_q_Pcd", "units::isq::si::dim_luminous_intensity", "units::isq::si::petacandela"⟩,
  ⟨133, .literal, "units::isq::si::literals", "_q_Pcd", "units::isq::si::dim_luminous_intensity", "units::isq::si::petacandela"⟩,
  ⟨133, .literal, "units::isq::si::literals", "_q_Pcd", "units::isq::si::dim_luminous_intensity", "units::isq::si::petacandela"⟩,
  ⟨133, .literal, "units::isq::si::literals", "_q_Tcd", "units::isq::si::dim_luminous_intensity", "units::isq::si::teracandela"⟩,
  ⟨133, .literal, "units::isq::si::literals", "_q_Tcd", "units::isq::si::dim_luminous_intensity", "units::isq::si::teracandela"⟩,
  ⟨133, .literal, "units::isq::si::literals", "_q_Tcd", "units::isq::si::dim_luminous_intensity", "units::isq::si::teracandela"⟩,
  ⟨133, .literal, "units::isq::si::literals", "_q_Gcd", "units::isq::si::dim_luminous_intensity", "units::isq::si::gigacandela"⟩,
  ⟨133, .literal, "units::isq::si::literals", "_q_Gcd", "units::isq::si::dim_luminous_intensity", "units::isq::si::gigacandela"⟩,
  ⟨133, .literal, "units::isq::si::literals", "_q_Gcd", "units::isq::si::dim_luminous_intensity", "units::isq::si::gigacandela"⟩,
  ⟨133, .literal, "units::isq::si::literals", "_q_Mcd", "units::isq::si::dim_luminous_intensity", "units::isq::si::megacandela"⟩,
  ⟨133, .literal, "units::isq::si::literals", "_q_Mcd", "units::isq::si::dim_luminous_intensity", "units::isq::si::megacandela"⟩,
  ⟨133, .literal, "units::isq::si::literals", "_q_Mcd", "units::isq::si::dim_luminous_intensity", "units::isq::si::megacandela"⟩,
  ⟨133, .literal, "units::isq::si::literals", "_q_kcd", "units::isq::si::dim_luminous_intensity", "units::isq::si::kilocandela"⟩,
  ⟨133, .literal, "units::isq::si::literals", "_q_kcd", "units::isq::si::dim_luminous_intensity", "units::isq::si::kilocandela"⟩,
  ⟨133, .literal, "units::isq::si::literals", "_q_kcd", "units::isq::si::dim_luminous_intensity", "units::isq::si::kilocandela"⟩,
  ⟨133, .literal, "units::isq::si::literals", "_q_hcd", "units::isq::si::dim_luminous_intensity", "units::isq::si::hectocandela"⟩,
  ⟨133, .literal, "units::isq::si::literals", "_q_hcd", "units::isq::si::dim_luminous_intensity", "units::isq::si::hectocandela"⟩,
  ⟨133, .literal, "units::isq::si::literals", "_q_hcd", "units::isq::si::dim_luminous_intensity", "units::isq::si::hectocandela"⟩,
  ⟨133, .literal, "units::isq::si::literals", "_q_dacd", "units::isq::si::dim_luminous_intensity", "units::isq::si::decacandela"⟩,
  ⟨133, .literal, "units::isq::si::literals", "_q_dacd", "units::isq::si::dim_luminous_intensity", "units::isq::si::decacandela"⟩,
  ⟨133, .literal, "units::isq::si::literals", "_q_dacd", "units::isq::si::dim_luminous_intensity", "units::isq::si::decacandela"⟩,
  ⟨133, .literal, "units::isq::si::literals", "_q_dcd", "units::isq::si::dim_luminous_intensity", "units::isq::si::decicandela"⟩,
  ⟨133, .literal, "units::isq::si::literals", "_q_dcd", "units::isq::si::dim_luminous_intensity", "units::isq::si::decicandela"⟩,
  ⟨133, .literal, "units::isq::si::literals", "_q_dcd", "units::isq::si::dim_luminous_intensity", "units::isq::si::decicandela"⟩,
  ⟨133, .literal, "units::isq::si::literals", "_q_ccd", "units::isq::si::dim_luminous_intensity", "units::isq::si::centicandela"⟩,
  ⟨133, .literal, "units::isq::si::literals", "_q_ccd", "units::isq::si::dim_luminous_intensity", "units::isq::si::centicandela"⟩,
  ⟨133, .literal, "units::isq::si::literals", "_q_ccd", "units::isq::si::dim_luminous_intensity", "units::isq::si::centicandela"⟩,
  ⟨133, .literal, "units::isq::si::literals", "_q_mcd", "units::isq::si::dim_luminous_intensity", "units::isq::si::millicandela"⟩,
  ⟨133, .literal, "units::isq::si::literals", "_q_mcd", "units::isq::si::dim_luminous_intensity", "units::isq::si::millicandela"⟩,
  ⟨133, .literal, "units::isq::si::literals", "_q_mcd", "units::isq::si::dim_luminous_intensity", "units::isq::si::millicandela"⟩,
  ⟨133, .literal, "units::isq::si::literals", "_q_ucd", "units::isq::si::dim_luminous_intensity", "units::isq::si::microcandela"⟩,
  ⟨133, .literal, "units::isq::si::literals", "_q_ucd", "units::isq::si::dim_luminous_intensity", "units::isq::si::microcandela"⟩,
  ⟨133, .literal, "units::isq::si::literals", "_q_ucd", "units::isq::si::dim_luminous_intensity", "units::isq::si::microcandela"⟩,
  ⟨133, .literal, "units::isq::si::literals", "_q_ncd", "units::isq::si::dim_luminous_intensity", "units::isq::si::nanocandela"⟩,
  ⟨133, .literal, "units::isq::si::literals", "_q_ncd", "units::isq::si::dim_luminous_intensity", "units::isq::si::nanocandela"⟩,
  ⟨133, .literal, "units::isq::si::literals", "_q_ncd", "units::isq::si::dim_luminous_intensity", "units::isq::si::nanocandela"⟩,
  ⟨133, .literal, "units::isq::si::literals", "_q_pcd", "units::isq::si::dim_luminous_intensity", "units::isq::si::picocandela"⟩,
  ⟨133, .literal, "units::isq::si::literals", "_q_pcd", "units::isq::si::dim_luminous_intensity", "units::isq::si::picocandela"⟩]

/-- Part 6 of `tagTable`. -/
def tagTable6 : List (TRow) := [
  ⟨133, .literal, "units::isq::si::literals", "_q_pcd", "units::isq::si::dim_luminous_intensity", "units::isq::si::picocandela"⟩,
  ⟨133, .literal, "units::isq::si::literals", "_q_fcd", "units::isq::si::dim_luminous_intensity", "units::isq::si::femtocandela"⟩,
  ⟨133, .literal, "units::isq::si::literals", "_q_fcd", "units::isq::si::dim_luminous_intensity", "units::isq::si::femtocandela"⟩,
  ⟨133, .literal, "units::isq::si::literals", "_q_fcd", "units::isq::si::dim_luminous_intensity", "units::isq::si::femtocandela"⟩,
  ⟨133, .literal, "units::isq::si::literals", "_q_acd", "units::isq::si::dim_luminous_intensity", "units::isq::si::attocandela"⟩,
  ⟨133, .literal, "units::isq::si::literals", "_q_acd", "units::isq::si::dim_luminous_intensity", "units::isq::si::attocandela"⟩,
  ⟨133, .literal, "units::isq::si::literals", "_q_acd", "units::isq::si::dim_luminous_intensity", "units::isq::si::attocandela"⟩,
  ⟨133, .literal, "units::isq::si::literals", "_q_zcd", "units::isq::si::dim_luminous_intensity", "units::isq::si::zeptocandela"⟩,
  ⟨133, .literal, "units::isq::si::literals", "_q_zcd", "units::isq::si::dim_luminous_intensity", "units::isq::si::zeptocandela"⟩,
  ⟨133, .literal, "units::isq::si::literals", "_q_zcd", "units::isq::si::dim_luminous_intensity", "units::isq::si::zeptocandela"⟩,
  ⟨133, .literal, "units::isq::si::literals", "_q_ycd", "units::isq::si::dim_luminous_intensity", "units::isq::si::yoctocandela"⟩,
  ⟨133, .literal, "units::isq::si::literals", "_q_ycd", "units::isq::si::dim_luminous_intensity", "units::isq::si::yoctocandela"⟩,
  ⟨133, .literal, "units::isq::si::literals", "_q_ycd", "units::isq::si::dim_luminous_intensity", "units::isq::si::yoctocandela"⟩,
  ⟨133, .literal, "units::isq::si::literals", "_q_cd", "units::isq::si::dim_luminous_intensity", "units::isq::si::candela"⟩,
  ⟨133, .literal, "units::isq::si::literals", "_q_cd", "units::isq::si::dim_luminous_intensity", "units::isq::si::candela"⟩,
  ⟨133, .literal, "units::isq::si::literals", "_q_cd", "units::isq::si::dim_luminous_intensity", "units::isq::si::candela"⟩,
  ⟨131, .rep, "units::aliases::isq::si::international::volume", "ft3", "units::isq::si::dim_volume", "units::isq::si::international::cubic_foot"⟩,
  ⟨131, .reference, "units::isq::si::international::volume_references", "ft3", "units::isq::si::dim_volume", "units::isq::si::international::cubic_foot"⟩,
  ⟨131, .literal, "units::isq::si::international::literals", "_q_ft3", "units::isq::si::dim_volume", "units::isq::si::international::cubic_foot"⟩,
  ⟨131, .literal, "units::isq::si::international::literals", "_q_ft3", "units::isq::si::dim_volume", "units::isq::si::international::cubic_foot"⟩,
  ⟨131, .literal, "units::isq::si::international::literals", "_q_ft3", "units::isq::si::dim_volume", "units::isq::si::international::cubic_foot"⟩,
  ⟨130, .rep, "units::aliases::isq::si::international::speed", "mi_per_h", "units::isq::si::dim_speed", "units::isq::si::international::mile_per_hour"⟩,
  ⟨130, .literal, "units::isq::si::international::literals", "_q_mi_per_h", "units::isq::si::dim_speed", "units::isq::si::international::mile_per_hour"⟩,
  ⟨130, .literal, "units::isq::si::international::literals", "_q_mi_per_h", "units::isq::si::dim_speed", "units::isq::si::international::mile_per_hour"⟩,
  ⟨130, .literal, "units::isq::si::international::literals", "_q_mi_per_h", "units::isq::si::dim_speed", "units::isq::si::international::mile_per_hour"⟩,
  ⟨129, .rep, "units::aliases::isq::si::international::area", "ft2", "units::isq::si::dim_area", "units::isq::si::international::square_foot"⟩,
  ⟨129, .reference, "units::isq::si::international::area_references", "ft2", "units::isq::si::dim_area", "units::isq::si::international::square_foot"⟩,
  ⟨129, .literal, "units::isq::si::international::literals", "_q_ft2", "units::isq::si::dim_area", "units::isq::si::international::square_foot"⟩,
  ⟨129, .literal, "units::isq::si::international::literals", "_q_ft2", "units::isq::si::dim_area", "units::isq::si::international::square_foot"⟩,
  ⟨129, .literal, "units::isq::si::international::literals", "_q_ft2", "units::isq::si::dim_area", "units::isq::si::international::square_foot"⟩,
  ⟨128, .rep, "units::aliases::isq::si::inductance", "YH", "units::isq::si::dim_inductance", "units::isq::si::yottahenry"⟩,
  ⟨128, .rep, "units::aliases::isq::si::inductance", "ZH", "units::isq::si::dim_inductance", "units::isq::si::zettahenry"⟩,
  ⟨128, .rep, "units::aliases::isq::si::inductance", "EH", "units::isq::si::dim_inductance", "units::isq::si::exahenry"⟩,
  ⟨128, .rep, "units::aliases::isq::si::inductance", "PH", "units::isq::si::dim_inductance", "units::isq::si::petahenry"⟩,
  ⟨128, .rep, "units::aliases::isq::si::inductance", "TH", "units::isq::si::dim_inductance", "units::isq::si::terahenry"⟩,
  ⟨128, .rep, "units::aliases::isq::si::inductance", "GH", "units::isq::si::dim_inductance", "units::isq::si::gigahenry"⟩,
  ⟨128, .rep, "units::aliases::isq::si::inductance", "MH", "units::isq::si::dim_inductance", "units::isq::si::megahenry"⟩,
  ⟨128, .rep, "units::aliases::isq::si::inductance", "kH", "units::isq::si::dim_inductance", "units::isq::si::kilohenry"⟩,
  ⟨128, .rep, "units::aliases::isq::si::inductance", "mH", "units::isq::si::dim_inductance", "units::isq::si::millihenry"⟩,
  ⟨128, .rep, "units::aliases::isq::si::inductance", "uH", "units::isq::si::dim_inductance", "units::isq::si::microhenry"⟩]

/-- Part 7 of `tagTable`. -/
def tagTable7 : List (TRow) := [
  ⟨128, .rep, "units::aliases::isq::si::inductance", "nH", "units::isq::si::dim_inductance", "units::isq::si::nanohenry"⟩,
  ⟨128, .rep, "units::aliases::isq::si::inductance", "pH", "units::isq::si::dim_inductance", "units::isq::si::picohenry"⟩,
  ⟨128, .rep, "units::aliases::isq::si::inductance", "fH", "units::isq::si::dim_inductance", "units::isq::si::femtohenry"⟩,
  ⟨128, .rep, "units::aliases::isq::si::inductance", "aH", "units::isq::si::dim_inductance", "units::isq::si::attohenry"⟩,
  ⟨128, .rep, "units::aliases::isq::si::inductance", "zH", "units::isq::si::dim_inductance", "units::isq::si::zeptohenry"⟩,
  ⟨128, .rep, "units::aliases::isq::si::inductance", "yH", "units::isq::si::dim_inductance", "units::isq::si::yoctohenry"⟩,
  ⟨128, .rep, "units::aliases::isq::si::inductance", "H", "units::isq::si::dim_inductance", "units::isq::si::henry"⟩,
  ⟨128, .reference, "units::isq::si::inductance_references", "YH", "units::isq::si::dim_inductance", "units::isq::si::yottahenry"⟩,
  ⟨128, .reference, "units::isq::si::inductance_references", "ZH", "units::isq::si::dim_inductance", "units::isq::si::zettahenry"⟩,
  ⟨128, .reference, "units::isq::si::inductance_references", "EH", "units::isq::si::dim_inductance", "units::isq::si::exahenry"⟩,
  ⟨128, .reference, "units::isq::si::inductance_references", "PH", "units::isq::si::dim_inductance", "units::isq::si::petahenry"⟩,
  ⟨128, .reference, "units::isq::si::inductance_references", "TH", "units::isq::si::dim_inductance", "units::isq::si::terahenry"⟩,
  ⟨128, .reference, "units::isq::si::inductance_references", "GH", "units::isq::si::dim_inductance", "units::isq::si::gigahenry"⟩,
  ⟨128, .reference, "units::isq::si::inductance_references", "MH", "units::isq::si::dim_inductance", "units::isq::si::megahenry"⟩,
  ⟨128, .reference, "units::isq::si::inductance_references", "kH", "units::isq::si::dim_inductance", "units::isq::si::kilohenry"⟩,
  ⟨128, .reference, "units::isq::si::inductance_references", "mH", "units::isq::si::dim_inductance", "units::isq::si::millihenry"⟩,
  ⟨128, .reference, "units::isq::si::inductance_references", "uH", "units::isq::si::dim_inductance", "units::isq::si::microhenry"⟩,
  ⟨128, .reference, "units::isq::si::inductance_references", "nH", "units::isq::si::dim_inductance", "units::isq::si::nanohenry"⟩,
  ⟨128, .reference, "units::isq::si::inductance_references", "pH", "units::isq::si::dim_inductance", "units::isq::si::picohenry"⟩,
  ⟨128, .reference, "units::isq::si::inductance_references", "fH", "units::isq::si::dim_inductance", "units::isq::si::femtohenry"⟩,
  ⟨128, .reference, "units::isq::si::inductance_references", "aH", "units::isq::si::dim_inductance", "units::isq::si::attohenry"⟩,
  ⟨128, .reference, "units::isq::si::inductance_references", "zH", "units::isq::si::dim_inductance", "units::isq::si::zeptohenry"⟩,
  ⟨128, .reference, "units::isq::si::inductance_references", "yH", "units::isq::si::dim_inductance", "units::isq::si::yoctohenry"⟩,
  ⟨128, .reference, "units::isq::si::inductance_references", "H", "units::isq::si::dim_inductance", "units::isq::si::henry"⟩,
  ⟨128, .literal, "units::isq::si::literals", "_q_YH", "units::isq::si::dim_inductance", "units::isq::si::yottahenry"⟩,
  ⟨128, .literal, "units::isq::si::literals", "_q_YH", "units::isq::si::dim_inductance", "units::isq::si::yottahenry"⟩,
  ⟨128, .literal, "units::isq::si::literals", "_q_YH", "units::isq::si::dim_inductance", "units::isq::si::yottahenry"⟩,
  ⟨128, .literal, "units::isq::si::literals", "_q_ZH", "units::isq::si::dim_inductance", "units::isq::si::zettahenry"⟩,
  ⟨128, .literal, "units::isq::si::literals", "_q_ZH", "units::isq::si::dim_inductance", "units::isq::si::zettahenry"⟩,
  ⟨128, .literal, "units::isq::si::literals", "_q_ZH", "units::isq::si::dim_inductance", "units::isq::si::zettahenry"⟩,
  ⟨128, .literal, "units::isq::si::literals", "_q_EH", "units::isq::si::dim_inductance", "units::isq::si::exahenry"⟩,
  ⟨128, .literal, "units::isq::si::literals", "_q_EH", "units::isq::si::dim_inductance", "units::isq::si::exahenry"⟩,
  ⟨128, .literal, "units::isq::si::literals", "_q_EH", "units::isq::si::dim_inductance", "units::isq::si::exahenry"⟩,
  ⟨128, .literal, "units::isq::si::literals", "_q_PH", "units::isq::si::dim_inductance", "units::isq::si::petahenry"⟩,
  ⟨128, .literal, "units::isq::si::literals", "_q_PH", "units::isq::si::dim_inductance", "units::isq::si::petahenry"⟩,
  ⟨128, .literal, "units::isq::si::literals", "_q_PH", "units::isq::si::dim_inductance", "units::isq::si::petahenry"⟩,
  ⟨128, .literal, "units::isq::si::literals", "_q_TH", "units::isq::si::dim_inductance", "units::isq::si::terahenry"⟩,
  ⟨128, .literal, "units::isq::si::literals", "_q_TH", "units::isq::si::dim_inductance", "units::isq::si::terahenry"⟩,
  ⟨128, .literal, "units::isq::si::literals", "_q_TH", "units::isq::si::dim_inductance", "units::isq::si::terahenry"⟩,
  ⟨128, .literal, "units::isq::si::literals", "_q_GH", "units::isq::si::dim_inductance", "units::isq::si::gigahenry"⟩]

/-- Part 8 of `tagTable`. -/
def tagTable8 : List (TRow) := [
  ⟨128, .literal, "units::isq::si::literals", "_q_GH", "units::isq::si::dim_inductance", "units::isq::si::gigahenry"⟩,
  ⟨128, .literal, "units::isq::si::literals", "_q_GH", "units::isq::si::dim_inductance", "units::isq::si::gigahenry"⟩,
  ⟨128, .literal, "units::isq::si::literals", "_q_MH", "units::isq::si::dim_inductance", "units::isq::si::megahenry"⟩,
  ⟨128, .literal, "units::isq::si::literals", "_q_MH", "units::isq::si::dim_inductance", "units::isq::si::megahenry"⟩,
  ⟨128, .literal, "units::isq::si::literals", "_q_MH", "units::isq::si::dim_inductance", "units::isq::si::megahenry"⟩,
  ⟨128, .literal, "units::isq::si::literals", "_q_kH", "units::isq::si::dim_inductance", "units::isq::si::kilohenry"⟩,
  ⟨128, .literal, "units::isq::si::literals", "_q_kH", "units::isq::si::dim_inductance", "units::isq::si::kilohenry"⟩,
  ⟨128, .literal, "units::isq::si::literals", "_q_kH", "units::isq::si::dim_inductance", "units::isq::si::kilohenry"⟩,
  ⟨128, .literal, "units::isq::si::literals", "_q_mH", "units::isq::si::dim_inductance", "units::isq::si::millihenry"⟩,
  ⟨128, .literal, "units::isq::si::literals", "_q_mH", "units::isq::si::dim_inductance", "units::isq::si::millihenry"⟩,
  ⟨128, .literal, "units::isq::si::literals", "_q_mH", "units::isq::si::dim_inductance", "units::isq::si::millihenry"⟩,
  ⟨128, .literal, "units::isq::si::literals", "_q_uH", "units::isq::si::dim_inductance", "units::isq::si::microhenry"⟩,
  ⟨128, .literal, "units::isq::si::literals", "_q_uH", "units::isq::si::dim_inductance", "units::isq::si::microhenry"⟩,
  ⟨128, .literal, "units::isq::si::literals", "_q_uH", "units::isq::si::dim_inductance", "units::isq::si::microhenry"⟩,
  ⟨128, .literal, "units::isq::si::literals", "_q_nH", "units::isq::si::dim_inductance", "units::isq::si::nanohenry"⟩,
  ⟨128, .literal, "units::isq::si::literals", "_q_nH", "units::isq::si::dim_inductance", "units::isq::si::nanohenry"⟩,
  ⟨128, .literal, "units::isq::si::literals", "_q_nH", "units::isq::si::dim_inductance", "units::isq::si::nanohenry"⟩,
  ⟨128, .literal, "units::isq::si::literals", "_q_pH", "units::isq::si::dim_inductance", "units::isq::si::picohenry"⟩,
  ⟨128, .literal, "units::isq::si::literals", "_q_pH", "units::isq::si::dim_inductance", "units::isq::si::picohenry"⟩,
  ⟨128, .literal, "units::isq::si::literals", "_q_pH", "units::isq::si::dim_inductance", "units::isq::si::picohenry"⟩,
  ⟨128, .literal, "units::isq::si::literals", "_q_fH", "units::isq::si::dim_inductance", "units::isq::si::femtohenry"⟩,
  ⟨128, .literal, "units::isq::si::literals", "_q_fH", "units::isq::si::dim_inductance", "units::isq::si::femtohenry"⟩,
  ⟨128, .literal, "units::isq::si::literals", "_q_fH", "units::isq::si::dim_inductance", "units::isq::si::femtohenry"⟩,
  ⟨128, .literal, "units::isq::si::literals", "_q_aH", "units::isq::si::dim_inductance", "units::isq::si::attohenry"⟩,
  ⟨128, .literal, "units::isq::si::literals", "_q_aH", "units::isq::si::dim_inductance", "units::isq::si::attohenry"⟩,
  ⟨128, .literal, "units::isq::si::literals", "_q_aH", "units::isq::si::dim_inductance", "units::isq::si::attohenry"⟩,
  ⟨128, .literal, "units::isq::si::literals", "_q_zH", "units::isq::si::dim_inductance", "units::isq::si::zeptohenry"⟩,
  ⟨128, .literal, "units::isq::si::literals", "_q_zH", "units::isq::si::dim_inductance", "units::isq::si::zeptohenry"⟩,
  ⟨128, .literal, "units::isq::si::literals", "_q_zH", "units::isq::si::dim_inductance", "units::isq::si::zeptohenry"⟩,
  ⟨128, .literal, "units::isq::si::literals", "_q_yH", "units::isq::si::dim_inductance", "units::isq::si::yoctohenry"⟩,
  ⟨128, .literal, "units::isq::si::literals", "_q_yH", "units::isq::si::dim_inductance", "units::isq::si::yoctohenry"⟩,
  ⟨128, .literal, "units::isq::si::literals", "_q_yH", "units::isq::si::dim_inductance", "units::isq::si::yoctohenry"⟩,
  ⟨128, .literal, "units::isq::si::literals", "_q_H", "units::isq::si::dim_inductance", "units::isq::si::henry"⟩,
  ⟨128, .literal, "units::isq::si::literals", "_q_H", "units::isq::si::dim_inductance", "units::isq::si::henry"⟩,
  ⟨128, .literal, "units::isq::si::literals", "_q_H", "units::isq::si::dim_inductance", "units::isq::si::henry"⟩,
  ⟨127, .rep, "units::aliases::isq::si::magnetic_flux", "YWb", "units::isq::si::dim_magnetic_flux", "units::isq::si::yottaweber"⟩,
  ⟨127, .rep, "units::aliases::isq::si::magnetic_flux", "ZWb", "units::isq::si::dim_magnetic_flux", "units::isq::si::zettaweber"⟩,
  ⟨127, .rep, "units::aliases::isq::si::magnetic_flux", "EWb", "units::isq::si::dim_magnetic_flux", "units::isq::si::exaweber"⟩,
  ⟨127, .rep, "units::aliases::isq::si::magnetic_flux", "PWb", "units::isq::si::dim_magnetic_flux", "units::isq::si::petaweber"⟩,
  ⟨127, .rep, "units::aliases::isq::si::magnetic_flux", "TWb", "units::isq::si::dim_magnetic_flux", "units::isq::si::teraweber"⟩]

/-- Part 9 of `tagTable`. -/
def tagTable9 : List (TRow) := [
  ⟨127, .rep, "units::aliases::isq::si::magnetic_flux", "GWb", "units::isq::si::dim_magnetic_flux", "units::isq::si::gigaweber"⟩,
  ⟨127, .rep, "units::aliases::isq::si::magnetic_flux", "MWb", "units::isq::si::dim_magnetic_flux", "units::isq::si::megaweber"⟩,
  ⟨127, .rep, "units::aliases::isq::si::magnetic_flux", "kWb", "units::isq::si::dim_magnetic_flux", "units::isq::si::kiloweber"⟩,
  ⟨127, .rep, "units::aliases::isq::si::magnetic_flux", "mWb", "units::isq::si::dim_magnetic_flux", "units::isq::si::milliweber"⟩,
  ⟨127, .rep, "units::aliases::isq::si::magnetic_flux", "uWb", "units::isq::si::dim_magnetic_flux", "units::isq::si::microweber"⟩,
  ⟨127, .rep, "units::aliases::isq::si::magnetic_flux", "nWb", "units::isq::si::dim_magnetic_flux", "units::isq::si::nanoweber"⟩,
  ⟨127, .rep, "units::aliases::isq::si::magnetic_flux", "pWb", "units::isq::si::dim_magnetic_flux", "units::isq::si::picoweber"⟩,
  ⟨127, .rep, "units::aliases::isq::si::magnetic_flux", "fWb", "units::isq::si::dim_magnetic_flux", "units::isq::si::femtoweber"⟩,
  ⟨127, .rep, "units::aliases::isq::si::magnetic_flux", "aWb", "units::isq::si::dim_magnetic_flux", "units::isq::si::attoweber"⟩,
  ⟨127, .rep, "units::aliases::isq::si::magnetic_flux", "zWb", "units::isq::si::dim_magnetic_flux", "units::isq::si::zeptoweber"⟩,
  ⟨127, .rep, "units::aliases::isq::si::magnetic_flux", "yWb", "units::isq::si::dim_magnetic_flux", "units::isq::si::yoctoweber"⟩,
  ⟨127, .rep, "units::aliases::isq::si::magnetic_flux", "Wb", "units::isq::si::dim_magnetic_flux", "units::isq::si::weber"⟩,
  ⟨127, .reference, "units::isq::si::magnetic_flux_references", "YWb", "units::isq::si::dim_magnetic_flux", "units::isq::si::yottaweber"⟩,
  ⟨127, .reference, "units::isq::si::magnetic_flux_references", "ZWb", "units::isq::si::dim_magnetic_flux", "units::isq::si::zettaweber"⟩,
  ⟨127, .reference, "units::isq::si::magnetic_flux_references", "EWb", "units::isq::si::dim_magnetic_flux", "units::isq::si::exaweber"⟩,
  ⟨127, .reference, "units::isq::si::magnetic_flux_references", "PWb", "units::isq::si::dim_magnetic_flux", "units::isq::si::petaweber"⟩,
  ⟨127, .reference, "units::isq::si::magnetic_flux_references", "TWb", "units::isq::si::dim_magnetic_flux", "units::isq::si::teraweber"⟩,
  ⟨127, .reference, "units::isq::si::magnetic_flux_references", "GWb", "units::isq::si::dim_magnetic_flux", "units::isq::si::gigaweber"⟩,
  ⟨127, .reference, "units::isq::si::magnetic_flux_references", "MWb", "units::isq::si::dim_magnetic_flux", "units::isq::si::megaweber"⟩,
  ⟨127, .reference, "units::isq::si::magnetic_flux_references", "kWb", "units::isq::si::dim_magnetic_flux", "units::isq::si::kiloweber"⟩,
  ⟨127, .reference, "units::isq::si::magnetic_flux_references", "mWb", "units::isq::si::dim_magnetic_flux", "units::isq::si::milliweber"⟩,
  ⟨127, .reference, "units::isq::si::magnetic_flux_references", "uWb", "units::isq::si::dim_magnetic_flux", "units::isq::si::microweber"⟩,
  ⟨127, .reference, "units::isq::si::magnetic_flux_references", "nWb", "units::isq::si::dim_magnetic_flux", "units::isq::si::nanoweber"⟩,
  ⟨127, .reference, "units::isq::si::magnetic_flux_references", "pWb", "units::isq::si::dim_magnetic_flux", "units::isq::si::picoweber"⟩,
  ⟨127, .reference, "units::isq::si::magnetic_flux_references", "fWb", "units::isq::si::dim_magnetic_flux", "units::isq::si::femtoweber"⟩,
  ⟨127, .reference, "units::isq::si::magnetic_flux_references", "aWb", "units::isq::si::dim_magnetic_flux", "units::isq::si::attoweber"⟩,
  ⟨127, .reference, "units::isq::si::magnetic_flux_references", "zWb", "units::isq::si::dim_magnetic_flux", "units::isq::si::zeptoweber"⟩,
  ⟨127, .reference, "units::isq::si::magnetic_flux_references", "yWb", "units::isq::si::dim_magnetic_flux", "units::isq::si::yoctoweber"⟩,
  ⟨127, .reference, "units::isq::si::magnetic_flux_references", "Wb", "units::isq::si::dim_magnetic_flux", "units::isq::si::weber"⟩,
  ⟨127, .literal, "units::isq::si::literals", "_q_YWb", "units::isq::si::dim_magnetic_flux", "units::isq::si::yottaweber"⟩,
  ⟨127, .literal, "units::isq::si::literals", "_q_YWb", "units::isq::si::dim_magnetic_flux", "units::isq::si::yottaweber"⟩,
  ⟨127, .literal, "units::isq::si::literals", "_q_YWb", "units::isq::si::dim_magnetic_flux", "units::isq::si::yottaweber"⟩,
  ⟨127, .literal, "units::isq::si::literals", "_q_ZWb", "units::isq::si::dim_magnetic_flux", "units::isq::si::zettaweber"⟩,
  ⟨127, .literal, "units::isq::si::literals", "_q_ZWb", "units::isq::si::dim_magnetic_flux", "units::isq::si::zettaweber"⟩,
  ⟨127, .literal, "units::isq::si::literals", "_q_ZWb", "units::isq::si::dim_magnetic_flux", "units::isq::si::zettaweber"⟩,
  ⟨127, .literal, "units::isq::si::literals", "_q_EWb", "units::isq::si::dim_magnetic_flux", "units::isq::si::exaweber"⟩,
  ⟨127, .literal, "units::isq::si::literals", "_q_EWb", "units::isq::si::dim_magnetic_flux", "units::isq::si::exaweber"⟩,
  ⟨127, .literal, "units::isq::si::literals", "_q_EWb", "units::isq::si::dim_magnetic_flux", "units::isq::si::exaweber"⟩,
  ⟨127, .literal, "units::isq::si::literals", "_q_PWb", "units::isq::si::dim_magnetic_flux", "units::isq::si::petaweber"⟩,
  ⟨127, .literal, "units::isq::si::literals", "_q_PWb", "units::isq::si::dim_magnetic_flux", "units::isq::si::petaweber"⟩]

/-- Part 10 of `tagTable`. -/
def tagTable10 : List (TRow) := [
  ⟨127, .literal, "units::isq::si::literals", "_q_PWb", "units::isq::si::dim_magnetic_flux", "units::isq::si::petaweber"⟩,
  ⟨127, .literal, "units::isq::si::literals", "_q_TWb", "units::isq::si::dim_magnetic_flux", "units::isq::si::teraweber"⟩,
  ⟨127, .literal, "units::isq::si::literals", "_q_TWb", "units::isq::si::dim_magnetic_flux", "units::isq::si::teraweber"⟩,
  ⟨127, .literal, "units::isq::si::literals", "_q_TWb", "units::isq::si::dim_magnetic_flux", "units::isq::si::teraweber"⟩,
  ⟨127, .literal, "units::isq::si::literals", "_q_GWb", "units::isq::si::dim_magnetic_flux", "units::isq::si::gigaweber"⟩,
  ⟨127, .literal, "units::isq::si::literals", "_q_GWb", "units::isq::si::dim_magnetic_flux", "units::isq::si::gigaweber"⟩,
  ⟨127, .literal, "units::isq::si::literals", "_q_GWb", "units::isq::si::dim_magnetic_flux", "units::isq::si::gigaweber"⟩,
  ⟨127, .literal, "units::isq::si::literals", "_q_MWb", "units::isq::si::dim_magnetic_flux", "units::isq::si::megaweber"⟩,
  ⟨127, .literal, "units::isq::si::literals", "_q_MWb", "units::isq::si::dim_magnetic_flux", "units::isq::si::megaweber"⟩,
  ⟨127, .literal, "units::isq::si::literals", "_q_MWb", "units::isq::si::dim_magnetic_flux", "units::isq::si::megaweber"⟩,
  ⟨127, .literal, "units::isq::si::literals", "_q_kWb", "units::isq::si::dim_magnetic_flux", "units::isq::si::kiloweber"⟩,
  ⟨127, .literal, "units::isq::si::literals", "_q_kWb", "units::isq::si::dim_magnetic_flux", "units::isq::si::kiloweber"⟩,
  ⟨127, .literal, "units::isq::si::literals", "_q_kWb", "units::isq::si::dim_magnetic_flux", "units::isq::si::kiloweber"⟩,
  ⟨127, .literal, "units::isq::si::literals", "_q_mWb", "units::isq::si::dim_magnetic_flux", "units::isq::si::milliweber"⟩,
  ⟨127, .literal, "units::isq::si::literals", "_q_mWb", "units::isq::si::dim_magnetic_flux", "units::isq::si::milliweber"⟩,
  ⟨127, .literal, "units::isq::si::literals", "_q_mWb", "units::isq::si::dim_magnetic_flux", "units::isq::si::milliweber"⟩,
  ⟨127, .literal, "units::isq::si::literals", "_q_uWb", "units::isq::si::dim_magnetic_flux", "units::isq::si::microweber"⟩,
  ⟨127, .literal, "units::isq::si::literals", "_q_uWb", "units::isq::si::dim_magnetic_flux", "units::isq::si::microweber"⟩,
  ⟨127, .literal, "units::isq::si::literals", "_q_uWb", "units::isq::si::dim_magnetic_flux", "units::isq::si::microweber"⟩,
  ⟨127, .literal, "units::isq::si::literals", "_q_nWb", "units::isq::si::dim_magnetic_flux", "units::isq::si::nanoweber"⟩,
  ⟨127, .literal, "units::isq::si::literals", "_q_nWb", "units::isq::si::dim_magnetic_flux", "units::isq::si::nanoweber"⟩,
  ⟨127, .literal, "units::isq::si::literals", "_q_nWb", "units::isq::si::dim_magnetic_flux", "units::isq::si::nanoweber"⟩,
  ⟨127, .literal, "units::isq::si::literals", "_q_pWb", "units::isq::si::dim_magnetic_flux", "units::isq::si::picoweber"⟩,
  ⟨127, .literal, "units::isq::si::literals", "_q_pWb", "units::isq::si::dim_magnetic_flux", "units::isq::si::picoweber"⟩,
  ⟨127, .literal, "units::isq::si::literals", "_q_pWb", "units::isq::si::dim_magnetic_flux", "units::isq::si::picoweber"⟩,
  ⟨127, .literal, "units::isq::si::literals", "_q_fWb", "units::isq::si::dim_magnetic_flux", "units::isq::si::femtoweber"⟩,
  ⟨127, .literal, "units::isq::si::literals", "_q_fWb", "units::isq::si::dim_magnetic_flux", "units::isq::si::femtoweber"⟩,
  ⟨127, .literal, "units::isq::si::literals", "_q_fWb", "units::isq::si::dim_magnetic_flux", "units::isq::si::femtoweber"⟩,
  ⟨127, .literal, "units::isq::si::literals", "_q_aWb", "units::isq::si::dim_magnetic_flux", "units::isq::si::attoweber"⟩,
  ⟨127, .literal, "units::isq::si::literals", "_q_aWb", "units::isq::si::dim_magnetic_flux", "units::isq::si::attoweber"⟩,
  ⟨127, .literal, "units::isq::si::literals", "_q_aWb", "units::isq::si::dim_magnetic_flux", "units::isq::si::attoweber"⟩,
  ⟨127, .literal, "units::isq::si::literals", "_q_zWb", "units::isq::si::dim_magnetic_flux", "units::isq::si::zeptoweber"⟩,
  ⟨127, .literal, "units::isq::si::literals", "_q_zWb", "units::isq::si::dim_magnetic_flux", "units::isq::si::zeptoweber"⟩,
  ⟨127, .literal, "units::isq::si::literals", "_q_zWb", "units::isq::si::dim_magnetic_flux", "units::isq::si::zeptoweber"⟩,
  ⟨127, .literal, "units::isq::si::literals", "_q_yWb", "units::isq::si::dim_magnetic_flux", "units::isq::si::yoctoweber"⟩,
  ⟨127, .literal, "units::isq::si::literals", "_q_yWb", "units::isq::si::dim_magnetic_flux", "units::isq::si::yoctoweber"⟩,
  ⟨127, .literal, "units::isq::si::literals", "_q_yWb", "units::isq::si::dim_magnetic_flux", "units::isq::si::yoctoweber"⟩,
  ⟨127, .literal, "units::isq::si::literals", "_q_Wb", "units::isq::si::dim_magnetic_flux", "units::isq::si::weber"⟩,
  ⟨127, .literal, "units::isq::si::literals", "_q_Wb", "units::isq::si::dim_magnetic_flux", "units::isq::si::weber"⟩,
  ⟨127, .literal, "units::isq::si::literals", "_q_Wb", "units::isq::si::dim_magnetic_flux", "units::isq::si::weber"⟩]

/-- Part 11 of `tagTable`. -/
def tagTable11 : List (TRow) := [
  ⟨126, .rep, "units::aliases::isq::si::magnetic_induction", "G", "units::isq::si::dim_magnetic_induction", "units::isq::si::gauss"⟩,
  ⟨126, .rep, "units::aliases::isq::si::magnetic_induction", "YT", "units::isq::si::dim_magnetic_induction", "units::isq::si::yottatesla"⟩,
  ⟨126, .rep, "units::aliases::isq::si::magnetic_induction", "ZT", "units::isq::si::dim_magnetic_induction", "units::isq::si::zettatesla"⟩,
  ⟨126, .rep, "units::aliases::isq::si::magnetic_induction", "ET", "units::isq::si::dim_magnetic_induction", "units::isq::si::exatesla"⟩,
  ⟨126, .rep, "units::aliases::isq::si::magnetic_induction", "PT", "units::isq::si::dim_magnetic_induction", "units::isq::si::petatesla"⟩,
  ⟨126, .rep, "units::aliases::isq::si::magnetic_induction", "TT", "units::isq::si::dim_magnetic_induction", "units::isq::si::teratesla"⟩,
  ⟨126, .rep, "units::aliases::isq::si::magnetic_induction", "GT", "units::isq::si::dim_magnetic_induction", "units::isq::si::gigatesla"⟩,
  ⟨126, .rep, "units::aliases::isq::si::magnetic_induction", "MT", "units::isq::si::dim_magnetic_induction", "units::isq::si::megatesla"⟩,
  ⟨126, .rep, "units::aliases::isq::si::magnetic_induction", "kT", "units::isq::si::dim_magnetic_induction", "units::isq::si::kilotesla"⟩,
  ⟨126, .rep, "units::aliases::isq::si::magnetic_induction", "mT", "units::isq::si::dim_magnetic_induction", "units::isq::si::millitesla"⟩,
  ⟨126, .rep, "units::aliases::isq::si::magnetic_induction", "uT", "units::isq::si::dim_magnetic_induction", "units::isq::si::microtesla"⟩,
  ⟨126, .rep, "units::aliases::isq::si::magnetic_induction", "nT", "units::isq::si::dim_magnetic_induction", "units::isq::si::nanotesla"⟩,
  ⟨126, .rep, "units::aliases::isq::si::magnetic_induction", "pT", "units::isq::si::dim_magnetic_induction", "units::isq::si::picotesla"⟩,
  ⟨126, .rep, "units::aliases::isq::si::magnetic_induction", "fT", "units::isq::si::dim_magnetic_induction", "units::isq::si::femtotesla"⟩,
  ⟨126, .rep, "units::aliases::isq::si::magnetic_induction", "aT", "units::isq::si::dim_magnetic_induction", "units::isq::si::attotesla"⟩,
  ⟨126, .rep, "units::aliases::isq::si::magnetic_induction", "zT", "units::isq::si::dim_magnetic_induction", "units::isq::si::zeptotesla"⟩,
  ⟨126, .rep, "units::aliases::isq::si::magnetic_induction", "yT", "units::isq::si::dim_magnetic_induction", "units::isq::si::yoctotesla"⟩,
  ⟨126, .rep, "units::aliases::isq::si::magnetic_induction", "T", "units::isq::si::dim_magnetic_induction", "units::isq::si::tesla"⟩,
  ⟨126, .reference, "units::isq::si::magnetic_induction_references", "G", "units::isq::si::dim_magnetic_induction", "units::isq::si::gauss"⟩,
  ⟨126, .reference, "units::isq::si::magnetic_induction_references", "YT", "units::isq::si::dim_magnetic_induction", "units::isq::si::yottatesla"⟩,
  ⟨126, .reference, "units::isq::si::magnetic_induction_references", "ZT", "units::isq::si::dim_magnetic_induction", "units::isq::si::zettatesla"⟩,
  ⟨126, .reference, "units::isq::si::magnetic_induction_references", "ET", "units::isq::si::dim_magnetic_induction", "units::isq::si::exatesla"⟩,
  ⟨126, .reference, "units::isq::si::magnetic_induction_references", "PT", "units::isq::si::dim_magnetic_induction", "units::isq::si::petatesla"⟩,
  ⟨126, .reference, "units::isq::si::magnetic_induction_references", "TT", "units::isq::si::dim_magnetic_induction", "units::isq::si::teratesla"⟩,
  ⟨126, .reference, "units::isq::si::magnetic_induction_references", "GT", "units::isq::si::dim_magnetic_induction", "units::isq::si::gigatesla"⟩,
  ⟨126, .reference, "units::isq::si::magnetic_induction_references", "MT", "units::isq::si::dim_magnetic_induction", "units::isq::si::megatesla"⟩,
  ⟨126, .reference, "units::isq::si::magnetic_induction_references", "kT", "units::isq::si::dim_magnetic_induction", "units::isq::si::kilotesla"⟩,
  ⟨126, .reference, "units::isq::si::magnetic_induction_references", "mT", "units::isq::si::dim_magnetic_induction", "units::isq::si::millitesla"⟩,
  ⟨126, .reference, "units::isq::si::magnetic_induction_references", "uT", "units::isq::si::dim_magnetic_induction", "units::isq::si::microtesla"⟩,
  ⟨126, .reference, "units::isq::si::magnetic_induction_references", "nT", "units::isq::si::dim_magnetic_induction", "units::isq::si::nanotesla"⟩,
  ⟨126, .reference, "units::isq::si::magnetic_induction_references", "pT", "units::isq::si::dim_magnetic_induction", "units::isq::si::picotesla"⟩,
  ⟨126, .reference, "units::isq::si::magnetic_induction_references", "fT", "units::isq::si::dim_magnetic_induction", "units::isq::si::femtotesla"⟩,
  ⟨126, .reference, "units::isq::si::magnetic_induction_references", "aT", "units::isq::si::dim_magnetic_induction", "units::isq::si::attotesla"⟩,
  ⟨126, .reference, "units::isq::si::magnetic_induction_references", "zT", "units::isq::si::dim_magnetic_induction", "units::isq::si::zeptotesla"⟩,
  ⟨126, .reference, "units::isq::si::magnetic_induction_references", "yT", "units::isq::si::dim_magnetic_induction", "units::isq::si::yoctotesla"⟩,
  ⟨126, .reference, "units::isq::si::magnetic_induction_references", "T", "units::isq::si::dim_magnetic_induction", "units::isq::si::tesla"⟩,
  ⟨126, .literal, "units::isq::si::literals", "_q_G", "units::isq::si::dim_magnetic_induction", "units::isq::si::gauss"⟩,
  ⟨126, .literal, "units::isq::si::literals", "_q_G", "units::isq::si::dim_magnetic_induction", "units::isq::si::gauss"⟩,
  ⟨126, .literal, "units::isq::si::literals", "_q_G", "units::isq::si::dim_magnetic_induction", "units::isq::si::gauss"⟩,
  ⟨126, .literal, "units::isq::si::literals", "_q_YT", "units::isq::si::dim_magnetic_induction", "units::isq::si::yottatesla"⟩]

/-- Part 12 of `tagTable`. -/
def tagTable12 : List (TRow) := [
  ⟨126, .literal, "units::isq::si::literals", "_q_YT", "units::isq::si::dim_magnetic_induction", "units::isq::si::yottatesla"⟩,
  ⟨126, .literal, "units::isq::si::literals", "_q_YT", "units::isq::si::dim_magnetic_induction", "units::isq::si::yottatesla"⟩,
  ⟨126, .literal, "units::isq::si::literals", "_q_ZT", "units::isq::si::dim_magnetic_induction", "units::isq::si::zettatesla"⟩,
  ⟨126, .literal, "units::isq::si::literals", "_q_ZT", "units::isq::si::dim_magnetic_induction", "units::isq::si::zettatesla"⟩,
  ⟨126, .literal, "units::isq::si::literals", "_q_ZT", "units::isq::si::dim_magnetic_induction", "units::isq::si::zettatesla"⟩,
  ⟨126, .literal, "units::isq::si::literals", "_q_ET", "units::isq::si::dim_magnetic_induction", "units::isq::si::exatesla"⟩,
  ⟨126, .literal, "units::isq::si::literals", "_q_ET", "units::isq::si::dim_magnetic_induction", "units::isq::si::exatesla"⟩,
  ⟨126, .literal, "units::isq::si::literals", "_q_ET", "units::isq::si::dim_magnetic_induction", "units::isq::si::exatesla"⟩,
  ⟨126, .literal, "units::isq::si::literals", "_q_PT", "units::isq::si::dim_magnetic_induction", "units::isq::si::petatesla"⟩,
  ⟨126, .literal, "units::isq::si::literals", "_q_PT", "units::isq::si::dim_magnetic_induction", "units::isq::si::petatesla"⟩,
  ⟨126, .literal, "units::isq::si::literals", "_q_PT", "units::isq::si::dim_magnetic_induction", "units::isq::si::petatesla"⟩,
  ⟨126, .literal, "units::isq::si::literals", "_q_TT", "units::isq::si::dim_magnetic_induction", "units::isq::si::teratesla"⟩,
  ⟨126, .literal, "units::isq::si::literals", "_q_TT", "units::isq::si::dim_magnetic_induction", "units::isq::si::teratesla"⟩,
  ⟨126, .literal, "units::isq::si::literals", "_q_TT", "units::isq::si::dim_magnetic_induction", "units::isq::si::teratesla"⟩,
  ⟨126, .literal, "units::isq::si::literals", "_q_GT", "units::isq::si::dim_magnetic_induction", "units::isq::si::gigatesla"⟩,
  ⟨126, .literal, "units::isq::si::literals", "_q_GT", "units::isq::si::dim_magnetic_induction", "units::isq::si::gigatesla"⟩,
  ⟨126, .literal, "units::isq::si::literals", "_q_GT", "units::isq::si::dim_magnetic_induction", "units::isq::si::gigatesla"⟩,
  ⟨126, .literal, "units::isq::si::literals", "_q_MT", "units::isq::si::dim_magnetic_induction", "units::isq::si::megatesla"⟩,
  ⟨126, .literal, "units::isq::si::literals", "_q_MT", "units::isq::si::dim_magnetic_induction", "units::isq::si::megatesla"⟩,
  ⟨126, .literal, "units::isq::si::literals", "_q_MT", "units::isq::si::dim_magnetic_induction", "units::isq::si::megatesla"⟩,
  ⟨126, .literal, "units::isq::si::literals", "_q_kT", "units::isq::si::dim_magnetic_induction", "units::isq::si::kilotesla"⟩,
  ⟨126, .literal, "units::isq::si::literals", "_q_kT", "units::isq::si::dim_magnetic_induction", "units::isq::si::kilotesla"⟩,
  ⟨126, .literal, "units::isq::si::literals", "_q_kT", "units::isq::si::dim_magnetic_induction", "units::isq::si::kilotesla"⟩,
  ⟨126, .literal, "units::isq::si::literals", "_q_mT", "units::isq::si::dim_magnetic_induction", "units::isq::si::millitesla"⟩,
  ⟨126, .literal, "units::isq::si::literals", "_q_mT", "units::isq::si::dim_magnetic_induction", "units::isq::si::millitesla"⟩,
  ⟨126, .literal, "units::isq::si::literals", "_q_mT", "units::isq::si::dim_magnetic_induction", "units::isq::si::millitesla"⟩,
  ⟨126, .literal, "units::isq::si::literals", "_q_uT", "units::isq::si::dim_magnetic_induction", "units::isq::si::microtesla"⟩,
  ⟨126, .literal, "units::isq::si::literals", "_q_uT", "units::isq::si::dim_magnetic_induction", "units::isq::si::microtesla"⟩,
  ⟨126, .literal, "units::isq::si::literals", "_q_uT", "units::isq::si::dim_magnetic_induction", "units::isq::si::microtesla"⟩,
  ⟨126, .literal, "units::isq::si::literals", "_q_nT", "units::isq::si::dim_magnetic_induction", "units::isq::si::nanotesla"⟩,
  ⟨126, .literal, "units::isq::si::literals", "_q_nT", "units::isq::si::dim_magnetic_induction", "units::isq::si::nanotesla"⟩,
  ⟨126, .literal, "units::isq::si::literals", "_q_nT", "units::isq::si::dim_magnetic_induction", "units::isq::si::nanotesla"⟩,
  ⟨126, .literal, "units::isq::si::literals", "_q_pT", "units::isq::si::dim_magnetic_induction", "units::isq::si::picotesla"⟩,
  ⟨126, .literal, "units::isq::si::literals", "_q_pT", "units::isq::si::dim_magnetic_induction", "units::isq::si::picotesla"⟩,
  ⟨126, .literal, "units::isq::si::literals", "_q_pT", "units::isq::si::dim_magnetic_induction", "units::isq::si::picotesla"⟩,
  ⟨126, .literal, "units::isq::si::literals", "_q_fT", "units::isq::si::dim_magnetic_induction", "units::isq::si::femtotesla"⟩,
  ⟨126, .literal, "units::isq::si::literals", "_q_fT", "units::isq::si::dim_magnetic_induction", "units::isq::si::femtotesla"⟩,
  ⟨126, .literal, "units::isq::si::literals", "_q_fT", "units::isq::si::dim_magnetic_induction", "units::isq::si::femtotesla"⟩,
  ⟨126, .literal, "units::isq::si::literals", "_q_aT", "units::isq::si::dim_magnetic_induction", "units::isq::si::attotesla"⟩,
  ⟨126, .literal, "units::isq::si::literals", "_q_aT", "units::isq::si::dim_magnetic_induction", "units::isq::si::attotesla"⟩]

/-- Part 13 of `tagTable`. -/
def tagTable13 : List (TRow) := [
  ⟨126, .literal, "units::isq::si::literals", "_q_aT", "units::isq::si::dim_magnetic_induction", "units::isq::si::attotesla"⟩,
  ⟨126, .literal, "units::isq::si::literals", "_q_zT", "units::isq::si::dim_magnetic_induction", "units::isq::si::zeptotesla"⟩,
  ⟨126, .literal, "units::isq::si::literals", "_q_zT", "units::isq::si::dim_magnetic_induction", "units::isq::si::zeptotesla"⟩,
  ⟨126, .literal, "units::isq::si::literals", "_q_zT", "units::isq::si::dim_magnetic_induction", "units::isq::si::zeptotesla"⟩,
  ⟨126, .literal, "units::isq::si::literals", "_q_yT", "units::isq::si::dim_magnetic_induction", "units::isq::si::yoctotesla"⟩,
  ⟨126, .literal, "units::isq::si::literals", "_q_yT", "units::isq::si::dim_magnetic_induction", "units::isq::si::yoctotesla"⟩,
  ⟨126, .literal, "units::isq::si::literals", "_q_yT", "units::isq::si::dim_magnetic_induction", "units::isq::si::yoctotesla"⟩,
  ⟨126, .literal, "units::isq::si::literals", "_q_T", "units::isq::si::dim_magnetic_induction", "units::isq::si::tesla"⟩,
  ⟨126, .literal, "units::isq::si::literals", "_q_T", "units::isq::si::dim_magnetic_induction", "units::isq::si::tesla"⟩,
  ⟨126, .literal, "units::isq::si::literals", "_q_T", "units::isq::si::dim_magnetic_induction", "units::isq::si::tesla"⟩,
  ⟨124, .rep, "units::aliases::isq::si::imperial::length", "rd", "units::isq::si::dim_length", "units::isq::si::imperial::rod"⟩,
  ⟨124, .rep, "units::aliases::isq::si::imperial::length", "ch", "units::isq::si::dim_length", "units::isq::si::imperial::chain"⟩,
  ⟨124, .reference, "units::isq::si::imperial::length_references", "rd", "units::isq::si::dim_length", "units::isq::si::imperial::rod"⟩,
  ⟨124, .reference, "units::isq::si::imperial::length_references", "ch", "units::isq::si::dim_length", "units::isq::si::imperial::chain"⟩,
  ⟨124, .literal, "units::isq::si::imperial::literals", "_q_rd", "units::isq::si::dim_length", "units::isq::si::imperial::rod"⟩,
  ⟨124, .literal, "units::isq::si::imperial::literals", "_q_rd", "units::isq::si::dim_length", "units::isq::si::imperial::rod"⟩,
  ⟨124, .literal, "units::isq::si::imperial::literals", "_q_rd", "units::isq::si::dim_length", "units::isq::si::imperial::rod"⟩,
  ⟨124, .literal, "units::isq::si::imperial::literals", "_q_ch", "units::isq::si::dim_length", "units::isq::si::imperial::chain"⟩,
  ⟨124, .literal, "units::isq::si::imperial::literals", "_q_ch", "units::isq::si::dim_length", "units::isq::si::imperial::chain"⟩,
  ⟨124, .literal, "units::isq::si::imperial::literals", "_q_ch", "units::isq::si::dim_length", "units::isq::si::imperial::chain"⟩,
  ⟨123, .rep, "units::aliases::isq::si::international::length", "mil", "units::isq::si::dim_length", "units::isq::si::international::thou"⟩,
  ⟨123, .rep, "units::aliases::isq::si::international::length", "thou", "units::isq::si::dim_length", "units::isq::si::international::thou"⟩,
  ⟨123, .rep, "units::aliases::isq::si::international::length", "mi_naut", "units::isq::si::dim_length", "units::isq::si::international::nautical_mile"⟩,
  ⟨123, .rep, "units::aliases::isq::si::international::length", "mi", "units::isq::si::dim_length", "units::isq::si::international::mile"⟩,
  ⟨123, .rep, "units::aliases::isq::si::international::length", "in", "units::isq::si::dim_length", "units::isq::si::international::inch"⟩,
  ⟨123, .rep, "units::aliases::isq::si::international::length", "fathom", "units::isq::si::dim_length", "units::isq::si::international::fathom"⟩,
  ⟨123, .rep, "units::aliases::isq::si::international::length", "ft", "units::isq::si::dim_length", "units::isq::si::international::foot"⟩,
  ⟨123, .rep, "units::aliases::isq::si::international::length", "yd", "units::isq::si::dim_length", "units::isq::si::international::yard"⟩,
  ⟨123, .reference, "units::isq::si::international::length_references", "mil", "units::isq::si::dim_length", "units::isq::si::international::thou"⟩,
  ⟨123, .reference, "units::isq::si::international::length_references", "thou", "units::isq::si::dim_length", "units::isq::si::international::thou"⟩,
  ⟨123, .reference, "units::isq::si::international::length_references", "mi_naut", "units::isq::si::dim_length", "units::isq::si::international::nautical_mile"⟩,
  ⟨123, .reference, "units::isq::si::international::length_references", "mi", "units::isq::si::dim_length", "units::isq::si::international::mile"⟩,
  ⟨123, .reference, "units::isq::si::international::length_references", "in", "units::isq::si::dim_length", "units::isq::si::international::inch"⟩,
  ⟨123, .reference, "units::isq::si::international::length_references", "fathom", "units::isq::si::dim_length", "units::isq::si::international::fathom"⟩,
  ⟨123, .reference, "units::isq::si::international::length_references", "ft", "units::isq::si::dim_length", "units::isq::si::international::foot"⟩,
  ⟨123, .reference, "units::isq::si::international::length_references", "yd", "units::isq::si::dim_length", "units::isq::si::international::yard"⟩,
  ⟨123, .literal, "units::isq::si::international::literals", "_q_mil", "units::isq::si::dim_length", "units::isq::si::international::thou"⟩,
  ⟨123, .literal, "units::isq::si::international::literals", "_q_mil", "units::isq::si::dim_length", "units::isq::si::international::thou"⟩,
  ⟨123, .literal, "units::isq::si::international::literals", "_q_mil", "units::isq::si::dim_length", "units::isq::si::international::thou"⟩,
  ⟨123, .literal, "units::isq::si::international::literals", "_q_thou", "units::isq::si::dim_length", "units::isq::si::international::thou"⟩]

/-- Part 14 of `tagTable`. -/
def tagTable14 : List (TRow) := [
  ⟨123, .literal, "units::isq::si::international::literals", "_q_thou", "units::isq::si::dim_length", "units::isq::si::international::thou"⟩,
  ⟨123, .literal, "units::isq::si::international::literals", "_q_thou", "units::isq::si::dim_length", "units::isq::si::international::thou"⟩,
  ⟨123, .literal, "units::isq::si::international::literals", "_q_naut_mi", "units::isq::si::dim_length", "units::isq::si::international::nautical_mile"⟩,
  ⟨123, .literal, "units::isq::si::international::literals", "_q_naut_mi", "units::isq::si::dim_length", "units::isq::si::international::nautical_mile"⟩,
  ⟨123, .literal, "units::isq::si::international::literals", "_q_naut_mi", "units::isq::si::dim_length", "units::isq::si::international::nautical_mile"⟩,
  ⟨123, .literal, "units::isq::si::international::literals", "_q_mi", "units::isq::si::dim_length", "units::isq::si::international::mile"⟩,
  ⟨123, .literal, "units::isq::si::international::literals", "_q_mi", "units::isq::si::dim_length", "units::isq::si::international::mile"⟩,
  ⟨123, .literal, "units::isq::si::international::literals", "_q_mi", "units::isq::si::dim_length", "units::isq::si::international::mile"⟩,
  ⟨123, .literal, "units::isq::si::international::literals", "_q_in", "units::isq::si::dim_length", "units::isq::si::international::inch"⟩,
  ⟨123, .literal, "units::isq::si::international::literals", "_q_in", "units::isq::si::dim_length", "units::isq::si::international::inch"⟩,
  ⟨123, .literal, "units::isq::si::international::literals", "_q_in", "units::isq::si::dim_length", "units::isq::si::international::inch"⟩,
  ⟨123, .literal, "units::isq::si::international::literals", "_q_fathom", "units::isq::si::dim_length", "units::isq::si::international::fathom"⟩,
  ⟨123, .literal, "units::isq::si::international::literals", "_q_fathom", "units::isq::si::dim_length", "units::isq::si::international::fathom"⟩,
  ⟨123, .literal, "units::isq::si::international::literals", "_q_fathom", "units::isq::si::dim_length", "units::isq::si::international::fathom"⟩,
  ⟨123, .literal, "units::isq::si::international::literals", "_q_ft", "units::isq::si::dim_length", "units::isq::si::international::foot"⟩,
  ⟨123, .literal, "units::isq::si::international::literals", "_q_ft", "units::isq::si::dim_length", "units::isq::si::international::foot"⟩,
  ⟨123, .literal, "units::isq::si::international::literals", "_q_ft", "units::isq::si::dim_length", "units::isq::si::international::foot"⟩,
  ⟨123, .literal, "units::isq::si::international::literals", "_q_yd", "units::isq::si::dim_length", "units::isq::si::international::yard"⟩,
  ⟨123, .literal, "units::isq::si::international::literals", "_q_yd", "units::isq::si::dim_length", "units::isq::si::international::yard"⟩,
  ⟨123, .literal, "units::isq::si::international::literals", "_q_yd", "units::isq::si::dim_length", "units::isq::si::international::yard"⟩,
  ⟨121, .rep, "units::aliases::isq::si::iau::length", "angstrom", "units::isq::si::dim_length", "units::isq::si::iau::angstrom"⟩,
  ⟨121, .rep, "units::aliases::isq::si::iau::length", "pc", "units::isq::si::dim_length", "units::isq::si::iau::parsec"⟩,
  ⟨121, .rep, "units::aliases::isq::si::iau::length", "ly", "units::isq::si::dim_length", "units::isq::si::iau::light_year"⟩,
  ⟨121, .reference, "units::isq::si::iau::length_references", "angstrom", "units::isq::si::dim_length", "units::isq::si::iau::angstrom"⟩,
  ⟨121, .reference, "units::isq::si::iau::length_references", "pc", "units::isq::si::dim_length", "units::isq::si::iau::parsec"⟩,
  ⟨121, .reference, "units::isq::si::iau::length_references", "ly", "units::isq::si::dim_length", "units::isq::si::iau::light_year"⟩,
  ⟨121, .literal, "units::isq::si::iau::literals", "_q_angstrom", "units::isq::si::dim_length", "units::isq::si::iau::angstrom"⟩,
  ⟨121, .literal, "units::isq::si::iau::literals", "_q_angstrom", "units::isq::si::dim_length", "units::isq::si::iau::angstrom"⟩,
  ⟨121, .literal, "units::isq::si::iau::literals", "_q_angstrom", "units::isq::si::dim_length", "units::isq::si::iau::angstrom"⟩,
  ⟨121, .literal, "units::isq::si::iau::literals", "_q_pc", "units::isq::si::dim_length", "units::isq::si::iau::parsec"⟩,
  ⟨121, .literal, "units::isq::si::iau::literals", "_q_pc", "units::isq::si::dim_length", "units::isq::si::iau::parsec"⟩,
  ⟨121, .literal, "units::isq::si::iau::literals", "_q_pc", "units::isq::si::dim_length", "units::isq::si::iau::parsec"⟩,
  ⟨121, .literal, "units::isq::si::iau::literals", "_q_ly", "units::isq::si::dim_length", "units::isq::si::iau::light_year"⟩,
  ⟨121, .literal, "units::isq::si::iau::literals", "_q_ly", "units::isq::si::dim_length", "units::isq::si::iau::light_year"⟩,
  ⟨121, .literal, "units::isq::si::iau::literals", "_q_ly", "units::isq::si::dim_length", "units::isq::si::iau::light_year"⟩,
  ⟨120, .rep, "units::aliases::isq::si::heat_capacity", "J_per_mol_K", "units::isq::si::dim_molar_heat_capacity", "units::isq::si::joule_per_mole_kelvin"⟩,
  ⟨120, .rep, "units::aliases::isq::si::heat_capacity", "J_per_kg_K", "units::isq::si::dim_specific_heat_capacity", "units::isq::si::joule_per_kilogram_kelvin"⟩,
  ⟨120, .rep, "units::aliases::isq::si::heat_capacity", "J_per_K", "units::isq::si::dim_heat_capacity", "units::isq::si::joule_per_kelvin"⟩,
  ⟨120, .literal, "units::isq::si::literals", "_q_J_per_mol_K", "units::isq::si::dim_molar_heat_capacity", "units::isq::si::joule_per_mole_kelvin"⟩,
  ⟨120, .literal, "units::isq::si::literals", "_q_J_per_mol_K", "units::isq::si::dim_molar_heat_capacity", "units::isq::si::joule_per_mole_kelvin"⟩]

/-- Part 15 of `tagTable`. -/
def tagTable15 : List (TRow) := [
  ⟨120, .literal, "units::isq::si::literals", "_q_J_per_mol_K", "units::isq::si::dim_molar_heat_capacity", "units::isq::si::joule_per_mole_kelvin"⟩,
  ⟨120, .literal, "units::isq::si::literals", "_q_J_per_kg_K", "units::isq::si::dim_specific_heat_capacity", "units::isq::si::joule_per_kilogram_kelvin"⟩,
  ⟨120, .literal, "units::isq::si::literals", "_q_J_per_kg_K", "units::isq::si::dim_specific_heat_capacity", "units::isq::si::joule_per_kilogram_kelvin"⟩,
  ⟨120, .literal, "units::isq::si::literals", "_q_J_per_kg_K", "units::isq::si::dim_specific_heat_capacity", "units::isq::si::joule_per_kilogram_kelvin"⟩,
  ⟨120, .literal, "units::isq::si::literals", "_q_J_per_K", "units::isq::si::dim_heat_capacity", "units::isq::si::joule_per_kelvin"⟩,
  ⟨120, .literal, "units::isq::si::literals", "_q_J_per_K", "units::isq::si::dim_heat_capacity", "units::isq::si::joule_per_kelvin"⟩,
  ⟨120, .literal, "units::isq::si::literals", "_q_J_per_K", "units::isq::si::dim_heat_capacity", "units::isq::si::joule_per_kelvin"⟩,
  ⟨118, .rep, "units::aliases::isq::si::fps::volume", "yd3", "units::isq::si::fps::dim_volume", "units::isq::si::fps::cubic_yard"⟩,
  ⟨118, .rep, "units::aliases::isq::si::fps::volume", "ft3", "units::isq::si::fps::dim_volume", "units::isq::si::fps::cubic_foot"⟩,
  ⟨118, .reference, "units::isq::si::fps::volume_references", "yd3", "units::isq::si::fps::dim_volume", "units::isq::si::fps::cubic_yard"⟩,
  ⟨118, .reference, "units::isq::si::fps::volume_references", "ft3", "units::isq::si::fps::dim_volume", "units::isq::si::fps::cubic_foot"⟩,
  ⟨118, .literal, "units::isq::si::fps::literals", "_q_yd3", "units::isq::si::fps::dim_volume", "units::isq::si::fps::cubic_yard"⟩,
  ⟨118, .literal, "units::isq::si::fps::literals", "_q_yd3", "units::isq::si::fps::dim_volume", "units::isq::si::fps::cubic_yard"⟩,
  ⟨118, .literal, "units::isq::si::fps::literals", "_q_yd3", "units::isq::si::fps::dim_volume", "units::isq::si::fps::cubic_yard"⟩,
  ⟨118, .literal, "units::isq::si::fps::literals", "_q_ft3", "units::isq::si::fps::dim_volume", "units::isq::si::fps::cubic_foot"⟩,
  ⟨118, .literal, "units::isq::si::fps::literals", "_q_ft3", "units::isq::si::fps::dim_volume", "units::isq::si::fps::cubic_foot"⟩,
  ⟨118, .literal, "units::isq::si::fps::literals", "_q_ft3", "units::isq::si::fps::dim_volume", "units::isq::si::fps::cubic_foot"⟩,
  ⟨117, .rep, "units::aliases::isq::si::fps::pressure", "kpsi", "units::isq::si::fps::dim_pressure", "units::isq::si::fps::kilopound_force_per_inch_sq"⟩,
  ⟨117, .rep, "units::aliases::isq::si::fps::pressure", "psi", "units::isq::si::fps::dim_pressure", "units::isq::si::fps::pound_force_per_inch_sq"⟩,
  ⟨117, .rep, "units::aliases::isq::si::fps::pressure", "pdl_per_ft2", "units::isq::si::fps::dim_pressure", "units::isq::si::fps::poundal_per_foot_sq"⟩,
  ⟨117, .reference, "units::isq::si::fps::pressure_references", "kpsi", "units::isq::si::fps::dim_pressure", "units::isq::si::fps::kilopound_force_per_inch_sq"⟩,
  ⟨117, .reference, "units::isq::si::fps::pressure_references", "psi", "units::isq::si::fps::dim_pressure", "units::isq::si::fps::pound_force_per_inch_sq"⟩,
  ⟨117, .literal, "units::isq::si::fps::literals", "_q_kpsi", "units::isq::si::fps::dim_pressure", "units::isq::si::fps::kilopound_force_per_inch_sq"⟩,
  ⟨117, .literal, "units::isq::si::fps::literals", "_q_kpsi", "units::isq::si::fps::dim_pressure", "units::isq::si::fps::kilopound_force_per_inch_sq"⟩,
  ⟨117, .literal, "units::isq::si::fps::literals", "_q_kpsi", "units::isq::si::fps::dim_pressure", "units::isq::si::fps::kilopound_force_per_inch_sq"⟩,
  ⟨117, .literal, "units::isq::si::fps::literals", "_q_psi", "units::isq::si::fps::dim_pressure", "units::isq::si::fps::pound_force_per_inch_sq"⟩,
  ⟨117, .literal, "units::isq::si::fps::literals", "_q_psi", "units::isq::si::fps::dim_pressure", "units::isq::si::fps::pound_force_per_inch_sq"⟩,
  ⟨117, .literal, "units::isq::si::fps::literals", "_q_psi", "units::isq::si::fps::dim_pressure", "units::isq::si::fps::pound_force_per_inch_sq"⟩,
  ⟨117, .literal, "units::isq::si::fps::literals", "_q_pdl_per_ft2", "units::isq::si::fps::dim_pressure", "units::isq::si::fps::poundal_per_foot_sq"⟩,
  ⟨117, .literal, "units::isq::si::fps::literals", "_q_pdl_per_ft2", "units::isq::si::fps::dim_pressure", "units::isq::si::fps::poundal_per_foot_sq"⟩,
  ⟨117, .literal, "units::isq::si::fps::literals", "_q_pdl_per_ft2", "units::isq::si::fps::dim_pressure", "units::isq::si::fps::poundal_per_foot_sq"⟩,
  ⟨116, .rep, "units::aliases::isq::si::fps::power", "hp", "units::isq::si::fps::dim_power", "units::isq::si::fps::horse_power"⟩,
  ⟨116, .rep, "units::aliases::isq::si::fps::power", "ft_lbf_per_s", "units::isq::si::fps::dim_power", "units::isq::si::fps::foot_pound_force_per_second"⟩,
  ⟨116, .rep, "units::aliases::isq::si::fps::power", "ft_pdl_per_s", "units::isq::si::fps::dim_power", "units::isq::si::fps::foot_poundal_per_second"⟩,
  ⟨116, .reference, "units::isq::si::fps::power_references", "hp", "units::isq::si::fps::dim_power", "units::isq::si::fps::horse_power"⟩,
  ⟨116, .literal, "units::isq::si::fps::literals", "_q_hp", "units::isq::si::fps::dim_power", "units::isq::si::fps::horse_power"⟩,
  ⟨116, .literal, "units::isq::si::fps::literals", "_q_hp", "units::isq::si::fps::dim_power", "units::isq::si::fps::horse_power"⟩,
  ⟨116, .literal, "units::isq::si::fps::literals", "_q_hp", "units::isq::si::fps::dim_power", "units::isq::si::fps::horse_power"⟩,
  ⟨116, .literal, "units::isq::si::fps::literals", "_q_ft_lbf_per_s", "units::isq::si::fps::dim_power", "units::isq::si::fps::foot_pound_force_per_second"⟩,
  ⟨116, .literal, "units::isq::si::fps::literals", "_q_ft_lbf_per_s", "units::isq::si::fps::dim_power", "units::isq::si::fps::foot_pound_force_per_second"⟩]

/-- Part 16 of `tagTable`. -/
def tagTable16 : List (TRow) := [
  ⟨116, .literal, "units::isq::si::fps::literals", "_q_ft_lbf_per_s", "units::isq::si::fps::dim_power", "units::isq::si::fps::foot_pound_force_per_second"⟩,
  ⟨116, .literal, "units::isq::si::fps::literals", "_q_ft_pdl_per_s", "units::isq::si::fps::dim_power", "units::isq::si::fps::foot_poundal_per_second"⟩,
  ⟨116, .literal, "units::isq::si::fps::literals", "_q_ft_pdl_per_s", "units::isq::si::fps::dim_power", "units::isq::si::fps::foot_poundal_per_second"⟩,
  ⟨116, .literal, "units::isq::si::fps::literals", "_q_ft_pdl_per_s", "units::isq::si::fps::dim_power", "units::isq::si::fps::foot_poundal_per_second"⟩,
  ⟨115, .rep, "units::aliases::isq::si::fps::energy", "ft_lbf", "units::isq::si::fps::dim_energy", "units::isq::si::fps::foot_pound_force"⟩,
  ⟨115, .rep, "units::aliases::isq::si::fps::energy", "ft_pdl", "units::isq::si::fps::dim_energy", "units::isq::si::fps::foot_poundal"⟩,
  ⟨115, .literal, "units::isq::si::fps::literals", "_q_ft_lbf", "units::isq::si::fps::dim_energy", "units::isq::si::fps::foot_pound_force"⟩,
  ⟨115, .literal, "units::isq::si::fps::literals", "_q_ft_lbf", "units::isq::si::fps::dim_energy", "units::isq::si::fps::foot_pound_force"⟩,
  ⟨115, .literal, "units::isq::si::fps::literals", "_q_ft_lbf", "units::isq::si::fps::dim_energy", "units::isq::si::fps::foot_pound_force"⟩,
  ⟨115, .literal, "units::isq::si::fps::literals", "_q_ft_pdl", "units::isq::si::fps::dim_energy", "units::isq::si::fps::foot_poundal"⟩,
  ⟨115, .literal, "units::isq::si::fps::literals", "_q_ft_pdl", "units::isq::si::fps::dim_energy", "units::isq::si::fps::foot_poundal"⟩,
  ⟨115, .literal, "units::isq::si::fps::literals", "_q_ft_pdl", "units::isq::si::fps::dim_energy", "units::isq::si::fps::foot_poundal"⟩,
  ⟨114, .rep, "units::aliases::isq::si::fps::force", "klbf", "units::isq::si::fps::dim_force", "units::isq::si::fps::kilopound_force"⟩,
  ⟨114, .rep, "units::aliases::isq::si::fps::force", "lbf", "units::isq::si::fps::dim_force", "units::isq::si::fps::pound_force"⟩,
  ⟨114, .rep, "units::aliases::isq::si::fps::force", "pdl", "units::isq::si::fps::dim_force", "units::isq::si::fps::poundal"⟩,
  ⟨114, .reference, "units::isq::si::fps::force_references", "klbf", "units::isq::si::fps::dim_force", "units::isq::si::fps::kilopound_force"⟩,
  ⟨114, .reference, "units::isq::si::fps::force_references", "lbf", "units::isq::si::fps::dim_force", "units::isq::si::fps::pound_force"⟩,
  ⟨114, .reference, "units::isq::si::fps::force_references", "pdl", "units::isq::si::fps::dim_force", "units::isq::si::fps::poundal"⟩,
  ⟨114, .literal, "units::isq::si::fps::literals", "_q_klbf", "units::isq::si::fps::dim_force", "units::isq::si::fps::kilopound_force"⟩,
  ⟨114, .literal, "units::isq::si::fps::literals", "_q_klbf", "units::isq::si::fps::dim_force", "units::isq::si::fps::kilopound_force"⟩,
  ⟨114, .literal, "units::isq::si::fps::literals", "_q_klbf", "units::isq::si::fps::dim_force", "units::isq::si::fps::kilopound_force"⟩,
  ⟨114, .literal, "units::isq::si::fps::literals", "_q_lbf", "units::isq::si::fps::dim_force", "units::isq::si::fps::pound_force"⟩,
  ⟨114, .literal, "units::isq::si::fps::literals", "_q_lbf", "units::isq::si::fps::dim_force", "units::isq::si::fps::pound_force"⟩,
  ⟨114, .literal, "units::isq::si::fps::literals", "_q_lbf", "units::isq::si::fps::dim_force", "units::isq::si::fps::pound_force"⟩,
  ⟨114, .literal, "units::isq::si::fps::literals", "_q_pdl", "units::isq::si::fps::dim_force", "units::isq::si::fps::poundal"⟩,
  ⟨114, .literal, "units::isq::si::fps::literals", "_q_pdl", "units::isq::si::fps::dim_force", "units::isq::si::fps::poundal"⟩,
  ⟨114, .literal, "units::isq::si::fps::literals", "_q_pdl", "units::isq::si::fps::dim_force", "units::isq::si::fps::poundal"⟩,
  ⟨113, .rep, "units::aliases::isq::si::fps::density", "lb_per_ft3", "units::isq::si::fps::dim_density", "units::isq::si::fps::pound_per_foot_cub"⟩,
  ⟨113, .literal, "units::isq::si::fps::literals", "_q_lb_per_ft3", "units::isq::si::fps::dim_density", "units::isq::si::fps::pound_per_foot_cub"⟩,
  ⟨113, .literal, "units::isq::si::fps::literals", "_q_lb_per_ft3", "units::isq::si::fps::dim_density", "units::isq::si::fps::pound_per_foot_cub"⟩,
  ⟨113, .literal, "units::isq::si::fps::literals", "_q_lb_per_ft3", "units::isq::si::fps::dim_density", "units::isq::si::fps::pound_per_foot_cub"⟩,
  ⟨112, .rep, "units::aliases::isq::si::fps::mass", "lton", "units::isq::si::fps::dim_mass", "units::isq::si::fps::long_ton"⟩,
  ⟨112, .rep, "units::aliases::isq::si::fps::mass", "ston", "units::isq::si::fps::dim_mass", "units::isq::si::fps::short_ton"⟩,
  ⟨112, .rep, "units::aliases::isq::si::fps::mass", "cwt", "units::isq::si::fps::dim_mass", "units::isq::si::fps::hundredweight"⟩,
  ⟨112, .rep, "units::aliases::isq::si::fps::mass", "qr", "units::isq::si::fps::dim_mass", "units::isq::si::fps::quarter"⟩,
  ⟨112, .rep, "units::aliases::isq::si::fps::mass", "st", "units::isq::si::fps::dim_mass", "units::isq::si::fps::stone"⟩,
  ⟨112, .rep, "units::aliases::isq::si::fps::mass", "lb", "units::isq::si::fps::dim_mass", "units::isq::si::fps::pound"⟩,
  ⟨112, .rep, "units::aliases::isq::si::fps::mass", "oz", "units::isq::si::fps::dim_mass", "units::isq::si::fps::ounce"⟩,
  ⟨112, .rep, "units::aliases::isq::si::fps::mass", "dr", "units::isq::si::fps::dim_mass", "units::isq::si::fps::dram"⟩,
  ⟨112, .rep, "units::aliases::isq::si::fps::mass", "gr", "units::isq::si::fps::dim_mass", "units::isq::si::fps::grain"⟩]

/-- Part 17 of `tagTable`. -/
def tagTable17 : List (TRow) := [
  ⟨112, .reference, "units::isq::si::fps::mass_references", "lton", "units::isq::si::fps::dim_mass", "units::isq::si::fps::long_ton"⟩,
  ⟨112, .reference, "units::isq::si::fps::mass_references", "ston", "units::isq::si::fps::dim_mass", "units::isq::si::fps::short_ton"⟩,
  ⟨112, .reference, "units::isq::si::fps::mass_references", "cwt", "units::isq::si::fps::dim_mass", "units::isq::si::fps::hundredweight"⟩,
  ⟨112, .reference, "units::isq::si::fps::mass_references", "qr", "units::isq::si::fps::dim_mass", "units::isq::si::fps::quarter"⟩,
  ⟨112, .reference, "units::isq::si::fps::mass_references", "st", "units::isq::si::fps::dim_mass", "units::isq::si::fps::stone"⟩,
  ⟨112, .reference, "units::isq::si::fps::mass_references", "lb", "units::isq::si::fps::dim_mass", "units::isq::si::fps::pound"⟩,
  ⟨112, .reference, "units::isq::si::fps::mass_references", "oz", "units::isq::si::fps::dim_mass", "units::isq::si::fps::ounce"⟩,
  ⟨112, .reference, "units::isq::si::fps::mass_references", "dr", "units::isq::si::fps::dim_mass", "units::isq::si::fps::dram"⟩,
  ⟨112, .reference, "units::isq::si::fps::mass_references", "gr", "units::isq::si::fps::dim_mass", "units::isq::si::fps::grain"⟩,
  ⟨112, .literal, "units::isq::si::fps::literals", "_q_lton", "units::isq::si::fps::dim_mass", "units::isq::si::fps::long_ton"⟩,
  ⟨112, .literal, "units::isq::si::fps::literals", "_q_lton", "units::isq::si::fps::dim_mass", "units::isq::si::fps::long_ton"⟩,
  ⟨112, .literal, "units::isq::si::fps::literals", "_q_lton", "units::isq::si::fps::dim_mass", "units::isq::si::fps::long_ton"⟩,
  ⟨112, .literal, "units::isq::si::fps::literals", "_q_ston", "units::isq::si::fps::dim_mass", "units::isq::si::fps::short_ton"⟩,
  ⟨112, .literal, "units::isq::si::fps::literals", "_q_ston", "units::isq::si::fps::dim_mass", "units::isq::si::fps::short_ton"⟩,
  ⟨112, .literal, "units::isq::si::fps::literals", "_q_ston", "units::isq::si::fps::dim_mass", "units::isq::si::fps::short_ton"⟩,
  ⟨112, .literal, "units::isq::si::fps::literals", "_q_cwt", "units::isq::si::fps::dim_mass", "units::isq::si::fps::hundredweight"⟩,
  ⟨112, .literal, "units::isq::si::fps::literals", "_q_cwt", "units::isq::si::fps::dim_mass", "units::isq::si::fps::hundredweight"⟩,
  ⟨112, .literal, "units::isq::si::fps::literals", "_q_cwt", "units::isq::si::fps::dim_mass", "units::isq::si::fps::hundredweight"⟩,
  ⟨112, .literal, "units::isq::si::fps::literals", "_q_qr", "units::isq::si::fps::dim_mass", "units::isq::si::fps::quarter"⟩,
  ⟨112, .literal, "units::isq::si::fps::literals", "_q_qr", "units::isq::si::fps::dim_mass", "units::isq::si::fps::quarter"⟩,
  ⟨112, .literal, "units::isq::si::fps::literals", "_q_qr", "units::isq::si::fps::dim_mass", "units::isq::si::fps::quarter"⟩,
  ⟨112, .literal, "units::isq::si::fps::literals", "_q_st", "units::isq::si::fps::dim_mass", "units::isq::si::fps::stone"⟩,
  ⟨112, .literal, "units::isq::si::fps::literals", "_q_st", "units::isq::si::fps::dim_mass", "units::isq::si::fps::stone"⟩,
  ⟨112, .literal, "units::isq::si::fps::literals", "_q_st", "units::isq::si::fps::dim_mass", "units::isq::si::fps::stone"⟩,
  ⟨112, .literal, "units::isq::si::fps::literals", "_q_lb", "units::isq::si::fps::dim_mass", "units::isq::si::fps::pound"⟩,
  ⟨112, .literal, "units::isq::si::fps::literals", "_q_lb", "units::isq::si::fps::dim_mass", "units::isq::si::fps::pound"⟩,
  ⟨112, .literal, "units::isq::si::fps::literals", "_q_lb", "units::isq::si::fps::dim_mass", "units::isq::si::fps::pound"⟩,
  ⟨112, .literal, "units::isq::si::fps::literals", "_q_oz", "units::isq::si::fps::dim_mass", "units::isq::si::fps::ounce"⟩,
  ⟨112, .literal, "units::isq::si::fps::literals", "_q_oz", "units::isq::si::fps::dim_mass", "units::isq::si::fps::ounce"⟩,
  ⟨112, .literal, "units::isq::si::fps::literals", "_q_oz", "units::isq::si::fps::dim_mass", "units::isq::si::fps::ounce"⟩,
  ⟨112, .literal, "units::isq::si::fps::literals", "_q_dr", "units::isq::si::fps::dim_mass", "units::isq::si::fps::dram"⟩,
  ⟨112, .literal, "units::isq::si::fps::literals", "_q_dr", "units::isq::si::fps::dim_mass", "units::isq::si::fps::dram"⟩,
  ⟨112, .literal, "units::isq::si::fps::literals", "_q_dr", "units::isq::si::fps::dim_mass", "units::isq::si::fps::dram"⟩,
  ⟨112, .literal, "units::isq::si::fps::literals", "_q_gr", "units::isq::si::fps::dim_mass", "units::isq::si::fps::grain"⟩,
  ⟨112, .literal, "units::isq::si::fps::literals", "_q_gr", "units::isq::si::fps::dim_mass", "units::isq::si::fps::grain"⟩,
  ⟨112, .literal, "units::isq::si::fps::literals", "_q_gr", "units::isq::si::fps::dim_mass", "units::isq::si::fps::grain"⟩,
  ⟨111, .rep, "units::aliases::isq::si::fps::area", "ft2", "units::isq::si::fps::dim_area", "units::isq::si::fps::square_foot"⟩,
  ⟨111, .reference, "units::isq::si::fps::area_references", "ft2", "units::isq::si::fps::dim_area", "units::isq::si::fps::square_foot"⟩,
  ⟨111, .literal, "units::isq::si::fps::literals", "_q_ft2", "units::isq::si::fps::dim_area", "units::isq::si::fps::square_foot"⟩,
  ⟨111, .literal, "units::isq::si::fps::literals", "_q_ft2", "units::isq::si::fps::dim_area", "units::isq::si::fps::square_foot"⟩]

/-- Part 18 of `tagTable`. -/
def tagTable18 : List (TRow) := [
  ⟨111, .literal, "units::isq::si::fps::literals", "_q_ft2", "units::isq::si::fps::dim_area", "units::isq::si::fps::square_foot"⟩,
  ⟨110, .rep, "units::aliases::isq::si::fps::acceleration", "ft_per_s2", "units::isq::si::fps::dim_acceleration", "units::isq::si::fps::foot_per_second_sq"⟩,
  ⟨110, .literal, "units::isq::si::fps::literals", "_q_ft_per_s2", "units::isq::si::fps::dim_acceleration", "units::isq::si::fps::foot_per_second_sq"⟩,
  ⟨110, .literal, "units::isq::si::fps::literals", "_q_ft_per_s2", "units::isq::si::fps::dim_acceleration", "units::isq::si::fps::foot_per_second_sq"⟩,
  ⟨110, .literal, "units::isq::si::fps::literals", "_q_ft_per_s2", "units::isq::si::fps::dim_acceleration", "units::isq::si::fps::foot_per_second_sq"⟩,
  ⟨109, .rep, "units::aliases::isq::si::fps::speed", "knot", "units::isq::si::fps::dim_speed", "units::isq::si::fps::knot"⟩,
  ⟨109, .rep, "units::aliases::isq::si::fps::speed", "mph", "units::isq::si::fps::dim_speed", "units::isq::si::fps::mile_per_hour"⟩,
  ⟨109, .rep, "units::aliases::isq::si::fps::speed", "ft_per_s", "units::isq::si::fps::dim_speed", "units::isq::si::fps::foot_per_second"⟩,
  ⟨109, .reference, "units::isq::si::fps::speed_references", "knot", "units::isq::si::fps::dim_speed", "units::isq::si::fps::knot"⟩,
  ⟨109, .reference, "units::isq::si::fps::speed_references", "mph", "units::isq::si::fps::dim_speed", "units::isq::si::fps::mile_per_hour"⟩,
  ⟨109, .literal, "units::isq::si::fps::literals", "_q_knot", "units::isq::si::fps::dim_speed", "units::isq::si::fps::knot"⟩,
  ⟨109, .literal, "units::isq::si::fps::literals", "_q_knot", "units::isq::si::fps::dim_speed", "units::isq::si::fps::knot"⟩,
  ⟨109, .literal, "units::isq::si::fps::literals", "_q_knot", "units::isq::si::fps::dim_speed", "units::isq::si::fps::knot"⟩,
  ⟨109, .literal, "units::isq::si::fps::literals", "_q_mph", "units::isq::si::fps::dim_speed", "units::isq::si::fps::mile_per_hour"⟩,
  ⟨109, .literal, "units::isq::si::fps::literals", "_q_mph", "units::isq::si::fps::dim_speed", "units::isq::si::fps::mile_per_hour"⟩,
  ⟨109, .literal, "units::isq::si::fps::literals", "_q_mph", "units::isq::si::fps::dim_speed", "units::isq::si::fps::mile_per_hour"⟩,
  ⟨109, .literal, "units::isq::si::fps::literals", "_q_ft_per_s", "units::isq::si::fps::dim_speed", "units::isq::si::fps::foot_per_second"⟩,
  ⟨109, .literal, "units::isq::si::fps::literals", "_q_ft_per_s", "units::isq::si::fps::dim_speed", "units::isq::si::fps::foot_per_second"⟩,
  ⟨109, .literal, "units::isq::si::fps::literals", "_q_ft_per_s", "units::isq::si::fps::dim_speed", "units::isq::si::fps::foot_per_second"⟩,
  ⟨108, .reference, "units::isq::si::fps::time_references", "s", "units::isq::si::dim_time", "units::isq::si::second"⟩,
  ⟨108, .literal, "units::isq::si::fps::literals", "_q_s", "units::isq::si::dim_time", "units::isq::si::second"⟩,
  ⟨108, .literal, "units::isq::si::fps::literals", "_q_s", "units::isq::si::dim_time", "units::isq::si::second"⟩,
  ⟨107, .rep, "units::aliases::isq::si::fps::length", "naut_mi", "units::isq::si::fps::dim_length", "units::isq::si::fps::nautical_mile"⟩,
  ⟨107, .rep, "units::aliases::isq::si::fps::length", "mile", "units::isq::si::fps::dim_length", "units::isq::si::fps::mile"⟩,
  ⟨107, .rep, "units::aliases::isq::si::fps::length", "kyd", "units::isq::si::fps::dim_length", "units::isq::si::fps::kiloyard"⟩,
  ⟨107, .rep, "units::aliases::isq::si::fps::length", "ftm", "units::isq::si::fps::dim_length", "units::isq::si::fps::fathom"⟩,
  ⟨107, .rep, "units::aliases::isq::si::fps::length", "yd", "units::isq::si::fps::dim_length", "units::isq::si::fps::yard"⟩,
  ⟨107, .rep, "units::aliases::isq::si::fps::length", "ft", "units::isq::si::fps::dim_length", "units::isq::si::fps::foot"⟩,
  ⟨107, .rep, "units::aliases::isq::si::fps::length", "in", "units::isq::si::fps::dim_length", "units::isq::si::fps::inch"⟩,
  ⟨107, .rep, "units::aliases::isq::si::fps::length", "mil", "units::isq::si::fps::dim_length", "units::isq::si::fps::thousandth"⟩,
  ⟨107, .rep, "units::aliases::isq::si::fps::length", "thou", "units::isq::si::fps::dim_length", "units::isq::si::fps::thousandth"⟩,
  ⟨107, .reference, "units::isq::si::fps::length_references", "naut_mi", "units::isq::si::fps::dim_length", "units::isq::si::fps::nautical_mile"⟩,
  ⟨107, .reference, "units::isq::si::fps::length_references", "mile", "units::isq::si::fps::dim_length", "units::isq::si::fps::mile"⟩,
  ⟨107, .reference, "units::isq::si::fps::length_references", "kyd", "units::isq::si::fps::dim_length", "units::isq::si::fps::kiloyard"⟩,
  ⟨107, .reference, "units::isq::si::fps::length_references", "ftm", "units::isq::si::fps::dim_length", "units::isq::si::fps::fathom"⟩,
  ⟨107, .reference, "units::isq::si::fps::length_references", "yd", "units::isq::si::fps::dim_length", "units::isq::si::fps::yard"⟩,
  ⟨107, .reference, "units::isq::si::fps::length_references", "ft", "units::isq::si::fps::dim_length", "units::isq::si::fps::foot"⟩,
  ⟨107, .reference, "units::isq::si::fps::length_references", "in", "units::isq::si::fps::dim_length", "units::isq::si::fps::inch"⟩,
  ⟨107, .reference, "units::isq::si::fps::length_references", "mil", "units::isq::si::fps::dim_length", "units::isq::si::fps::thousandth"⟩,
  ⟨107, .reference, "units::isq::si::fps::length_references", "thou", "units::isq::si::fps::dim_length", "units::isq::si::fps::thousandth"⟩]

/-- Part 19 of `tagTable`. -/
def tagTable19 : List (TRow) := [
  ⟨107, .literal, "units::isq::si::fps::literals", "_q_naut_mi", "units::isq::si::fps::dim_length", "units::isq::si::fps::nautical_mile"⟩,
  ⟨107, .literal, "units::isq::si::fps::literals", "_q_naut_mi", "units::isq::si::fps::dim_length", "units::isq::si::fps::nautical_mile"⟩,
  ⟨107, .literal, "units::isq::si::fps::literals", "_q_naut_mi", "units::isq::si::fps::dim_length", "units::isq::si::fps::nautical_mile"⟩,
  ⟨107, .literal, "units::isq::si::fps::literals", "_q_mile", "units::isq::si::fps::dim_length", "units::isq::si::fps::mile"⟩,
  ⟨107, .literal, "units::isq::si::fps::literals", "_q_mile", "units::isq::si::fps::dim_length", "units::isq::si::fps::mile"⟩,
  ⟨107, .literal, "units::isq::si::fps::literals", "_q_mile", "units::isq::si::fps::dim_length", "units::isq::si::fps::mile"⟩,
  ⟨107, .literal, "units::isq::si::fps::literals", "_q_kyd", "units::isq::si::fps::dim_length", "units::isq::si::fps::kiloyard"⟩,
  ⟨107, .literal, "units::isq::si::fps::literals", "_q_kyd", "units::isq::si::fps::dim_length", "units::isq::si::fps::kiloyard"⟩,
  ⟨107, .literal, "units::isq::si::fps::literals", "_q_kyd", "units::isq::si::fps::dim_length", "units::isq::si::fps::kiloyard"⟩,
  ⟨107, .literal, "units::isq::si::fps::literals", "_q_ftm", "units::isq::si::fps::dim_length", "units::isq::si::fps::fathom"⟩,
  ⟨107, .literal, "units::isq::si::fps::literals", "_q_ftm", "units::isq::si::fps::dim_length", "units::isq::si::fps::fathom"⟩,
  ⟨107, .literal, "units::isq::si::fps::literals", "_q_ftm", "units::isq::si::fps::dim_length", "units::isq::si::fps::fathom"⟩,
  ⟨107, .literal, "units::isq::si::fps::literals", "_q_yd", "units::isq::si::fps::dim_length", "units::isq::si::fps::yard"⟩,
  ⟨107, .literal, "units::isq::si::fps::literals", "_q_yd", "units::isq::si::fps::dim_length", "units::isq::si::fps::yard"⟩,
  ⟨107, .literal, "units::isq::si::fps::literals", "_q_yd", "units::isq::si::fps::dim_length", "units::isq::si::fps::yard"⟩,
  ⟨107, .literal, "units::isq::si::fps::literals", "_q_ft", "units::isq::si::fps::dim_length", "units::isq::si::fps::foot"⟩,
  ⟨107, .literal, "units::isq::si::fps::literals", "_q_ft", "units::isq::si::fps::dim_length", "units::isq::si::fps::foot"⟩,
  ⟨107, .literal, "units::isq::si::fps::literals", "_q_ft", "units::isq::si::fps::dim_length", "units::isq::si::fps::foot"⟩,
  ⟨107, .literal, "units::isq::si::fps::literals", "_q_in", "units::isq::si::fps::dim_length", "units::isq::si::fps::inch"⟩,
  ⟨107, .literal, "units::isq::si::fps::literals", "_q_in", "units::isq::si::fps::dim_length", "units::isq::si::fps::inch"⟩,
  ⟨107, .literal, "units::isq::si::fps::literals", "_q_in", "units::isq::si::fps::dim_length", "units::isq::si::fps::inch"⟩,
  ⟨107, .literal, "units::isq::si::fps::literals", "_q_mil", "units::isq::si::fps::dim_length", "units::isq::si::fps::thousandth"⟩,
  ⟨107, .literal, "units::isq::si::fps::literals", "_q_mil", "units::isq::si::fps::dim_length", "units::isq::si::fps::thousandth"⟩,
  ⟨107, .literal, "units::isq::si::fps::literals", "_q_mil", "units::isq::si::fps::dim_length", "units::isq::si::fps::thousandth"⟩,
  ⟨107, .literal, "units::isq::si::fps::literals", "_q_thou", "units::isq::si::fps::dim_length", "units::isq::si::fps::thousandth"⟩,
  ⟨107, .literal, "units::isq::si::fps::literals", "_q_thou", "units::isq::si::fps::dim_length", "units::isq::si::fps::thousandth"⟩,
  ⟨107, .literal, "units::isq::si::fps::literals", "_q_thou", "units::isq::si::fps::dim_length", "units::isq::si::fps::thousandth"⟩,
  ⟨106, .rep, "units::aliases::isq::si::energy_density", "J_per_m3", "units::isq::si::dim_energy_density", "units::isq::si::joule_per_metre_cub"⟩,
  ⟨106, .literal, "units::isq::si::literals", "_q_J_per_m3", "units::isq::si::dim_energy_density", "units::isq::si::joule_per_metre_cub"⟩,
  ⟨106, .literal, "units::isq::si::literals", "_q_J_per_m3", "units::isq::si::dim_energy_density", "units::isq::si::joule_per_metre_cub"⟩,
  ⟨106, .literal, "units::isq::si::literals", "_q_J_per_m3", "units::isq::si::dim_energy_density", "units::isq::si::joule_per_metre_cub"⟩,
  ⟨105, .rep, "units::aliases::isq::si::volume", "Yl", "units::isq::si::dim_volume", "units::isq::si::yottalitre"⟩,
  ⟨105, .rep, "units::aliases::isq::si::volume", "Zl", "units::isq::si::dim_volume", "units::isq::si::zettalitre"⟩,
  ⟨105, .rep, "units::aliases::isq::si::volume", "El", "units::isq::si::dim_volume", "units::isq::si::exalitre"⟩,
  ⟨105, .rep, "units::aliases::isq::si::volume", "Pl", "units::isq::si::dim_volume", "units::isq::si::petalitre"⟩,
  ⟨105, .rep, "units::aliases::isq::si::volume", "Tl", "units::isq::si::dim_volume", "units::isq::si::teralitre"⟩,
  ⟨105, .rep, "units::aliases::isq::si::volume", "Gl", "units::isq::si::dim_volume", "units::isq::si::gigalitre"⟩,
  ⟨105, .rep, "units::aliases::isq::si::volume", "Ml", "units::isq::si::dim_volume", "units::isq::si::megalitre"⟩,
  ⟨105, .rep, "units::aliases::isq::si::volume", "kl", "units::isq::si::dim_volume", "units::isq::si::kilolitre"⟩,
  ⟨105, .rep, "units::aliases::isq::si::volume", "hl", "units::isq::si::dim_volume", "units::isq::si::hectolitre"⟩]

/-- Part 20 of `tagTable`. -/
def tagTable20 : List (TRow) := [
  ⟨105, .rep, "units::aliases::isq::si::volume", "dal", "units::isq::si::dim_volume", "units::isq::si::decalitre"⟩,
  ⟨105, .rep, "units::aliases::isq::si::volume", "dl", "units::isq::si::dim_volume", "units::isq::si::decilitre"⟩,
  ⟨105, .rep, "units::aliases::isq::si::volume", "cl", "units::isq::si::dim_volume", "units::isq::si::centilitre"⟩,
  ⟨105, .rep, "units::aliases::isq::si::volume", "ml", "units::isq::si::dim_volume", "units::isq::si::millilitre"⟩,
  ⟨105, .rep, "units::aliases::isq::si::volume", "ul", "units::isq::si::dim_volume", "units::isq::si::microlitre"⟩,
  ⟨105, .rep, "units::aliases::isq::si::volume", "nl", "units::isq::si::dim_volume", "units::isq::si::nanolitre"⟩,
  ⟨105, .rep, "units::aliases::isq::si::volume", "pl", "units::isq::si::dim_volume", "units::isq::si::picolitre"⟩,
  ⟨105, .rep, "units::aliases::isq::si::volume", "fl", "units::isq::si::dim_volume", "units::isq::si::femtolitre"⟩,
  ⟨105, .rep, "units::aliases::isq::si::volume", "al", "units::isq::si::dim_volume", "units::isq::si::attolitre"⟩,
  ⟨105, .rep, "units::aliases::isq::si::volume", "zl", "units::isq::si::dim_volume", "units::isq::si::zeptolitre"⟩,
  ⟨105, .rep, "units::aliases::isq::si::volume", "yl", "units::isq::si::dim_volume", "units::isq::si::yoctolitre"⟩,
  ⟨105, .rep, "units::aliases::isq::si::volume", "l", "units::isq::si::dim_volume", "units::isq::si::litre"⟩,
  ⟨105, .rep, "units::aliases::isq::si::volume", "Ym3", "units::isq::si::dim_volume", "units::isq::si::cubic_yottametre"⟩,
  ⟨105, .rep, "units::aliases::isq::si::volume", "Zm3", "units::isq::si::dim_volume", "units::isq::si::cubic_zettametre"⟩,
  ⟨105, .rep, "units::aliases::isq::si::volume", "Em3", "units::isq::si::dim_volume", "units::isq::si::cubic_exametre"⟩,
  ⟨105, .rep, "units::aliases::isq::si::volume", "Pm3", "units::isq::si::dim_volume", "units::isq::si::cubic_petametre"⟩,
  ⟨105, .rep, "units::aliases::isq::si::volume", "Tm3", "units::isq::si::dim_volume", "units::isq::si::cubic_terametre"⟩,
  ⟨105, .rep, "units::aliases::isq::si::volume", "Gm3", "units::isq::si::dim_volume", "units::isq::si::cubic_gigametre"⟩,
  ⟨105, .rep, "units::aliases::isq::si::volume", "Mm3", "units::isq::si::dim_volume", "units::isq::si::cubic_megametre"⟩,
  ⟨105, .rep, "units::aliases::isq::si::volume", "km3", "units::isq::si::dim_volume", "units::isq::si::cubic_kilometre"⟩,
  ⟨105, .rep, "units::aliases::isq::si::volume", "hm3", "units::isq::si::dim_volume", "units::isq::si::cubic_hectometre"⟩,
  ⟨105, .rep, "units::aliases::isq::si::volume", "dam3", "units::isq::si::dim_volume", "units::isq::si::cubic_decametre"⟩,
  ⟨105, .rep, "units::aliases::isq::si::volume", "dm3", "units::isq::si::dim_volume", "units::isq::si::cubic_decimetre"⟩,
  ⟨105, .rep, "units::aliases::isq::si::volume", "cm3", "units::isq::si::dim_volume", "units::isq::si::cubic_centimetre"⟩,
  ⟨105, .rep, "units::aliases::isq::si::volume", "mm3", "units::isq::si::dim_volume", "units::isq::si::cubic_millimetre"⟩,
  ⟨105, .rep, "units::aliases::isq::si::volume", "um3", "units::isq::si::dim_volume", "units::isq::si::cubic_micrometre"⟩,
  ⟨105, .rep, "units::aliases::isq::si::volume", "nm3", "units::isq::si::dim_volume", "units::isq::si::cubic_nanometre"⟩,
  ⟨105, .rep, "units::aliases::isq::si::volume", "pm3", "units::isq::si::dim_volume", "units::isq::si::cubic_picometre"⟩,
  ⟨105, .rep, "units::aliases::isq::si::volume", "fm3", "units::isq::si::dim_volume", "units::isq::si::cubic_femtometre"⟩,
  ⟨105, .rep, "units::aliases::isq::si::volume", "am3", "units::isq::si::dim_volume", "units::isq::si::cubic_attometre"⟩,
  ⟨105, .rep, "units::aliases::isq::si::volume", "zm3", "units::isq::si::dim_volume", "units::isq::si::cubic_zeptometre"⟩,
  ⟨105, .rep, "units::aliases::isq::si::volume", "ym3", "units::isq::si::dim_volume", "units::isq::si::cubic_yoctometre"⟩,
  ⟨105, .rep, "units::aliases::isq::si::volume", "m3", "units::isq::si::dim_volume", "units::isq::si::cubic_metre"⟩,
  ⟨105, .reference, "units::isq::si::volume_references", "Yl", "units::isq::si::dim_volume", "units::isq::si::yottalitre"⟩,
  ⟨105, .reference, "units::isq::si::volume_references", "Zl", "units::isq::si::dim_volume", "units::isq::si::zettalitre"⟩,
  ⟨105, .reference, "units::isq::si::volume_references", "El", "units::isq::si::dim_volume", "units::isq::si::exalitre"⟩,
  ⟨105, .reference, "units::isq::si::volume_references", "Pl", "units::isq::si::dim_volume", "units::isq::si::petalitre"⟩,
  ⟨105, .reference, "units::isq::si::volume_references", "Tl", "units::isq::si::dim_volume", "units::isq::si::teralitre"⟩,
  ⟨105, .reference, "units::isq::si::volume_references", "Gl", "units::isq::si::dim_volume", "units::isq::si::gigalitre"⟩,
  ⟨105, .reference, "units::isq::si::volume_references", "Ml", "units::isq::si::dim_volume", "units::isq::si::megalitre"⟩]

/-- Part 21 of `tagTable`. -/
def tagTable21 : List (TRow) := [
  ⟨105, .reference, "units::isq::si::volume_references", "kl", "units::isq::si::dim_volume", "units::isq::si::kilolitre"⟩,
  ⟨105, .reference, "units::isq::si::volume_references", "hl", "units::isq::si::dim_volume", "units::isq::si::hectolitre"⟩,
  ⟨105, .reference, "units::isq::si::volume_references", "dal", "units::isq::si::dim_volume", "units::isq::si::decalitre"⟩,
  ⟨105, .reference, "units::isq::si::volume_references", "dl", "units::isq::si::dim_volume", "units::isq::si::decilitre"⟩,
  ⟨105, .reference, "units::isq::si::volume_references", "cl", "units::isq::si::dim_volume", "units::isq::si::centilitre"⟩,
  ⟨105, .reference, "units::isq::si::volume_references", "ml", "units::isq::si::dim_volume", "units::isq::si::millilitre"⟩,
  ⟨105, .reference, "units::isq::si::volume_references", "ul", "units::isq::si::dim_volume", "units::isq::si::microlitre"⟩,
  ⟨105, .reference, "units::isq::si::volume_references", "nl", "units::isq::si::dim_volume", "units::isq::si::nanolitre"⟩,
  ⟨105, .reference, "units::isq::si::volume_references", "pl", "units::isq::si::dim_volume", "units::isq::si::picolitre"⟩,
  ⟨105, .reference, "units::isq::si::volume_references", "fl", "units::isq::si::dim_volume", "units::isq::si::femtolitre"⟩,
  ⟨105, .reference, "units::isq::si::volume_references", "al", "units::isq::si::dim_volume", "units::isq::si::attolitre"⟩,
  ⟨105, .reference, "units::isq::si::volume_references", "zl", "units::isq::si::dim_volume", "units::isq::si::zeptolitre"⟩,
  ⟨105, .reference, "units::isq::si::volume_references", "yl", "units::isq::si::dim_volume", "units::isq::si::yoctolitre"⟩,
  ⟨105, .reference, "units::isq::si::volume_references", "l", "units::isq::si::dim_volume", "units::isq::si::litre"⟩,
  ⟨105, .reference, "units::isq::si::volume_references", "Ym3", "units::isq::si::dim_volume", "units::isq::si::cubic_yottametre"⟩,
  ⟨105, .reference, "units::isq::si::volume_references", "Zm3", "units::isq::si::dim_volume", "units::isq::si::cubic_zettametre"⟩,
  ⟨105, .reference, "units::isq::si::volume_references", "Em3", "units::isq::si::dim_volume", "units::isq::si::cubic_exametre"⟩,
  ⟨105, .reference, "units::isq::si::volume_references", "Pm3", "units::isq::si::dim_volume", "units::isq::si::cubic_petametre"⟩,
  ⟨105, .reference, "units::isq::si::volume_references", "Tm3", "units::isq::si::dim_volume", "units::isq::si::cubic_terametre"⟩,
  ⟨105, .reference, "units::isq::si::volume_references", "Gm3", "units::isq::si::dim_volume", "units::isq::si::cubic_gigametre"⟩,
  ⟨105, .reference, "units::isq::si::volume_references", "Mm3", "units::isq::si::dim_volume", "units::isq::si::cubic_megametre"⟩,
  ⟨105, .reference, "units::isq::si::volume_references", "km3", "units::isq::si::dim_volume", "units::isq::si::cubic_kilometre"⟩,
  ⟨105, .reference, "units::isq::si::volume_references", "hm3", "units::isq::si::dim_volume", "units::isq::si::cubic_hectometre"⟩,
  ⟨105, .reference, "units::isq::si::volume_references", "dam3", "units::isq::si::dim_volume", "units::isq::si::cubic_decametre"⟩,
  ⟨105, .reference, "units::isq::si::volume_references", "dm3", "units::isq::si::dim_volume", "units::isq::si::cubic_decimetre"⟩,
  ⟨105, .reference, "units::isq::si::volume_references", "cm3", "units::isq::si::dim_volume", "units::isq::si::cubic_centimetre"⟩,
  ⟨105, .reference, "units::isq::si::volume_references", "mm3", "units::isq::si::dim_volume", "units::isq::si::cubic_millimetre"⟩,
  ⟨105, .reference, "units::isq::si::volume_references", "um3", "units::isq::si::dim_volume", "units::isq::si::cubic_micrometre"⟩,
  ⟨105, .reference, "units::isq::si::volume_references", "nm3", "units::isq::si::dim_volume", "units::isq::si::cubic_nanometre"⟩,
  ⟨105, .reference, "units::isq::si::volume_references", "pm3", "units::isq::si::dim_volume", "units::isq::si::cubic_picometre"⟩,
  ⟨105, .reference, "units::isq::si::volume_references", "fm3", "units::isq::si::dim_volume", "units::isq::si::cubic_femtometre"⟩,
  ⟨105, .reference, "units::isq::si::volume_references", "am3", "units::isq::si::dim_volume", "units::isq::si::cubic_attometre"⟩,
  ⟨105, .reference, "units::isq::si::volume_references", "zm3", "units::isq::si::dim_volume", "units::isq::si::cubic_zeptometre"⟩,
  ⟨105, .reference, "units::isq::si::volume_references", "ym3", "units::isq::si::dim_volume", "units::isq::si::cubic_yoctometre"⟩,
  ⟨105, .reference, "units::isq::si::volume_references", "m3", "units::isq::si::dim_volume", "units::isq::si::cubic_metre"⟩,
  ⟨105, .literal, "units::isq::si::literals", "_q_Yl", "units::isq::si::dim_volume", "units::isq::si::yottalitre"⟩,
  ⟨105, .literal, "units::isq::si::literals", "_q_Yl", "units::isq::si::dim_volume", "units::isq::si::yottalitre"⟩,
  ⟨105, .literal, "units::isq::si::literals", "_q_Yl", "units::isq::si::dim_volume", "units::isq::si::yottalitre"⟩,
  ⟨105, .literal, "units::isq::si::literals", "_q_Zl", "units::isq::si::dim_volume", "units::isq::si::zettalitre"⟩,
  ⟨105, .literal, "units::isq::si::literals", "_q_Zl", "units::isq::si::dim_volume", "units::isq::si::zettalitre"⟩]

/-- Part 22 of `tagTable`. -/
def tagTable22 : List (TRow) := [
  ⟨105, .literal, "units::isq::si::literals", "_q_Zl", "units::isq::si::dim_volume", "units::isq::si::zettalitre"⟩,
  ⟨105, .literal, "units::isq::si::literals", "_q_El", "units::isq::si::dim_volume", "units::isq::si::exalitre"⟩,
  ⟨105, .literal, "units::isq::si::literals", "_q_El", "units::isq::si::dim_volume", "units::isq::si::exalitre"⟩,
  ⟨105, .literal, "units::isq::si::literals", "_q_El", "units::isq::si::dim_volume", "units::isq::si::exalitre"⟩,
  ⟨105, .literal, "units::isq::si::literals", "_q_Pl", "units::isq::si::dim_volume", "units::isq::si::petalitre"⟩,
  ⟨105, .literal, "units::isq::si::literals", "_q_Pl", "units::isq::si::dim_volume", "units::isq::si::petalitre"⟩,
  ⟨105, .literal, "units::isq::si::literals", "_q_Pl", "units::isq::si::dim_volume", "units::isq::si::petalitre"⟩,
  ⟨105, .literal, "units::isq::si::literals", "_q_Tl", "units::isq::si::dim_volume", "units::isq::si::teralitre"⟩,
  ⟨105, .literal, "units::isq::si::literals", "_q_Tl", "units::isq::si::dim_volume", "units::isq::si::teralitre"⟩,
  ⟨105, .literal, "units::isq::si::literals", "_q_Tl", "units::isq::si::dim_volume", "units::isq::si::teralitre"⟩,
  ⟨105, .literal, "units::isq::si::literals", "_q_Gl", "units::isq::si::dim_volume", "units::isq::si::gigalitre"⟩,
  ⟨105, .literal, "units::isq::si::literals", "_q_Gl", "units::isq::si::dim_volume", "units::isq::si::gigalitre"⟩,
  ⟨105, .literal, "units::isq::si::literals", "_q_Gl", "units::isq::si::dim_volume", "units::isq::si::gigalitre"⟩,
  ⟨105, .literal, "units::isq::si::literals", "_q_Ml", "units::isq::si::dim_volume", "units::isq::si::megalitre"⟩,
  ⟨105, .literal, "units::isq::si::literals", "_q_Ml", "units::isq::si::dim_volume", "units::isq::si::megalitre"⟩,
  ⟨105, .literal, "units::isq::si::literals", "_q_Ml", "units::isq::si::dim_volume", "units::isq::si::megalitre"⟩,
  ⟨105, .literal, "units::isq::si::literals", "_q_kl", "units::isq::si::dim_volume", "units::isq::si::kilolitre"⟩,
  ⟨105, .literal, "units::isq::si::literals", "_q_kl", "units::isq::si::dim_volume", "units::isq::si::kilolitre"⟩,
  ⟨105, .literal, "units::isq::si::literals", "_q_kl", "units::isq::si::dim_volume", "units::isq::si::kilolitre"⟩,
  ⟨105, .literal, "units::isq::si::literals", "_q_hl", "units::isq::si::dim_volume", "units::isq::si::hectolitre"⟩,
  ⟨105, .literal, "units::isq::si::literals", "_q_hl", "units::isq::si::dim_volume", "units::isq::si::hectolitre"⟩,
  ⟨105, .literal, "units::isq::si::literals", "_q_hl", "units::isq::si::dim_volume", "units::isq::si::hectolitre"⟩,
  ⟨105, .literal, "units::isq::si::literals", "_q_dal", "units::isq::si::dim_volume", "units::isq::si::decalitre"⟩,
  ⟨105, .literal, "units::isq::si::literals", "_q_dal", "units::isq::si::dim_volume", "units::isq::si::decalitre"⟩,
  ⟨105, .literal, "units::isq::si::literals", "_q_dal", "units::isq::si::dim_volume", "units::isq::si::decalitre"⟩,
  ⟨105, .literal, "units::isq::si::literals", "_q_dl", "units::isq::si::dim_volume", "units::isq::si::decilitre"⟩,
  ⟨105, .literal, "units::isq::si::literals", "_q_dl", "units::isq::si::dim_volume", "units::isq::si::decilitre"⟩,
  ⟨105, .literal, "units::isq::si::literals", "_q_dl", "units::isq::si::dim_volume", "units::isq::si::decilitre"⟩,
  ⟨105, .literal, "units::isq::si::literals", "_q_cl", "units::isq::si::dim_volume", "units::isq::si::centilitre"⟩,
  ⟨105, .literal, "units::isq::si::literals", "_q_cl", "units::isq::si::dim_volume", "units::isq::si::centilitre"⟩,
  ⟨105, .literal, "units::isq::si::literals", "_q_cl", "units::isq::si::dim_volume", "units::isq::si::centilitre"⟩,
  ⟨105, .literal, "units::isq::si::literals", "_q_ml", "units::isq::si::dim_volume", "units::isq::si::millilitre"⟩,
  ⟨105, .literal, "units::isq::si::literals", "_q_ml", "units::isq::si::dim_volume", "units::isq::si::millilitre"⟩,
  ⟨105, .literal, "units::isq::si::literals", "_q_ml", "units::isq::si::dim_volume", "units::isq::si::millilitre"⟩,
  ⟨105, .literal, "units::isq::si::literals", "_q_ul", "units::isq::si::dim_volume", "units::isq::si::microlitre"⟩,
  ⟨105, .literal, "units::isq::si::literals", "_q_ul", "units::isq::si::dim_volume", "units::isq::si::microlitre"⟩,
  ⟨105, .literal, "units::isq::si::literals", "_q_ul", "units::isq::si::dim_volume", "units::isq::si::microlitre"⟩,
  ⟨105, .literal, "units::isq::si::literals", "_q_nl", "units::isq::si::dim_volume", "units::isq::si::nanolitre"⟩,
  ⟨105, .literal, "units::isq::si::literals", "_q_nl", "units::isq::si::dim_volume", "units::isq::si::nanolitre"⟩,
  ⟨105, .literal, "units::isq::si::literals", "_q_nl", "units::isq::si::dim_volume", "units::isq::si::nanolitre"⟩]

/-- Part 23 of `tagTable`. -/
def tagTable23 : List (TRow) := [
  ⟨105, .literal, "units::isq::si::literals", "_q_pl", "units::isq::si::dim_volume", "units::isq::si::picolitre"⟩,
  ⟨105, .literal, "units::isq::si::literals", "_q_pl", "units::isq::si::dim_volume", "units::isq::si::picolitre"⟩,
  ⟨105, .literal, "units::isq::si::literals", "_q_pl", "units::isq::si::dim_volume", "units::isq::si::picolitre"⟩,
  ⟨105, .literal, "units::isq::si::literals", "_q_fl", "units::isq::si::dim_volume", "units::isq::si::femtolitre"⟩,
  ⟨105, .literal, "units::isq::si::literals", "_q_fl", "units::isq::si::dim_volume", "units::isq::si::femtolitre"⟩,
  ⟨105, .literal, "units::isq::si::literals", "_q_fl", "units::isq::si::dim_volume", "units::isq::si::femtolitre"⟩,
  ⟨105, .literal, "units::isq::si::literals", "_q_al", "units::isq::si::dim_volume", "units::isq::si::attolitre"⟩,
  ⟨105, .literal, "units::isq::si::literals", "_q_al", "units::isq::si::dim_volume", "units::isq::si::attolitre"⟩,
  ⟨105, .literal, "units::isq::si::literals", "_q_al", "units::isq::si::dim_volume", "units::isq::si::attolitre"⟩,
  ⟨105, .literal, "units::isq::si::literals", "_q_zl", "units::isq::si::dim_volume", "units::isq::si::zeptolitre"⟩,
  ⟨105, .literal, "units::isq::si::literals", "_q_zl", "units::isq::si::dim_volume", "units::isq::si::zeptolitre"⟩,
  ⟨105, .literal, "units::isq::si::literals", "_q_zl", "units::isq::si::dim_volume", "units::isq::si::zeptolitre"⟩,
  ⟨105, .literal, "units::isq::si::literals", "_q_yl", "units::isq::si::dim_volume", "units::isq::si::yoctolitre"⟩,
  ⟨105, .literal, "units::isq::si::literals", "_q_yl", "units::isq::si::dim_volume", "units::isq::si::yoctolitre"⟩,
  ⟨105, .literal, "units::isq::si::literals", "_q_yl", "units::isq::si::dim_volume", "units::isq::si::yoctolitre"⟩,
  ⟨105, .literal, "units::isq::si::literals", "_q_l", "units::isq::si::dim_volume", "units::isq::si::litre"⟩,
  ⟨105, .literal, "units::isq::si::literals", "_q_l", "units::isq::si::dim_volume", "units::isq::si::litre"⟩,
  ⟨105, .literal, "units::isq::si::literals", "_q_l", "units::isq::si::dim_volume", "units::isq::si::litre"⟩,
  ⟨105, .literal, "units::isq::si::literals", "_q_Ym3", "units::isq::si::dim_volume", "units::isq::si::cubic_yottametre"⟩,
  ⟨105, .literal, "units::isq::si::literals", "_q_Ym3", "units::isq::si::dim_volume", "units::isq::si::cubic_yottametre"⟩,
  ⟨105, .literal, "units::isq::si::literals", "_q_Ym3", "units::isq::si::dim_volume", "units::isq::si::cubic_yottametre"⟩,
  ⟨105, .literal, "units::isq::si::literals", "_q_Zm3", "units::isq::si::dim_volume", "units::isq::si::cubic_zettametre"⟩,
  ⟨105, .literal, "units::isq::si::literals", "_q_Zm3", "units::isq::si::dim_volume", "units::isq::si::cubic_zettametre"⟩,
  ⟨105, .literal, "units::isq::si::literals", "_q_Zm3", "units::isq::si::dim_volume", "units::isq::si::cubic_zettametre"⟩,
  ⟨105, .literal, "units::isq::si::literals", "_q_Em3", "units::isq::si::dim_volume", "units::isq::si::cubic_exametre"⟩,
  ⟨105, .literal, "units::isq::si::literals", "_q_Em3", "units::isq::si::dim_volume", "units::isq::si::cubic_exametre"⟩,
  ⟨105, .literal, "units::isq::si::literals", "_q_Em3", "units::isq::si::dim_volume", "units::isq::si::cubic_exametre"⟩,
  ⟨105, .literal, "units::isq::si::literals", "_q_Pm3", "units::isq::si::dim_volume", "units::isq::si::cubic_petametre"⟩,
  ⟨105, .literal, "units::isq::si::literals", "_q_Pm3", "units::isq::si::dim_volume", "units::isq::si::cubic_petametre"⟩,
  ⟨105, .literal, "units::isq::si::literals", "_q_Pm3", "units::isq::si::dim_volume", "units::isq::si::cubic_petametre"⟩,
  ⟨105, .literal, "units::isq::si::literals", "_q_Tm3", "units::isq::si::dim_volume", "units::isq::si::cubic_terametre"⟩,
  ⟨105, .literal, "units::isq::si::literals", "_q_Tm3", "units::isq::si::dim_volume", "units::isq::si::cubic_terametre"⟩,
  ⟨105, .literal, "units::isq::si::literals", "_q_Tm3", "units::isq::si::dim_volume", "units::isq::si::cubic_terametre"⟩,
  ⟨105, .literal, "units::isq::si::literals", "_q_Gm3", "units::isq::si::dim_volume", "units::isq::si::cubic_gigametre"⟩,
  ⟨105, .literal, "units::isq::si::literals", "_q_Gm3", "units::isq::si::dim_volume", "units::isq::si::cubic_gigametre"⟩,
  ⟨105, .literal, "units::isq::si::literals", "_q_Gm3", "units::isq::si::dim_volume", "units::isq::si::cubic_gigametre"⟩,
  ⟨105, .literal, "units::isq::si::literals", "_q_Mm3", "units::isq::si::dim_volume", "units::isq::si::cubic_megametre"⟩,
  ⟨105, .literal, "units::isq::si::literals", "_q_Mm3", "units::isq::si::dim_volume", "units::isq::si::cubic_megametre"⟩,
  ⟨105, .literal, "units::isq::si::literals", "_q_Mm3", "units::isq::si::dim_volume", "units::isq::si::cubic_megametre"⟩,
  ⟨105, .literal, "units::isq::si::literals", "_q_km3", "units::isq::si::dim_volume", "units::isq::si::cubic_kilometre"⟩]

/-- Part 24 of `tagTable`. -/
def tagTable24 : List (TRow) := [
  ⟨105, .literal, "units::isq::si::literals", "_q_km3", "units::isq::si::dim_volume", "units::isq::si::cubic_kilometre"⟩,
  ⟨105, .literal, "units::isq::si::literals", "_q_km3", "units::isq::si::dim_volume", "units::isq::si::cubic_kilometre"⟩,
  ⟨105, .literal, "units::isq::si::literals", "_q_hm3", "units::isq::si::dim_volume", "units::isq::si::cubic_hectometre"⟩,
  ⟨105, .literal, "units::isq::si::literals", "_q_hm3", "units::isq::si::dim_volume", "units::isq::si::cubic_hectometre"⟩,
  ⟨105, .literal, "units::isq::si::literals", "_q_hm3", "units::isq::si::dim_volume", "units::isq::si::cubic_hectometre"⟩,
  ⟨105, .literal, "units::isq::si::literals", "_q_dam3", "units::isq::si::dim_volume", "units::isq::si::cubic_decametre"⟩,
  ⟨105, .literal, "units::isq::si::literals", "_q_dam3", "units::isq::si::dim_volume", "units::isq::si::cubic_decametre"⟩,
  ⟨105, .literal, "units::isq::si::literals", "_q_dam3", "units::isq::si::dim_volume", "units::isq::si::cubic_decametre"⟩,
  ⟨105, .literal, "units::isq::si::literals", "_q_dm3", "units::isq::si::dim_volume", "units::isq::si::cubic_decimetre"⟩,
  ⟨105, .literal, "units::isq::si::literals", "_q_dm3", "units::isq::si::dim_volume", "units::isq::si::cubic_decimetre"⟩,
  ⟨105, .literal, "units::isq::si::literals", "_q_dm3", "units::isq::si::dim_volume", "units::isq::si::cubic_decimetre"⟩,
  ⟨105, .literal, "units::isq::si::literals", "_q_cm3", "units::isq::si::dim_volume", "units::isq::si::cubic_centimetre"⟩,
  ⟨105, .literal, "units::isq::si::literals", "_q_cm3", "units::isq::si::dim_volume", "units::isq::si::cubic_centimetre"⟩,
  ⟨105, .literal, "units::isq::si::literals", "_q_cm3", "units::isq::si::dim_volume", "units::isq::si::cubic_centimetre"⟩,
  ⟨105, .literal, "units::isq::si::literals", "_q_mm3", "units::isq::si::dim_volume", "units::isq::si::cubic_millimetre"⟩,
  ⟨105, .literal, "units::isq::si::literals", "_q_mm3", "units::isq::si::dim_volume", "units::isq::si::cubic_millimetre"⟩,
  ⟨105, .literal, "units::isq::si::literals", "_q_mm3", "units::isq::si::dim_volume", "units::isq::si::cubic_millimetre"⟩,
  ⟨105, .literal, "units::isq::si::literals", "_q_um3", "units::isq::si::dim_volume", "units::isq::si::cubic_micrometre"⟩,
  ⟨105, .literal, "units::isq::si::literals", "_q_um3", "units::isq::si::dim_volume", "units::isq::si::cubic_micrometre"⟩,
  ⟨105, .literal, "units::isq::si::literals", "_q_um3", "units::isq::si::dim_volume", "units::isq::si::cubic_micrometre"⟩,
  ⟨105, .literal, "units::isq::si::literals", "_q_nm3", "units::isq::si::dim_volume", "units::isq::si::cubic_nanometre"⟩,
  ⟨105, .literal, "units::isq::si::literals", "_q_nm3", "units::isq::si::dim_volume", "units::isq::si::cubic_nanometre"⟩,
  ⟨105, .literal, "units::isq::si::literals", "_q_nm3", "units::isq::si::dim_volume", "units::isq::si::cubic_nanometre"⟩,
  ⟨105, .literal, "units::isq::si::literals", "_q_pm3", "units::isq::si::dim_volume", "units::isq::si::cubic_picometre"⟩,
  ⟨105, .literal, "units::isq::si::literals", "_q_pm3", "units::isq::si::dim_volume", "units::isq::si::cubic_picometre"⟩,
  ⟨105, .literal, "units::isq::si::literals", "_q_pm3", "units::isq::si::dim_volume", "units::isq::si::cubic_picometre"⟩,
  ⟨105, .literal, "units::isq::si::literals", "_q_fm3", "units::isq::si::dim_volume", "units::isq::si::cubic_femtometre"⟩,
  ⟨105, .literal, "units::isq::si::literals", "_q_fm3", "units::isq::si::dim_volume", "units::isq::si::cubic_femtometre"⟩,
  ⟨105, .literal, "units::isq::si::literals", "_q_fm3", "units::isq::si::dim_volume", "units::isq::si::cubic_femtometre"⟩,
  ⟨105, .literal, "units::isq::si::literals", "_q_am3", "units::isq::si::dim_volume", "units::isq::si::cubic_attometre"⟩,
  ⟨105, .literal, "units::isq::si::literals", "_q_am3", "units::isq::si::dim_volume", "units::isq::si::cubic_attometre"⟩,
  ⟨105, .literal, "units::isq::si::literals", "_q_am3", "units::isq::si::dim_volume", "units::isq::si::cubic_attometre"⟩,
  ⟨105, .literal, "units::isq::si::literals", "_q_zm3", "units::isq::si::dim_volume", "units::isq::si::cubic_zeptometre"⟩,
  ⟨105, .literal, "units::isq::si::literals", "_q_zm3", "units::isq::si::dim_volume", "units::isq::si::cubic_zeptometre"⟩,
  ⟨105, .literal, "units::isq::si::literals", "_q_zm3", "units::isq::si::dim_volume", "units::isq::si::cubic_zeptometre"⟩,
  ⟨105, .literal, "units::isq::si::literals", "_q_ym3", "units::isq::si::dim_volume", "units::isq::si::cubic_yoctometre"⟩,
  ⟨105, .literal, "units::isq::si::literals", "_q_ym3", "units::isq::si::dim_volume", "units::isq::si::cubic_yoctometre"⟩,
  ⟨105, .literal, "units::isq::si::literals", "_q_ym3", "units::isq::si::dim_volume", "units::isq::si::cubic_yoctometre"⟩,
  ⟨105, .literal, "units::isq::si::literals", "_q_m3", "units::isq::si::dim_volume", "units::isq::si::cubic_metre"⟩,
  ⟨105, .literal, "units::isq::si::literals", "_q_m3", "units::isq::si::dim_volume", "units::isq::si::cubic_metre"⟩]

/-- Part 25 of `tagTable`. -/
def tagTable25 : List (TRow) := [
  ⟨105, .literal, "units::isq::si::literals", "_q_m3", "units::isq::si::dim_volume", "units::isq::si::cubic_metre"⟩,
  ⟨104, .rep, "units::aliases::isq::si::electric_field_strength", "V_per_m", "units::isq::si::dim_electric_field_strength", "units::isq::si::volt_per_metre"⟩,
  ⟨104, .literal, "units::isq::si::literals", "_q_V_per_m", "units::isq::si::dim_electric_field_strength", "units::isq::si::volt_per_metre"⟩,
  ⟨104, .literal, "units::isq::si::literals", "_q_V_per_m", "units::isq::si::dim_electric_field_strength", "units::isq::si::volt_per_metre"⟩,
  ⟨104, .literal, "units::isq::si::literals", "_q_V_per_m", "units::isq::si::dim_electric_field_strength", "units::isq::si::volt_per_metre"⟩,
  ⟨103, .rep, "units::aliases::isq::si::dynamic_viscosity", "Pa_s", "units::isq::si::dim_dynamic_viscosity", "units::isq::si::pascal_second"⟩,
  ⟨103, .literal, "units::isq::si::literals", "_q_Pa_s", "units::isq::si::dim_dynamic_viscosity", "units::isq::si::pascal_second"⟩,
  ⟨103, .literal, "units::isq::si::literals", "_q_Pa_s", "units::isq::si::dim_dynamic_viscosity", "units::isq::si::pascal_second"⟩,
  ⟨103, .literal, "units::isq::si::literals", "_q_Pa_s", "units::isq::si::dim_dynamic_viscosity", "units::isq::si::pascal_second"⟩,
  ⟨102, .rep, "units::aliases::isq::si::pressure", "YPa", "units::isq::si::dim_pressure", "units::isq::si::yottapascal"⟩,
  ⟨102, .rep, "units::aliases::isq::si::pressure", "ZPa", "units::isq::si::dim_pressure", "units::isq::si::zettapascal"⟩,
  ⟨102, .rep, "units::aliases::isq::si::pressure", "EPa", "units::isq::si::dim_pressure", "units::isq::si::exapascal"⟩,
  ⟨102, .rep, "units::aliases::isq::si::pressure", "PPa", "units::isq::si::dim_pressure", "units::isq::si::petapascal"⟩,
  ⟨102, .rep, "units::aliases::isq::si::pressure", "TPa", "units::isq::si::dim_pressure", "units::isq::si::terapascal"⟩,
  ⟨102, .rep, "units::aliases::isq::si::pressure", "GPa", "units::isq::si::dim_pressure", "units::isq::si::gigapascal"⟩,
  ⟨102, .rep, "units::aliases::isq::si::pressure", "MPa", "units::isq::si::dim_pressure", "units::isq::si::megapascal"⟩,
  ⟨102, .rep, "units::aliases::isq::si::pressure", "kPa", "units::isq::si::dim_pressure", "units::isq::si::kilopascal"⟩,
  ⟨102, .rep, "units::aliases::isq::si::pressure", "hPa", "units::isq::si::dim_pressure", "units::isq::si::hectopascal"⟩,
  ⟨102, .rep, "units::aliases::isq::si::pressure", "daPa", "units::isq::si::dim_pressure", "units::isq::si::decapascal"⟩,
  ⟨102, .rep, "units::aliases::isq::si::pressure", "dPa", "units::isq::si::dim_pressure", "units::isq::si::decipascal"⟩,
  ⟨102, .rep, "units::aliases::isq::si::pressure", "cPa", "units::isq::si::dim_pressure", "units::isq::si::centipascal"⟩,
  ⟨102, .rep, "units::aliases::isq::si::pressure", "mPa", "units::isq::si::dim_pressure", "units::isq::si::millipascal"⟩,
  ⟨102, .rep, "units::aliases::isq::si::pressure", "uPa", "units::isq::si::dim_pressure", "units::isq::si::micropascal"⟩,
  ⟨102, .rep, "units::aliases::isq::si::pressure", "nPa", "units::isq::si::dim_pressure", "units::isq::si::nanopascal"⟩,
  ⟨102, .rep, "units::aliases::isq::si::pressure", "pPa", "units::isq::si::dim_pressure", "units::isq::si::picopascal"⟩,
  ⟨102, .rep, "units::aliases::isq::si::pressure", "fPa", "units::isq::si::dim_pressure", "units::isq::si::femtopascal"⟩,
  ⟨102, .rep, "units::aliases::isq::si::pressure", "aPa", "units::isq::si::dim_pressure", "units::isq::si::attopascal"⟩,
  ⟨102, .rep, "units::aliases::isq::si::pressure", "zPa", "units::isq::si::dim_pressure", "units::isq::si::zeptopascal"⟩,
  ⟨102, .rep, "units::aliases::isq::si::pressure", "yPa", "units::isq::si::dim_pressure", "units::isq::si::yoctopascal"⟩,
  ⟨102, .rep, "units::aliases::isq::si::pressure", "Pa", "units::isq::si::dim_pressure", "units::isq::si::pascal"⟩,
  ⟨102, .reference, "units::isq::si::pressure_references", "YPa", "units::isq::si::dim_pressure", "units::isq::si::yottapascal"⟩,
  ⟨102, .reference, "units::isq::si::pressure_references", "ZPa", "units::isq::si::dim_pressure", "units::isq::si::zettapascal"⟩,
  ⟨102, .reference, "units::isq::si::pressure_references", "EPa", "units::isq::si::dim_pressure", "units::isq::si::exapascal"⟩,
  ⟨102, .reference, "units::isq::si::pressure_references", "PPa", "units::isq::si::dim_pressure", "units::isq::si::petapascal"⟩,
  ⟨102, .reference, "units::isq::si::pressure_references", "TPa", "units::isq::si::dim_pressure", "units::isq::si::terapascal"⟩,
  ⟨102, .reference, "units::isq::si::pressure_references", "GPa", "units::isq::si::dim_pressure", "units::isq::si::gigapascal"⟩,
  ⟨102, .reference, "units::isq::si::pressure_references", "MPa", "units::isq::si::dim_pressure", "units::isq::si::megapascal"⟩,
  ⟨102, .reference, "units::isq::si::pressure_references", "kPa", "units::isq::si::dim_pressure", "units::isq::si::kilopascal"⟩,
  ⟨102, .reference, "units::isq::si::pressure_references", "hPa", "units::isq::si::dim_pressure", "units::isq::si::hectopascal"⟩,
  ⟨102, .reference, "units::isq::si::pressure_references", "daPa", "units::isq::si::dim_pressure", "units::isq::si::decapascal"⟩]

/-- Part 26 of `tagTable`. -/
def tagTable26 : List (TRow) := [
  ⟨102, .reference, "units::isq::si::pressure_references", "dPa", "units::isq::si::dim_pressure", "units::isq::si::decipascal"⟩,
  ⟨102, .reference, "units::isq::si::pressure_references", "cPa", "units::isq::si::dim_pressure", "units::isq::si::centipascal"⟩,
  ⟨102, .reference, "units::isq::si::pressure_references", "mPa", "units::isq::si::dim_pressure", "units::isq::si::millipascal"⟩,
  ⟨102, .reference, "units::isq::si::pressure_references", "uPa", "units::isq::si::dim_pressure", "units::isq::si::micropascal"⟩,
  ⟨102, .reference, "units::isq::si::pressure_references", "nPa", "units::isq::si::dim_pressure", "units::isq::si::nanopascal"⟩,
  ⟨102, .reference, "units::isq::si::pressure_references", "pPa", "units::isq::si::dim_pressure", "units::isq::si::picopascal"⟩,
  ⟨102, .reference, "units::isq::si::pressure_references", "fPa", "units::isq::si::dim_pressure", "units::isq::si::femtopascal"⟩,
  ⟨102, .reference, "units::isq::si::pressure_references", "aPa", "units::isq::si::dim_pressure", "units::isq::si::attopascal"⟩,
  ⟨102, .reference, "units::isq::si::pressure_references", "zPa", "units::isq::si::dim_pressure", "units::isq::si::zeptopascal"⟩,
  ⟨102, .reference, "units::isq::si::pressure_references", "yPa", "units::isq::si::dim_pressure", "units::isq::si::yoctopascal"⟩,
  ⟨102, .reference, "units::isq::si::pressure_references", "Pa", "units::isq::si::dim_pressure", "units::isq::si::pascal"⟩,
  ⟨102, .literal, "units::isq::si::literals", "_q_YPa", "units::isq::si::dim_pressure", "units::isq::si::yottapascal"⟩,
  ⟨102, .literal, "units::isq::si::literals", "_q_YPa", "units::isq::si::dim_pressure", "units::isq::si::yottapascal"⟩,
  ⟨102, .literal, "units::isq::si::literals", "_q_YPa", "units::isq::si::dim_pressure", "units::isq::si::yottapascal"⟩,
  ⟨102, .literal, "units::isq::si::literals", "_q_ZPa", "units::isq::si::dim_pressure", "units::isq::si::zettapascal"⟩,
  ⟨102, .literal, "units::isq::si::literals", "_q_ZPa", "units::isq::si::dim_pressure", "units::isq::si::zettapascal"⟩,
  ⟨102, .literal, "units::isq::si::literals", "_q_ZPa", "units::isq::si::dim_pressure", "units::isq::si::zettapascal"⟩,
  ⟨102, .literal, "units::isq::si::literals", "_q_EPa", "units::isq::si::dim_pressure", "units::isq::si::exapascal"⟩,
  ⟨102, .literal, "units::isq::si::literals", "_q_EPa", "units::isq::si::dim_pressure", "units::isq::si::exapascal"⟩,
  ⟨102, .literal, "units::isq::si::literals", "_q_EPa", "units::isq::si::dim_pressure", "units::isq::si::exapascal"⟩,
  ⟨102, .literal, "units::isq::si::literals", "_q_PPa", "units::isq::si::dim_pressure", "units::isq::si::petapascal"⟩,
  ⟨102, .literal, "units::isq::si::literals", "_q_PPa", "units::isq::si::dim_pressure", "units::isq::si::petapascal"⟩,
  ⟨102, .literal, "units::isq::si::literals", "_q_PPa", "units::isq::si::dim_pressure", "units::isq::si::petapascal"⟩,
  ⟨102, .literal, "units::isq::si::literals", "_q_TPa", "units::isq::si::dim_pressure", "units::isq::si::terapascal"⟩,
  ⟨102, .literal, "units::isq::si::literals", "_q_TPa", "units::isq::si::dim_pressure", "units::isq::si::terapascal"⟩,
  ⟨102, .literal, "units::isq::si::literals", "_q_TPa", "units::isq::si::dim_pressure", "units::isq::si::terapascal"⟩,
  ⟨102, .literal, "units::isq::si::literals", "_q_GPa", "units::isq::si::dim_pressure", "units::isq::si::gigapascal"⟩,
  ⟨102, .literal, "units::isq::si::literals", "_q_GPa", "units::isq::si::dim_pressure", "units::isq::si::gigapascal"⟩,
  ⟨102, .literal, "units::isq::si::literals", "_q_GPa", "units::isq::si::dim_pressure", "units::isq::si::gigapascal"⟩,
  ⟨102, .literal, "units::isq::si::literals", "_q_MPa", "units::isq::si::dim_pressure", "units::isq::si::megapascal"⟩,
  ⟨102, .literal, "units::isq::si::literals", "_q_MPa", "units::isq::si::dim_pressure", "units::isq::si::megapascal"⟩,
  ⟨102, .literal, "units::isq::si::literals", "_q_MPa", "units::isq::si::dim_pressure", "units::isq::si::megapascal"⟩,
  ⟨102, .literal, "units::isq::si::literals", "_q_kPa", "units::isq::si::dim_pressure", "units::isq::si::kilopascal"⟩,
  ⟨102, .literal, "units::isq::si::literals", "_q_kPa", "units::isq::si::dim_pressure", "units::isq::si::kilopascal"⟩,
  ⟨102, .literal, "units::isq::si::literals", "_q_kPa", "units::isq::si::dim_pressure", "units::isq::si::kilopascal"⟩,
  ⟨102, .literal, "units::isq::si::literals", "_q_hPa", "units::isq::si::dim_pressure", "units::isq::si::hectopascal"⟩,
  ⟨102, .literal, "units::isq::si::literals", "_q_hPa", "units::isq::si::dim_pressure", "units::isq::si::hectopascal"⟩,
  ⟨102, .literal, "units::isq::si::literals", "_q_hPa", "units::isq::si::dim_pressure", "units::isq::si::hectopascal"⟩,
  ⟨102, .literal, "units::isq::si::literals", "_q_daPa", "units::isq::si::dim_pressure", "units::isq::si::decapascal"⟩,
  ⟨102, .literal, "units::isq::si::literals", "_q_daPa", "units::isq::si::dim_pressure", "units::isq::si::decapascal"⟩]

/-- Part 27 of `tagTable`. -/
def tagTable27 : List (TRow) := [
  ⟨102, .literal, "units::isq::si::literals", "_q_daPa", "units::isq::si::dim_pressure", "units::isq::si::decapascal"⟩,
  ⟨102, .literal, "units::isq::si::literals", "_q_dPa", "units::isq::si::dim_pressure", "units::isq::si::decipascal"⟩,
  ⟨102, .literal, "units::isq::si::literals", "_q_dPa", "units::isq::si::dim_pressure", "units::isq::si::decipascal"⟩,
  ⟨102, .literal, "units::isq::si::literals", "_q_dPa", "units::isq::si::dim_pressure", "units::isq::si::decipascal"⟩,
  ⟨102, .literal, "units::isq::si::literals", "_q_cPa", "units::isq::si::dim_pressure", "units::isq::si::centipascal"⟩,
  ⟨102, .literal, "units::isq::si::literals", "_q_cPa", "units::isq::si::dim_pressure", "units::isq::si::centipascal"⟩,
  ⟨102, .literal, "units::isq::si::literals", "_q_cPa", "units::isq::si::dim_pressure", "units::isq::si::centipascal"⟩,
  ⟨102, .literal, "units::isq::si::literals", "_q_mPa", "units::isq::si::dim_pressure", "units::isq::si::millipascal"⟩,
  ⟨102, .literal, "units::isq::si::literals", "_q_mPa", "units::isq::si::dim_pressure", "units::isq::si::millipascal"⟩,
  ⟨102, .literal, "units::isq::si::literals", "_q_mPa", "units::isq::si::dim_pressure", "units::isq::si::millipascal"⟩,
  ⟨102, .literal, "units::isq::si::literals", "_q_uPa", "units::isq::si::dim_pressure", "units::isq::si::micropascal"⟩,
  ⟨102, .literal, "units::isq::si::literals", "_q_uPa", "units::isq::si::dim_pressure", "units::isq::si::micropascal"⟩,
  ⟨102, .literal, "units::isq::si::literals", "_q_uPa", "units::isq::si::dim_pressure", "units::isq::si::micropascal"⟩,
  ⟨102, .literal, "units::isq::si::literals", "_q_nPa", "units::isq::si::dim_pressure", "units::isq::si::nanopascal"⟩,
  ⟨102, .literal, "units::isq::si::literals", "_q_nPa", "units::isq::si::dim_pressure", "units::isq::si::nanopascal"⟩,
  ⟨102, .literal, "units::isq::si::literals", "_q_nPa", "units::isq::si::dim_pressure", "units::isq::si::nanopascal"⟩,
  ⟨102, .literal, "units::isq::si::literals", "_q_pPa", "units::isq::si::dim_pressure", "units::isq::si::picopascal"⟩,
  ⟨102, .literal, "units::isq::si::literals", "_q_pPa", "units::isq::si::dim_pressure", "units::isq::si::picopascal"⟩,
  ⟨102, .literal, "units::isq::si::literals", "_q_pPa", "units::isq::si::dim_pressure", "units::isq::si::picopascal"⟩,
  ⟨102, .literal, "units::isq::si::literals", "_q_fPa", "units::isq::si::dim_pressure", "units::isq::si::femtopascal"⟩,
  ⟨102, .literal, "units::isq::si::literals", "_q_fPa", "units::isq::si::dim_pressure", "units::isq::si::femtopascal"⟩,
  ⟨102, .literal, "units::isq::si::literals", "_q_fPa", "units::isq::si::dim_pressure", "units::isq::si::femtopascal"⟩,
  ⟨102, .literal, "units::isq::si::literals", "_q_aPa", "units::isq::si::dim_pressure", "units::isq::si::attopascal"⟩,
  ⟨102, .literal, "units::isq::si::literals", "_q_aPa", "units::isq::si::dim_pressure", "units::isq::si::attopascal"⟩,
  ⟨102, .literal, "units::isq::si::literals", "_q_aPa", "units::isq::si::dim_pressure", "units::isq::si::attopascal"⟩,
  ⟨102, .literal, "units::isq::si::literals", "_q_zPa", "units::isq::si::dim_pressure", "units::isq::si::zeptopascal"⟩,
  ⟨102, .literal, "units::isq::si::literals", "_q_zPa", "units::isq::si::dim_pressure", "units::isq::si::zeptopascal"⟩,
  ⟨102, .literal, "units::isq::si::literals", "_q_zPa", "units::isq::si::dim_pressure", "units::isq::si::zeptopascal"⟩,
  ⟨102, .literal, "units::isq::si::literals", "_q_yPa", "units::isq::si::dim_pressure", "units::isq::si::yoctopascal"⟩,
  ⟨102, .literal, "units::isq::si::literals", "_q_yPa", "units::isq::si::dim_pressure", "units::isq::si::yoctopascal"⟩,
  ⟨102, .literal, "units::isq::si::literals", "_q_yPa", "units::isq::si::dim_pressure", "units::isq::si::yoctopascal"⟩,
  ⟨102, .literal, "units::isq::si::literals", "_q_Pa", "units::isq::si::dim_pressure", "units::isq::si::pascal"⟩,
  ⟨102, .literal, "units::isq::si::literals", "_q_Pa", "units::isq::si::dim_pressure", "units::isq::si::pascal"⟩,
  ⟨102, .literal, "units::isq::si::literals", "_q_Pa", "units::isq::si::dim_pressure", "units::isq::si::pascal"⟩,
  ⟨101, .rep, "units::aliases::isq::si::density", "kg_per_m3", "units::isq::si::dim_density", "units::isq::si::kilogram_per_metre_cub"⟩,
  ⟨101, .literal, "units::isq::si::literals", "_q_kg_per_m3", "units::isq::si::dim_density", "units::isq::si::kilogram_per_metre_cub"⟩,
  ⟨101, .literal, "units::isq::si::literals", "_q_kg_per_m3", "units::isq::si::dim_density", "units::isq::si::kilogram_per_metre_cub"⟩,
  ⟨101, .literal, "units::isq::si::literals", "_q_kg_per_m3", "units::isq::si::dim_density", "units::isq::si::kilogram_per_metre_cub"⟩,
  ⟨100, .rep, "units::aliases::isq::si::current_density", "A_per_m2", "units::isq::si::dim_current_density", "units::isq::si::ampere_per_metre_sq"⟩,
  ⟨100, .literal, "units::isq::si::literals", "_q_A_per_m2", "units::isq::si::dim_current_density", "units::isq::si::ampere_per_metre_sq"⟩]

/-- Part 28 of `tagTable`. -/
def tagTable28 : List (TRow) := [
  ⟨100, .literal, "units::isq::si::literals", "_q_A_per_m2", "units::isq::si::dim_current_density", "units::isq::si::ampere_per_metre_sq"⟩,
  ⟨100, .literal, "units::isq::si::literals", "_q_A_per_m2", "units::isq::si::dim_current_density", "units::isq::si::ampere_per_metre_sq"⟩,
  ⟨98, .rep, "units::aliases::isq::si::thermodynamic_temperature", "K", "units::isq::si::dim_thermodynamic_temperature", "units::isq::si::kelvin"⟩,
  ⟨98, .reference, "units::isq::si::thermodynamic_temperature_references", "K", "units::isq::si::dim_thermodynamic_temperature", "units::isq::si::kelvin"⟩,
  ⟨98, .literal, "units::isq::si::literals", "_q_K", "units::isq::si::dim_thermodynamic_temperature", "units::isq::si::kelvin"⟩,
  ⟨98, .literal, "units::isq::si::literals", "_q_K", "units::isq::si::dim_thermodynamic_temperature", "units::isq::si::kelvin"⟩,
  ⟨98, .literal, "units::isq::si::literals", "_q_K", "units::isq::si::dim_thermodynamic_temperature", "units::isq::si::kelvin"⟩,
  ⟨97, .rep, "units::aliases::isq::si::conductance", "YS", "units::isq::si::dim_conductance", "units::isq::si::yottasiemens"⟩,
  ⟨97, .rep, "units::aliases::isq::si::conductance", "ZS", "units::isq::si::dim_conductance", "units::isq::si::zettasiemens"⟩,
  ⟨97, .rep, "units::aliases::isq::si::conductance", "ES", "units::isq::si::dim_conductance", "units::isq::si::exasiemens"⟩,
  ⟨97, .rep, "units::aliases::isq::si::conductance", "PS", "units::isq::si::dim_conductance", "units::isq::si::petasiemens"⟩,
  ⟨97, .rep, "units::aliases::isq::si::conductance", "TS", "units::isq::si::dim_conductance", "units::isq::si::terasiemens"⟩,
  ⟨97, .rep, "units::aliases::isq::si::conductance", "GS", "units::isq::si::dim_conductance", "units::isq::si::gigasiemens"⟩,
  ⟨97, .rep, "units::aliases::isq::si::conductance", "MS", "units::isq::si::dim_conductance", "units::isq::si::megasiemens"⟩,
  ⟨97, .rep, "units::aliases::isq::si::conductance", "kS", "units::isq::si::dim_conductance", "units::isq::si::kilosiemens"⟩,
  ⟨97, .rep, "units::aliases::isq::si::conductance", "mS", "units::isq::si::dim_conductance", "units::isq::si::millisiemens"⟩,
  ⟨97, .rep, "units::aliases::isq::si::conductance", "uS", "units::isq::si::dim_conductance", "units::isq::si::microsiemens"⟩,
  ⟨97, .rep, "units::aliases::isq::si::conductance", "nS", "units::isq::si::dim_conductance", "units::isq::si::nanosiemens"⟩,
  ⟨97, .rep, "units::aliases::isq::si::conductance", "pS", "units::isq::si::dim_conductance", "units::isq::si::picosiemens"⟩,
  ⟨97, .rep, "units::aliases::isq::si::conductance", "fS", "units::isq::si::dim_conductance", "units::isq::si::femtosiemens"⟩,
  ⟨97, .rep, "units::aliases::isq::si::conductance", "aS", "units::isq::si::dim_conductance", "units::isq::si::attosiemens"⟩,
  ⟨97, .rep, "units::aliases::isq::si::conductance", "zS", "units::isq::si::dim_conductance", "units::isq::si::zeptosiemens"⟩,
  ⟨97, .rep, "units::aliases::isq::si::conductance", "yS", "units::isq::si::dim_conductance", "units::isq::si::yoctosiemens"⟩,
  ⟨97, .rep, "units::aliases::isq::si::conductance", "S", "units::isq::si::dim_conductance", "units::isq::si::siemens"⟩,
  ⟨97, .reference, "units::isq::si::conductance_references", "YS", "units::isq::si::dim_conductance", "units::isq::si::yottasiemens"⟩,
  ⟨97, .reference, "units::isq::si::conductance_references", "ZS", "units::isq::si::dim_conductance", "units::isq::si::zettasiemens"⟩,
  ⟨97, .reference, "units::isq::si::conductance_references", "ES", "units::isq::si::dim_conductance", "units::isq::si::exasiemens"⟩,
  ⟨97, .reference, "units::isq::si::conductance_references", "PS", "units::isq::si::dim_conductance", "units::isq::si::petasiemens"⟩,
  ⟨97, .reference, "units::isq::si::conductance_references", "TS", "units::isq::si::dim_conductance", "units::isq::si::terasiemens"⟩,
  ⟨97, .reference, "units::isq::si::conductance_references", "GS", "units::isq::si::dim_conductance", "units::isq::si::gigasiemens"⟩,
  ⟨97, .reference, "units::isq::si::conductance_references", "MS", "units::isq::si::dim_conductance", "units::isq::si::megasiemens"⟩,
  ⟨97, .reference, "units::isq::si::conductance_references", "kS", "units::isq::si::dim_conductance", "units::isq::si::kilosiemens"⟩,
  ⟨97, .reference, "units::isq::si::conductance_references", "mS", "units::isq::si::dim_conductance", "units::isq::si::millisiemens"⟩,
  ⟨97, .reference, "units::isq::si::conductance_references", "uS", "units::isq::si::dim_conductance", "units::isq::si::microsiemens"⟩,
  ⟨97, .reference, "units::isq::si::conductance_references", "nS", "units::isq::si::dim_conductance", "units::isq::si::nanosiemens"⟩,
  ⟨97, .reference, "units::isq::si::conductance_references", "pS", "units::isq::si::dim_conductance", "units::isq::si::picosiemens"⟩,
  ⟨97, .reference, "units::isq::si::conductance_references", "fS", "units::isq::si::dim_conductance", "units::isq::si::femtosiemens"⟩,
  ⟨97, .reference, "units::isq::si::conductance_references", "aS", "units::isq::si::dim_conductance", "units::isq::si::attosiemens"⟩,
  ⟨97, .reference, "units::isq::si::conductance_references", "zS", "units::isq::si::dim_conductance", "units::isq::si::zeptosiemens"⟩,
  ⟨97, .reference, "units::isq::si::conductance_references", "yS", "units::isq::si::dim_conductance", "units::isq::si::yoctosiemens"⟩]

/-- Part 29 of `tagTable`. -/
def tagTable29 : List (TRow) := [
  ⟨97, .reference, "units::isq::si::conductance_references", "S", "units::isq::si::dim_conductance", "units::isq::si::siemens"⟩,
  ⟨97, .literal, "units::isq::si::literals", "_q_YS", "units::isq::si::dim_conductance", "units::isq::si::yottasiemens"⟩,
  ⟨97, .literal, "units::isq::si::literals", "_q_YS", "units::isq::si::dim_conductance", "units::isq::si::yottasiemens"⟩,
  ⟨97, .literal, "units::isq::si::literals", "_q_YS", "units::isq::si::dim_conductance", "units::isq::si::yottasiemens"⟩,
  ⟨97, .literal, "units::isq::si::literals", "_q_ZS", "units::isq::si::dim_conductance", "units::isq::si::zettasiemens"⟩,
  ⟨97, .literal, "units::isq::si::literals", "_q_ZS", "units::isq::si::dim_conductance", "units::isq::si::zettasiemens"⟩,
  ⟨97, .literal, "units::isq::si::literals", "_q_ZS", "units::isq::si::dim_conductance", "units::isq::si::zettasiemens"⟩,
  ⟨97, .literal, "units::isq::si::literals", "_q_ES", "units::isq::si::dim_conductance", "units::isq::si::exasiemens"⟩,
  ⟨97, .literal, "units::isq::si::literals", "_q_ES", "units::isq::si::dim_conductance", "units::isq::si::exasiemens"⟩,
  ⟨97, .literal, "units::isq::si::literals", "_q_ES", "units::isq::si::dim_conductance", "units::isq::si::exasiemens"⟩,
  ⟨97, .literal, "units::isq::si::literals", "_q_PS", "units::isq::si::dim_conductance", "units::isq::si::petasiemens"⟩,
  ⟨97, .literal, "units::isq::si::literals", "_q_PS", "units::isq::si::dim_conductance", "units::isq::si::petasiemens"⟩,
  ⟨97, .literal, "units::isq::si::literals", "_q_PS", "units::isq::si::dim_conductance", "units::isq::si::petasiemens"⟩,
  ⟨97, .literal, "units::isq::si::literals", "_q_TS", "units::isq::si::dim_conductance", "units::isq::si::terasiemens"⟩,
  ⟨97, .literal, "units::isq::si::literals", "_q_TS", "units::isq::si::dim_conductance", "units::isq::si::terasiemens"⟩,
  ⟨97, .literal, "units::isq::si::literals", "_q_TS", "units::isq::si::dim_conductance", "units::isq::si::terasiemens"⟩,
  ⟨97, .literal, "units::isq::si::literals", "_q_GS", "units::isq::si::dim_conductance", "units::isq::si::gigasiemens"⟩,
  ⟨97, .literal, "units::isq::si::literals", "_q_GS", "units::isq::si::dim_conductance", "units::isq::si::gigasiemens"⟩,
  ⟨97, .literal, "units::isq::si::literals", "_q_GS", "units::isq::si::dim_conductance", "units::isq::si::gigasiemens"⟩,
  ⟨97, .literal, "units::isq::si::literals", "_q_MS", "units::isq::si::dim_conductance", "units::isq::si::megasiemens"⟩,
  ⟨97, .literal, "units::isq::si::literals", "_q_MS", "units::isq::si::dim_conductance", "units::isq::si::megasiemens"⟩,
  ⟨97, .literal, "units::isq::si::literals", "_q_MS", "units::isq::si::dim_conductance", "units::isq::si::megasiemens"⟩,
  ⟨97, .literal, "units::isq::si::literals", "_q_kS", "units::isq::si::dim_conductance", "units::isq::si::kilosiemens"⟩,
  ⟨97, .literal, "units::isq::si::literals", "_q_kS", "units::isq::si::dim_conductance", "units::isq::si::kilosiemens"⟩,
  ⟨97, .literal, "units::isq::si::literals", "_q_kS", "units::isq::si::dim_conductance", "units::isq::si::kilosiemens"⟩,
  ⟨97, .literal, "units::isq::si::literals", "_q_mS", "units::isq::si::dim_conductance", "units::isq::si::millisiemens"⟩,
  ⟨97, .literal, "units::isq::si::literals", "_q_mS", "units::isq::si::dim_conductance", "units::isq::si::millisiemens"⟩,
  ⟨97, .literal, "units::isq::si::literals", "_q_mS", "units::isq::si::dim_conductance", "units::isq::si::millisiemens"⟩,
  ⟨97, .literal, "units::isq::si::literals", "_q_uS", "units::isq::si::dim_conductance", "units::isq::si::microsiemens"⟩,
  ⟨97, .literal, "units::isq::si::literals", "_q_uS", "units::isq::si::dim_conductance", "units::isq::si::microsiemens"⟩,
  ⟨97, .literal, "units::isq::si::literals", "_q_uS", "units::isq::si::dim_conductance", "units::isq::si::microsiemens"⟩,
  ⟨97, .literal, "units::isq::si::literals", "_q_nS", "units::isq::si::dim_conductance", "units::isq::si::nanosiemens"⟩,
  ⟨97, .literal, "units::isq::si::literals", "_q_nS", "units::isq::si::dim_conductance", "units::isq::si::nanosiemens"⟩,
  ⟨97, .literal, "units::isq::si::literals", "_q_nS", "units::isq::si::dim_conductance", "units::isq::si::nanosiemens"⟩,
  ⟨97, .literal, "units::isq::si::literals", "_q_pS", "units::isq::si::dim_conductance", "units::isq::si::picosiemens"⟩,
  ⟨97, .literal, "units::isq::si::literals", "_q_pS", "units::isq::si::dim_conductance", "units::isq::si::picosiemens"⟩,
  ⟨97, .literal, "units::isq::si::literals", "_q_pS", "units::isq::si::dim_conductance", "units::isq::si::picosiemens"⟩,
  ⟨97, .literal, "units::isq::si::literals", "_q_fS", "units::isq::si::dim_conductance", "units::isq::si::femtosiemens"⟩,
  ⟨97, .literal, "units::isq::si::literals", "_q_fS", "units::isq::si::dim_conductance", "units::isq::si::femtosiemens"⟩,
  ⟨97, .literal, "units::isq::si::literals", "_q_fS", "units::isq::si::dim_conductance", "units::isq::si::femtosiemens"⟩]

/-- Part 30 of `tagTable`. -/
def tagTable30 : List (TRow) := [
  ⟨97, .literal, "units::isq::si::literals", "_q_aS", "units::isq::si::dim_conductance", "units::isq::si::attosiemens"⟩,
  ⟨97, .literal, "units::isq::si::literals", "_q_aS", "units::isq::si::dim_conductance", "units::isq::si::attosiemens"⟩,
  ⟨97, .literal, "units::isq::si::literals", "_q_aS", "units::isq::si::dim_conductance", "units::isq::si::attosiemens"⟩,
  ⟨97, .literal, "units::isq::si::literals", "_q_zS", "units::isq::si::dim_conductance", "units::isq::si::zeptosiemens"⟩,
  ⟨97, .literal, "units::isq::si::literals", "_q_zS", "units::isq::si::dim_conductance", "units::isq::si::zeptosiemens"⟩,
  ⟨97, .literal, "units::isq::si::literals", "_q_zS", "units::isq::si::dim_conductance", "units::isq::si::zeptosiemens"⟩,
  ⟨97, .literal, "units::isq::si::literals", "_q_yS", "units::isq::si::dim_conductance", "units::isq::si::yoctosiemens"⟩,
  ⟨97, .literal, "units::isq::si::literals", "_q_yS", "units::isq::si::dim_conductance", "units::isq::si::yoctosiemens"⟩,
  ⟨97, .literal, "units::isq::si::literals", "_q_yS", "units::isq::si::dim_conductance", "units::isq::si::yoctosiemens"⟩,
  ⟨97, .literal, "units::isq::si::literals", "_q_S", "units::isq::si::dim_conductance", "units::isq::si::siemens"⟩,
  ⟨97, .literal, "units::isq::si::literals", "_q_S", "units::isq::si::dim_conductance", "units::isq::si::siemens"⟩,
  ⟨97, .literal, "units::isq::si::literals", "_q_S", "units::isq::si::dim_conductance", "units::isq::si::siemens"⟩,
  ⟨96, .rep, "units::aliases::isq::si::resistance", "YR", "units::isq::si::dim_resistance", "units::isq::si::yottaohm"⟩,
  ⟨96, .rep, "units::aliases::isq::si::resistance", "ZR", "units::isq::si::dim_resistance", "units::isq::si::zettaohm"⟩,
  ⟨96, .rep, "units::aliases::isq::si::resistance", "ER", "units::isq::si::dim_resistance", "units::isq::si::exaohm"⟩,
  ⟨96, .rep, "units::aliases::isq::si::resistance", "PR", "units::isq::si::dim_resistance", "units::isq::si::petaohm"⟩,
  ⟨96, .rep, "units::aliases::isq::si::resistance", "TR", "units::isq::si::dim_resistance", "units::isq::si::teraohm"⟩,
  ⟨96, .rep, "units::aliases::isq::si::resistance", "GR", "units::isq::si::dim_resistance", "units::isq::si::gigaohm"⟩,
  ⟨96, .rep, "units::aliases::isq::si::resistance", "MR", "units::isq::si::dim_resistance", "units::isq::si::megaohm"⟩,
  ⟨96, .rep, "units::aliases::isq::si::resistance", "kR", "units::isq::si::dim_resistance", "units::isq::si::kiloohm"⟩,
  ⟨96, .rep, "units::aliases::isq::si::resistance", "mR", "units::isq::si::dim_resistance", "units::isq::si::milliohm"⟩,
  ⟨96, .rep, "units::aliases::isq::si::resistance", "uR", "units::isq::si::dim_resistance", "units::isq::si::microohm"⟩,
  ⟨96, .rep, "units::aliases::isq::si::resistance", "nR", "units::isq::si::dim_resistance", "units::isq::si::nanoohm"⟩,
  ⟨96, .rep, "units::aliases::isq::si::resistance", "pR", "units::isq::si::dim_resistance", "units::isq::si::picoohm"⟩,
  ⟨96, .rep, "units::aliases::isq::si::resistance", "fR", "units::isq::si::dim_resistance", "units::isq::si::femtoohm"⟩,
  ⟨96, .rep, "units::aliases::isq::si::resistance", "aR", "units::isq::si::dim_resistance", "units::isq::si::attoohm"⟩,
  ⟨96, .rep, "units::aliases::isq::si::resistance", "zR", "units::isq::si::dim_resistance", "units::isq::si::zeptoohm"⟩,
  ⟨96, .rep, "units::aliases::isq::si::resistance", "yR", "units::isq::si::dim_resistance", "units::isq::si::yoctoohm"⟩,
  ⟨96, .rep, "units::aliases::isq::si::resistance", "R", "units::isq::si::dim_resistance", "units::isq::si::ohm"⟩,
  ⟨96, .reference, "units::isq::si::resistance_references", "YR", "units::isq::si::dim_resistance", "units::isq::si::yottaohm"⟩,
  ⟨96, .reference, "units::isq::si::resistance_references", "ZR", "units::isq::si::dim_resistance", "units::isq::si::zettaohm"⟩,
  ⟨96, .reference, "units::isq::si::resistance_references", "ER", "units::isq::si::dim_resistance", "units::isq::si::exaohm"⟩,
  ⟨96, .reference, "units::isq::si::resistance_references", "PR", "units::isq::si::dim_resistance", "units::isq::si::petaohm"⟩,
  ⟨96, .reference, "units::isq::si::resistance_references", "TR", "units::isq::si::dim_resistance", "units::isq::si::teraohm"⟩,
  ⟨96, .reference, "units::isq::si::resistance_references", "GR", "units::isq::si::dim_resistance", "units::isq::si::gigaohm"⟩,
  ⟨96, .reference, "units::isq::si::resistance_references", "MR", "units::isq::si::dim_resistance", "units::isq::si::megaohm"⟩,
  ⟨96, .reference, "units::isq::si::resistance_references", "kR", "units::isq::si::dim_resistance", "units::isq::si::kiloohm"⟩,
  ⟨96, .reference, "units::isq::si::resistance_references", "mR", "units::isq::si::dim_resistance", "units::isq::si::milliohm"⟩,
  ⟨96, .reference, "units::isq::si::resistance_references", "uR", "units::isq::si::dim_resistance", "units::isq::si::microohm"⟩,
  ⟨96, .reference, "units::isq::si::resistance_references", "nR", "units::isq::si::dim_resistance", "units::isq::si::nanoohm"⟩]

/-- Part 31 of `tagTable`. -/
def tagTable31 : List (TRow) := [
  ⟨96, .reference, "units::isq::si::resistance_references", "pR", "units::isq::si::dim_resistance", "units::isq::si::picoohm"⟩,
  ⟨96, .reference, "units::isq::si::resistance_references", "fR", "units::isq::si::dim_resistance", "units::isq::si::femtoohm"⟩,
  ⟨96, .reference, "units::isq::si::resistance_references", "aR", "units::isq::si::dim_resistance", "units::isq::si::attoohm"⟩,
  ⟨96, .reference, "units::isq::si::resistance_references", "zR", "units::isq::si::dim_resistance", "units::isq::si::zeptoohm"⟩,
  ⟨96, .reference, "units::isq::si::resistance_references", "yR", "units::isq::si::dim_resistance", "units::isq::si::yoctoohm"⟩,
  ⟨96, .reference, "units::isq::si::resistance_references", "R", "units::isq::si::dim_resistance", "units::isq::si::ohm"⟩,
  ⟨96, .literal, "units::isq::si::literals", "_q_YR", "units::isq::si::dim_resistance", "units::isq::si::yottaohm"⟩,
  ⟨96, .literal, "units::isq::si::literals", "_q_YR", "units::isq::si::dim_resistance", "units::isq::si::yottaohm"⟩,
  ⟨96, .literal, "units::isq::si::literals", "_q_YR", "units::isq::si::dim_resistance", "units::isq::si::yottaohm"⟩,
  ⟨96, .literal, "units::isq::si::literals", "_q_ZR", "units::isq::si::dim_resistance", "units::isq::si::zettaohm"⟩,
  ⟨96, .literal, "units::isq::si::literals", "_q_ZR", "units::isq::si::dim_resistance", "units::isq::si::zettaohm"⟩,
  ⟨96, .literal, "units::isq::si::literals", "_q_ZR", "units::isq::si::dim_resistance", "units::isq::si::zettaohm"⟩,
  ⟨96, .literal, "units::isq::si::literals", "_q_ER", "units::isq::si::dim_resistance", "units::isq::si::exaohm"⟩,
  ⟨96, .literal, "units::isq::si::literals", "_q_ER", "units::isq::si::dim_resistance", "units::isq::si::exaohm"⟩,
  ⟨96, .literal, "units::isq::si::literals", "_q_ER", "units::isq::si::dim_resistance", "units::isq::si::exaohm"⟩,
  ⟨96, .literal, "units::isq::si::literals", "_q_PR", "units::isq::si::dim_resistance", "units::isq::si::petaohm"⟩,
  ⟨96, .literal, "units::isq::si::literals", "_q_PR", "units::isq::si::dim_resistance", "units::isq::si::petaohm"⟩,
  ⟨96, .literal, "units::isq::si::literals", "_q_PR", "units::isq::si::dim_resistance", "units::isq::si::petaohm"⟩,
  ⟨96, .literal, "units::isq::si::literals", "_q_TR", "units::isq::si::dim_resistance", "units::isq::si::teraohm"⟩,
  ⟨96, .literal, "units::isq::si::literals", "_q_TR", "units::isq::si::dim_resistance", "units::isq::si::teraohm"⟩,
  ⟨96, .literal, "units::isq::si::literals", "_q_TR", "units::isq::si::dim_resistance", "units::isq::si::teraohm"⟩,
  ⟨96, .literal, "units::isq::si::literals", "_q_GR", "units::isq::si::dim_resistance", "units::isq::si::gigaohm"⟩,
  ⟨96, .literal, "units::isq::si::literals", "_q_GR", "units::isq::si::dim_resistance", "units::isq::si::gigaohm"⟩,
  ⟨96, .literal, "units::isq::si::literals", "_q_GR", "units::isq::si::dim_resistance", "units::isq::si::gigaohm"⟩,
  ⟨96, .literal, "units::isq::si::literals", "_q_MR", "units::isq::si::dim_resistance", "units::isq::si::megaohm"⟩,
  ⟨96, .literal, "units::isq::si::literals", "_q_MR", "units::isq::si::dim_resistance", "units::isq::si::megaohm"⟩,
  ⟨96, .literal, "units::isq::si::literals", "_q_MR", "units::isq::si::dim_resistance", "units::isq::si::megaohm"⟩,
  ⟨96, .literal, "units::isq::si::literals", "_q_kR", "units::isq::si::dim_resistance", "units::isq::si::kiloohm"⟩,
  ⟨96, .literal, "units::isq::si::literals", "_q_kR", "units::isq::si::dim_resistance", "units::isq::si::kiloohm"⟩,
  ⟨96, .literal, "units::isq::si::literals", "_q_kR", "units::isq::si::dim_resistance", "units::isq::si::kiloohm"⟩,
  ⟨96, .literal, "units::isq::si::literals", "_q_mR", "units::isq::si::dim_resistance", "units::isq::si::milliohm"⟩,
  ⟨96, .literal, "units::isq::si::literals", "_q_mR", "units::isq::si::dim_resistance", "units::isq::si::milliohm"⟩,
  ⟨96, .literal, "units::isq::si::literals", "_q_mR", "units::isq::si::dim_resistance", "units::isq::si::milliohm"⟩,
  ⟨96, .literal, "units::isq::si::literals", "_q_uR", "units::isq::si::dim_resistance", "units::isq::si::microohm"⟩,
  ⟨96, .literal, "units::isq::si::literals", "_q_uR", "units::isq::si::dim_resistance", "units::isq::si::microohm"⟩,
  ⟨96, .literal, "units::isq::si::literals", "_q_uR", "units::isq::si::dim_resistance", "units::isq::si::microohm"⟩,
  ⟨96, .literal, "units::isq::si::literals", "_q_nR", "units::isq::si::dim_resistance", "units::isq::si::nanoohm"⟩,
  ⟨96, .literal, "units::isq::si::literals", "_q_nR", "units::isq::si::dim_resistance", "units::isq::si::nanoohm"⟩,
  ⟨96, .literal, "units::isq::si::literals", "_q_nR", "units::isq::si::dim_resistance", "units::isq::si::nanoohm"⟩,
  ⟨96, .literal, "units::isq::si::literals", "_q_pR", "units::isq::si::dim_resistance", "units::isq::si::picoohm"⟩]

/-- Part 32 of `tagTable`. -/
def tagTable32 : List (TRow) := [
  ⟨96, .literal, "units::isq::si::literals", "_q_pR", "units::isq::si::dim_resistance", "units::isq::si::picoohm"⟩,
  ⟨96, .literal, "units::isq::si::literals", "_q_pR", "units::isq::si::dim_resistance", "units::isq::si::picoohm"⟩,
  ⟨96, .literal, "units::isq::si::literals", "_q_fR", "units::isq::si::dim_resistance", "units::isq::si::femtoohm"⟩,
  ⟨96, .literal, "units::isq::si::literals", "_q_fR", "units::isq::si::dim_resistance", "units::isq::si::femtoohm"⟩,
  ⟨96, .literal, "units::isq::si::literals", "_q_fR", "units::isq::si::dim_resistance", "units::isq::si::femtoohm"⟩,
  ⟨96, .literal, "units::isq::si::literals", "_q_aR", "units::isq::si::dim_resistance", "units::isq::si::attoohm"⟩,
  ⟨96, .literal, "units::isq::si::literals", "_q_aR", "units::isq::si::dim_resistance", "units::isq::si::attoohm"⟩,
  ⟨96, .literal, "units::isq::si::literals", "_q_aR", "units::isq::si::dim_resistance", "units::isq::si::attoohm"⟩,
  ⟨96, .literal, "units::isq::si::literals", "_q_zR", "units::isq::si::dim_resistance", "units::isq::si::zeptoohm"⟩,
  ⟨96, .literal, "units::isq::si::literals", "_q_zR", "units::isq::si::dim_resistance", "units::isq::si::zeptoohm"⟩,
  ⟨96, .literal, "units::isq::si::literals", "_q_zR", "units::isq::si::dim_resistance", "units::isq::si::zeptoohm"⟩,
  ⟨96, .literal, "units::isq::si::literals", "_q_yR", "units::isq::si::dim_resistance", "units::isq::si::yoctoohm"⟩,
  ⟨96, .literal, "units::isq::si::literals", "_q_yR", "units::isq::si::dim_resistance", "units::isq::si::yoctoohm"⟩,
  ⟨96, .literal, "units::isq::si::literals", "_q_yR", "units::isq::si::dim_resistance", "units::isq::si::yoctoohm"⟩,
  ⟨96, .literal, "units::isq::si::literals", "_q_R", "units::isq::si::dim_resistance", "units::isq::si::ohm"⟩,
  ⟨96, .literal, "units::isq::si::literals", "_q_R", "units::isq::si::dim_resistance", "units::isq::si::ohm"⟩,
  ⟨96, .literal, "units::isq::si::literals", "_q_R", "units::isq::si::dim_resistance", "units::isq::si::ohm"⟩,
  ⟨95, .rep, "units::aliases::isq::si::concentration", "mol_per_m3", "units::isq::si::dim_concentration", "units::isq::si::mol_per_metre_cub"⟩,
  ⟨95, .literal, "units::isq::si::literals", "_q_mol_per_m3", "units::isq::si::dim_concentration", "units::isq::si::mol_per_metre_cub"⟩,
  ⟨95, .literal, "units::isq::si::literals", "_q_mol_per_m3", "units::isq::si::dim_concentration", "units::isq::si::mol_per_metre_cub"⟩,
  ⟨95, .literal, "units::isq::si::literals", "_q_mol_per_m3", "units::isq::si::dim_concentration", "units::isq::si::mol_per_metre_cub"⟩,
  ⟨94, .rep, "units::aliases::isq::si::charge_density", "C_per_m2", "units::isq::si::dim_surface_charge_density", "units::isq::si::coulomb_per_metre_sq"⟩,
  ⟨94, .rep, "units::aliases::isq::si::charge_density", "C_per_m3", "units::isq::si::dim_charge_density", "units::isq::si::coulomb_per_metre_cub"⟩,
  ⟨94, .literal, "units::isq::si::literals", "_q_C_per_m2", "units::isq::si::dim_surface_charge_density", "units::isq::si::coulomb_per_metre_sq"⟩,
  ⟨94, .literal, "units::isq::si::literals", "_q_C_per_m2", "units::isq::si::dim_surface_charge_density", "units::isq::si::coulomb_per_metre_sq"⟩,
  ⟨94, .literal, "units::isq::si::literals", "_q_C_per_m2", "units::isq::si::dim_surface_charge_density", "units::isq::si::coulomb_per_metre_sq"⟩,
  ⟨94, .literal, "units::isq::si::literals", "_q_C_per_m3", "units::isq::si::dim_charge_density", "units::isq::si::coulomb_per_metre_cub"⟩,
  ⟨94, .literal, "units::isq::si::literals", "_q_C_per_m3", "units::isq::si::dim_charge_density", "units::isq::si::coulomb_per_metre_cub"⟩,
  ⟨94, .literal, "units::isq::si::literals", "_q_C_per_m3", "units::isq::si::dim_charge_density", "units::isq::si::coulomb_per_metre_cub"⟩,
  ⟨92, .rep, "units::aliases::isq::si::cgs::pressure", "Ba", "units::isq::si::cgs::dim_pressure", "units::isq::si::cgs::barye"⟩,
  ⟨92, .reference, "units::isq::si::cgs::pressure_references", "Ba", "units::isq::si::cgs::dim_pressure", "units::isq::si::cgs::barye"⟩,
  ⟨92, .literal, "units::isq::si::cgs::literals", "_q_Ba", "units::isq::si::cgs::dim_pressure", "units::isq::si::cgs::barye"⟩,
  ⟨92, .literal, "units::isq::si::cgs::literals", "_q_Ba", "units::isq::si::cgs::dim_pressure", "units::isq::si::cgs::barye"⟩,
  ⟨92, .literal, "units::isq::si::cgs::literals", "_q_Ba", "units::isq::si::cgs::dim_pressure", "units::isq::si::cgs::barye"⟩,
  ⟨91, .rep, "units::aliases::isq::si::cgs::power", "erg_per_s", "units::isq::si::cgs::dim_power", "units::isq::si::cgs::erg_per_second"⟩,
  ⟨91, .literal, "units::isq::si::cgs::literals", "_q_erg_per_s", "units::isq::si::cgs::dim_power", "units::isq::si::cgs::erg_per_second"⟩,
  ⟨91, .literal, "units::isq::si::cgs::literals", "_q_erg_per_s", "units::isq::si::cgs::dim_power", "units::isq::si::cgs::erg_per_second"⟩,
  ⟨91, .literal, "units::isq::si::cgs::literals", "_q_erg_per_s", "units::isq::si::cgs::dim_power", "units::isq::si::cgs::erg_per_second"⟩,
  ⟨90, .rep, "units::aliases::isq::si::cgs::energy", "erg", "units::isq::si::cgs::dim_energy", "units::isq::si::cgs::erg"⟩,
  ⟨90, .reference, "units::isq::si::cgs::energy_references", "erg", "units::isq::si::cgs::dim_energy", "units::isq::si::cgs::erg"⟩]

/-- Part 33 of `tagTable`. -/
def tagTable33 : List (TRow) := [
  ⟨90, .literal, "units::isq::si::cgs::literals", "_q_erg", "units::isq::si::cgs::dim_energy", "units::isq::si::cgs::erg"⟩,
  ⟨90, .literal, "units::isq::si::cgs::literals", "_q_erg", "units::isq::si::cgs::dim_energy", "units::isq::si::cgs::erg"⟩,
  ⟨90, .literal, "units::isq::si::cgs::literals", "_q_erg", "units::isq::si::cgs::dim_energy", "units::isq::si::cgs::erg"⟩,
  ⟨89, .rep, "units::aliases::isq::si::cgs::force", "dyn", "units::isq::si::cgs::dim_force", "units::isq::si::cgs::dyne"⟩,
  ⟨89, .reference, "units::isq::si::cgs::force_references", "dyn", "units::isq::si::cgs::dim_force", "units::isq::si::cgs::dyne"⟩,
  ⟨89, .literal, "units::isq::si::cgs::literals", "_q_dyn", "units::isq::si::cgs::dim_force", "units::isq::si::cgs::dyne"⟩,
  ⟨89, .literal, "units::isq::si::cgs::literals", "_q_dyn", "units::isq::si::cgs::dim_force", "units::isq::si::cgs::dyne"⟩,
  ⟨89, .literal, "units::isq::si::cgs::literals", "_q_dyn", "units::isq::si::cgs::dim_force", "units::isq::si::cgs::dyne"⟩,
  ⟨88, .rep, "units::aliases::isq::si::cgs::mass", "g", "units::isq::si::cgs::dim_mass", "units::isq::si::gram"⟩,
  ⟨88, .reference, "units::isq::si::cgs::mass_references", "g", "units::isq::si::cgs::dim_mass", "units::isq::si::gram"⟩,
  ⟨88, .literal, "units::isq::si::cgs::literals", "_q_g", "units::isq::si::cgs::dim_mass", "units::isq::si::gram"⟩,
  ⟨88, .literal, "units::isq::si::cgs::literals", "_q_g", "units::isq::si::cgs::dim_mass", "units::isq::si::gram"⟩,
  ⟨88, .literal, "units::isq::si::cgs::literals", "_q_g", "units::isq::si::cgs::dim_mass", "units::isq::si::gram"⟩,
  ⟨87, .rep, "units::aliases::isq::si::cgs::area", "cm2", "units::isq::si::cgs::dim_area", "units::isq::si::square_centimetre"⟩,
  ⟨87, .reference, "units::isq::si::cgs::area_references", "cm2", "units::isq::si::cgs::dim_area", "units::isq::si::square_centimetre"⟩,
  ⟨87, .literal, "units::isq::si::cgs::literals", "_q_cm2", "units::isq::si::cgs::dim_area", "units::isq::si::square_centimetre"⟩,
  ⟨87, .literal, "units::isq::si::cgs::literals", "_q_cm2", "units::isq::si::cgs::dim_area", "units::isq::si::square_centimetre"⟩,
  ⟨87, .literal, "units::isq::si::cgs::literals", "_q_cm2", "units::isq::si::cgs::dim_area", "units::isq::si::square_centimetre"⟩,
  ⟨86, .rep, "units::aliases::isq::si::cgs::acceleration", "Gal", "units::isq::si::cgs::dim_acceleration", "units::isq::si::cgs::gal"⟩,
  ⟨86, .reference, "units::isq::si::cgs::acceleration_references", "Gal", "units::isq::si::cgs::dim_acceleration", "units::isq::si::cgs::gal"⟩,
  ⟨86, .literal, "units::isq::si::cgs::literals", "_q_Gal", "units::isq::si::cgs::dim_acceleration", "units::isq::si::cgs::gal"⟩,
  ⟨86, .literal, "units::isq::si::cgs::literals", "_q_Gal", "units::isq::si::cgs::dim_acceleration", "units::isq::si::cgs::gal"⟩,
  ⟨86, .literal, "units::isq::si::cgs::literals", "_q_Gal", "units::isq::si::cgs::dim_acceleration", "units::isq::si::cgs::gal"⟩,
  ⟨85, .rep, "units::aliases::isq::si::cgs::speed", "cm_per_s", "units::isq::si::cgs::dim_speed", "units::isq::si::cgs::centimetre_per_second"⟩,
  ⟨85, .literal, "units::isq::si::cgs::literals", "_q_cm_per_s", "units::isq::si::cgs::dim_speed", "units::isq::si::cgs::centimetre_per_second"⟩,
  ⟨85, .literal, "units::isq::si::cgs::literals", "_q_cm_per_s", "units::isq::si::cgs::dim_speed", "units::isq::si::cgs::centimetre_per_second"⟩,
  ⟨85, .literal, "units::isq::si::cgs::literals", "_q_cm_per_s", "units::isq::si::cgs::dim_speed", "units::isq::si::cgs::centimetre_per_second"⟩,
  ⟨84, .reference, "units::isq::si::cgs::time_references", "s", "units::isq::si::dim_time", "units::isq::si::second"⟩,
  ⟨84, .literal, "units::isq::si::cgs::literals", "_q_s", "units::isq::si::dim_time", "units::isq::si::second"⟩,
  ⟨84, .literal, "units::isq::si::cgs::literals", "_q_s", "units::isq::si::dim_time", "units::isq::si::second"⟩,
  ⟨83, .rep, "units::aliases::isq::si::cgs::length", "cm", "units::isq::si::cgs::dim_length", "units::isq::si::centimetre"⟩,
  ⟨83, .reference, "units::isq::si::cgs::length_references", "cm", "units::isq::si::cgs::dim_length", "units::isq::si::centimetre"⟩,
  ⟨83, .literal, "units::isq::si::cgs::literals", "_q_cm", "units::isq::si::cgs::dim_length", "units::isq::si::centimetre"⟩,
  ⟨83, .literal, "units::isq::si::cgs::literals", "_q_cm", "units::isq::si::cgs::dim_length", "units::isq::si::centimetre"⟩,
  ⟨83, .literal, "units::isq::si::cgs::literals", "_q_cm", "units::isq::si::cgs::dim_length", "units::isq::si::centimetre"⟩,
  ⟨82, .rep, "units::aliases::isq::si::catalytic_activity", "U", "units::isq::si::dim_catalytic_activity", "units::isq::si::enzyme_unit"⟩,
  ⟨82, .rep, "units::aliases::isq::si::catalytic_activity", "Ykat", "units::isq::si::dim_catalytic_activity", "units::isq::si::yottakatal"⟩,
  ⟨82, .rep, "units::aliases::isq::si::catalytic_activity", "Zkat", "units::isq::si::dim_catalytic_activity", "units::isq::si::zettakatal"⟩,
  ⟨82, .rep, "units::aliases::isq::si::catalytic_activity", "Ekat", "units::isq::si::dim_catalytic_activity", "units::isq::si::exakatal"⟩,
  ⟨82, .rep, "units::aliases::isq::si::catalytic_activity", "Pkat", "units::isq::si::dim_catalytic_activity", "units::isq::si::petakatal"⟩]

/-- Part 34 of `tagTable`. -/
def tagTable34 : List (TRow) := [
  ⟨82, .rep, "units::aliases::isq::si::catalytic_activity", "Tkat", "units::isq::si::dim_catalytic_activity", "units::isq::si::terakatal"⟩,
  ⟨82, .rep, "units::aliases::isq::si::catalytic_activity", "Gkat", "units::isq::si::dim_catalytic_activity", "units::isq::si::gigakatal"⟩,
  ⟨82, .rep, "units::aliases::isq::si::catalytic_activity", "Mkat", "units::isq::si::dim_catalytic_activity", "units::isq::si::megakatal"⟩,
  ⟨82, .rep, "units::aliases::isq::si::catalytic_activity", "kkat", "units::isq::si::dim_catalytic_activity", "units::isq::si::kilokatal"⟩,
  ⟨82, .rep, "units::aliases::isq::si::catalytic_activity", "hkat", "units::isq::si::dim_catalytic_activity", "units::isq::si::hectokatal"⟩,
  ⟨82, .rep, "units::aliases::isq::si::catalytic_activity", "dakat", "units::isq::si::dim_catalytic_activity", "units::isq::si::decakatal"⟩,
  ⟨82, .rep, "units::aliases::isq::si::catalytic_activity", "dkat", "units::isq::si::dim_catalytic_activity", "units::isq::si::decikatal"⟩,
  ⟨82, .rep, "units::aliases::isq::si::catalytic_activity", "ckat", "units::isq::si::dim_catalytic_activity", "units::isq::si::centikatal"⟩,
  ⟨82, .rep, "units::aliases::isq::si::catalytic_activity", "mkat", "units::isq::si::dim_catalytic_activity", "units::isq::si::millikatal"⟩,
  ⟨82, .rep, "units::aliases::isq::si::catalytic_activity", "ukat", "units::isq::si::dim_catalytic_activity", "units::isq::si::microkatal"⟩,
  ⟨82, .rep, "units::aliases::isq::si::catalytic_activity", "nkat", "units::isq::si::dim_catalytic_activity", "units::isq::si::nanokatal"⟩,
  ⟨82, .rep, "units::aliases::isq::si::catalytic_activity", "pkat", "units::isq::si::dim_catalytic_activity", "units::isq::si::picokatal"⟩,
  ⟨82, .rep, "units::aliases::isq::si::catalytic_activity", "fkat", "units::isq::si::dim_catalytic_activity", "units::isq::si::femtokatal"⟩,
  ⟨82, .rep, "units::aliases::isq::si::catalytic_activity", "akat", "units::isq::si::dim_catalytic_activity", "units::isq::si::attokatal"⟩,
  ⟨82, .rep, "units::aliases::isq::si::catalytic_activity", "zkat", "units::isq::si::dim_catalytic_activity", "units::isq::si::zeptokatal"⟩,
  ⟨82, .rep, "units::aliases::isq::si::catalytic_activity", "ykat", "units::isq::si::dim_catalytic_activity", "units::isq::si::yoctokatal"⟩,
  ⟨82, .rep, "units::aliases::isq::si::catalytic_activity", "kat", "units::isq::si::dim_catalytic_activity", "units::isq::si::katal"⟩,
  ⟨82, .reference, "units::isq::si::catalytic_activity_references", "U", "units::isq::si::dim_catalytic_activity", "units::isq::si::enzyme_unit"⟩,
  ⟨82, .reference, "units::isq::si::catalytic_activity_references", "Ykat", "units::isq::si::dim_catalytic_activity", "units::isq::si::yottakatal"⟩,
  ⟨82, .reference, "units::isq::si::catalytic_activity_references", "Zkat", "units::isq::si::dim_catalytic_activity", "units::isq::si::zettakatal"⟩,
  ⟨82, .reference, "units::isq::si::catalytic_activity_references", "Ekat", "units::isq::si::dim_catalytic_activity", "units::isq::si::exakatal"⟩,
  ⟨82, .reference, "units::isq::si::catalytic_activity_references", "Pkat", "units::isq::si::dim_catalytic_activity", "units::isq::si::petakatal"⟩,
  ⟨82, .reference, "units::isq::si::catalytic_activity_references", "Tkat", "units::isq::si::dim_catalytic_activity", "units::isq::si::terakatal"⟩,
  ⟨82, .reference, "units::isq::si::catalytic_activity_references", "Gkat", "units::isq::si::dim_catalytic_activity", "units::isq::si::gigakatal"⟩,
  ⟨82, .reference, "units::isq::si::catalytic_activity_references", "Mkat", "units::isq::si::dim_catalytic_activity", "units::isq::si::megakatal"⟩,
  ⟨82, .reference, "units::isq::si::catalytic_activity_references", "kkat", "units::isq::si::dim_catalytic_activity", "units::isq::si::kilokatal"⟩,
  ⟨82, .reference, "units::isq::si::catalytic_activity_references", "hkat", "units::isq::si::dim_catalytic_activity", "units::isq::si::hectokatal"⟩,
  ⟨82, .reference, "units::isq::si::catalytic_activity_references", "dakat", "units::isq::si::dim_catalytic_activity", "units::isq::si::decakatal"⟩,
  ⟨82, .reference, "units::isq::si::catalytic_activity_references", "dkat", "units::isq::si::dim_catalytic_activity", "units::isq::si::decikatal"⟩,
  ⟨82, .reference, "units::isq::si::catalytic_activity_references", "ckat", "units::isq::si::dim_catalytic_activity", "units::isq::si::centikatal"⟩,
  ⟨82, .reference, "units::isq::si::catalytic_activity_references", "mkat", "units::isq::si::dim_catalytic_activity", "units::isq::si::millikatal"⟩,
  ⟨82, .reference, "units::isq::si::catalytic_activity_references", "ukat", "units::isq::si::dim_catalytic_activity", "units::isq::si::microkatal"⟩,
  ⟨82, .reference, "units::isq::si::catalytic_activity_references", "nkat", "units::isq::si::dim_catalytic_activity", "units::isq::si::nanokatal"⟩,
  ⟨82, .reference, "units::isq::si::catalytic_activity_references", "pkat", "units::isq::si::dim_catalytic_activity", "units::isq::si::picokatal"⟩,
  ⟨82, .reference, "units::isq::si::catalytic_activity_references", "fkat", "units::isq::si::dim_catalytic_activity", "units::isq::si::femtokatal"⟩,
  ⟨82, .reference, "units::isq::si::catalytic_activity_references", "akat", "units::isq::si::dim_catalytic_activity", "units::isq::si::attokatal"⟩,
  ⟨82, .reference, "units::isq::si::catalytic_activity_references", "zkat", "units::isq::si::dim_catalytic_activity", "units::isq::si::zeptokatal"⟩,
  ⟨82, .reference, "units::isq::si::catalytic_activity_references", "ykat", "units::isq::si::dim_catalytic_activity", "units::isq::si::yoctokatal"⟩,
  ⟨82, .reference, "units::isq::si::catalytic_activity_references", "kat", "units::isq::si::dim_catalytic_activity", "units::isq::si::katal"⟩,
  ⟨82, .literal, "units::isq::si::literals", "_q_U", "units::isq::si::dim_catalytic_activity", "units::isq::si::enzyme_unit"⟩]

/-- Part 35 of `tagTable`. -/
def tagTable35 : List (TRow) := [
  ⟨82, .literal, "units::isq::si::literals", "_q_U", "units::isq::si::dim_catalytic_activity", "units::isq::si::enzyme_unit"⟩,
  ⟨82, .literal, "units::isq::si::literals", "_q_U", "units::isq::si::dim_catalytic_activity", "units::isq::si::enzyme_unit"⟩,
  ⟨82, .literal, "units::isq::si::literals", "_q_Ykat", "units::isq::si::dim_catalytic_activity", "units::isq::si::yottakatal"⟩,
  ⟨82, .literal, "units::isq::si::literals", "_q_Ykat", "units::isq::si::dim_catalytic_activity", "units::isq::si::yottakatal"⟩,
  ⟨82, .literal, "units::isq::si::literals", "_q_Ykat", "units::isq::si::dim_catalytic_activity", "units::isq::si::yottakatal"⟩,
  ⟨82, .literal, "units::isq::si::literals", "_q_Zkat", "units::isq::si::dim_catalytic_activity", "units::isq::si::zettakatal"⟩,
  ⟨82, .literal, "units::isq::si::literals", "_q_Zkat", "units::isq::si::dim_catalytic_activity", "units::isq::si::zettakatal"⟩,
  ⟨82, .literal, "units::isq::si::literals", "_q_Zkat", "units::isq::si::dim_catalytic_activity", "units::isq::si::zettakatal"⟩,
  ⟨82, .literal, "units::isq::si::literals", "_q_Ekat", "units::isq::si::dim_catalytic_activity", "units::isq::si::exakatal"⟩,
  ⟨82, .literal, "units::isq::si::literals", "_q_Ekat", "units::isq::si::dim_catalytic_activity", "units::isq::si::exakatal"⟩,
  ⟨82, .literal, "units::isq::si::literals", "_q_Ekat", "units::isq::si::dim_catalytic_activity", "units::isq::si::exakatal"⟩,
  ⟨82, .literal, "units::isq::si::literals", "_q_Pkat", "units::isq::si::dim_catalytic_activity", "units::isq::si::petakatal"⟩,
  ⟨82, .literal, "units::isq::si::literals", "_q_Pkat", "units::isq::si::dim_catalytic_activity", "units::isq::si::petakatal"⟩,
  ⟨82, .literal, "units::isq::si::literals", "_q_Pkat", "units::isq::si::dim_catalytic_activity", "units::isq::si::petakatal"⟩,
  ⟨82, .literal, "units::isq::si::literals", "_q_Tkat", "units::isq::si::dim_catalytic_activity", "units::isq::si::terakatal"⟩,
  ⟨82, .literal, "units::isq::si::literals", "_q_Tkat", "units::isq::si::dim_catalytic_activity", "units::isq::si::terakatal"⟩,
  ⟨82, .literal, "units::isq::si::literals", "_q_Tkat", "units::isq::si::dim_catalytic_activity", "units::isq::si::terakatal"⟩,
  ⟨82, .literal, "units::isq::si::literals", "_q_Gkat", "units::isq::si::dim_catalytic_activity", "units::isq::si::gigakatal"⟩,
  ⟨82, .literal, "units::isq::si::literals", "_q_Gkat", "units::isq::si::dim_catalytic_activity", "units::isq::si::gigakatal"⟩,
  ⟨82, .literal, "units::isq::si::literals", "_q_Gkat", "units::isq::si::dim_catalytic_activity", "units::isq::si::gigakatal"⟩,
  ⟨82, .literal, "units::isq::si::literals", "_q_Mkat", "units::isq::si::dim_catalytic_activity", "units::isq::si::megakatal"⟩,
  ⟨82, .literal, "units::isq::si::literals", "_q_Mkat", "units::isq::si::dim_catalytic_activity", "units::isq::si::megakatal"⟩,
  ⟨82, .literal, "units::isq::si::literals", "_q_Mkat", "units::isq::si::dim_catalytic_activity", "units::isq::si::megakatal"⟩,
  ⟨82, .literal, "units::isq::si::literals", "_q_kkat", "units::isq::si::dim_catalytic_activity", "units::isq::si::kilokatal"⟩,
  ⟨82, .literal, "units::isq::si::literals", "_q_kkat", "units::isq::si::dim_catalytic_activity", "units::isq::si::kilokatal"⟩,
  ⟨82, .literal, "units::isq::si::literals", "_q_kkat", "units::isq::si::dim_catalytic_activity", "units::isq::si::kilokatal"⟩,
  ⟨82, .literal, "units::isq::si::literals", "_q_hkat", "units::isq::si::dim_catalytic_activity", "units::isq::si::hectokatal"⟩,
  ⟨82, .literal, "units::isq::si::literals", "_q_hkat", "units::isq::si::dim_catalytic_activity", "units::isq::si::hectokatal"⟩,
  ⟨82, .literal, "units::isq::si::literals", "_q_hkat", "units::isq::si::dim_catalytic_activity", "units::isq::si::hectokatal"⟩,
  ⟨82, .literal, "units::isq::si::literals", "_q_dakat", "units::isq::si::dim_catalytic_activity", "units::isq::si::decakatal"⟩,
  ⟨82, .literal, "units::isq::si::literals", "_q_dakat", "units::isq::si::dim_catalytic_activity", "units::isq::si::decakatal"⟩,
  ⟨82, .literal, "units::isq::si::literals", "_q_dakat", "units::isq::si::dim_catalytic_activity", "units::isq::si::decakatal"⟩,
  ⟨82, .literal, "units::isq::si::literals", "_q_dkat", "units::isq::si::dim_catalytic_activity", "units::isq::si::decikatal"⟩,
  ⟨82, .literal, "units::isq::si::literals", "_q_dkat", "units::isq::si::dim_catalytic_activity", "units::isq::si::decikatal"⟩,
  ⟨82, .literal, "units::isq::si::literals", "_q_dkat", "units::isq::si::dim_catalytic_activity", "units::isq::si::decikatal"⟩,
  ⟨82, .literal, "units::isq::si::literals", "_q_ckat", "units::isq::si::dim_catalytic_activity", "units::isq::si::centikatal"⟩,
  ⟨82, .literal, "units::isq::si::literals", "_q_ckat", "units::isq::si::dim_catalytic_activity", "units::isq::si::centikatal"⟩,
  ⟨82, .literal, "units::isq::si::literals", "_q_ckat", "units::isq::si::dim_catalytic_activity", "units::isq::si::centikatal"⟩,
  ⟨82, .literal, "units::isq::si::literals", "_q_mkat", "units::isq::si::dim_catalytic_activity", "units::isq::si::millikatal"⟩,
  ⟨82, .literal, "units::isq::si::literals", "_q_mkat", "units::isq::si::dim_catalytic_activity", "units::isq::si::millikatal"⟩]

/-- Part 36 of `tagTable`. -/
def tagTable36 : List (TRow) := [
  ⟨82, .literal, "units::isq::si::literals", "_q_mkat", "units::isq::si::dim_catalytic_activity", "units::isq::si::millikatal"⟩,
  ⟨82, .literal, "units::isq::si::literals", "_q_ukat", "units::isq::si::dim_catalytic_activity", "units::isq::si::microkatal"⟩,
  ⟨82, .literal, "units::isq::si::literals", "_q_ukat", "units::isq::si::dim_catalytic_activity", "units::isq::si::microkatal"⟩,
  ⟨82, .literal, "units::isq::si::literals", "_q_ukat", "units::isq::si::dim_catalytic_activity", "units::isq::si::microkatal"⟩,
  ⟨82, .literal, "units::isq::si::literals", "_q_nkat", "units::isq::si::dim_catalytic_activity", "units::isq::si::nanokatal"⟩,
  ⟨82, .literal, "units::isq::si::literals", "_q_nkat", "units::isq::si::dim_catalytic_activity", "units::isq::si::nanokatal"⟩,
  ⟨82, .literal, "units::isq::si::literals", "_q_nkat", "units::isq::si::dim_catalytic_activity", "units::isq::si::nanokatal"⟩,
  ⟨82, .literal, "units::isq::si::literals", "_q_pkat", "units::isq::si::dim_catalytic_activity", "units::isq::si::picokatal"⟩,
  ⟨82, .literal, "units::isq::si::literals", "_q_pkat", "units::isq::si::dim_catalytic_activity", "units::isq::si::picokatal"⟩,
  ⟨82, .literal, "units::isq::si::literals", "_q_pkat", "units::isq::si::dim_catalytic_activity", "units::isq::si::picokatal"⟩,
  ⟨82, .literal, "units::isq::si::literals", "_q_fkat", "units::isq::si::dim_catalytic_activity", "units::isq::si::femtokatal"⟩,
  ⟨82, .literal, "units::isq::si::literals", "_q_fkat", "units::isq::si::dim_catalytic_activity", "units::isq::si::femtokatal"⟩,
  ⟨82, .literal, "units::isq::si::literals", "_q_fkat", "units::isq::si::dim_catalytic_activity", "units::isq::si::femtokatal"⟩,
  ⟨82, .literal, "units::isq::si::literals", "_q_akat", "units::isq::si::dim_catalytic_activity", "units::isq::si::attokatal"⟩,
  ⟨82, .literal, "units::isq::si::literals", "_q_akat", "units::isq::si::dim_catalytic_activity", "units::isq::si::attokatal"⟩,
  ⟨82, .literal, "units::isq::si::literals", "_q_akat", "units::isq::si::dim_catalytic_activity", "units::isq::si::attokatal"⟩,
  ⟨82, .literal, "units::isq::si::literals", "_q_zkat", "units::isq::si::dim_catalytic_activity", "units::isq::si::zeptokatal"⟩,
  ⟨82, .literal, "units::isq::si::literals", "_q_zkat", "units::isq::si::dim_catalytic_activity", "units::isq::si::zeptokatal"⟩,
  ⟨82, .literal, "units::isq::si::literals", "_q_zkat", "units::isq::si::dim_catalytic_activity", "units::isq::si::zeptokatal"⟩,
  ⟨82, .literal, "units::isq::si::literals", "_q_ykat", "units::isq::si::dim_catalytic_activity", "units::isq::si::yoctokatal"⟩,
  ⟨82, .literal, "units::isq::si::literals", "_q_ykat", "units::isq::si::dim_catalytic_activity", "units::isq::si::yoctokatal"⟩,
  ⟨82, .literal, "units::isq::si::literals", "_q_ykat", "units::isq::si::dim_catalytic_activity", "units::isq::si::yoctokatal"⟩,
  ⟨82, .literal, "units::isq::si::literals", "_q_kat", "units::isq::si::dim_catalytic_activity", "units::isq::si::katal"⟩,
  ⟨82, .literal, "units::isq::si::literals", "_q_kat", "units::isq::si::dim_catalytic_activity", "units::isq::si::katal"⟩,
  ⟨82, .literal, "units::isq::si::literals", "_q_kat", "units::isq::si::dim_catalytic_activity", "units::isq::si::katal"⟩,
  ⟨81, .rep, "units::aliases::isq::si::capacitance", "YF", "units::isq::si::dim_capacitance", "units::isq::si::yottafarad"⟩,
  ⟨81, .rep, "units::aliases::isq::si::capacitance", "ZF", "units::isq::si::dim_capacitance", "units::isq::si::zettafarad"⟩,
  ⟨81, .rep, "units::aliases::isq::si::capacitance", "EF", "units::isq::si::dim_capacitance", "units::isq::si::exafarad"⟩,
  ⟨81, .rep, "units::aliases::isq::si::capacitance", "PF", "units::isq::si::dim_capacitance", "units::isq::si::petafarad"⟩,
  ⟨81, .rep, "units::aliases::isq::si::capacitance", "TF", "units::isq::si::dim_capacitance", "units::isq::si::terafarad"⟩,
  ⟨81, .rep, "units::aliases::isq::si::capacitance", "GF", "units::isq::si::dim_capacitance", "units::isq::si::gigafarad"⟩,
  ⟨81, .rep, "units::aliases::isq::si::capacitance", "MF", "units::isq::si::dim_capacitance", "units::isq::si::megafarad"⟩,
  ⟨81, .rep, "units::aliases::isq::si::capacitance", "kF", "units::isq::si::dim_capacitance", "units::isq::si::kilofarad"⟩,
  ⟨81, .rep, "units::aliases::isq::si::capacitance", "hF", "units::isq::si::dim_capacitance", "units::isq::si::hectofarad"⟩,
  ⟨81, .rep, "units::aliases::isq::si::capacitance", "daF", "units::isq::si::dim_capacitance", "units::isq::si::decafarad"⟩,
  ⟨81, .rep, "units::aliases::isq::si::capacitance", "dF", "units::isq::si::dim_capacitance", "units::isq::si::decifarad"⟩,
  ⟨81, .rep, "units::aliases::isq::si::capacitance", "cF", "units::isq::si::dim_capacitance", "units::isq::si::centifarad"⟩,
  ⟨81, .rep, "units::aliases::isq::si::capacitance", "mF", "units::isq::si::dim_capacitance", "units::isq::si::millifarad"⟩,
  ⟨81, .rep, "units::aliases::isq::si::capacitance", "uF", "units::isq::si::dim_capacitance", "units::isq::si::microfarad"⟩,
  ⟨81, .rep, "units::aliases::isq::si::capacitance", "nF", "units::isq::si::dim_capacitance", "units::isq::si::nanofarad"⟩]

/-- Part 37 of `tagTable`. -/
def tagTable37 : List (TRow) := [
  ⟨81, .rep, "units::aliases::isq::si::capacitance", "pF", "units::isq::si::dim_capacitance", "units::isq::si::picofarad"⟩,
  ⟨81, .rep, "units::aliases::isq::si::capacitance", "fF", "units::isq::si::dim_capacitance", "units::isq::si::femtofarad"⟩,
  ⟨81, .rep, "units::aliases::isq::si::capacitance", "aF", "units::isq::si::dim_capacitance", "units::isq::si::attofarad"⟩,
  ⟨81, .rep, "units::aliases::isq::si::capacitance", "zF", "units::isq::si::dim_capacitance", "units::isq::si::zeptofarad"⟩,
  ⟨81, .rep, "units::aliases::isq::si::capacitance", "yF", "units::isq::si::dim_capacitance", "units::isq::si::yoctofarad"⟩,
  ⟨81, .rep, "units::aliases::isq::si::capacitance", "F", "units::isq::si::dim_capacitance", "units::isq::si::farad"⟩,
  ⟨81, .reference, "units::isq::si::capacitance_references", "YF", "units::isq::si::dim_capacitance", "units::isq::si::yottafarad"⟩,
  ⟨81, .reference, "units::isq::si::capacitance_references", "ZF", "units::isq::si::dim_capacitance", "units::isq::si::zettafarad"⟩,
  ⟨81, .reference, "units::isq::si::capacitance_references", "EF", "units::isq::si::dim_capacitance", "units::isq::si::exafarad"⟩,
  ⟨81, .reference, "units::isq::si::capacitance_references", "PF", "units::isq::si::dim_capacitance", "units::isq::si::petafarad"⟩,
  ⟨81, .reference, "units::isq::si::capacitance_references", "TF", "units::isq::si::dim_capacitance", "units::isq::si::terafarad"⟩,
  ⟨81, .reference, "units::isq::si::capacitance_references", "GF", "units::isq::si::dim_capacitance", "units::isq::si::gigafarad"⟩,
  ⟨81, .reference, "units::isq::si::capacitance_references", "MF", "units::isq::si::dim_capacitance", "units::isq::si::megafarad"⟩,
  ⟨81, .reference, "units::isq::si::capacitance_references", "kF", "units::isq::si::dim_capacitance", "units::isq::si::kilofarad"⟩,
  ⟨81, .reference, "units::isq::si::capacitance_references", "hF", "units::isq::si::dim_capacitance", "units::isq::si::hectofarad"⟩,
  ⟨81, .reference, "units::isq::si::capacitance_references", "daF", "units::isq::si::dim_capacitance", "units::isq::si::decafarad"⟩,
  ⟨81, .reference, "units::isq::si::capacitance_references", "dF", "units::isq::si::dim_capacitance", "units::isq::si::decifarad"⟩,
  ⟨81, .reference, "units::isq::si::capacitance_references", "cF", "units::isq::si::dim_capacitance", "units::isq::si::centifarad"⟩,
  ⟨81, .reference, "units::isq::si::capacitance_references", "mF", "units::isq::si::dim_capacitance", "units::isq::si::millifarad"⟩,
  ⟨81, .reference, "units::isq::si::capacitance_references", "uF", "units::isq::si::dim_capacitance", "units::isq::si::microfarad"⟩,
  ⟨81, .reference, "units::isq::si::capacitance_references", "nF", "units::isq::si::dim_capacitance", "units::isq::si::nanofarad"⟩,
  ⟨81, .reference, "units::isq::si::capacitance_references", "pF", "units::isq::si::dim_capacitance", "units::isq::si::picofarad"⟩,
  ⟨81, .reference, "units::isq::si::capacitance_references", "fF", "units::isq::si::dim_capacitance", "units::isq::si::femtofarad"⟩,
  ⟨81, .reference, "units::isq::si::capacitance_references", "aF", "units::isq::si::dim_capacitance", "units::isq::si::attofarad"⟩,
  ⟨81, .reference, "units::isq::si::capacitance_references", "zF", "units::isq::si::dim_capacitance", "units::isq::si::zeptofarad"⟩,
  ⟨81, .reference, "units::isq::si::capacitance_references", "yF", "units::isq::si::dim_capacitance", "units::isq::si::yoctofarad"⟩,
  ⟨81, .reference, "units::isq::si::capacitance_references", "F", "units::isq::si::dim_capacitance", "units::isq::si::farad"⟩,
  ⟨81, .literal, "units::isq::si::literals", "_q_YF", "units::isq::si::dim_capacitance", "units::isq::si::yottafarad"⟩,
  ⟨81, .literal, "units::isq::si::literals", "_q_YF", "units::isq::si::dim_capacitance", "units::isq::si::yottafarad"⟩,
  ⟨81, .literal, "units::isq::si::literals", "_q_YF", "units::isq::si::dim_capacitance", "units::isq::si::yottafarad"⟩,
  ⟨81, .literal, "units::isq::si::literals", "_q_ZF", "units::isq::si::dim_capacitance", "units::isq::si::zettafarad"⟩,
  ⟨81, .literal, "units::isq::si::literals", "_q_ZF", "units::isq::si::dim_capacitance", "units::isq::si::zettafarad"⟩,
  ⟨81, .literal, "units::isq::si::literals", "_q_ZF", "units::isq::si::dim_capacitance", "units::isq::si::zettafarad"⟩,
  ⟨81, .literal, "units::isq::si::literals", "_q_EF", "units::isq::si::dim_capacitance", "units::isq::si::exafarad"⟩,
  ⟨81, .literal, "units::isq::si::literals", "_q_EF", "units::isq::si::dim_capacitance", "units::isq::si::exafarad"⟩,
  ⟨81, .literal, "units::isq::si::literals", "_q_EF", "units::isq::si::dim_capacitance", "units::isq::si::exafarad"⟩,
  ⟨81, .literal, "units::isq::si::literals", "_q_PF", "units::isq::si::dim_capacitance", "units::isq::si::petafarad"⟩,
  ⟨81, .literal, "units::isq::si::literals", "_q_PF", "units::isq::si::dim_capacitance", "units::isq::si::petafarad"⟩,
  ⟨81, .literal, "units::isq::si::literals", "_q_PF", "units::isq::si::dim_capacitance", "units::isq::si::petafarad"⟩,
  ⟨81, .literal, "units::isq::si::literals", "_q_TF", "units::isq::si::dim_capacitance", "units::isq::si::terafarad"⟩]

/-- Part 38 of `tagTable`. -/
def tagTable38 : List (TRow) := [
  ⟨81, .literal, "units::isq::si::literals", "_q_TF", "units::isq::si::dim_capacitance", "units::isq::si::terafarad"⟩,
  ⟨81, .literal, "units::isq::si::literals", "_q_TF", "units::isq::si::dim_capacitance", "units::isq::si::terafarad"⟩,
  ⟨81, .literal, "units::isq::si::literals", "_q_GF", "units::isq::si::dim_capacitance", "units::isq::si::gigafarad"⟩,
  ⟨81, .literal, "units::isq::si::literals", "_q_GF", "units::isq::si::dim_capacitance", "units::isq::si::gigafarad"⟩,
  ⟨81, .literal, "units::isq::si::literals", "_q_GF", "units::isq::si::dim_capacitance", "units::isq::si::gigafarad"⟩,
  ⟨81, .literal, "units::isq::si::literals", "_q_MF", "units::isq::si::dim_capacitance", "units::isq::si::megafarad"⟩,
  ⟨81, .literal, "units::isq::si::literals", "_q_MF", "units::isq::si::dim_capacitance", "units::isq::si::megafarad"⟩,
  ⟨81, .literal, "units::isq::si::literals", "_q_MF", "units::isq::si::dim_capacitance", "units::isq::si::megafarad"⟩,
  ⟨81, .literal, "units::isq::si::literals", "_q_kF", "units::isq::si::dim_capacitance", "units::isq::si::kilofarad"⟩,
  ⟨81, .literal, "units::isq::si::literals", "_q_kF", "units::isq::si::dim_capacitance", "units::isq::si::kilofarad"⟩,
  ⟨81, .literal, "units::isq::si::literals", "_q_kF", "units::isq::si::dim_capacitance", "units::isq::si::kilofarad"⟩,
  ⟨81, .literal, "units::isq::si::literals", "_q_hF", "units::isq::si::dim_capacitance", "units::isq::si::hectofarad"⟩,
  ⟨81, .literal, "units::isq::si::literals", "_q_hF", "units::isq::si::dim_capacitance", "units::isq::si::hectofarad"⟩,
  ⟨81, .literal, "units::isq::si::literals", "_q_hF", "units::isq::si::dim_capacitance", "units::isq::si::hectofarad"⟩,
  ⟨81, .literal, "units::isq::si::literals", "_q_daF", "units::isq::si::dim_capacitance", "units::isq::si::decafarad"⟩,
  ⟨81, .literal, "units::isq::si::literals", "_q_daF", "units::isq::si::dim_capacitance", "units::isq::si::decafarad"⟩,
  ⟨81, .literal, "units::isq::si::literals", "_q_daF", "units::isq::si::dim_capacitance", "units::isq::si::decafarad"⟩,
  ⟨81, .literal, "units::isq::si::literals", "_q_dF", "units::isq::si::dim_capacitance", "units::isq::si::decifarad"⟩,
  ⟨81, .literal, "units::isq::si::literals", "_q_dF", "units::isq::si::dim_capacitance", "units::isq::si::decifarad"⟩,
  ⟨81, .literal, "units::isq::si::literals", "_q_dF", "units::isq::si::dim_capacitance", "units::isq::si::decifarad"⟩,
  ⟨81, .literal, "units::isq::si::literals", "_q_cF", "units::isq::si::dim_capacitance", "units::isq::si::centifarad"⟩,
  ⟨81, .literal, "units::isq::si::literals", "_q_cF", "units::isq::si::dim_capacitance", "units::isq::si::centifarad"⟩,
  ⟨81, .literal, "units::isq::si::literals", "_q_cF", "units::isq::si::dim_capacitance", "units::isq::si::centifarad"⟩,
  ⟨81, .literal, "units::isq::si::literals", "_q_mF", "units::isq::si::dim_capacitance", "units::isq::si::millifarad"⟩,
  ⟨81, .literal, "units::isq::si::literals", "_q_mF", "units::isq::si::dim_capacitance", "units::isq::si::millifarad"⟩,
  ⟨81, .literal, "units::isq::si::literals", "_q_mF", "units::isq::si::dim_capacitance", "units::isq::si::millifarad"⟩,
  ⟨81, .literal, "units::isq::si::literals", "_q_uF", "units::isq::si::dim_capacitance", "units::isq::si::microfarad"⟩,
  ⟨81, .literal, "units::isq::si::literals", "_q_uF", "units::isq::si::dim_capacitance", "units::isq::si::microfarad"⟩,
  ⟨81, .literal, "units::isq::si::literals", "_q_uF", "units::isq::si::dim_capacitance", "units::isq::si::microfarad"⟩,
  ⟨81, .literal, "units::isq::si::literals", "_q_nF", "units::isq::si::dim_capacitance", "units::isq::si::nanofarad"⟩,
  ⟨81, .literal, "units::isq::si::literals", "_q_nF", "units::isq::si::dim_capacitance", "units::isq::si::nanofarad"⟩,
  ⟨81, .literal, "units::isq::si::literals", "_q_nF", "units::isq::si::dim_capacitance", "units::isq::si::nanofarad"⟩,
  ⟨81, .literal, "units::isq::si::literals", "_q_pF", "units::isq::si::dim_capacitance", "units::isq::si::picofarad"⟩,
  ⟨81, .literal, "units::isq::si::literals", "_q_pF", "units::isq::si::dim_capacitance", "units::isq::si::picofarad"⟩,
  ⟨81, .literal, "units::isq::si::literals", "_q_pF", "units::isq::si::dim_capacitance", "units::isq::si::picofarad"⟩,
  ⟨81, .literal, "units::isq::si::literals", "_q_fF", "units::isq::si::dim_capacitance", "units::isq::si::femtofarad"⟩,
  ⟨81, .literal, "units::isq::si::literals", "_q_fF", "units::isq::si::dim_capacitance", "units::isq::si::femtofarad"⟩,
  ⟨81, .literal, "units::isq::si::literals", "_q_fF", "units::isq::si::dim_capacitance", "units::isq::si::femtofarad"⟩,
  ⟨81, .literal, "units::isq::si::literals", "_q_aF", "units::isq::si::dim_capacitance", "units::isq::si::attofarad"⟩,
  ⟨81, .literal, "units::isq::si::literals", "_q_aF", "units::isq::si::dim_capacitance", "units::isq::si::attofarad"⟩]

/-- Part 39 of `tagTable`. -/
def tagTable39 : List (TRow) := [
  ⟨81, .literal, "units::isq::si::literals", "_q_aF", "units::isq::si::dim_capacitance", "units::isq::si::attofarad"⟩,
  ⟨81, .literal, "units::isq::si::literals", "_q_zF", "units::isq::si::dim_capacitance", "units::isq::si::zeptofarad"⟩,
  ⟨81, .literal, "units::isq::si::literals", "_q_zF", "units::isq::si::dim_capacitance", "units::isq::si::zeptofarad"⟩,
  ⟨81, .literal, "units::isq::si::literals", "_q_zF", "units::isq::si::dim_capacitance", "units::isq::si::zeptofarad"⟩,
  ⟨81, .literal, "units::isq::si::literals", "_q_yF", "units::isq::si::dim_capacitance", "units::isq::si::yoctofarad"⟩,
  ⟨81, .literal, "units::isq::si::literals", "_q_yF", "units::isq::si::dim_capacitance", "units::isq::si::yoctofarad"⟩,
  ⟨81, .literal, "units::isq::si::literals", "_q_yF", "units::isq::si::dim_capacitance", "units::isq::si::yoctofarad"⟩,
  ⟨81, .literal, "units::isq::si::literals", "_q_F", "units::isq::si::dim_capacitance", "units::isq::si::farad"⟩,
  ⟨81, .literal, "units::isq::si::literals", "_q_F", "units::isq::si::dim_capacitance", "units::isq::si::farad"⟩,
  ⟨81, .literal, "units::isq::si::literals", "_q_F", "units::isq::si::dim_capacitance", "units::isq::si::farad"⟩,
  ⟨80, .rep, "units::aliases::isq::si::voltage", "YV", "units::isq::si::dim_voltage", "units::isq::si::yottavolt"⟩,
  ⟨80, .rep, "units::aliases::isq::si::voltage", "ZV", "units::isq::si::dim_voltage", "units::isq::si::zettavolt"⟩,
  ⟨80, .rep, "units::aliases::isq::si::voltage", "EV", "units::isq::si::dim_voltage", "units::isq::si::exavolt"⟩,
  ⟨80, .rep, "units::aliases::isq::si::voltage", "PV", "units::isq::si::dim_voltage", "units::isq::si::petavolt"⟩,
  ⟨80, .rep, "units::aliases::isq::si::voltage", "TV", "units::isq::si::dim_voltage", "units::isq::si::teravolt"⟩,
  ⟨80, .rep, "units::aliases::isq::si::voltage", "GV", "units::isq::si::dim_voltage", "units::isq::si::gigavolt"⟩,
  ⟨80, .rep, "units::aliases::isq::si::voltage", "MV", "units::isq::si::dim_voltage", "units::isq::si::megavolt"⟩,
  ⟨80, .rep, "units::aliases::isq::si::voltage", "kV", "units::isq::si::dim_voltage", "units::isq::si::kilovolt"⟩,
  ⟨80, .rep, "units::aliases::isq::si::voltage", "hV", "units::isq::si::dim_voltage", "units::isq::si::hectovolt"⟩,
  ⟨80, .rep, "units::aliases::isq::si::voltage", "daV", "units::isq::si::dim_voltage", "units::isq::si::decavolt"⟩,
  ⟨80, .rep, "units::aliases::isq::si::voltage", "dV", "units::isq::si::dim_voltage", "units::isq::si::decivolt"⟩,
  ⟨80, .rep, "units::aliases::isq::si::voltage", "cV", "units::isq::si::dim_voltage", "units::isq::si::centivolt"⟩,
  ⟨80, .rep, "units::aliases::isq::si::voltage", "mV", "units::isq::si::dim_voltage", "units::isq::si::millivolt"⟩,
  ⟨80, .rep, "units::aliases::isq::si::voltage", "uV", "units::isq::si::dim_voltage", "units::isq::si::microvolt"⟩,
  ⟨80, .rep, "units::aliases::isq::si::voltage", "nV", "units::isq::si::dim_voltage", "units::isq::si::nanovolt"⟩,
  ⟨80, .rep, "units::aliases::isq::si::voltage", "pV", "units::isq::si::dim_voltage", "units::isq::si::picovolt"⟩,
  ⟨80, .rep, "units::aliases::isq::si::voltage", "fV", "units::isq::si::dim_voltage", "units::isq::si::femtovolt"⟩,
  ⟨80, .rep, "units::aliases::isq::si::voltage", "aV", "units::isq::si::dim_voltage", "units::isq::si::attovolt"⟩,
  ⟨80, .rep, "units::aliases::isq::si::voltage", "zV", "units::isq::si::dim_voltage", "units::isq::si::zeptovolt"⟩,
  ⟨80, .rep, "units::aliases::isq::si::voltage", "yV", "units::isq::si::dim_voltage", "units::isq::si::yoctovolt"⟩,
  ⟨80, .rep, "units::aliases::isq::si::voltage", "V", "units::isq::si::dim_voltage", "units::isq::si::volt"⟩,
  ⟨80, .reference, "units::isq::si::voltage_references", "YV", "units::isq::si::dim_voltage", "units::isq::si::yottavolt"⟩,
  ⟨80, .reference, "units::isq::si::voltage_references", "ZV", "units::isq::si::dim_voltage", "units::isq::si::zettavolt"⟩,
  ⟨80, .reference, "units::isq::si::voltage_references", "EV", "units::isq::si::dim_voltage", "units::isq::si::exavolt"⟩,
  ⟨80, .reference, "units::isq::si::voltage_references", "PV", "units::isq::si::dim_voltage", "units::isq::si::petavolt"⟩,
  ⟨80, .reference, "units::isq::si::voltage_references", "TV", "units::isq::si::dim_voltage", "units::isq::si::teravolt"⟩,
  ⟨80, .reference, "units::isq::si::voltage_references", "GV", "units::isq::si::dim_voltage", "units::isq::si::gigavolt"⟩,
  ⟨80, .reference, "units::isq::si::voltage_references", "MV", "units::isq::si::dim_voltage", "units::isq::si::megavolt"⟩,
  ⟨80, .reference, "units::isq::si::voltage_references", "kV", "units::isq::si::dim_voltage", "units::isq::si::kilovolt"⟩,
  ⟨80, .reference, "units::isq::si::voltage_references", "hV", "units::isq::si::dim_voltage", "units::isq::si::hectovolt"⟩]

/-- Part 40 of `tagTable`. -/
def tagTable40 : List (TRow) := [
  ⟨80, .reference, "units::isq::si::voltage_references", "daV", "units::isq::si::dim_voltage", "units::isq::si::decavolt"⟩,
  ⟨80, .reference, "units::isq::si::voltage_references", "dV", "units::isq::si::dim_voltage", "units::isq::si::decivolt"⟩,
  ⟨80, .reference, "units::isq::si::voltage_references", "cV", "units::isq::si::dim_voltage", "units::isq::si::centivolt"⟩,
  ⟨80, .reference, "units::isq::si::voltage_references", "mV", "units::isq::si::dim_voltage", "units::isq::si::millivolt"⟩,
  ⟨80, .reference, "units::isq::si::voltage_references", "uV", "units::isq::si::dim_voltage", "units::isq::si::microvolt"⟩,
  ⟨80, .reference, "units::isq::si::voltage_references", "nV", "units::isq::si::dim_voltage", "units::isq::si::nanovolt"⟩,
  ⟨80, .reference, "units::isq::si::voltage_references", "pV", "units::isq::si::dim_voltage", "units::isq::si::picovolt"⟩,
  ⟨80, .reference, "units::isq::si::voltage_references", "fV", "units::isq::si::dim_voltage", "units::isq::si::femtovolt"⟩,
  ⟨80, .reference, "units::isq::si::voltage_references", "aV", "units::isq::si::dim_voltage", "units::isq::si::attovolt"⟩,
  ⟨80, .reference, "units::isq::si::voltage_references", "zV", "units::isq::si::dim_voltage", "units::isq::si::zeptovolt"⟩,
  ⟨80, .reference, "units::isq::si::voltage_references", "yV", "units::isq::si::dim_voltage", "units::isq::si::yoctovolt"⟩,
  ⟨80, .reference, "units::isq::si::voltage_references", "V", "units::isq::si::dim_voltage", "units::isq::si::volt"⟩,
  ⟨80, .literal, "units::isq::si::literals", "_q_YV", "units::isq::si::dim_voltage", "units::isq::si::yottavolt"⟩,
  ⟨80, .literal, "units::isq::si::literals", "_q_YV", "units::isq::si::dim_voltage", "units::isq::si::yottavolt"⟩,
  ⟨80, .literal, "units::isq::si::literals", "_q_YV", "units::isq::si::dim_voltage", "units::isq::si::yottavolt"⟩,
  ⟨80, .literal, "units::isq::si::literals", "_q_ZV", "units::isq::si::dim_voltage", "units::isq::si::zettavolt"⟩,
  ⟨80, .literal, "units::isq::si::literals", "_q_ZV", "units::isq::si::dim_voltage", "units::isq::si::zettavolt"⟩,
  ⟨80, .literal, "units::isq::si::literals", "_q_ZV", "units::isq::si::dim_voltage", "units::isq::si::zettavolt"⟩,
  ⟨80, .literal, "units::isq::si::literals", "_q_EV", "units::isq::si::dim_voltage", "units::isq::si::exavolt"⟩,
  ⟨80, .literal, "units::isq::si::literals", "_q_EV", "units::isq::si::dim_voltage", "units::isq::si::exavolt"⟩,
  ⟨80, .literal, "units::isq::si::literals", "_q_EV", "units::isq::si::dim_voltage", "units::isq::si::exavolt"⟩,
  ⟨80, .literal, "units::isq::si::literals", "_q_PV", "units::isq::si::dim_voltage", "units::isq::si::petavolt"⟩,
  ⟨80, .literal, "units::isq::si::literals", "_q_PV", "units::isq::si::dim_voltage", "units::isq::si::petavolt"⟩,
  ⟨80, .literal, "units::isq::si::literals", "_q_PV", "units::isq::si::dim_voltage", "units::isq::si::petavolt"⟩,
  ⟨80, .literal, "units::isq::si::literals", "_q_TV", "units::isq::si::dim_voltage", "units::isq::si::teravolt"⟩,
  ⟨80, .literal, "units::isq::si::literals", "_q_TV", "units::isq::si::dim_voltage", "units::isq::si::teravolt"⟩,
  ⟨80, .literal, "units::isq::si::literals", "_q_TV", "units::isq::si::dim_voltage", "units::isq::si::teravolt"⟩,
  ⟨80, .literal, "units::isq::si::literals", "_q_GV", "units::isq::si::dim_voltage", "units::isq::si::gigavolt"⟩,
  ⟨80, .literal, "units::isq::si::literals", "_q_GV", "units::isq::si::dim_voltage", "units::isq::si::gigavolt"⟩,
  ⟨80, .literal, "units::isq::si::literals", "_q_GV", "units::isq::si::dim_voltage", "units::isq::si::gigavolt"⟩,
  ⟨80, .literal, "units::isq::si::literals", "_q_MV", "units::isq::si::dim_voltage", "units::isq::si::megavolt"⟩,
  ⟨80, .literal, "units::isq::si::literals", "_q_MV", "units::isq::si::dim_voltage", "units::isq::si::megavolt"⟩,
  ⟨80, .literal, "units::isq::si::literals", "_q_MV", "units::isq::si::dim_voltage", "units::isq::si::megavolt"⟩,
  ⟨80, .literal, "units::isq::si::literals", "_q_kV", "units::isq::si::dim_voltage", "units::isq::si::kilovolt"⟩,
  ⟨80, .literal, "units::isq::si::literals", "_q_kV", "units::isq::si::dim_voltage", "units::isq::si::kilovolt"⟩,
  ⟨80, .literal, "units::isq::si::literals", "_q_kV", "units::isq::si::dim_voltage", "units::isq::si::kilovolt"⟩,
  ⟨80, .literal, "units::isq::si::literals", "_q_hV", "units::isq::si::dim_voltage", "units::isq::si::hectovolt"⟩,
  ⟨80, .literal, "units::isq::si::literals", "_q_hV", "units::isq::si::dim_voltage", "units::isq::si::hectovolt"⟩,
  ⟨80, .literal, "units::isq::si::literals", "_q_hV", "units::isq::si::dim_voltage", "units::isq::si::hectovolt"⟩,
  ⟨80, .literal, "units::isq::si::literals", "_q_daV", "units::isq::si::dim_voltage", "units::isq::si::decavolt"⟩]

/-- Part 41 of `tagTable`. -/
def tagTable41 : List (TRow) := [
  ⟨80, .literal, "units::isq::si::literals", "_q_daV", "units::isq::si::dim_voltage", "units::isq::si::decavolt"⟩,
  ⟨80, .literal, "units::isq::si::literals", "_q_daV", "units::isq::si::dim_voltage", "units::isq::si::decavolt"⟩,
  ⟨80, .literal, "units::isq::si::literals", "_q_dV", "units::isq::si::dim_voltage", "units::isq::si::decivolt"⟩,
  ⟨80, .literal, "units::isq::si::literals", "_q_dV", "units::isq::si::dim_voltage", "units::isq::si::decivolt"⟩,
  ⟨80, .literal, "units::isq::si::literals", "_q_dV", "units::isq::si::dim_voltage", "units::isq::si::decivolt"⟩,
  ⟨80, .literal, "units::isq::si::literals", "_q_cV", "units::isq::si::dim_voltage", "units::isq::si::centivolt"⟩,
  ⟨80, .literal, "units::isq::si::literals", "_q_cV", "units::isq::si::dim_voltage", "units::isq::si::centivolt"⟩,
  ⟨80, .literal, "units::isq::si::literals", "_q_cV", "units::isq::si::dim_voltage", "units::isq::si::centivolt"⟩,
  ⟨80, .literal, "units::isq::si::literals", "_q_mV", "units::isq::si::dim_voltage", "units::isq::si::millivolt"⟩,
  ⟨80, .literal, "units::isq::si::literals", "_q_mV", "units::isq::si::dim_voltage", "units::isq::si::millivolt"⟩,
  ⟨80, .literal, "units::isq::si::literals", "_q_mV", "units::isq::si::dim_voltage", "units::isq::si::millivolt"⟩,
  ⟨80, .literal, "units::isq::si::literals", "_q_uV", "units::isq::si::dim_voltage", "units::isq::si::microvolt"⟩,
  ⟨80, .literal, "units::isq::si::literals", "_q_uV", "units::isq::si::dim_voltage", "units::isq::si::microvolt"⟩,
  ⟨80, .literal, "units::isq::si::literals", "_q_uV", "units::isq::si::dim_voltage", "units::isq::si::microvolt"⟩,
  ⟨80, .literal, "units::isq::si::literals", "_q_nV", "units::isq::si::dim_voltage", "units::isq::si::nanovolt"⟩,
  ⟨80, .literal, "units::isq::si::literals", "_q_nV", "units::isq::si::dim_voltage", "units::isq::si::nanovolt"⟩,
  ⟨80, .literal, "units::isq::si::literals", "_q_nV", "units::isq::si::dim_voltage", "units::isq::si::nanovolt"⟩,
  ⟨80, .literal, "units::isq::si::literals", "_q_pV", "units::isq::si::dim_voltage", "units::isq::si::picovolt"⟩,
  ⟨80, .literal, "units::isq::si::literals", "_q_pV", "units::isq::si::dim_voltage", "units::isq::si::picovolt"⟩,
  ⟨80, .literal, "units::isq::si::literals", "_q_pV", "units::isq::si::dim_voltage", "units::isq::si::picovolt"⟩,
  ⟨80, .literal, "units::isq::si::literals", "_q_fV", "units::isq::si::dim_voltage", "units::isq::si::femtovolt"⟩,
  ⟨80, .literal, "units::isq::si::literals", "_q_fV", "units::isq::si::dim_voltage", "units::isq::si::femtovolt"⟩,
  ⟨80, .literal, "units::isq::si::literals", "_q_fV", "units::isq::si::dim_voltage", "units::isq::si::femtovolt"⟩,
  ⟨80, .literal, "units::isq::si::literals", "_q_aV", "units::isq::si::dim_voltage", "units::isq::si::attovolt"⟩,
  ⟨80, .literal, "units::isq::si::literals", "_q_aV", "units::isq::si::dim_voltage", "units::isq::si::attovolt"⟩,
  ⟨80, .literal, "units::isq::si::literals", "_q_aV", "units::isq::si::dim_voltage", "units::isq::si::attovolt"⟩,
  ⟨80, .literal, "units::isq::si::literals", "_q_zV", "units::isq::si::dim_voltage", "units::isq::si::zeptovolt"⟩,
  ⟨80, .literal, "units::isq::si::literals", "_q_zV", "units::isq::si::dim_voltage", "units::isq::si::zeptovolt"⟩,
  ⟨80, .literal, "units::isq::si::literals", "_q_zV", "units::isq::si::dim_voltage", "units::isq::si::zeptovolt"⟩,
  ⟨80, .literal, "units::isq::si::literals", "_q_yV", "units::isq::si::dim_voltage", "units::isq::si::yoctovolt"⟩,
  ⟨80, .literal, "units::isq::si::literals", "_q_yV", "units::isq::si::dim_voltage", "units::isq::si::yoctovolt"⟩,
  ⟨80, .literal, "units::isq::si::literals", "_q_yV", "units::isq::si::dim_voltage", "units::isq::si::yoctovolt"⟩,
  ⟨80, .literal, "units::isq::si::literals", "_q_V", "units::isq::si::dim_voltage", "units::isq::si::volt"⟩,
  ⟨80, .literal, "units::isq::si::literals", "_q_V", "units::isq::si::dim_voltage", "units::isq::si::volt"⟩,
  ⟨80, .literal, "units::isq::si::literals", "_q_V", "units::isq::si::dim_voltage", "units::isq::si::volt"⟩,
  ⟨79, .rep, "units::aliases::isq::si::power", "YW", "units::isq::si::dim_power", "units::isq::si::yottawatt"⟩,
  ⟨79, .rep, "units::aliases::isq::si::power", "ZW", "units::isq::si::dim_power", "units::isq::si::zettawatt"⟩,
  ⟨79, .rep, "units::aliases::isq::si::power", "EW", "units::isq::si::dim_power", "units::isq::si::exawatt"⟩,
  ⟨79, .rep, "units::aliases::isq::si::power", "PW", "units::isq::si::dim_power", "units::isq::si::petawatt"⟩,
  ⟨79, .rep, "units::aliases::isq::si::power", "TW", "units::isq::si::dim_power", "units::isq::si::terawatt"⟩]

/-- Part 42 of `tagTable`. -/
def tagTable42 : List (TRow) := [
  ⟨79, .rep, "units::aliases::isq::si::power", "GW", "units::isq::si::dim_power", "units::isq::si::gigawatt"⟩,
  ⟨79, .rep, "units::aliases::isq::si::power", "MW", "units::isq::si::dim_power", "units::isq::si::megawatt"⟩,
  ⟨79, .rep, "units::aliases::isq::si::power", "kW", "units::isq::si::dim_power", "units::isq::si::kilowatt"⟩,
  ⟨79, .rep, "units::aliases::isq::si::power", "mW", "units::isq::si::dim_power", "units::isq::si::milliwatt"⟩,
  ⟨79, .rep, "units::aliases::isq::si::power", "uW", "units::isq::si::dim_power", "units::isq::si::microwatt"⟩,
  ⟨79, .rep, "units::aliases::isq::si::power", "nW", "units::isq::si::dim_power", "units::isq::si::nanowatt"⟩,
  ⟨79, .rep, "units::aliases::isq::si::power", "pW", "units::isq::si::dim_power", "units::isq::si::picowatt"⟩,
  ⟨79, .rep, "units::aliases::isq::si::power", "fW", "units::isq::si::dim_power", "units::isq::si::femtowatt"⟩,
  ⟨79, .rep, "units::aliases::isq::si::power", "aW", "units::isq::si::dim_power", "units::isq::si::attowatt"⟩,
  ⟨79, .rep, "units::aliases::isq::si::power", "zW", "units::isq::si::dim_power", "units::isq::si::zeptowatt"⟩,
  ⟨79, .rep, "units::aliases::isq::si::power", "yW", "units::isq::si::dim_power", "units::isq::si::yoctowatt"⟩,
  ⟨79, .rep, "units::aliases::isq::si::power", "W", "units::isq::si::dim_power", "units::isq::si::watt"⟩,
  ⟨79, .reference, "units::isq::si::power_references", "YW", "units::isq::si::dim_power", "units::isq::si::yottawatt"⟩,
  ⟨79, .reference, "units::isq::si::power_references", "ZW", "units::isq::si::dim_power", "units::isq::si::zettawatt"⟩,
  ⟨79, .reference, "units::isq::si::power_references", "EW", "units::isq::si::dim_power", "units::isq::si::exawatt"⟩,
  ⟨79, .reference, "units::isq::si::power_references", "PW", "units::isq::si::dim_power", "units::isq::si::petawatt"⟩,
  ⟨79, .reference, "units::isq::si::power_references", "TW", "units::isq::si::dim_power", "units::isq::si::terawatt"⟩,
  ⟨79, .reference, "units::isq::si::power_references", "GW", "units::isq::si::dim_power", "units::isq::si::gigawatt"⟩,
  ⟨79, .reference, "units::isq::si::power_references", "MW", "units::isq::si::dim_power", "units::isq::si::megawatt"⟩,
  ⟨79, .reference, "units::isq::si::power_references", "kW", "units::isq::si::dim_power", "units::isq::si::kilowatt"⟩,
  ⟨79, .reference, "units::isq::si::power_references", "mW", "units::isq::si::dim_power", "units::isq::si::milliwatt"⟩,
  ⟨79, .reference, "units::isq::si::power_references", "uW", "units::isq::si::dim_power", "units::isq::si::microwatt"⟩,
  ⟨79, .reference, "units::isq::si::power_references", "nW", "units::isq::si::dim_power", "units::isq::si::nanowatt"⟩,
  ⟨79, .reference, "units::isq::si::power_references", "pW", "units::isq::si::dim_power", "units::isq::si::picowatt"⟩,
  ⟨79, .reference, "units::isq::si::power_references", "fW", "units::isq::si::dim_power", "units::isq::si::femtowatt"⟩,
  ⟨79, .reference, "units::isq::si::power_references", "aW", "units::isq::si::dim_power", "units::isq::si::attowatt"⟩,
  ⟨79, .reference, "units::isq::si::power_references", "zW", "units::isq::si::dim_power", "units::isq::si::zeptowatt"⟩,
  ⟨79, .reference, "units::isq::si::power_references", "yW", "units::isq::si::dim_power", "units::isq::si::yoctowatt"⟩,
  ⟨79, .reference, "units::isq::si::power_references", "W", "units::isq::si::dim_power", "units::isq::si::watt"⟩,
  ⟨79, .literal, "units::isq::si::literals", "_q_YW", "units::isq::si::dim_power", "units::isq::si::yottawatt"⟩,
  ⟨79, .literal, "units::isq::si::literals", "_q_YW", "units::isq::si::dim_power", "units::isq::si::yottawatt"⟩,
  ⟨79, .literal, "units::isq::si::literals", "_q_YW", "units::isq::si::dim_power", "units::isq::si::yottawatt"⟩,
  ⟨79, .literal, "units::isq::si::literals", "_q_ZW", "units::isq::si::dim_power", "units::isq::si::zettawatt"⟩,
  ⟨79, .literal, "units::isq::si::literals", "_q_ZW", "units::isq::si::dim_power", "units::isq::si::zettawatt"⟩,
  ⟨79, .literal, "units::isq::si::literals", "_q_ZW", "units::isq::si::dim_power", "units::isq::si::zettawatt"⟩,
  ⟨79, .literal, "units::isq::si::literals", "_q_EW", "units::isq::si::dim_power", "units::isq::si::exawatt"⟩,
  ⟨79, .literal, "units::isq::si::literals", "_q_EW", "units::isq::si::dim_power", "units::isq::si::exawatt"⟩,
  ⟨79, .literal, "units::isq::si::literals", "_q_EW", "units::isq::si::dim_power", "units::isq::si::exawatt"⟩,
  ⟨79, .literal, "units::isq::si::literals", "_q_PW", "units::isq::si::dim_power", "units::isq::si::petawatt"⟩,
  ⟨79, .literal, "units::isq::si::literals", "_q_PW", "units::isq::si::dim_power", "units::isq::si::petawatt"⟩]

/-- Part 43 of `tagTable`. -/
def tagTable43 : List (TRow) := [
  ⟨79, .literal, "units::isq::si::literals", "_q_PW", "units::isq::si::dim_power", "units::isq::si::petawatt"⟩,
  ⟨79, .literal, "units::isq::si::literals", "_q_TW", "units::isq::si::dim_power", "units::isq::si::terawatt"⟩,
  ⟨79, .literal, "units::isq::si::literals", "_q_TW", "units::isq::si::dim_power", "units::isq::si::terawatt"⟩,
  ⟨79, .literal, "units::isq::si::literals", "_q_TW", "units::isq::si::dim_power", "units::isq::si::terawatt"⟩,
  ⟨79, .literal, "units::isq::si::literals", "_q_GW", "units::isq::si::dim_power", "units::isq::si::gigawatt"⟩,
  ⟨79, .literal, "units::isq::si::literals", "_q_GW", "units::isq::si::dim_power", "units::isq::si::gigawatt"⟩,
  ⟨79, .literal, "units::isq::si::literals", "_q_GW", "units::isq::si::dim_power", "units::isq::si::gigawatt"⟩,
  ⟨79, .literal, "units::isq::si::literals", "_q_MW", "units::isq::si::dim_power", "units::isq::si::megawatt"⟩,
  ⟨79, .literal, "units::isq::si::literals", "_q_MW", "units::isq::si::dim_power", "units::isq::si::megawatt"⟩,
  ⟨79, .literal, "units::isq::si::literals", "_q_MW", "units::isq::si::dim_power", "units::isq::si::megawatt"⟩,
  ⟨79, .literal, "units::isq::si::literals", "_q_kW", "units::isq::si::dim_power", "units::isq::si::kilowatt"⟩,
  ⟨79, .literal, "units::isq::si::literals", "_q_kW", "units::isq::si::dim_power", "units::isq::si::kilowatt"⟩,
  ⟨79, .literal, "units::isq::si::literals", "_q_kW", "units::isq::si::dim_power", "units::isq::si::kilowatt"⟩,
  ⟨79, .literal, "units::isq::si::literals", "_q_mW", "units::isq::si::dim_power", "units::isq::si::milliwatt"⟩,
  ⟨79, .literal, "units::isq::si::literals", "_q_mW", "units::isq::si::dim_power", "units::isq::si::milliwatt"⟩,
  ⟨79, .literal, "units::isq::si::literals", "_q_mW", "units::isq::si::dim_power", "units::isq::si::milliwatt"⟩,
  ⟨79, .literal, "units::isq::si::literals", "_q_uW", "units::isq::si::dim_power", "units::isq::si::microwatt"⟩,
  ⟨79, .literal, "units::isq::si::literals", "_q_uW", "units::isq::si::dim_power", "units::isq::si::microwatt"⟩,
  ⟨79, .literal, "units::isq::si::literals", "_q_uW", "units::isq::si::dim_power", "units::isq::si::microwatt"⟩,
  ⟨79, .literal, "units::isq::si::literals", "_q_nW", "units::isq::si::dim_power", "units::isq::si::nanowatt"⟩,
  ⟨79, .literal, "units::isq::si::literals", "_q_nW", "units::isq::si::dim_power", "units::isq::si::nanowatt"⟩,
  ⟨79, .literal, "units::isq::si::literals", "_q_nW", "units::isq::si::dim_power", "units::isq::si::nanowatt"⟩,
  ⟨79, .literal, "units::isq::si::literals", "_q_pW", "units::isq::si::dim_power", "units::isq::si::picowatt"⟩,
  ⟨79, .literal, "units::isq::si::literals", "_q_pW", "units::isq::si::dim_power", "units::isq::si::picowatt"⟩,
  ⟨79, .literal, "units::isq::si::literals", "_q_pW", "units::isq::si::dim_power", "units::isq::si::picowatt"⟩,
  ⟨79, .literal, "units::isq::si::literals", "_q_fW", "units::isq::si::dim_power", "units::isq::si::femtowatt"⟩,
  ⟨79, .literal, "units::isq::si::literals", "_q_fW", "units::isq::si::dim_power", "units::isq::si::femtowatt"⟩,
  ⟨79, .literal, "units::isq::si::literals", "_q_fW", "units::isq::si::dim_power", "units::isq::si::femtowatt"⟩,
  ⟨79, .literal, "units::isq::si::literals", "_q_aW", "units::isq::si::dim_power", "units::isq::si::attowatt"⟩,
  ⟨79, .literal, "units::isq::si::literals", "_q_aW", "units::isq::si::dim_power", "units::isq::si::attowatt"⟩,
  ⟨79, .literal, "units::isq::si::literals", "_q_aW", "units::isq::si::dim_power", "units::isq::si::attowatt"⟩,
  ⟨79, .literal, "units::isq::si::literals", "_q_zW", "units::isq::si::dim_power", "units::isq::si::zeptowatt"⟩,
  ⟨79, .literal, "units::isq::si::literals", "_q_zW", "units::isq::si::dim_power", "units::isq::si::zeptowatt"⟩,
  ⟨79, .literal, "units::isq::si::literals", "_q_zW", "units::isq::si::dim_power", "units::isq::si::zeptowatt"⟩,
  ⟨79, .literal, "units::isq::si::literals", "_q_yW", "units::isq::si::dim_power", "units::isq::si::yoctowatt"⟩,
  ⟨79, .literal, "units::isq::si::literals", "_q_yW", "units::isq::si::dim_power", "units::isq::si::yoctowatt"⟩,
  ⟨79, .literal, "units::isq::si::literals", "_q_yW", "units::isq::si::dim_power", "units::isq::si::yoctowatt"⟩,
  ⟨79, .literal, "units::isq::si::literals", "_q_W", "units::isq::si::dim_power", "units::isq::si::watt"⟩,
  ⟨79, .literal, "units::isq::si::literals", "_q_W", "units::isq::si::dim_power", "units::isq::si::watt"⟩,
  ⟨79, .literal, "units::isq::si::literals", "_q_W", "units::isq::si::dim_power", "units::isq::si::watt"⟩]

/-- Part 44 of `tagTable`. -/
def tagTable44 : List (TRow) := [
  ⟨78, .rep, "units::aliases::isq::si::electric_charge", "C", "units::isq::si::dim_electric_charge", "units::isq::si::coulomb"⟩,
  ⟨78, .reference, "units::isq::si::electric_charge_references", "C", "units::isq::si::dim_electric_charge", "units::isq::si::coulomb"⟩,
  ⟨78, .literal, "units::isq::si::literals", "_q_C", "units::isq::si::dim_electric_charge", "units::isq::si::coulomb"⟩,
  ⟨78, .literal, "units::isq::si::literals", "_q_C", "units::isq::si::dim_electric_charge", "units::isq::si::coulomb"⟩,
  ⟨78, .literal, "units::isq::si::literals", "_q_C", "units::isq::si::dim_electric_charge", "units::isq::si::coulomb"⟩,
  ⟨77, .rep, "units::aliases::isq::si::electric_current", "YA", "units::isq::si::dim_electric_current", "units::isq::si::yottaampere"⟩,
  ⟨77, .rep, "units::aliases::isq::si::electric_current", "ZA", "units::isq::si::dim_electric_current", "units::isq::si::zettaampere"⟩,
  ⟨77, .rep, "units::aliases::isq::si::electric_current", "EA", "units::isq::si::dim_electric_current", "units::isq::si::exaampere"⟩,
  ⟨77, .rep, "units::aliases::isq::si::electric_current", "PA", "units::isq::si::dim_electric_current", "units::isq::si::petaampere"⟩,
  ⟨77, .rep, "units::aliases::isq::si::electric_current", "TA", "units::isq::si::dim_electric_current", "units::isq::si::teraampere"⟩,
  ⟨77, .rep, "units::aliases::isq::si::electric_current", "GA", "units::isq::si::dim_electric_current", "units::isq::si::gigaampere"⟩,
  ⟨77, .rep, "units::aliases::isq::si::electric_current", "MA", "units::isq::si::dim_electric_current", "units::isq::si::megaampere"⟩,
  ⟨77, .rep, "units::aliases::isq::si::electric_current", "kA", "units::isq::si::dim_electric_current", "units::isq::si::kiloampere"⟩,
  ⟨77, .rep, "units::aliases::isq::si::electric_current", "hA", "units::isq::si::dim_electric_current", "units::isq::si::hectoampere"⟩,
  ⟨77, .rep, "units::aliases::isq::si::electric_current", "daA", "units::isq::si::dim_electric_current", "units::isq::si::decaampere"⟩,
  ⟨77, .rep, "units::aliases::isq::si::electric_current", "dA", "units::isq::si::dim_electric_current", "units::isq::si::deciampere"⟩,
  ⟨77, .rep, "units::aliases::isq::si::electric_current", "cA", "units::isq::si::dim_electric_current", "units::isq::si::centiampere"⟩,
  ⟨77, .rep, "units::aliases::isq::si::electric_current", "mA", "units::isq::si::dim_electric_current", "units::isq::si::milliampere"⟩,
  ⟨77, .rep, "units::aliases::isq::si::electric_current", "uA", "units::isq::si::dim_electric_current", "units::isq::si::microampere"⟩,
  ⟨77, .rep, "units::aliases::isq::si::electric_current", "nA", "units::isq::si::dim_electric_current", "units::isq::si::nanoampere"⟩,
  ⟨77, .rep, "units::aliases::isq::si::electric_current", "pA", "units::isq::si::dim_electric_current", "units::isq::si::picoampere"⟩,
  ⟨77, .rep, "units::aliases::isq::si::electric_current", "fA", "units::isq::si::dim_electric_current", "units::isq::si::femtoampere"⟩,
  ⟨77, .rep, "units::aliases::isq::si::electric_current", "aA", "units::isq::si::dim_electric_current", "units::isq::si::attoampere"⟩,
  ⟨77, .rep, "units::aliases::isq::si::electric_current", "zA", "units::isq::si::dim_electric_current", "units::isq::si::zeptoampere"⟩,
  ⟨77, .rep, "units::aliases::isq::si::electric_current", "yA", "units::isq::si::dim_electric_current", "units::isq::si::yoctoampere"⟩,
  ⟨77, .rep, "units::aliases::isq::si::electric_current", "A", "units::isq::si::dim_electric_current", "units::isq::si::ampere"⟩,
  ⟨77, .reference, "units::isq::si::electric_current_references", "YA", "units::isq::si::dim_electric_current", "units::isq::si::yottaampere"⟩,
  ⟨77, .reference, "units::isq::si::electric_current_references", "ZA", "units::isq::si::dim_electric_current", "units::isq::si::zettaampere"⟩,
  ⟨77, .reference, "units::isq::si::electric_current_references", "EA", "units::isq::si::dim_electric_current", "units::isq::si::exaampere"⟩,
  ⟨77, .reference, "units::isq::si::electric_current_references", "PA", "units::isq::si::dim_electric_current", "units::isq::si::petaampere"⟩,
  ⟨77, .reference, "units::isq::si::electric_current_references", "TA", "units::isq::si::dim_electric_current", "units::isq::si::teraampere"⟩,
  ⟨77, .reference, "units::isq::si::electric_current_references", "GA", "units::isq::si::dim_electric_current", "units::isq::si::gigaampere"⟩,
  ⟨77, .reference, "units::isq::si::electric_current_references", "MA", "units::isq::si::dim_electric_current", "units::isq::si::megaampere"⟩,
  ⟨77, .reference, "units::isq::si::electric_current_references", "kA", "units::isq::si::dim_electric_current", "units::isq::si::kiloampere"⟩,
  ⟨77, .reference, "units::isq::si::electric_current_references", "hA", "units::isq::si::dim_electric_current", "units::isq::si::hectoampere"⟩,
  ⟨77, .reference, "units::isq::si::electric_current_references", "daA", "units::isq::si::dim_electric_current", "units::isq::si::decaampere"⟩,
  ⟨77, .reference, "units::isq::si::electric_current_references", "dA", "units::isq::si::dim_electric_current", "units::isq::si::deciampere"⟩,
  ⟨77, .reference, "units::isq::si::electric_current_references", "cA", "units::isq::si::dim_electric_current", "units::isq::si::centiampere"⟩,
  ⟨77, .reference, "units::isq::si::electric_current_references", "mA", "units::isq::si::dim_electric_current", "units::isq::si::milliampere"⟩,
  ⟨77, .reference, "units::isq::si::electric_current_references", "uA", "units::isq::si::dim_electric_current", "units::isq::si::microampere"⟩]

/-- Part 45 of `tagTable`. -/
def tagTable45 : List (TRow) := [
  ⟨77, .reference, "units::isq::si::electric_current_references", "nA", "units::isq::si::dim_electric_current", "units::isq::si::nanoampere"⟩,
  ⟨77, .reference, "units::isq::si::electric_current_references", "pA", "units::isq::si::dim_electric_current", "units::isq::si::picoampere"⟩,
  ⟨77, .reference, "units::isq::si::electric_current_references", "fA", "units::isq::si::dim_electric_current", "units::isq::si::femtoampere"⟩,
  ⟨77, .reference, "units::isq::si::electric_current_references", "aA", "units::isq::si::dim_electric_current", "units::isq::si::attoampere"⟩,
  ⟨77, .reference, "units::isq::si::electric_current_references", "zA", "units::isq::si::dim_electric_current", "units::isq::si::zeptoampere"⟩,
  ⟨77, .reference, "units::isq::si::electric_current_references", "yA", "units::isq::si::dim_electric_current", "units::isq::si::yoctoampere"⟩,
  ⟨77, .reference, "units::isq::si::electric_current_references", "A", "units::isq::si::dim_electric_current", "units::isq::si::ampere"⟩,
  ⟨77, .literal, "units::isq::si::literals", "_q_YA", "units::isq::si::dim_electric_current", "units::isq::si::yottaampere"⟩,
  ⟨77, .literal, "units::isq::si::literals", "_q_YA", "units::isq::si::dim_electric_current", "units::isq::si::yottaampere"⟩,
  ⟨77, .literal, "units::isq::si::literals", "_q_YA", "units::isq::si::dim_electric_current", "units::isq::si::yottaampere"⟩,
  ⟨77, .literal, "units::isq::si::literals", "_q_ZA", "units::isq::si::dim_electric_current", "units::isq::si::zettaampere"⟩,
  ⟨77, .literal, "units::isq::si::literals", "_q_ZA", "units::isq::si::dim_electric_current", "units::isq::si::zettaampere"⟩,
  ⟨77, .literal, "units::isq::si::literals", "_q_ZA", "units::isq::si::dim_electric_current", "units::isq::si::zettaampere"⟩,
  ⟨77, .literal, "units::isq::si::literals", "_q_EA", "units::isq::si::dim_electric_current", "units::isq::si::exaampere"⟩,
  ⟨77, .literal, "units::isq::si::literals", "_q_EA", "units::isq::si::dim_electric_current", "units::isq::si::exaampere"⟩,
  ⟨77, .literal, "units::isq::si::literals", "_q_EA", "units::isq::si::dim_electric_current", "units::isq::si::exaampere"⟩,
  ⟨77, .literal, "units::isq::si::literals", "_q_PA", "units::isq::si::dim_electric_current", "units::isq::si::petaampere"⟩,
  ⟨77, .literal, "units::isq::si::literals", "_q_PA", "units::isq::si::dim_electric_current", "units::isq::si::petaampere"⟩,
  ⟨77, .literal, "units::isq::si::literals", "_q_PA", "units::isq::si::dim_electric_current", "units::isq::si::petaampere"⟩,
  ⟨77, .literal, "units::isq::si::literals", "_q_TA", "units::isq::si::dim_electric_current", "units::isq::si::teraampere"⟩,
  ⟨77, .literal, "units::isq::si::literals", "_q_TA", "units::isq::si::dim_electric_current", "units::isq::si::teraampere"⟩,
  ⟨77, .literal, "units::isq::si::literals", "_q_TA", "units::isq::si::dim_electric_current", "units::isq::si::teraampere"⟩,
  ⟨77, .literal, "units::isq::si::literals", "_q_GA", "units::isq::si::dim_electric_current", "units::isq::si::gigaampere"⟩,
  ⟨77, .literal, "units::isq::si::literals", "_q_GA", "units::isq::si::dim_electric_current", "units::isq::si::gigaampere"⟩,
  ⟨77, .literal, "units::isq::si::literals", "_q_GA", "units::isq::si::dim_electric_current", "units::isq::si::gigaampere"⟩,
  ⟨77, .literal, "units::isq::si::literals", "_q_MA", "units::isq::si::dim_electric_current", "units::isq::si::megaampere"⟩,
  ⟨77, .literal, "units::isq::si::literals", "_q_MA", "units::isq::si::dim_electric_current", "units::isq::si::megaampere"⟩,
  ⟨77, .literal, "units::isq::si::literals", "_q_MA", "units::isq::si::dim_electric_current", "units::isq::si::megaampere"⟩,
  ⟨77, .literal, "units::isq::si::literals", "_q_kA", "units::isq::si::dim_electric_current", "units::isq::si::kiloampere"⟩,
  ⟨77, .literal, "units::isq::si::literals", "_q_kA", "units::isq::si::dim_electric_current", "units::isq::si::kiloampere"⟩,
  ⟨77, .literal, "units::isq::si::literals", "_q_kA", "units::isq::si::dim_electric_current", "units::isq::si::kiloampere"⟩,
  ⟨77, .literal, "units::isq::si::literals", "_q_hA", "units::isq::si::dim_electric_current", "units::isq::si::hectoampere"⟩,
  ⟨77, .literal, "units::isq::si::literals", "_q_hA", "units::isq::si::dim_electric_current", "units::isq::si::hectoampere"⟩,
  ⟨77, .literal, "units::isq::si::literals", "_q_hA", "units::isq::si::dim_electric_current", "units::isq::si::hectoampere"⟩,
  ⟨77, .literal, "units::isq::si::literals", "_q_daA", "units::isq::si::dim_electric_current", "units::isq::si::decaampere"⟩,
  ⟨77, .literal, "units::isq::si::literals", "_q_daA", "units::isq::si::dim_electric_current", "units::isq::si::decaampere"⟩,
  ⟨77, .literal, "units::isq::si::literals", "_q_daA", "units::isq::si::dim_electric_current", "units::isq::si::decaampere"⟩,
  ⟨77, .literal, "units::isq::si::literals", "_q_dA", "units::isq::si::dim_electric_current", "units::isq::si::deciampere"⟩,
  ⟨77, .literal, "units::isq::si::literals", "_q_dA", "units::isq::si::dim_electric_current", "units::isq::si::deciampere"⟩,
  ⟨77, .literal, "units::isq::si::literals", "_q_dA", "units::isq::si::dim_electric_current", "units::isq::si::deciampere"⟩]

/-- Part 46 of `tagTable`. -/
def tagTable46 : List (TRow) := [
  ⟨77, .literal, "units::isq::si::literals", "_q_cA", "units::isq::si::dim_electric_current", "units::isq::si::centiampere"⟩,
  ⟨77, .literal, "units::isq::si::literals", "_q_cA", "units::isq::si::dim_electric_current", "units::isq::si::centiampere"⟩,
  ⟨77, .literal, "units::isq::si::literals", "_q_cA", "units::isq::si::dim_electric_current", "units::isq::si::centiampere"⟩,
  ⟨77, .literal, "units::isq::si::literals", "_q_mA", "units::isq::si::dim_electric_current", "units::isq::si::milliampere"⟩,
  ⟨77, .literal, "units::isq::si::literals", "_q_mA", "units::isq::si::dim_electric_current", "units::isq::si::milliampere"⟩,
  ⟨77, .literal, "units::isq::si::literals", "_q_mA", "units::isq::si::dim_electric_current", "units::isq::si::milliampere"⟩,
  ⟨77, .literal, "units::isq::si::literals", "_q_uA", "units::isq::si::dim_electric_current", "units::isq::si::microampere"⟩,
  ⟨77, .literal, "units::isq::si::literals", "_q_uA", "units::isq::si::dim_electric_current", "units::isq::si::microampere"⟩,
  ⟨77, .literal, "units::isq::si::literals", "_q_uA", "units::isq::si::dim_electric_current", "units::isq::si::microampere"⟩,
  ⟨77, .literal, "units::isq::si::literals", "_q_nA", "units::isq::si::dim_electric_current", "units::isq::si::nanoampere"⟩,
  ⟨77, .literal, "units::isq::si::literals", "_q_nA", "units::isq::si::dim_electric_current", "units::isq::si::nanoampere"⟩,
  ⟨77, .literal, "units::isq::si::literals", "_q_nA", "units::isq::si::dim_electric_current", "units::isq::si::nanoampere"⟩,
  ⟨77, .literal, "units::isq::si::literals", "_q_pA", "units::isq::si::dim_electric_current", "units::isq::si::picoampere"⟩,
  ⟨77, .literal, "units::isq::si::literals", "_q_pA", "units::isq::si::dim_electric_current", "units::isq::si::picoampere"⟩,
  ⟨77, .literal, "units::isq::si::literals", "_q_pA", "units::isq::si::dim_electric_current", "units::isq::si::picoampere"⟩,
  ⟨77, .literal, "units::isq::si::literals", "_q_fA", "units::isq::si::dim_electric_current", "units::isq::si::femtoampere"⟩,
  ⟨77, .literal, "units::isq::si::literals", "_q_fA", "units::isq::si::dim_electric_current", "units::isq::si::femtoampere"⟩,
  ⟨77, .literal, "units::isq::si::literals", "_q_fA", "units::isq::si::dim_electric_current", "units::isq::si::femtoampere"⟩,
  ⟨77, .literal, "units::isq::si::literals", "_q_aA", "units::isq::si::dim_electric_current", "units::isq::si::attoampere"⟩,
  ⟨77, .literal, "units::isq::si::literals", "_q_aA", "units::isq::si::dim_electric_current", "units::isq::si::attoampere"⟩,
  ⟨77, .literal, "units::isq::si::literals", "_q_aA", "units::isq::si::dim_electric_current", "units::isq::si::attoampere"⟩,
  ⟨77, .literal, "units::isq::si::literals", "_q_zA", "units::isq::si::dim_electric_current", "units::isq::si::zeptoampere"⟩,
  ⟨77, .literal, "units::isq::si::literals", "_q_zA", "units::isq::si::dim_electric_current", "units::isq::si::zeptoampere"⟩,
  ⟨77, .literal, "units::isq::si::literals", "_q_zA", "units::isq::si::dim_electric_current", "units::isq::si::zeptoampere"⟩,
  ⟨77, .literal, "units::isq::si::literals", "_q_yA", "units::isq::si::dim_electric_current", "units::isq::si::yoctoampere"⟩,
  ⟨77, .literal, "units::isq::si::literals", "_q_yA", "units::isq::si::dim_electric_current", "units::isq::si::yoctoampere"⟩,
  ⟨77, .literal, "units::isq::si::literals", "_q_yA", "units::isq::si::dim_electric_current", "units::isq::si::yoctoampere"⟩,
  ⟨77, .literal, "units::isq::si::literals", "_q_A", "units::isq::si::dim_electric_current", "units::isq::si::ampere"⟩,
  ⟨77, .literal, "units::isq::si::literals", "_q_A", "units::isq::si::dim_electric_current", "units::isq::si::ampere"⟩,
  ⟨77, .literal, "units::isq::si::literals", "_q_A", "units::isq::si::dim_electric_current", "units::isq::si::ampere"⟩,
  ⟨76, .rep, "units::aliases::isq::si::area", "ha", "units::isq::si::dim_area", "units::isq::si::hectare"⟩,
  ⟨76, .rep, "units::aliases::isq::si::area", "Ym2", "units::isq::si::dim_area", "units::isq::si::square_yottametre"⟩,
  ⟨76, .rep, "units::aliases::isq::si::area", "Zm2", "units::isq::si::dim_area", "units::isq::si::square_zettametre"⟩,
  ⟨76, .rep, "units::aliases::isq::si::area", "Em2", "units::isq::si::dim_area", "units::isq::si::square_exametre"⟩,
  ⟨76, .rep, "units::aliases::isq::si::area", "Pm2", "units::isq::si::dim_area", "units::isq::si::square_petametre"⟩,
  ⟨76, .rep, "units::aliases::isq::si::area", "Tm2", "units::isq::si::dim_area", "units::isq::si::square_terametre"⟩,
  ⟨76, .rep, "units::aliases::isq::si::area", "Gm2", "units::isq::si::dim_area", "units::isq::si::square_gigametre"⟩,
  ⟨76, .rep, "units::aliases::isq::si::area", "Mm2", "units::isq::si::dim_area", "units::isq::si::square_megametre"⟩,
  ⟨76, .rep, "units::aliases::isq::si::area", "km2", "units::isq::si::dim_area", "units::isq::si::square_kilometre"⟩,
  ⟨76, .rep, "units::aliases::isq::si::area", "hm2", "units::isq::si::dim_area", "units::isq::si::square_hectometre"⟩]

/-- Part 47 of `tagTable`. -/
def tagTable47 : List (TRow) := [
  ⟨76, .rep, "units::aliases::isq::si::area", "dam2", "units::isq::si::dim_area", "units::isq::si::square_decametre"⟩,
  ⟨76, .rep, "units::aliases::isq::si::area", "dm2", "units::isq::si::dim_area", "units::isq::si::square_decimetre"⟩,
  ⟨76, .rep, "units::aliases::isq::si::area", "cm2", "units::isq::si::dim_area", "units::isq::si::square_centimetre"⟩,
  ⟨76, .rep, "units::aliases::isq::si::area", "mm2", "units::isq::si::dim_area", "units::isq::si::square_millimetre"⟩,
  ⟨76, .rep, "units::aliases::isq::si::area", "um2", "units::isq::si::dim_area", "units::isq::si::square_micrometre"⟩,
  ⟨76, .rep, "units::aliases::isq::si::area", "nm2", "units::isq::si::dim_area", "units::isq::si::square_nanometre"⟩,
  ⟨76, .rep, "units::aliases::isq::si::area", "pm2", "units::isq::si::dim_area", "units::isq::si::square_picometre"⟩,
  ⟨76, .rep, "units::aliases::isq::si::area", "fm2", "units::isq::si::dim_area", "units::isq::si::square_femtometre"⟩,
  ⟨76, .rep, "units::aliases::isq::si::area", "am2", "units::isq::si::dim_area", "units::isq::si::square_attometre"⟩,
  ⟨76, .rep, "units::aliases::isq::si::area", "zm2", "units::isq::si::dim_area", "units::isq::si::square_zeptometre"⟩,
  ⟨76, .rep, "units::aliases::isq::si::area", "ym2", "units::isq::si::dim_area", "units::isq::si::square_yoctometre"⟩,
  ⟨76, .rep, "units::aliases::isq::si::area", "m2", "units::isq::si::dim_area", "units::isq::si::square_metre"⟩,
  ⟨76, .reference, "units::isq::si::area_references", "ha", "units::isq::si::dim_area", "units::isq::si::hectare"⟩,
  ⟨76, .reference, "units::isq::si::area_references", "Ym2", "units::isq::si::dim_area", "units::isq::si::square_yottametre"⟩,
  ⟨76, .reference, "units::isq::si::area_references", "Zm2", "units::isq::si::dim_area", "units::isq::si::square_zettametre"⟩,
  ⟨76, .reference, "units::isq::si::area_references", "Em2", "units::isq::si::dim_area", "units::isq::si::square_exametre"⟩,
  ⟨76, .reference, "units::isq::si::area_references", "Pm2", "units::isq::si::dim_area", "units::isq::si::square_petametre"⟩,
  ⟨76, .reference, "units::isq::si::area_references", "Tm2", "units::isq::si::dim_area", "units::isq::si::square_terametre"⟩,
  ⟨76, .reference, "units::isq::si::area_references", "Gm2", "units::isq::si::dim_area", "units::isq::si::square_gigametre"⟩,
  ⟨76, .reference, "units::isq::si::area_references", "Mm2", "units::isq::si::dim_area", "units::isq::si::square_megametre"⟩,
  ⟨76, .reference, "units::isq::si::area_references", "km2", "units::isq::si::dim_area", "units::isq::si::square_kilometre"⟩,
  ⟨76, .reference, "units::isq::si::area_references", "hm2", "units::isq::si::dim_area", "units::isq::si::square_hectometre"⟩,
  ⟨76, .reference, "units::isq::si::area_references", "dam2", "units::isq::si::dim_area", "units::isq::si::square_decametre"⟩,
  ⟨76, .reference, "units::isq::si::area_references", "dm2", "units::isq::si::dim_area", "units::isq::si::square_decimetre"⟩,
  ⟨76, .reference, "units::isq::si::area_references", "cm2", "units::isq::si::dim_area", "units::isq::si::square_centimetre"⟩,
  ⟨76, .reference, "units::isq::si::area_references", "mm2", "units::isq::si::dim_area", "units::isq::si::square_millimetre"⟩,
  ⟨76, .reference, "units::isq::si::area_references", "um2", "units::isq::si::dim_area", "units::isq::si::square_micrometre"⟩,
  ⟨76, .reference, "units::isq::si::area_references", "nm2", "units::isq::si::dim_area", "units::isq::si::square_nanometre"⟩,
  ⟨76, .reference, "units::isq::si::area_references", "pm2", "units::isq::si::dim_area", "units::isq::si::square_picometre"⟩,
  ⟨76, .reference, "units::isq::si::area_references", "fm2", "units::isq::si::dim_area", "units::isq::si::square_femtometre"⟩,
  ⟨76, .reference, "units::isq::si::area_references", "am2", "units::isq::si::dim_area", "units::isq::si::square_attometre"⟩,
  ⟨76, .reference, "units::isq::si::area_references", "zm2", "units::isq::si::dim_area", "units::isq::si::square_zeptometre"⟩,
  ⟨76, .reference, "units::isq::si::area_references", "ym2", "units::isq::si::dim_area", "units::isq::si::square_yoctometre"⟩,
  ⟨76, .reference, "units::isq::si::area_references", "m2", "units::isq::si::dim_area", "units::isq::si::square_metre"⟩,
  ⟨76, .literal, "units::isq::si::literals", "_q_ha", "units::isq::si::dim_area", "units::isq::si::hectare"⟩,
  ⟨76, .literal, "units::isq::si::literals", "_q_ha", "units::isq::si::dim_area", "units::isq::si::hectare"⟩,
  ⟨76, .literal, "units::isq::si::literals", "_q_ha", "units::isq::si::dim_area", "units::isq::si::hectare"⟩,
  ⟨76, .literal, "units::isq::si::literals", "_q_Ym2", "units::isq::si::dim_area", "units::isq::si::square_yottametre"⟩,
  ⟨76, .literal, "units::isq::si::literals", "_q_Ym2", "units::isq::si::dim_area", "units::isq::si::square_yottametre"⟩,
  ⟨76, .literal, "units::isq::si::literals", "_q_Ym2", "units::isq::si::dim_area", "units::isq::si::square_yottametre"⟩]

/-- Part 48 of `tagTable`. -/
def tagTable48 : List (TRow) := [
  ⟨76, .literal, "units::isq::si::literals", "_q_Zm2", "units::isq::si::dim_area", "units::isq::si::square_zettametre"⟩,
  ⟨76, .literal, "units::isq::si::literals", "_q_Zm2", "units::isq::si::dim_area", "units::isq::si::square_zettametre"⟩,
  ⟨76, .literal, "units::isq::si::literals", "_q_Zm2", "units::isq::si::dim_area", "units::isq::si::square_zettametre"⟩,
  ⟨76, .literal, "units::isq::si::literals", "_q_Em2", "units::isq::si::dim_area", "units::isq::si::square_exametre"⟩,
  ⟨76, .literal, "units::isq::si::literals", "_q_Em2", "units::isq::si::dim_area", "units::isq::si::square_exametre"⟩,
  ⟨76, .literal, "units::isq::si::literals", "_q_Em2", "units::isq::si::dim_area", "units::isq::si::square_exametre"⟩,
  ⟨76, .literal, "units::isq::si::literals", "_q_Pm2", "units::isq::si::dim_area", "units::isq::si::square_petametre"⟩,
  ⟨76, .literal, "units::isq::si::literals", "_q_Pm2", "units::isq::si::dim_area", "units::isq::si::square_petametre"⟩,
  ⟨76, .literal, "units::isq::si::literals", "_q_Pm2", "units::isq::si::dim_area", "units::isq::si::square_petametre"⟩,
  ⟨76, .literal, "units::isq::si::literals", "_q_Tm2", "units::isq::si::dim_area", "units::isq::si::square_terametre"⟩,
  ⟨76, .literal, "units::isq::si::literals", "_q_Tm2", "units::isq::si::dim_area", "units::isq::si::square_terametre"⟩,
  ⟨76, .literal, "units::isq::si::literals", "_q_Tm2", "units::isq::si::dim_area", "units::isq::si::square_terametre"⟩,
  ⟨76, .literal, "units::isq::si::literals", "_q_Gm2", "units::isq::si::dim_area", "units::isq::si::square_gigametre"⟩,
  ⟨76, .literal, "units::isq::si::literals", "_q_Gm2", "units::isq::si::dim_area", "units::isq::si::square_gigametre"⟩,
  ⟨76, .literal, "units::isq::si::literals", "_q_Gm2", "units::isq::si::dim_area", "units::isq::si::square_gigametre"⟩,
  ⟨76, .literal, "units::isq::si::literals", "_q_Mm2", "units::isq::si::dim_area", "units::isq::si::square_megametre"⟩,
  ⟨76, .literal, "units::isq::si::literals", "_q_Mm2", "units::isq::si::dim_area", "units::isq::si::square_megametre"⟩,
  ⟨76, .literal, "units::isq::si::literals", "_q_Mm2", "units::isq::si::dim_area", "units::isq::si::square_megametre"⟩,
  ⟨76, .literal, "units::isq::si::literals", "_q_km2", "units::isq::si::dim_area", "units::isq::si::square_kilometre"⟩,
  ⟨76, .literal, "units::isq::si::literals", "_q_km2", "units::isq::si::dim_area", "units::isq::si::square_kilometre"⟩,
  ⟨76, .literal, "units::isq::si::literals", "_q_km2", "units::isq::si::dim_area", "units::isq::si::square_kilometre"⟩,
  ⟨76, .literal, "units::isq::si::literals", "_q_hm2", "units::isq::si::dim_area", "units::isq::si::square_hectometre"⟩,
  ⟨76, .literal, "units::isq::si::literals", "_q_hm2", "units::isq::si::dim_area", "units::isq::si::square_hectometre"⟩,
  ⟨76, .literal, "units::isq::si::literals", "_q_hm2", "units::isq::si::dim_area", "units::isq::si::square_hectometre"⟩,
  ⟨76, .literal, "units::isq::si::literals", "_q_dam2", "units::isq::si::dim_area", "units::isq::si::square_decametre"⟩,
  ⟨76, .literal, "units::isq::si::literals", "_q_dam2", "units::isq::si::dim_area", "units::isq::si::square_decametre"⟩,
  ⟨76, .literal, "units::isq::si::literals", "_q_dam2", "units::isq::si::dim_area", "units::isq::si::square_decametre"⟩,
  ⟨76, .literal, "units::isq::si::literals", "_q_dm2", "units::isq::si::dim_area", "units::isq::si::square_decimetre"⟩,
  ⟨76, .literal, "units::isq::si::literals", "_q_dm2", "units::isq::si::dim_area", "units::isq::si::square_decimetre"⟩,
  ⟨76, .literal, "units::isq::si::literals", "_q_dm2", "units::isq::si::dim_area", "units::isq::si::square_decimetre"⟩,
  ⟨76, .literal, "units::isq::si::literals", "_q_cm2", "units::isq::si::dim_area", "units::isq::si::square_centimetre"⟩,
  ⟨76, .literal, "units::isq::si::literals", "_q_cm2", "units::isq::si::dim_area", "units::isq::si::square_centimetre"⟩,
  ⟨76, .literal, "units::isq::si::literals", "_q_cm2", "units::isq::si::dim_area", "units::isq::si::square_centimetre"⟩,
  ⟨76, .literal, "units::isq::si::literals", "_q_mm2", "units::isq::si::dim_area", "units::isq::si::square_millimetre"⟩,
  ⟨76, .literal, "units::isq::si::literals", "_q_mm2", "units::isq::si::dim_area", "units::isq::si::square_millimetre"⟩,
  ⟨76, .literal, "units::isq::si::literals", "_q_mm2", "units::isq::si::dim_area", "units::isq::si::square_millimetre"⟩,
  ⟨76, .literal, "units::isq::si::literals", "_q_um2", "units::isq::si::dim_area", "units::isq::si::square_micrometre"⟩,
  ⟨76, .literal, "units::isq::si::literals", "_q_um2", "units::isq::si::dim_area", "units::isq::si::square_micrometre"⟩,
  ⟨76, .literal, "units::isq::si::literals", "_q_um2", "units::isq::si::dim_area", "units::isq::si::square_micrometre"⟩,
  ⟨76, .literal, "units::isq::si::literals", "_q_nm2", "units::isq::si::dim_area", "units::isq::si::square_nanometre"⟩]

/-- Part 49 of `tagTable`. -/
def tagTable49 : List (TRow) := [
  ⟨76, .literal, "units::isq::si::literals", "_q_nm2", "units::isq::si::dim_area", "units::isq::si::square_nanometre"⟩,
  ⟨76, .literal, "units::isq::si::literals", "_q_nm2", "units::isq::si::dim_area", "units::isq::si::square_nanometre"⟩,
  ⟨76, .literal, "units::isq::si::literals", "_q_pm2", "units::isq::si::dim_area", "units::isq::si::square_picometre"⟩,
  ⟨76, .literal, "units::isq::si::literals", "_q_pm2", "units::isq::si::dim_area", "units::isq::si::square_picometre"⟩,
  ⟨76, .literal, "units::isq::si::literals", "_q_pm2", "units::isq::si::dim_area", "units::isq::si::square_picometre"⟩,
  ⟨76, .literal, "units::isq::si::literals", "_q_fm2", "units::isq::si::dim_area", "units::isq::si::square_femtometre"⟩,
  ⟨76, .literal, "units::isq::si::literals", "_q_fm2", "units::isq::si::dim_area", "units::isq::si::square_femtometre"⟩,
  ⟨76, .literal, "units::isq::si::literals", "_q_fm2", "units::isq::si::dim_area", "units::isq::si::square_femtometre"⟩,
  ⟨76, .literal, "units::isq::si::literals", "_q_am2", "units::isq::si::dim_area", "units::isq::si::square_attometre"⟩,
  ⟨76, .literal, "units::isq::si::literals", "_q_am2", "units::isq::si::dim_area", "units::isq::si::square_attometre"⟩,
  ⟨76, .literal, "units::isq::si::literals", "_q_am2", "units::isq::si::dim_area", "units::isq::si::square_attometre"⟩,
  ⟨76, .literal, "units::isq::si::literals", "_q_zm2", "units::isq::si::dim_area", "units::isq::si::square_zeptometre"⟩,
  ⟨76, .literal, "units::isq::si::literals", "_q_zm2", "units::isq::si::dim_area", "units::isq::si::square_zeptometre"⟩,
  ⟨76, .literal, "units::isq::si::literals", "_q_zm2", "units::isq::si::dim_area", "units::isq::si::square_zeptometre"⟩,
  ⟨76, .literal, "units::isq::si::literals", "_q_ym2", "units::isq::si::dim_area", "units::isq::si::square_yoctometre"⟩,
  ⟨76, .literal, "units::isq::si::literals", "_q_ym2", "units::isq::si::dim_area", "units::isq::si::square_yoctometre"⟩,
  ⟨76, .literal, "units::isq::si::literals", "_q_ym2", "units::isq::si::dim_area", "units::isq::si::square_yoctometre"⟩,
  ⟨76, .literal, "units::isq::si::literals", "_q_m2", "units::isq::si::dim_area", "units::isq::si::square_metre"⟩,
  ⟨76, .literal, "units::isq::si::literals", "_q_m2", "units::isq::si::dim_area", "units::isq::si::square_metre"⟩,
  ⟨76, .literal, "units::isq::si::literals", "_q_m2", "units::isq::si::dim_area", "units::isq::si::square_metre"⟩,
  ⟨75, .rep, "units::aliases::isq::si::angular_velocity", "rad_per_s", "units::isq::si::dim_angular_velocity", "units::isq::si::radian_per_second"⟩,
  ⟨75, .literal, "units::isq::si::literals", "_q_rad_per_s", "units::isq::si::dim_angular_velocity", "units::isq::si::radian_per_second"⟩,
  ⟨75, .literal, "units::isq::si::literals", "_q_rad_per_s", "units::isq::si::dim_angular_velocity", "units::isq::si::radian_per_second"⟩,
  ⟨75, .literal, "units::isq::si::literals", "_q_rad_per_s", "units::isq::si::dim_angular_velocity", "units::isq::si::radian_per_second"⟩,
  ⟨74, .rep, "units::aliases::isq::si::amount_of_substance", "mol", "units::isq::si::dim_amount_of_substance", "units::isq::si::mole"⟩,
  ⟨74, .reference, "units::isq::si::amount_of_substance_references", "mol", "units::isq::si::dim_amount_of_substance", "units::isq::si::mole"⟩,
  ⟨74, .literal, "units::isq::si::literals", "_q_mol", "units::isq::si::dim_amount_of_substance", "units::isq::si::mole"⟩,
  ⟨74, .literal, "units::isq::si::literals", "_q_mol", "units::isq::si::dim_amount_of_substance", "units::isq::si::mole"⟩,
  ⟨74, .literal, "units::isq::si::literals", "_q_mol", "units::isq::si::dim_amount_of_substance", "units::isq::si::mole"⟩,
  ⟨73, .rep, "units::aliases::isq::si::absorbed_dose", "YGy", "units::isq::si::dim_absorbed_dose", "units::isq::si::yottagray"⟩,
  ⟨73, .rep, "units::aliases::isq::si::absorbed_dose", "ZGy", "units::isq::si::dim_absorbed_dose", "units::isq::si::zettagray"⟩,
  ⟨73, .rep, "units::aliases::isq::si::absorbed_dose", "EGy", "units::isq::si::dim_absorbed_dose", "units::isq::si::exagray"⟩,
  ⟨73, .rep, "units::aliases::isq::si::absorbed_dose", "PGy", "units::isq::si::dim_absorbed_dose", "units::isq::si::petagray"⟩,
  ⟨73, .rep, "units::aliases::isq::si::absorbed_dose", "TGy", "units::isq::si::dim_absorbed_dose", "units::isq::si::teragray"⟩,
  ⟨73, .rep, "units::aliases::isq::si::absorbed_dose", "GGy", "units::isq::si::dim_absorbed_dose", "units::isq::si::gigagray"⟩,
  ⟨73, .rep, "units::aliases::isq::si::absorbed_dose", "MGy", "units::isq::si::dim_absorbed_dose", "units::isq::si::megagray"⟩,
  ⟨73, .rep, "units::aliases::isq::si::absorbed_dose", "kGy", "units::isq::si::dim_absorbed_dose", "units::isq::si::kilogray"⟩,
  ⟨73, .rep, "units::aliases::isq::si::absorbed_dose", "hGy", "units::isq::si::dim_absorbed_dose", "units::isq::si::hectogray"⟩,
  ⟨73, .rep, "units::aliases::isq::si::absorbed_dose", "daGy", "units::isq::si::dim_absorbed_dose", "units::isq::si::decagray"⟩,
  ⟨73, .rep, "units::aliases::isq::si::absorbed_dose", "dGy", "units::isq::si::dim_absorbed_dose", "units::isq::si::decigray"⟩]

/-- Part 50 of `tagTable`. -/
def tagTable50 : List (TRow) := [
  ⟨73, .rep, "units::aliases::isq::si::absorbed_dose", "cGy", "units::isq::si::dim_absorbed_dose", "units::isq::si::centigray"⟩,
  ⟨73, .rep, "units::aliases::isq::si::absorbed_dose", "mGy", "units::isq::si::dim_absorbed_dose", "units::isq::si::milligray"⟩,
  ⟨73, .rep, "units::aliases::isq::si::absorbed_dose", "uGy", "units::isq::si::dim_absorbed_dose", "units::isq::si::microgray"⟩,
  ⟨73, .rep, "units::aliases::isq::si::absorbed_dose", "nGy", "units::isq::si::dim_absorbed_dose", "units::isq::si::nanogray"⟩,
  ⟨73, .rep, "units::aliases::isq::si::absorbed_dose", "pGy", "units::isq::si::dim_absorbed_dose", "units::isq::si::picogray"⟩,
  ⟨73, .rep, "units::aliases::isq::si::absorbed_dose", "fGy", "units::isq::si::dim_absorbed_dose", "units::isq::si::femtogray"⟩,
  ⟨73, .rep, "units::aliases::isq::si::absorbed_dose", "aGy", "units::isq::si::dim_absorbed_dose", "units::isq::si::attogray"⟩,
  ⟨73, .rep, "units::aliases::isq::si::absorbed_dose", "zGy", "units::isq::si::dim_absorbed_dose", "units::isq::si::zeptogray"⟩,
  ⟨73, .rep, "units::aliases::isq::si::absorbed_dose", "yGy", "units::isq::si::dim_absorbed_dose", "units::isq::si::yoctogray"⟩,
  ⟨73, .rep, "units::aliases::isq::si::absorbed_dose", "Gy", "units::isq::si::dim_absorbed_dose", "units::isq::si::gray"⟩,
  ⟨73, .reference, "units::isq::si::absorbed_dose_references", "YGy", "units::isq::si::dim_absorbed_dose", "units::isq::si::yottagray"⟩,
  ⟨73, .reference, "units::isq::si::absorbed_dose_references", "ZGy", "units::isq::si::dim_absorbed_dose", "units::isq::si::zettagray"⟩,
  ⟨73, .reference, "units::isq::si::absorbed_dose_references", "EGy", "units::isq::si::dim_absorbed_dose", "units::isq::si::exagray"⟩,
  ⟨73, .reference, "units::isq::si::absorbed_dose_references", "PGy", "units::isq::si::dim_absorbed_dose", "units::isq::si::petagray"⟩,
  ⟨73, .reference, "units::isq::si::absorbed_dose_references", "TGy", "units::isq::si::dim_absorbed_dose", "units::isq::si::teragray"⟩,
  ⟨73, .reference, "units::isq::si::absorbed_dose_references", "GGy", "units::isq::si::dim_absorbed_dose", "units::isq::si::gigagray"⟩,
  ⟨73, .reference, "units::isq::si::absorbed_dose_references", "MGy", "units::isq::si::dim_absorbed_dose", "units::isq::si::megagray"⟩,
  ⟨73, .reference, "units::isq::si::absorbed_dose_references", "kGy", "units::isq::si::dim_absorbed_dose", "units::isq::si::kilogray"⟩,
  ⟨73, .reference, "units::isq::si::absorbed_dose_references", "hGy", "units::isq::si::dim_absorbed_dose", "units::isq::si::hectogray"⟩,
  ⟨73, .reference, "units::isq::si::absorbed_dose_references", "daGy", "units::isq::si::dim_absorbed_dose", "units::isq::si::decagray"⟩,
  ⟨73, .reference, "units::isq::si::absorbed_dose_references", "dGy", "units::isq::si::dim_absorbed_dose", "units::isq::si::decigray"⟩,
  ⟨73, .reference, "units::isq::si::absorbed_dose_references", "cGy", "units::isq::si::dim_absorbed_dose", "units::isq::si::centigray"⟩,
  ⟨73, .reference, "units::isq::si::absorbed_dose_references", "mGy", "units::isq::si::dim_absorbed_dose", "units::isq::si::milligray"⟩,
  ⟨73, .reference, "units::isq::si::absorbed_dose_references", "uGy", "units::isq::si::dim_absorbed_dose", "units::isq::si::microgray"⟩,
  ⟨73, .reference, "units::isq::si::absorbed_dose_references", "nGy", "units::isq::si::dim_absorbed_dose", "units::isq::si::nanogray"⟩,
  ⟨73, .reference, "units::isq::si::absorbed_dose_references", "pGy", "units::isq::si::dim_absorbed_dose", "units::isq::si::picogray"⟩,
  ⟨73, .reference, "units::isq::si::absorbed_dose_references", "fGy", "units::isq::si::dim_absorbed_dose", "units::isq::si::femtogray"⟩,
  ⟨73, .reference, "units::isq::si::absorbed_dose_references", "aGy", "units::isq::si::dim_absorbed_dose", "units::isq::si::attogray"⟩,
  ⟨73, .reference, "units::isq::si::absorbed_dose_references", "zGy", "units::isq::si::dim_absorbed_dose", "units::isq::si::zeptogray"⟩,
  ⟨73, .reference, "units::isq::si::absorbed_dose_references", "yGy", "units::isq::si::dim_absorbed_dose", "units::isq::si::yoctogray"⟩,
  ⟨73, .reference, "units::isq::si::absorbed_dose_references", "Gy", "units::isq::si::dim_absorbed_dose", "units::isq::si::gray"⟩,
  ⟨73, .literal, "units::isq::si::literals", "_q_YGy", "units::isq::si::dim_absorbed_dose", "units::isq::si::yottagray"⟩,
  ⟨73, .literal, "units::isq::si::literals", "_q_YGy", "units::isq::si::dim_absorbed_dose", "units::isq::si::yottagray"⟩,
  ⟨73, .literal, "units::isq::si::literals", "_q_YGy", "units::isq::si::dim_absorbed_dose", "units::isq::si::yottagray"⟩,
  ⟨73, .literal, "units::isq::si::literals", "_q_ZGy", "units::isq::si::dim_absorbed_dose", "units::isq::si::zettagray"⟩,
  ⟨73, .literal, "units::isq::si::literals", "_q_ZGy", "units::isq::si::dim_absorbed_dose", "units::isq::si::zettagray"⟩,
  ⟨73, .literal, "units::isq::si::literals", "_q_ZGy", "units::isq::si::dim_absorbed_dose", "units::isq::si::zettagray"⟩,
  ⟨73, .literal, "units::isq::si::literals", "_q_EGy", "units::isq::si::dim_absorbed_dose", "units::isq::si::exagray"⟩,
  ⟨73, .literal, "units::isq::si::literals", "_q_EGy", "units::isq::si::dim_absorbed_dose", "units::isq::si::exagray"⟩,
  ⟨73, .literal, "units::isq::si::literals", "_q_EGy", "units::isq::si::dim_absorbed_dose", "units::isq::si::exagray"⟩]

/-- Part 51 of `tagTable`. -/
def tagTable51 : List (TRow) := [
  ⟨73, .literal, "units::isq::si::literals", "_q_PGy", "units::isq::si::dim_absorbed_dose", "units::isq::si::petagray"⟩,
  ⟨73, .literal, "units::isq::si::literals", "_q_PGy", "units::isq::si::dim_absorbed_dose", "units::isq::si::petagray"⟩,
  ⟨73, .literal, "units::isq::si::literals", "_q_PGy", "units::isq::si::dim_absorbed_dose", "units::isq::si::petagray"⟩,
  ⟨73, .literal, "units::isq::si::literals", "_q_TGy", "units::isq::si::dim_absorbed_dose", "units::isq::si::teragray"⟩,
  ⟨73, .literal, "units::isq::si::literals", "_q_TGy", "units::isq::si::dim_absorbed_dose", "units::isq::si::teragray"⟩,
  ⟨73, .literal, "units::isq::si::literals", "_q_TGy", "units::isq::si::dim_absorbed_dose", "units::isq::si::teragray"⟩,
  ⟨73, .literal, "units::isq::si::literals", "_q_GGy", "units::isq::si::dim_absorbed_dose", "units::isq::si::gigagray"⟩,
  ⟨73, .literal, "units::isq::si::literals", "_q_GGy", "units::isq::si::dim_absorbed_dose", "units::isq::si::gigagray"⟩,
  ⟨73, .literal, "units::isq::si::literals", "_q_GGy", "units::isq::si::dim_absorbed_dose", "units::isq::si::gigagray"⟩,
  ⟨73, .literal, "units::isq::si::literals", "_q_MGy", "units::isq::si::dim_absorbed_dose", "units::isq::si::megagray"⟩,
  ⟨73, .literal, "units::isq::si::literals", "_q_MGy", "units::isq::si::dim_absorbed_dose", "units::isq::si::megagray"⟩,
  ⟨73, .literal, "units::isq::si::literals", "_q_MGy", "units::isq::si::dim_absorbed_dose", "units::isq::si::megagray"⟩,
  ⟨73, .literal, "units::isq::si::literals", "_q_kGy", "units::isq::si::dim_absorbed_dose", "units::isq::si::kilogray"⟩,
  ⟨73, .literal, "units::isq::si::literals", "_q_kGy", "units::isq::si::dim_absorbed_dose", "units::isq::si::kilogray"⟩,
  ⟨73, .literal, "units::isq::si::literals", "_q_kGy", "units::isq::si::dim_absorbed_dose", "units::isq::si::kilogray"⟩,
  ⟨73, .literal, "units::isq::si::literals", "_q_hGy", "units::isq::si::dim_absorbed_dose", "units::isq::si::hectogray"⟩,
  ⟨73, .literal, "units::isq::si::literals", "_q_hGy", "units::isq::si::dim_absorbed_dose", "units::isq::si::hectogray"⟩,
  ⟨73, .literal, "units::isq::si::literals", "_q_hGy", "units::isq::si::dim_absorbed_dose", "units::isq::si::hectogray"⟩,
  ⟨73, .literal, "units::isq::si::literals", "_q_daGy", "units::isq::si::dim_absorbed_dose", "units::isq::si::decagray"⟩,
  ⟨73, .literal, "units::isq::si::literals", "_q_daGy", "units::isq::si::dim_absorbed_dose", "units::isq::si::decagray"⟩,
  ⟨73, .literal, "units::isq::si::literals", "_q_daGy", "units::isq::si::dim_absorbed_dose", "units::isq::si::decagray"⟩,
  ⟨73, .literal, "units::isq::si::literals", "_q_dGy", "units::isq::si::dim_absorbed_dose", "units::isq::si::decigray"⟩,
  ⟨73, .literal, "units::isq::si::literals", "_q_dGy", "units::isq::si::dim_absorbed_dose", "units::isq::si::decigray"⟩,
  ⟨73, .literal, "units::isq::si::literals", "_q_dGy", "units::isq::si::dim_absorbed_dose", "units::isq::si::decigray"⟩,
  ⟨73, .literal, "units::isq::si::literals", "_q_cGy", "units::isq::si::dim_absorbed_dose", "units::isq::si::centigray"⟩,
  ⟨73, .literal, "units::isq::si::literals", "_q_cGy", "units::isq::si::dim_absorbed_dose", "units::isq::si::centigray"⟩,
  ⟨73, .literal, "units::isq::si::literals", "_q_cGy", "units::isq::si::dim_absorbed_dose", "units::isq::si::centigray"⟩,
  ⟨73, .literal, "units::isq::si::literals", "_q_mGy", "units::isq::si::dim_absorbed_dose", "units::isq::si::milligray"⟩,
  ⟨73, .literal, "units::isq::si::literals", "_q_mGy", "units::isq::si::dim_absorbed_dose", "units::isq::si::milligray"⟩,
  ⟨73, .literal, "units::isq::si::literals", "_q_mGy", "units::isq::si::dim_absorbed_dose", "units::isq::si::milligray"⟩,
  ⟨73, .literal, "units::isq::si::literals", "_q_uGy", "units::isq::si::dim_absorbed_dose", "units::isq::si::microgray"⟩,
  ⟨73, .literal, "units::isq::si::literals", "_q_uGy", "units::isq::si::dim_absorbed_dose", "units::isq::si::microgray"⟩,
  ⟨73, .literal, "units::isq::si::literals", "_q_uGy", "units::isq::si::dim_absorbed_dose", "units::isq::si::microgray"⟩,
  ⟨73, .literal, "units::isq::si::literals", "_q_nGy", "units::isq::si::dim_absorbed_dose", "units::isq::si::nanogray"⟩,
  ⟨73, .literal, "units::isq::si::literals", "_q_nGy", "units::isq::si::dim_absorbed_dose", "units::isq::si::nanogray"⟩,
  ⟨73, .literal, "units::isq::si::literals", "_q_nGy", "units::isq::si::dim_absorbed_dose", "units::isq::si::nanogray"⟩,
  ⟨73, .literal, "units::isq::si::literals", "_q_pGy", "units::isq::si::dim_absorbed_dose", "units::isq::si::picogray"⟩,
  ⟨73, .literal, "units::isq::si::literals", "_q_pGy", "units::isq::si::dim_absorbed_dose", "units::isq::si::picogray"⟩,
  ⟨73, .literal, "units::isq::si::literals", "_q_pGy", "units::isq::si::dim_absorbed_dose", "units::isq::si::picogray"⟩,
  ⟨73, .literal, "units::isq::si::literals", "_q_fGy", "units::isq::si::dim_absorbed_dose", "units::isq::si::femtogray"⟩]

/-- Part 52 of `tagTable`. -/
def tagTable52 : List (TRow) := [
  ⟨73, .literal, "units::isq::si::literals", "_q_fGy", "units::isq::si::dim_absorbed_dose", "units::isq::si::femtogray"⟩,
  ⟨73, .literal, "units::isq::si::literals", "_q_fGy", "units::isq::si::dim_absorbed_dose", "units::isq::si::femtogray"⟩,
  ⟨73, .literal, "units::isq::si::literals", "_q_aGy", "units::isq::si::dim_absorbed_dose", "units::isq::si::attogray"⟩,
  ⟨73, .literal, "units::isq::si::literals", "_q_aGy", "units::isq::si::dim_absorbed_dose", "units::isq::si::attogray"⟩,
  ⟨73, .literal, "units::isq::si::literals", "_q_aGy", "units::isq::si::dim_absorbed_dose", "units::isq::si::attogray"⟩,
  ⟨73, .literal, "units::isq::si::literals", "_q_zGy", "units::isq::si::dim_absorbed_dose", "units::isq::si::zeptogray"⟩,
  ⟨73, .literal, "units::isq::si::literals", "_q_zGy", "units::isq::si::dim_absorbed_dose", "units::isq::si::zeptogray"⟩,
  ⟨73, .literal, "units::isq::si::literals", "_q_zGy", "units::isq::si::dim_absorbed_dose", "units::isq::si::zeptogray"⟩,
  ⟨73, .literal, "units::isq::si::literals", "_q_yGy", "units::isq::si::dim_absorbed_dose", "units::isq::si::yoctogray"⟩,
  ⟨73, .literal, "units::isq::si::literals", "_q_yGy", "units::isq::si::dim_absorbed_dose", "units::isq::si::yoctogray"⟩,
  ⟨73, .literal, "units::isq::si::literals", "_q_yGy", "units::isq::si::dim_absorbed_dose", "units::isq::si::yoctogray"⟩,
  ⟨73, .literal, "units::isq::si::literals", "_q_Gy", "units::isq::si::dim_absorbed_dose", "units::isq::si::gray"⟩,
  ⟨73, .literal, "units::isq::si::literals", "_q_Gy", "units::isq::si::dim_absorbed_dose", "units::isq::si::gray"⟩,
  ⟨73, .literal, "units::isq::si::literals", "_q_Gy", "units::isq::si::dim_absorbed_dose", "units::isq::si::gray"⟩,
  ⟨72, .rep, "units::aliases::isq::si::energy", "GeV", "units::isq::si::dim_energy", "units::isq::si::gigaelectronvolt"⟩,
  ⟨72, .rep, "units::aliases::isq::si::energy", "eV", "units::isq::si::dim_energy", "units::isq::si::electronvolt"⟩,
  ⟨72, .rep, "units::aliases::isq::si::energy", "YJ", "units::isq::si::dim_energy", "units::isq::si::yottajoule"⟩,
  ⟨72, .rep, "units::aliases::isq::si::energy", "ZJ", "units::isq::si::dim_energy", "units::isq::si::zettajoule"⟩,
  ⟨72, .rep, "units::aliases::isq::si::energy", "EJ", "units::isq::si::dim_energy", "units::isq::si::exajoule"⟩,
  ⟨72, .rep, "units::aliases::isq::si::energy", "PJ", "units::isq::si::dim_energy", "units::isq::si::petajoule"⟩,
  ⟨72, .rep, "units::aliases::isq::si::energy", "TJ", "units::isq::si::dim_energy", "units::isq::si::terajoule"⟩,
  ⟨72, .rep, "units::aliases::isq::si::energy", "GJ", "units::isq::si::dim_energy", "units::isq::si::gigajoule"⟩,
  ⟨72, .rep, "units::aliases::isq::si::energy", "MJ", "units::isq::si::dim_energy", "units::isq::si::megajoule"⟩,
  ⟨72, .rep, "units::aliases::isq::si::energy", "kJ", "units::isq::si::dim_energy", "units::isq::si::kilojoule"⟩,
  ⟨72, .rep, "units::aliases::isq::si::energy", "mJ", "units::isq::si::dim_energy", "units::isq::si::millijoule"⟩,
  ⟨72, .rep, "units::aliases::isq::si::energy", "uJ", "units::isq::si::dim_energy", "units::isq::si::microjoule"⟩,
  ⟨72, .rep, "units::aliases::isq::si::energy", "nJ", "units::isq::si::dim_energy", "units::isq::si::nanojoule"⟩,
  ⟨72, .rep, "units::aliases::isq::si::energy", "pJ", "units::isq::si::dim_energy", "units::isq::si::picojoule"⟩,
  ⟨72, .rep, "units::aliases::isq::si::energy", "fJ", "units::isq::si::dim_energy", "units::isq::si::femtojoule"⟩,
  ⟨72, .rep, "units::aliases::isq::si::energy", "aJ", "units::isq::si::dim_energy", "units::isq::si::attojoule"⟩,
  ⟨72, .rep, "units::aliases::isq::si::energy", "zJ", "units::isq::si::dim_energy", "units::isq::si::zeptojoule"⟩,
  ⟨72, .rep, "units::aliases::isq::si::energy", "yJ", "units::isq::si::dim_energy", "units::isq::si::yoctojoule"⟩,
  ⟨72, .rep, "units::aliases::isq::si::energy", "J", "units::isq::si::dim_energy", "units::isq::si::joule"⟩,
  ⟨72, .reference, "units::isq::si::energy_references", "GeV", "units::isq::si::dim_energy", "units::isq::si::gigaelectronvolt"⟩,
  ⟨72, .reference, "units::isq::si::energy_references", "eV", "units::isq::si::dim_energy", "units::isq::si::electronvolt"⟩,
  ⟨72, .reference, "units::isq::si::energy_references", "YJ", "units::isq::si::dim_energy", "units::isq::si::yottajoule"⟩,
  ⟨72, .reference, "units::isq::si::energy_references", "ZJ", "units::isq::si::dim_energy", "units::isq::si::zettajoule"⟩,
  ⟨72, .reference, "units::isq::si::energy_references", "EJ", "units::isq::si::dim_energy", "units::isq::si::exajoule"⟩,
  ⟨72, .reference, "units::isq::si::energy_references", "PJ", "units::isq::si::dim_energy", "units::isq::si::petajoule"⟩,
  ⟨72, .reference, "units::isq::si::energy_references", "TJ", "units::isq::si::dim_energy", "units::isq::si::terajoule"⟩]

/-- Part 53 of `tagTable`. -/
def tagTable53 : List (TRow) := [
  ⟨72, .reference, "units::isq::si::energy_references", "GJ", "units::isq::si::dim_energy", "units::isq::si::gigajoule"⟩,
  ⟨72, .reference, "units::isq::si::energy_references", "MJ", "units::isq::si::dim_energy", "units::isq::si::megajoule"⟩,
  ⟨72, .reference, "units::isq::si::energy_references", "kJ", "units::isq::si::dim_energy", "units::isq::si::kilojoule"⟩,
  ⟨72, .reference, "units::isq::si::energy_references", "mJ", "units::isq::si::dim_energy", "units::isq::si::millijoule"⟩,
  ⟨72, .reference, "units::isq::si::energy_references", "uJ", "units::isq::si::dim_energy", "units::isq::si::microjoule"⟩,
  ⟨72, .reference, "units::isq::si::energy_references", "nJ", "units::isq::si::dim_energy", "units::isq::si::nanojoule"⟩,
  ⟨72, .reference, "units::isq::si::energy_references", "pJ", "units::isq::si::dim_energy", "units::isq::si::picojoule"⟩,
  ⟨72, .reference, "units::isq::si::energy_references", "fJ", "units::isq::si::dim_energy", "units::isq::si::femtojoule"⟩,
  ⟨72, .reference, "units::isq::si::energy_references", "aJ", "units::isq::si::dim_energy", "units::isq::si::attojoule"⟩,
  ⟨72, .reference, "units::isq::si::energy_references", "zJ", "units::isq::si::dim_energy", "units::isq::si::zeptojoule"⟩,
  ⟨72, .reference, "units::isq::si::energy_references", "yJ", "units::isq::si::dim_energy", "units::isq::si::yoctojoule"⟩,
  ⟨72, .reference, "units::isq::si::energy_references", "J", "units::isq::si::dim_energy", "units::isq::si::joule"⟩,
  ⟨72, .literal, "units::isq::si::literals", "_q_GeV", "units::isq::si::dim_energy", "units::isq::si::gigaelectronvolt"⟩,
  ⟨72, .literal, "units::isq::si::literals", "_q_GeV", "units::isq::si::dim_energy", "units::isq::si::gigaelectronvolt"⟩,
  ⟨72, .literal, "units::isq::si::literals", "_q_GeV", "units::isq::si::dim_energy", "units::isq::si::gigaelectronvolt"⟩,
  ⟨72, .literal, "units::isq::si::literals", "_q_eV", "units::isq::si::dim_energy", "units::isq::si::electronvolt"⟩,
  ⟨72, .literal, "units::isq::si::literals", "_q_eV", "units::isq::si::dim_energy", "units::isq::si::electronvolt"⟩,
  ⟨72, .literal, "units::isq::si::literals", "_q_eV", "units::isq::si::dim_energy", "units::isq::si::electronvolt"⟩,
  ⟨72, .literal, "units::isq::si::literals", "_q_YJ", "units::isq::si::dim_energy", "units::isq::si::yottajoule"⟩,
  ⟨72, .literal, "units::isq::si::literals", "_q_YJ", "units::isq::si::dim_energy", "units::isq::si::yottajoule"⟩,
  ⟨72, .literal, "units::isq::si::literals", "_q_YJ", "units::isq::si::dim_energy", "units::isq::si::yottajoule"⟩,
  ⟨72, .literal, "units::isq::si::literals", "_q_ZJ", "units::isq::si::dim_energy", "units::isq::si::zettajoule"⟩,
  ⟨72, .literal, "units::isq::si::literals", "_q_ZJ", "units::isq::si::dim_energy", "units::isq::si::zettajoule"⟩,
  ⟨72, .literal, "units::isq::si::literals", "_q_ZJ", "units::isq::si::dim_energy", "units::isq::si::zettajoule"⟩,
  ⟨72, .literal, "units::isq::si::literals", "_q_EJ", "units::isq::si::dim_energy", "units::isq::si::exajoule"⟩,
  ⟨72, .literal, "units::isq::si::literals", "_q_EJ", "units::isq::si::dim_energy", "units::isq::si::exajoule"⟩,
  ⟨72, .literal, "units::isq::si::literals", "_q_EJ", "units::isq::si::dim_energy", "units::isq::si::exajoule"⟩,
  ⟨72, .literal, "units::isq::si::literals", "_q_PJ", "units::isq::si::dim_energy", "units::isq::si::petajoule"⟩,
  ⟨72, .literal, "units::isq::si::literals", "_q_PJ", "units::isq::si::dim_energy", "units::isq::si::petajoule"⟩,
  ⟨72, .literal, "units::isq::si::literals", "_q_PJ", "units::isq::si::dim_energy", "units::isq::si::petajoule"⟩,
  ⟨72, .literal, "units::isq::si::literals", "_q_TJ", "units::isq::si::dim_energy", "units::isq::si::terajoule"⟩,
  ⟨72, .literal, "units::isq::si::literals", "_q_TJ", "units::isq::si::dim_energy", "units::isq::si::terajoule"⟩,
  ⟨72, .literal, "units::isq::si::literals", "_q_TJ", "units::isq::si::dim_energy", "units::isq::si::terajoule"⟩,
  ⟨72, .literal, "units::isq::si::literals", "_q_GJ", "units::isq::si::dim_energy", "units::isq::si::gigajoule"⟩,
  ⟨72, .literal, "units::isq::si::literals", "_q_GJ", "units::isq::si::dim_energy", "units::isq::si::gigajoule"⟩,
  ⟨72, .literal, "units::isq::si::literals", "_q_GJ", "units::isq::si::dim_energy", "units::isq::si::gigajoule"⟩,
  ⟨72, .literal, "units::isq::si::literals", "_q_MJ", "units::isq::si::dim_energy", "units::isq::si::megajoule"⟩,
  ⟨72, .literal, "units::isq::si::literals", "_q_MJ", "units::isq::si::dim_energy", "units::isq::si::megajoule"⟩,
  ⟨72, .literal, "units::isq::si::literals", "_q_MJ", "units::isq::si::dim_energy", "units::isq::si::megajoule"⟩,
  ⟨72, .literal, "units::isq::si::literals", "_q_kJ", "units::isq::si::dim_energy", "units::isq::si::kilojoule"⟩]

/-- Part 54 of `tagTable`. -/
def tagTable54 : List (TRow) := [
  ⟨72, .literal, "units::isq::si::literals", "_q_kJ", "units::isq::si::dim_energy", "units::isq::si::kilojoule"⟩,
  ⟨72, .literal, "units::isq::si::literals", "_q_kJ", "units::isq::si::dim_energy", "units::isq::si::kilojoule"⟩,
  ⟨72, .literal, "units::isq::si::literals", "_q_mJ", "units::isq::si::dim_energy", "units::isq::si::millijoule"⟩,
  ⟨72, .literal, "units::isq::si::literals", "_q_mJ", "units::isq::si::dim_energy", "units::isq::si::millijoule"⟩,
  ⟨72, .literal, "units::isq::si::literals", "_q_mJ", "units::isq::si::dim_energy", "units::isq::si::millijoule"⟩,
  ⟨72, .literal, "units::isq::si::literals", "_q_uJ", "units::isq::si::dim_energy", "units::isq::si::microjoule"⟩,
  ⟨72, .literal, "units::isq::si::literals", "_q_uJ", "units::isq::si::dim_energy", "units::isq::si::microjoule"⟩,
  ⟨72, .literal, "units::isq::si::literals", "_q_uJ", "units::isq::si::dim_energy", "units::isq::si::microjoule"⟩,
  ⟨72, .literal, "units::isq::si::literals", "_q_nJ", "units::isq::si::dim_energy", "units::isq::si::nanojoule"⟩,
  ⟨72, .literal, "units::isq::si::literals", "_q_nJ", "units::isq::si::dim_energy", "units::isq::si::nanojoule"⟩,
  ⟨72, .literal, "units::isq::si::literals", "_q_nJ", "units::isq::si::dim_energy", "units::isq::si::nanojoule"⟩,
  ⟨72, .literal, "units::isq::si::literals", "_q_pJ", "units::isq::si::dim_energy", "units::isq::si::picojoule"⟩,
  ⟨72, .literal, "units::isq::si::literals", "_q_pJ", "units::isq::si::dim_energy", "units::isq::si::picojoule"⟩,
  ⟨72, .literal, "units::isq::si::literals", "_q_pJ", "units::isq::si::dim_energy", "units::isq::si::picojoule"⟩,
  ⟨72, .literal, "units::isq::si::literals", "_q_fJ", "units::isq::si::dim_energy", "units::isq::si::femtojoule"⟩,
  ⟨72, .literal, "units::isq::si::literals", "_q_fJ", "units::isq::si::dim_energy", "units::isq::si::femtojoule"⟩,
  ⟨72, .literal, "units::isq::si::literals", "_q_fJ", "units::isq::si::dim_energy", "units::isq::si::femtojoule"⟩,
  ⟨72, .literal, "units::isq::si::literals", "_q_aJ", "units::isq::si::dim_energy", "units::isq::si::attojoule"⟩,
  ⟨72, .literal, "units::isq::si::literals", "_q_aJ", "units::isq::si::dim_energy", "units::isq::si::attojoule"⟩,
  ⟨72, .literal, "units::isq::si::literals", "_q_aJ", "units::isq::si::dim_energy", "units::isq::si::attojoule"⟩,
  ⟨72, .literal, "units::isq::si::literals", "_q_zJ", "units::isq::si::dim_energy", "units::isq::si::zeptojoule"⟩,
  ⟨72, .literal, "units::isq::si::literals", "_q_zJ", "units::isq::si::dim_energy", "units::isq::si::zeptojoule"⟩,
  ⟨72, .literal, "units::isq::si::literals", "_q_zJ", "units::isq::si::dim_energy", "units::isq::si::zeptojoule"⟩,
  ⟨72, .literal, "units::isq::si::literals", "_q_yJ", "units::isq::si::dim_energy", "units::isq::si::yoctojoule"⟩,
  ⟨72, .literal, "units::isq::si::literals", "_q_yJ", "units::isq::si::dim_energy", "units::isq::si::yoctojoule"⟩,
  ⟨72, .literal, "units::isq::si::literals", "_q_yJ", "units::isq::si::dim_energy", "units::isq::si::yoctojoule"⟩,
  ⟨72, .literal, "units::isq::si::literals", "_q_J", "units::isq::si::dim_energy", "units::isq::si::joule"⟩,
  ⟨72, .literal, "units::isq::si::literals", "_q_J", "units::isq::si::dim_energy", "units::isq::si::joule"⟩,
  ⟨72, .literal, "units::isq::si::literals", "_q_J", "units::isq::si::dim_energy", "units::isq::si::joule"⟩,
  ⟨71, .rep, "units::aliases::isq::si::force", "YN", "units::isq::si::dim_force", "units::isq::si::yottanewton"⟩,
  ⟨71, .rep, "units::aliases::isq::si::force", "ZN", "units::isq::si::dim_force", "units::isq::si::zettanewton"⟩,
  ⟨71, .rep, "units::aliases::isq::si::force", "EN", "units::isq::si::dim_force", "units::isq::si::exanewton"⟩,
  ⟨71, .rep, "units::aliases::isq::si::force", "PN", "units::isq::si::dim_force", "units::isq::si::petanewton"⟩,
  ⟨71, .rep, "units::aliases::isq::si::force", "TN", "units::isq::si::dim_force", "units::isq::si::teranewton"⟩,
  ⟨71, .rep, "units::aliases::isq::si::force", "GN", "units::isq::si::dim_force", "units::isq::si::giganewton"⟩,
  ⟨71, .rep, "units::aliases::isq::si::force", "MN", "units::isq::si::dim_force", "units::isq::si::meganewton"⟩,
  ⟨71, .rep, "units::aliases::isq::si::force", "kN", "units::isq::si::dim_force", "units::isq::si::kilonewton"⟩,
  ⟨71, .rep, "units::aliases::isq::si::force", "hN", "units::isq::si::dim_force", "units::isq::si::hectonewton"⟩,
  ⟨71, .rep, "units::aliases::isq::si::force", "daN", "units::isq::si::dim_force", "units::isq::si::decanewton"⟩,
  ⟨71, .rep, "units::aliases::isq::si::force", "dN", "units::isq::si::dim_force", "units::isq::si::decinewton"⟩]

/-- Part 55 of `tagTable`. -/
def tagTable55 : List (TRow) := [
  ⟨71, .rep, "units::aliases::isq::si::force", "cN", "units::isq::si::dim_force", "units::isq::si::centinewton"⟩,
  ⟨71, .rep, "units::aliases::isq::si::force", "mN", "units::isq::si::dim_force", "units::isq::si::millinewton"⟩,
  ⟨71, .rep, "units::aliases::isq::si::force", "uN", "units::isq::si::dim_force", "units::isq::si::micronewton"⟩,
  ⟨71, .rep, "units::aliases::isq::si::force", "nN", "units::isq::si::dim_force", "units::isq::si::nanonewton"⟩,
  ⟨71, .rep, "units::aliases::isq::si::force", "pN", "units::isq::si::dim_force", "units::isq::si::piconewton"⟩,
  ⟨71, .rep, "units::aliases::isq::si::force", "fN", "units::isq::si::dim_force", "units::isq::si::femtonewton"⟩,
  ⟨71, .rep, "units::aliases::isq::si::force", "aN", "units::isq::si::dim_force", "units::isq::si::attonewton"⟩,
  ⟨71, .rep, "units::aliases::isq::si::force", "zN", "units::isq::si::dim_force", "units::isq::si::zeptonewton"⟩,
  ⟨71, .rep, "units::aliases::isq::si::force", "yN", "units::isq::si::dim_force", "units::isq::si::yoctonewton"⟩,
  ⟨71, .rep, "units::aliases::isq::si::force", "N", "units::isq::si::dim_force", "units::isq::si::newton"⟩,
  ⟨71, .reference, "units::isq::si::force_references", "YN", "units::isq::si::dim_force", "units::isq::si::yottanewton"⟩,
  ⟨71, .reference, "units::isq::si::force_references", "ZN", "units::isq::si::dim_force", "units::isq::si::zettanewton"⟩,
  ⟨71, .reference, "units::isq::si::force_references", "EN", "units::isq::si::dim_force", "units::isq::si::exanewton"⟩,
  ⟨71, .reference, "units::isq::si::force_references", "PN", "units::isq::si::dim_force", "units::isq::si::petanewton"⟩,
  ⟨71, .reference, "units::isq::si::force_references", "TN", "units::isq::si::dim_force", "units::isq::si::teranewton"⟩,
  ⟨71, .reference, "units::isq::si::force_references", "GN", "units::isq::si::dim_force", "units::isq::si::giganewton"⟩,
  ⟨71, .reference, "units::isq::si::force_references", "MN", "units::isq::si::dim_force", "units::isq::si::meganewton"⟩,
  ⟨71, .reference, "units::isq::si::force_references", "kN", "units::isq::si::dim_force", "units::isq::si::kilonewton"⟩,
  ⟨71, .reference, "units::isq::si::force_references", "hN", "units::isq::si::dim_force", "units::isq::si::hectonewton"⟩,
  ⟨71, .reference, "units::isq::si::force_references", "daN", "units::isq::si::dim_force", "units::isq::si::decanewton"⟩,
  ⟨71, .reference, "units::isq::si::force_references", "dN", "units::isq::si::dim_force", "units::isq::si::decinewton"⟩,
  ⟨71, .reference, "units::isq::si::force_references", "cN", "units::isq::si::dim_force", "units::isq::si::centinewton"⟩,
  ⟨71, .reference, "units::isq::si::force_references", "mN", "units::isq::si::dim_force", "units::isq::si::millinewton"⟩,
  ⟨71, .reference, "units::isq::si::force_references", "uN", "units::isq::si::dim_force", "units::isq::si::micronewton"⟩,
  ⟨71, .reference, "units::isq::si::force_references", "nN", "units::isq::si::dim_force", "units::isq::si::nanonewton"⟩,
  ⟨71, .reference, "units::isq::si::force_references", "pN", "units::isq::si::dim_force", "units::isq::si::piconewton"⟩,
  ⟨71, .reference, "units::isq::si::force_references", "fN", "units::isq::si::dim_force", "units::isq::si::femtonewton"⟩,
  ⟨71, .reference, "units::isq::si::force_references", "aN", "units::isq::si::dim_force", "units::isq::si::attonewton"⟩,
  ⟨71, .reference, "units::isq::si::force_references", "zN", "units::isq::si::dim_force", "units::isq::si::zeptonewton"⟩,
  ⟨71, .reference, "units::isq::si::force_references", "yN", "units::isq::si::dim_force", "units::isq::si::yoctonewton"⟩,
  ⟨71, .reference, "units::isq::si::force_references", "N", "units::isq::si::dim_force", "units::isq::si::newton"⟩,
  ⟨71, .literal, "units::isq::si::literals", "_q_YN", "units::isq::si::dim_force", "units::isq::si::yottanewton"⟩,
  ⟨71, .literal, "units::isq::si::literals", "_q_YN", "units::isq::si::dim_force", "units::isq::si::yottanewton"⟩,
  ⟨71, .literal, "units::isq::si::literals", "_q_YN", "units::isq::si::dim_force", "units::isq::si::yottanewton"⟩,
  ⟨71, .literal, "units::isq::si::literals", "_q_ZN", "units::isq::si::dim_force", "units::isq::si::zettanewton"⟩,
  ⟨71, .literal, "units::isq::si::literals", "_q_ZN", "units::isq::si::dim_force", "units::isq::si::zettanewton"⟩,
  ⟨71, .literal, "units::isq::si::literals", "_q_ZN", "units::isq::si::dim_force", "units::isq::si::zettanewton"⟩,
  ⟨71, .literal, "units::isq::si::literals", "_q_EN", "units::isq::si::dim_force", "units::isq::si::exanewton"⟩,
  ⟨71, .literal, "units::isq::si::literals", "_q_EN", "units::isq::si::dim_force", "units::isq::si::exanewton"⟩,
  ⟨71, .literal, "units::isq::si::literals", "_q_EN", "units::isq::si::dim_force", "units::isq::si::exanewton"⟩]

/-- Part 56 of `tagTable`. -/
def tagTable56 : List (TRow) := [
  ⟨71, .literal, "units::isq::si::literals", "_q_PN", "units::isq::si::dim_force", "units::isq::si::petanewton"⟩,
  ⟨71, .literal, "units::isq::si::literals", "_q_PN", "units::isq::si::dim_force", "units::isq::si::petanewton"⟩,
  ⟨71, .literal, "units::isq::si::literals", "_q_PN", "units::isq::si::dim_force", "units::isq::si::petanewton"⟩,
  ⟨71, .literal, "units::isq::si::literals", "_q_TN", "units::isq::si::dim_force", "units::isq::si::teranewton"⟩,
  ⟨71, .literal, "units::isq::si::literals", "_q_TN", "units::isq::si::dim_force", "units::isq::si::teranewton"⟩,
  ⟨71, .literal, "units::isq::si::literals", "_q_TN", "units::isq::si::dim_force", "units::isq::si::teranewton"⟩,
  ⟨71, .literal, "units::isq::si::literals", "_q_GN", "units::isq::si::dim_force", "units::isq::si::giganewton"⟩,
  ⟨71, .literal, "units::isq::si::literals", "_q_GN", "units::isq::si::dim_force", "units::isq::si::giganewton"⟩,
  ⟨71, .literal, "units::isq::si::literals", "_q_GN", "units::isq::si::dim_force", "units::isq::si::giganewton"⟩,
  ⟨71, .literal, "units::isq::si::literals", "_q_MN", "units::isq::si::dim_force", "units::isq::si::meganewton"⟩,
  ⟨71, .literal, "units::isq::si::literals", "_q_MN", "units::isq::si::dim_force", "units::isq::si::meganewton"⟩,
  ⟨71, .literal, "units::isq::si::literals", "_q_MN", "units::isq::si::dim_force", "units::isq::si::meganewton"⟩,
  ⟨71, .literal, "units::isq::si::literals", "_q_kN", "units::isq::si::dim_force", "units::isq::si::kilonewton"⟩,
  ⟨71, .literal, "units::isq::si::literals", "_q_kN", "units::isq::si::dim_force", "units::isq::si::kilonewton"⟩,
  ⟨71, .literal, "units::isq::si::literals", "_q_kN", "units::isq::si::dim_force", "units::isq::si::kilonewton"⟩,
  ⟨71, .literal, "units::isq::si::literals", "_q_hN", "units::isq::si::dim_force", "units::isq::si::hectonewton"⟩,
  ⟨71, .literal, "units::isq::si::literals", "_q_hN", "units::isq::si::dim_force", "units::isq::si::hectonewton"⟩,
  ⟨71, .literal, "units::isq::si::literals", "_q_hN", "units::isq::si::dim_force", "units::isq::si::hectonewton"⟩,
  ⟨71, .literal, "units::isq::si::literals", "_q_daN", "units::isq::si::dim_force", "units::isq::si::decanewton"⟩,
  ⟨71, .literal, "units::isq::si::literals", "_q_daN", "units::isq::si::dim_force", "units::isq::si::decanewton"⟩,
  ⟨71, .literal, "units::isq::si::literals", "_q_daN", "units::isq::si::dim_force", "units::isq::si::decanewton"⟩,
  ⟨71, .literal, "units::isq::si::literals", "_q_dN", "units::isq::si::dim_force", "units::isq::si::decinewton"⟩,
  ⟨71, .literal, "units::isq::si::literals", "_q_dN", "units::isq::si::dim_force", "units::isq::si::decinewton"⟩,
  ⟨71, .literal, "units::isq::si::literals", "_q_dN", "units::isq::si::dim_force", "units::isq::si::decinewton"⟩,
  ⟨71, .literal, "units::isq::si::literals", "_q_cN", "units::isq::si::dim_force", "units::isq::si::centinewton"⟩,
  ⟨71, .literal, "units::isq::si::literals", "_q_cN", "units::isq::si::dim_force", "units::isq::si::centinewton"⟩,
  ⟨71, .literal, "units::isq::si::literals", "_q_cN", "units::isq::si::dim_force", "units::isq::si::centinewton"⟩,
  ⟨71, .literal, "units::isq::si::literals", "_q_mN", "units::isq::si::dim_force", "units::isq::si::millinewton"⟩,
  ⟨71, .literal, "units::isq::si::literals", "_q_mN", "units::isq::si::dim_force", "units::isq::si::millinewton"⟩,
  ⟨71, .literal, "units::isq::si::literals", "_q_mN", "units::isq::si::dim_force", "units::isq::si::millinewton"⟩,
  ⟨71, .literal, "units::isq::si::literals", "_q_uN", "units::isq::si::dim_force", "units::isq::si::micronewton"⟩,
  ⟨71, .literal, "units::isq::si::literals", "_q_uN", "units::isq::si::dim_force", "units::isq::si::micronewton"⟩,
  ⟨71, .literal, "units::isq::si::literals", "_q_uN", "units::isq::si::dim_force", "units::isq::si::micronewton"⟩,
  ⟨71, .literal, "units::isq::si::literals", "_q_nN", "units::isq::si::dim_force", "units::isq::si::nanonewton"⟩,
  ⟨71, .literal, "units::isq::si::literals", "_q_nN", "units::isq::si::dim_force", "units::isq::si::nanonewton"⟩,
  ⟨71, .literal, "units::isq::si::literals", "_q_nN", "units::isq::si::dim_force", "units::isq::si::nanonewton"⟩,
  ⟨71, .literal, "units::isq::si::literals", "_q_pN", "units::isq::si::dim_force", "units::isq::si::piconewton"⟩,
  ⟨71, .literal, "units::isq::si::literals", "_q_pN", "units::isq::si::dim_force", "units::isq::si::piconewton"⟩,
  ⟨71, .literal, "units::isq::si::literals", "_q_pN", "units::isq::si::dim_force", "units::isq::si::piconewton"⟩,
  ⟨71, .literal, "units::isq::si::literals", "_q_fN", "units::isq::si::dim_force", "units::isq::si::femtonewton"⟩]

/-- Part 57 of `tagTable`. -/
def tagTable57 : List (TRow) := [
  ⟨71, .literal, "units::isq::si::literals", "_q_fN", "units::isq::si::dim_force", "units::isq::si::femtonewton"⟩,
  ⟨71, .literal, "units::isq::si::literals", "_q_fN", "units::isq::si::dim_force", "units::isq::si::femtonewton"⟩,
  ⟨71, .literal, "units::isq::si::literals", "_q_aN", "units::isq::si::dim_force", "units::isq::si::attonewton"⟩,
  ⟨71, .literal, "units::isq::si::literals", "_q_aN", "units::isq::si::dim_force", "units::isq::si::attonewton"⟩,
  ⟨71, .literal, "units::isq::si::literals", "_q_aN", "units::isq::si::dim_force", "units::isq::si::attonewton"⟩,
  ⟨71, .literal, "units::isq::si::literals", "_q_zN", "units::isq::si::dim_force", "units::isq::si::zeptonewton"⟩,
  ⟨71, .literal, "units::isq::si::literals", "_q_zN", "units::isq::si::dim_force", "units::isq::si::zeptonewton"⟩,
  ⟨71, .literal, "units::isq::si::literals", "_q_zN", "units::isq::si::dim_force", "units::isq::si::zeptonewton"⟩,
  ⟨71, .literal, "units::isq::si::literals", "_q_yN", "units::isq::si::dim_force", "units::isq::si::yoctonewton"⟩,
  ⟨71, .literal, "units::isq::si::literals", "_q_yN", "units::isq::si::dim_force", "units::isq::si::yoctonewton"⟩,
  ⟨71, .literal, "units::isq::si::literals", "_q_yN", "units::isq::si::dim_force", "units::isq::si::yoctonewton"⟩,
  ⟨71, .literal, "units::isq::si::literals", "_q_N", "units::isq::si::dim_force", "units::isq::si::newton"⟩,
  ⟨71, .literal, "units::isq::si::literals", "_q_N", "units::isq::si::dim_force", "units::isq::si::newton"⟩,
  ⟨71, .literal, "units::isq::si::literals", "_q_N", "units::isq::si::dim_force", "units::isq::si::newton"⟩,
  ⟨70, .rep, "units::aliases::isq::si::mass", "Da", "units::isq::si::dim_mass", "units::isq::si::dalton"⟩,
  ⟨70, .rep, "units::aliases::isq::si::mass", "Yt", "units::isq::si::dim_mass", "units::isq::si::yottatonne"⟩,
  ⟨70, .rep, "units::aliases::isq::si::mass", "Zt", "units::isq::si::dim_mass", "units::isq::si::zettatonne"⟩,
  ⟨70, .rep, "units::aliases::isq::si::mass", "Et", "units::isq::si::dim_mass", "units::isq::si::exatonne"⟩,
  ⟨70, .rep, "units::aliases::isq::si::mass", "Pt", "units::isq::si::dim_mass", "units::isq::si::petatonne"⟩,
  ⟨70, .rep, "units::aliases::isq::si::mass", "Tt", "units::isq::si::dim_mass", "units::isq::si::teratonne"⟩,
  ⟨70, .rep, "units::aliases::isq::si::mass", "Gt", "units::isq::si::dim_mass", "units::isq::si::gigatonne"⟩,
  ⟨70, .rep, "units::aliases::isq::si::mass", "Mt", "units::isq::si::dim_mass", "units::isq::si::megatonne"⟩,
  ⟨70, .rep, "units::aliases::isq::si::mass", "kt", "units::isq::si::dim_mass", "units::isq::si::kilotonne"⟩,
  ⟨70, .rep, "units::aliases::isq::si::mass", "ht", "units::isq::si::dim_mass", "units::isq::si::hectotonne"⟩,
  ⟨70, .rep, "units::aliases::isq::si::mass", "dat", "units::isq::si::dim_mass", "units::isq::si::decatonne"⟩,
  ⟨70, .rep, "units::aliases::isq::si::mass", "dt", "units::isq::si::dim_mass", "units::isq::si::decitonne"⟩,
  ⟨70, .rep, "units::aliases::isq::si::mass", "ct", "units::isq::si::dim_mass", "units::isq::si::centitonne"⟩,
  ⟨70, .rep, "units::aliases::isq::si::mass", "mt", "units::isq::si::dim_mass", "units::isq::si::millitonne"⟩,
  ⟨70, .rep, "units::aliases::isq::si::mass", "ut", "units::isq::si::dim_mass", "units::isq::si::microtonne"⟩,
  ⟨70, .rep, "units::aliases::isq::si::mass", "nt", "units::isq::si::dim_mass", "units::isq::si::nanotonne"⟩,
  ⟨70, .rep, "units::aliases::isq::si::mass", "pt", "units::isq::si::dim_mass", "units::isq::si::picotonne"⟩,
  ⟨70, .rep, "units::aliases::isq::si::mass", "ft", "units::isq::si::dim_mass", "units::isq::si::femtotonne"⟩,
  ⟨70, .rep, "units::aliases::isq::si::mass", "at", "units::isq::si::dim_mass", "units::isq::si::attotonne"⟩,
  ⟨70, .rep, "units::aliases::isq::si::mass", "zt", "units::isq::si::dim_mass", "units::isq::si::zeptotonne"⟩,
  ⟨70, .rep, "units::aliases::isq::si::mass", "yt", "units::isq::si::dim_mass", "units::isq::si::yoctotonne"⟩,
  ⟨70, .rep, "units::aliases::isq::si::mass", "t", "units::isq::si::dim_mass", "units::isq::si::tonne"⟩,
  ⟨70, .rep, "units::aliases::isq::si::mass", "Yg", "units::isq::si::dim_mass", "units::isq::si::yottagram"⟩,
  ⟨70, .rep, "units::aliases::isq::si::mass", "Zg", "units::isq::si::dim_mass", "units::isq::si::zettagram"⟩,
  ⟨70, .rep, "units::aliases::isq::si::mass", "Eg", "units::isq::si::dim_mass", "units::isq::si::exagram"⟩,
  ⟨70, .rep, "units::aliases::isq::si::mass", "Pg", "units::isq::si::dim_mass", "units::isq::si::petagram"⟩]

/-- Part 58 of `tagTable`. -/
def tagTable58 : List (TRow) := [
  ⟨70, .rep, "units::aliases::isq::si::mass", "Tg", "units::isq::si::dim_mass", "units::isq::si::teragram"⟩,
  ⟨70, .rep, "units::aliases::isq::si::mass", "Gg", "units::isq::si::dim_mass", "units::isq::si::gigagram"⟩,
  ⟨70, .rep, "units::aliases::isq::si::mass", "Mg", "units::isq::si::dim_mass", "units::isq::si::megagram"⟩,
  ⟨70, .rep, "units::aliases::isq::si::mass", "kg", "units::isq::si::dim_mass", "units::isq::si::kilogram"⟩,
  ⟨70, .rep, "units::aliases::isq::si::mass", "hg", "units::isq::si::dim_mass", "units::isq::si::hectogram"⟩,
  ⟨70, .rep, "units::aliases::isq::si::mass", "dag", "units::isq::si::dim_mass", "units::isq::si::decagram"⟩,
  ⟨70, .rep, "units::aliases::isq::si::mass", "dg", "units::isq::si::dim_mass", "units::isq::si::decigram"⟩,
  ⟨70, .rep, "units::aliases::isq::si::mass", "cg", "units::isq::si::dim_mass", "units::isq::si::centigram"⟩,
  ⟨70, .rep, "units::aliases::isq::si::mass", "mg", "units::isq::si::dim_mass", "units::isq::si::milligram"⟩,
  ⟨70, .rep, "units::aliases::isq::si::mass", "ug", "units::isq::si::dim_mass", "units::isq::si::microgram"⟩,
  ⟨70, .rep, "units::aliases::isq::si::mass", "ng", "units::isq::si::dim_mass", "units::isq::si::nanogram"⟩,
  ⟨70, .rep, "units::aliases::isq::si::mass", "pg", "units::isq::si::dim_mass", "units::isq::si::picogram"⟩,
  ⟨70, .rep, "units::aliases::isq::si::mass", "fg", "units::isq::si::dim_mass", "units::isq::si::femtogram"⟩,
  ⟨70, .rep, "units::aliases::isq::si::mass", "ag", "units::isq::si::dim_mass", "units::isq::si::attogram"⟩,
  ⟨70, .rep, "units::aliases::isq::si::mass", "zg", "units::isq::si::dim_mass", "units::isq::si::zeptogram"⟩,
  ⟨70, .rep, "units::aliases::isq::si::mass", "yg", "units::isq::si::dim_mass", "units::isq::si::yoctogram"⟩,
  ⟨70, .rep, "units::aliases::isq::si::mass", "g", "units::isq::si::dim_mass", "units::isq::si::gram"⟩,
  ⟨70, .reference, "units::isq::si::mass_references", "Da", "units::isq::si::dim_mass", "units::isq::si::dalton"⟩,
  ⟨70, .reference, "units::isq::si::mass_references", "Yt", "units::isq::si::dim_mass", "units::isq::si::yottatonne"⟩,
  ⟨70, .reference, "units::isq::si::mass_references", "Zt", "units::isq::si::dim_mass", "units::isq::si::zettatonne"⟩,
  ⟨70, .reference, "units::isq::si::mass_references", "Et", "units::isq::si::dim_mass", "units::isq::si::exatonne"⟩,
  ⟨70, .reference, "units::isq::si::mass_references", "Pt", "units::isq::si::dim_mass", "units::isq::si::petatonne"⟩,
  ⟨70, .reference, "units::isq::si::mass_references", "Tt", "units::isq::si::dim_mass", "units::isq::si::teratonne"⟩,
  ⟨70, .reference, "units::isq::si::mass_references", "Gt", "units::isq::si::dim_mass", "units::isq::si::gigatonne"⟩,
  ⟨70, .reference, "units::isq::si::mass_references", "Mt", "units::isq::si::dim_mass", "units::isq::si::megatonne"⟩,
  ⟨70, .reference, "units::isq::si::mass_references", "kt", "units::isq::si::dim_mass", "units::isq::si::kilotonne"⟩,
  ⟨70, .reference, "units::isq::si::mass_references", "ht", "units::isq::si::dim_mass", "units::isq::si::hectotonne"⟩,
  ⟨70, .reference, "units::isq::si::mass_references", "dat", "units::isq::si::dim_mass", "units::isq::si::decatonne"⟩,
  ⟨70, .reference, "units::isq::si::mass_references", "dt", "units::isq::si::dim_mass", "units::isq::si::decitonne"⟩,
  ⟨70, .reference, "units::isq::si::mass_references", "ct", "units::isq::si::dim_mass", "units::isq::si::centitonne"⟩,
  ⟨70, .reference, "units::isq::si::mass_references", "mt", "units::isq::si::dim_mass", "units::isq::si::millitonne"⟩,
  ⟨70, .reference, "units::isq::si::mass_references", "ut", "units::isq::si::dim_mass", "units::isq::si::microtonne"⟩,
  ⟨70, .reference, "units::isq::si::mass_references", "nt", "units::isq::si::dim_mass", "units::isq::si::nanotonne"⟩,
  ⟨70, .reference, "units::isq::si::mass_references", "pt", "units::isq::si::dim_mass", "units::isq::si::picotonne"⟩,
  ⟨70, .reference, "units::isq::si::mass_references", "ft", "units::isq::si::dim_mass", "units::isq::si::femtotonne"⟩,
  ⟨70, .reference, "units::isq::si::mass_references", "at", "units::isq::si::dim_mass", "units::isq::si::attotonne"⟩,
  ⟨70, .reference, "units::isq::si::mass_references", "zt", "units::isq::si::dim_mass", "units::isq::si::zeptotonne"⟩,
  ⟨70, .reference, "units::isq::si::mass_references", "yt", "units::isq::si::dim_mass", "units::isq::si::yoctotonne"⟩,
  ⟨70, .reference, "units::isq::si::mass_references", "t", "units::isq::si::dim_mass", "units::isq::si::tonne"⟩,
  ⟨70, .reference, "units::isq::si::mass_references", "Yg", "units::isq::si::dim_mass", "units::isq::si::yottagram"⟩]

/-- Part 59 of `tagTable`. -/
def tagTable59 : List (TRow) := [
  ⟨70, .reference, "units::isq::si::mass_references", "Zg", "units::isq::si::dim_mass", "units::isq::si::zettagram"⟩,
  ⟨70, .reference, "units::isq::si::mass_references", "Eg", "units::isq::si::dim_mass", "units::isq::si::exagram"⟩,
  ⟨70, .reference, "units::isq::si::mass_references", "Pg", "units::isq::si::dim_mass", "units::isq::si::petagram"⟩,
  ⟨70, .reference, "units::isq::si::mass_references", "Tg", "units::isq::si::dim_mass", "units::isq::si::teragram"⟩,
  ⟨70, .reference, "units::isq::si::mass_references", "Gg", "units::isq::si::dim_mass", "units::isq::si::gigagram"⟩,
  ⟨70, .reference, "units::isq::si::mass_references", "Mg", "units::isq::si::dim_mass", "units::isq::si::megagram"⟩,
  ⟨70, .reference, "units::isq::si::mass_references", "kg", "units::isq::si::dim_mass", "units::isq::si::kilogram"⟩,
  ⟨70, .reference, "units::isq::si::mass_references", "hg", "units::isq::si::dim_mass", "units::isq::si::hectogram"⟩,
  ⟨70, .reference, "units::isq::si::mass_references", "dag", "units::isq::si::dim_mass", "units::isq::si::decagram"⟩,
  ⟨70, .reference, "units::isq::si::mass_references", "dg", "units::isq::si::dim_mass", "units::isq::si::decigram"⟩,
  ⟨70, .reference, "units::isq::si::mass_references", "cg", "units::isq::si::dim_mass", "units::isq::si::centigram"⟩,
  ⟨70, .reference, "units::isq::si::mass_references", "mg", "units::isq::si::dim_mass", "units::isq::si::milligram"⟩,
  ⟨70, .reference, "units::isq::si::mass_references", "ug", "units::isq::si::dim_mass", "units::isq::si::microgram"⟩,
  ⟨70, .reference, "units::isq::si::mass_references", "ng", "units::isq::si::dim_mass", "units::isq::si::nanogram"⟩,
  ⟨70, .reference, "units::isq::si::mass_references", "pg", "units::isq::si::dim_mass", "units::isq::si::picogram"⟩,
  ⟨70, .reference, "units::isq::si::mass_references", "fg", "units::isq::si::dim_mass", "units::isq::si::femtogram"⟩,
  ⟨70, .reference, "units::isq::si::mass_references", "ag", "units::isq::si::dim_mass", "units::isq::si::attogram"⟩,
  ⟨70, .reference, "units::isq::si::mass_references", "zg", "units::isq::si::dim_mass", "units::isq::si::zeptogram"⟩,
  ⟨70, .reference, "units::isq::si::mass_references", "yg", "units::isq::si::dim_mass", "units::isq::si::yoctogram"⟩,
  ⟨70, .reference, "units::isq::si::mass_references", "g", "units::isq::si::dim_mass", "units::isq::si::gram"⟩,
  ⟨70, .literal, "units::isq::si::literals", "_q_Da", "units::isq::si::dim_mass", "units::isq::si::dalton"⟩,
  ⟨70, .literal, "units::isq::si::literals", "_q_Da", "units::isq::si::dim_mass", "units::isq::si::dalton"⟩,
  ⟨70, .literal, "units::isq::si::literals", "_q_Da", "units::isq::si::dim_mass", "units::isq::si::dalton"⟩,
  ⟨70, .literal, "units::isq::si::literals", "_q_Yt", "units::isq::si::dim_mass", "units::isq::si::yottatonne"⟩,
  ⟨70, .literal, "units::isq::si::literals", "_q_Yt", "units::isq::si::dim_mass", "units::isq::si::yottatonne"⟩,
  ⟨70, .literal, "units::isq::si::literals", "_q_Yt", "units::isq::si::dim_mass", "units::isq::si::yottatonne"⟩,
  ⟨70, .literal, "units::isq::si::literals", "_q_Zt", "units::isq::si::dim_mass", "units::isq::si::zettatonne"⟩,
  ⟨70, .literal, "units::isq::si::literals", "_q_Zt", "units::isq::si::dim_mass", "units::isq::si::zettatonne"⟩,
  ⟨70, .literal, "units::isq::si::literals", "_q_Zt", "units::isq::si::dim_mass", "units::isq::si::zettatonne"⟩,
  ⟨70, .literal, "units::isq::si::literals", "_q_Et", "units::isq::si::dim_mass", "units::isq::si::exatonne"⟩,
  ⟨70, .literal, "units::isq::si::literals", "_q_Et", "units::isq::si::dim_mass", "units::isq::si::exatonne"⟩,
  ⟨70, .literal, "units::isq::si::literals", "_q_Et", "units::isq::si::dim_mass", "units::isq::si::exatonne"⟩,
  ⟨70, .literal, "units::isq::si::literals", "_q_Pt", "units::isq::si::dim_mass", "units::isq::si::petatonne"⟩,
  ⟨70, .literal, "units::isq::si::literals", "_q_Pt", "units::isq::si::dim_mass", "units::isq::si::petatonne"⟩,
  ⟨70, .literal, "units::isq::si::literals", "_q_Pt", "units::isq::si::dim_mass", "units::isq::si::petatonne"⟩,
  ⟨70, .literal, "units::isq::si::literals", "_q_Tt", "units::isq::si::dim_mass", "units::isq::si::teratonne"⟩,
  ⟨70, .literal, "units::isq::si::literals", "_q_Tt", "units::isq::si::dim_mass", "units::isq::si::teratonne"⟩,
  ⟨70, .literal, "units::isq::si::literals", "_q_Tt", "units::isq::si::dim_mass", "units::isq::si::teratonne"⟩,
  ⟨70, .literal, "units::isq::si::literals", "_q_Gt", "units::isq::si::dim_mass", "units::isq::si::gigatonne"⟩,
  ⟨70, .literal, "units::isq::si::literals", "_q_Gt", "units::isq::si::dim_mass", "units::isq::si::gigatonne"⟩]

/-- Part 60 of `tagTable`. -/
def tagTable60 : List (TRow) := [
  ⟨70, .literal, "units::isq::si::literals", "_q_Gt", "units::isq::si::dim_mass", "units::isq::si::gigatonne"⟩,
  ⟨70, .literal, "units::isq::si::literals", "_q_Mt", "units::isq::si::dim_mass", "units::isq::si::megatonne"⟩,
  ⟨70, .literal, "units::isq::si::literals", "_q_Mt", "units::isq::si::dim_mass", "units::isq::si::megatonne"⟩,
  ⟨70, .literal, "units::isq::si::literals", "_q_Mt", "units::isq::si::dim_mass", "units::isq::si::megatonne"⟩,
  ⟨70, .literal, "units::isq::si::literals", "_q_kt", "units::isq::si::dim_mass", "units::isq::si::kilotonne"⟩,
  ⟨70, .literal, "units::isq::si::literals", "_q_kt", "units::isq::si::dim_mass", "units::isq::si::kilotonne"⟩,
  ⟨70, .literal, "units::isq::si::literals", "_q_kt", "units::isq::si::dim_mass", "units::isq::si::kilotonne"⟩,
  ⟨70, .literal, "units::isq::si::literals", "_q_ht", "units::isq::si::dim_mass", "units::isq::si::hectotonne"⟩,
  ⟨70, .literal, "units::isq::si::literals", "_q_ht", "units::isq::si::dim_mass", "units::isq::si::hectotonne"⟩,
  ⟨70, .literal, "units::isq::si::literals", "_q_ht", "units::isq::si::dim_mass", "units::isq::si::hectotonne"⟩,
  ⟨70, .literal, "units::isq::si::literals", "_q_dat", "units::isq::si::dim_mass", "units::isq::si::decatonne"⟩,
  ⟨70, .literal, "units::isq::si::literals", "_q_dat", "units::isq::si::dim_mass", "units::isq::si::decatonne"⟩,
  ⟨70, .literal, "units::isq::si::literals", "_q_dat", "units::isq::si::dim_mass", "units::isq::si::decatonne"⟩,
  ⟨70, .literal, "units::isq::si::literals", "_q_dt", "units::isq::si::dim_mass", "units::isq::si::decitonne"⟩,
  ⟨70, .literal, "units::isq::si::literals", "_q_dt", "units::isq::si::dim_mass", "units::isq::si::decitonne"⟩,
  ⟨70, .literal, "units::isq::si::literals", "_q_dt", "units::isq::si::dim_mass", "units::isq::si::decitonne"⟩,
  ⟨70, .literal, "units::isq::si::literals", "_q_ct", "units::isq::si::dim_mass", "units::isq::si::centitonne"⟩,
  ⟨70, .literal, "units::isq::si::literals", "_q_ct", "units::isq::si::dim_mass", "units::isq::si::centitonne"⟩,
  ⟨70, .literal, "units::isq::si::literals", "_q_ct", "units::isq::si::dim_mass", "units::isq::si::centitonne"⟩,
  ⟨70, .literal, "units::isq::si::literals", "_q_mt", "units::isq::si::dim_mass", "units::isq::si::millitonne"⟩,
  ⟨70, .literal, "units::isq::si::literals", "_q_mt", "units::isq::si::dim_mass", "units::isq::si::millitonne"⟩,
  ⟨70, .literal, "units::isq::si::literals", "_q_mt", "units::isq::si::dim_mass", "units::isq::si::millitonne"⟩,
  ⟨70, .literal, "units::isq::si::literals", "_q_ut", "units::isq::si::dim_mass", "units::isq::si::microtonne"⟩,
  ⟨70, .literal, "units::isq::si::literals", "_q_ut", "units::isq::si::dim_mass", "units::isq::si::microtonne"⟩,
  ⟨70, .literal, "units::isq::si::literals", "_q_ut", "units::isq::si::dim_mass", "units::isq::si::microtonne"⟩,
  ⟨70, .literal, "units::isq::si::literals", "_q_nt", "units::isq::si::dim_mass", "units::isq::si::nanotonne"⟩,
  ⟨70, .literal, "units::isq::si::literals", "_q_nt", "units::isq::si::dim_mass", "units::isq::si::nanotonne"⟩,
  ⟨70, .literal, "units::isq::si::literals", "_q_nt", "units::isq::si::dim_mass", "units::isq::si::nanotonne"⟩,
  ⟨70, .literal, "units::isq::si::literals", "_q_pt", "units::isq::si::dim_mass", "units::isq::si::picotonne"⟩,
  ⟨70, .literal, "units::isq::si::literals", "_q_pt", "units::isq::si::dim_mass", "units::isq::si::picotonne"⟩,
  ⟨70, .literal, "units::isq::si::literals", "_q_pt", "units::isq::si::dim_mass", "units::isq::si::picotonne"⟩,
  ⟨70, .literal, "units::isq::si::literals", "_q_at", "units::isq::si::dim_mass", "units::isq::si::attotonne"⟩,
  ⟨70, .literal, "units::isq::si::literals", "_q_at", "units::isq::si::dim_mass", "units::isq::si::attotonne"⟩,
  ⟨70, .literal, "units::isq::si::literals", "_q_at", "units::isq::si::dim_mass", "units::isq::si::attotonne"⟩,
  ⟨70, .literal, "units::isq::si::literals", "_q_zt", "units::isq::si::dim_mass", "units::isq::si::zeptotonne"⟩,
  ⟨70, .literal, "units::isq::si::literals", "_q_zt", "units::isq::si::dim_mass", "units::isq::si::zeptotonne"⟩,
  ⟨70, .literal, "units::isq::si::literals", "_q_zt", "units::isq::si::dim_mass", "units::isq::si::zeptotonne"⟩,
  ⟨70, .literal, "units::isq::si::literals", "_q_yt", "units::isq::si::dim_mass", "units::isq::si::yoctotonne"⟩,
  ⟨70, .literal, "units::isq::si::literals", "_q_yt", "units::isq::si::dim_mass", "units::isq::si::yoctotonne"⟩,
  ⟨70, .literal, "units::isq::si::literals", "_q_yt", "units::isq::si::dim_mass", "units::isq::si::yoctotonne"⟩]

/-- Part 61 of `tagTable`. -/
def tagTable61 : List (TRow) := [
  ⟨70, .literal, "units::isq::si::literals", "_q_t", "units::isq::si::dim_mass", "units::isq::si::tonne"⟩,
  ⟨70, .literal, "units::isq::si::literals", "_q_t", "units::isq::si::dim_mass", "units::isq::si::tonne"⟩,
  ⟨70, .literal, "units::isq::si::literals", "_q_t", "units::isq::si::dim_mass", "units::isq::si::tonne"⟩,
  ⟨70, .literal, "units::isq::si::literals", "_q_Yg", "units::isq::si::dim_mass", "units::isq::si::yottagram"⟩,
  ⟨70, .literal, "units::isq::si::literals", "_q_Yg", "units::isq::si::dim_mass", "units::isq::si::yottagram"⟩,
  ⟨70, .literal, "units::isq::si::literals", "_q_Yg", "units::isq::si::dim_mass", "units::isq::si::yottagram"⟩,
  ⟨70, .literal, "units::isq::si::literals", "_q_Zg", "units::isq::si::dim_mass", "units::isq::si::zettagram"⟩,
  ⟨70, .literal, "units::isq::si::literals", "_q_Zg", "units::isq::si::dim_mass", "units::isq::si::zettagram"⟩,
  ⟨70, .literal, "units::isq::si::literals", "_q_Zg", "units::isq::si::dim_mass", "units::isq::si::zettagram"⟩,
  ⟨70, .literal, "units::isq::si::literals", "_q_Eg", "units::isq::si::dim_mass", "units::isq::si::exagram"⟩,
  ⟨70, .literal, "units::isq::si::literals", "_q_Eg", "units::isq::si::dim_mass", "units::isq::si::exagram"⟩,
  ⟨70, .literal, "units::isq::si::literals", "_q_Eg", "units::isq::si::dim_mass", "units::isq::si::exagram"⟩,
  ⟨70, .literal, "units::isq::si::literals", "_q_Pg", "units::isq::si::dim_mass", "units::isq::si::petagram"⟩,
  ⟨70, .literal, "units::isq::si::literals", "_q_Pg", "units::isq::si::dim_mass", "units::isq::si::petagram"⟩,
  ⟨70, .literal, "units::isq::si::literals", "_q_Pg", "units::isq::si::dim_mass", "units::isq::si::petagram"⟩,
  ⟨70, .literal, "units::isq::si::literals", "_q_Tg", "units::isq::si::dim_mass", "units::isq::si::teragram"⟩,
  ⟨70, .literal, "units::isq::si::literals", "_q_Tg", "units::isq::si::dim_mass", "units::isq::si::teragram"⟩,
  ⟨70, .literal, "units::isq::si::literals", "_q_Tg", "units::isq::si::dim_mass", "units::isq::si::teragram"⟩,
  ⟨70, .literal, "units::isq::si::literals", "_q_Gg", "units::isq::si::dim_mass", "units::isq::si::gigagram"⟩,
  ⟨70, .literal, "units::isq::si::literals", "_q_Gg", "units::isq::si::dim_mass", "units::isq::si::gigagram"⟩,
  ⟨70, .literal, "units::isq::si::literals", "_q_Gg", "units::isq::si::dim_mass", "units::isq::si::gigagram"⟩,
  ⟨70, .literal, "units::isq::si::literals", "_q_Mg", "units::isq::si::dim_mass", "units::isq::si::megagram"⟩,
  ⟨70, .literal, "units::isq::si::literals", "_q_Mg", "units::isq::si::dim_mass", "units::isq::si::megagram"⟩,
  ⟨70, .literal, "units::isq::si::literals", "_q_Mg", "units::isq::si::dim_mass", "units::isq::si::megagram"⟩,
  ⟨70, .literal, "units::isq::si::literals", "_q_kg", "units::isq::si::dim_mass", "units::isq::si::kilogram"⟩,
  ⟨70, .literal, "units::isq::si::literals", "_q_kg", "units::isq::si::dim_mass", "units::isq::si::kilogram"⟩,
  ⟨70, .literal, "units::isq::si::literals", "_q_kg", "units::isq::si::dim_mass", "units::isq::si::kilogram"⟩,
  ⟨70, .literal, "units::isq::si::literals", "_q_hg", "units::isq::si::dim_mass", "units::isq::si::hectogram"⟩,
  ⟨70, .literal, "units::isq::si::literals", "_q_hg", "units::isq::si::dim_mass", "units::isq::si::hectogram"⟩,
  ⟨70, .literal, "units::isq::si::literals", "_q_hg", "units::isq::si::dim_mass", "units::isq::si::hectogram"⟩,
  ⟨70, .literal, "units::isq::si::literals", "_q_dag", "units::isq::si::dim_mass", "units::isq::si::decagram"⟩,
  ⟨70, .literal, "units::isq::si::literals", "_q_dag", "units::isq::si::dim_mass", "units::isq::si::decagram"⟩,
  ⟨70, .literal, "units::isq::si::literals", "_q_dag", "units::isq::si::dim_mass", "units::isq::si::decagram"⟩,
  ⟨70, .literal, "units::isq::si::literals", "_q_dg", "units::isq::si::dim_mass", "units::isq::si::decigram"⟩,
  ⟨70, .literal, "units::isq::si::literals", "_q_dg", "units::isq::si::dim_mass", "units::isq::si::decigram"⟩,
  ⟨70, .literal, "units::isq::si::literals", "_q_dg", "units::isq::si::dim_mass", "units::isq::si::decigram"⟩,
  ⟨70, .literal, "units::isq::si::literals", "_q_cg", "units::isq::si::dim_mass", "units::isq::si::centigram"⟩,
  ⟨70, .literal, "units::isq::si::literals", "_q_cg", "units::isq::si::dim_mass", "units::isq::si::centigram"⟩,
  ⟨70, .literal, "units::isq::si::literals", "_q_cg", "units::isq::si::dim_mass", "units::isq::si::centigram"⟩,
  ⟨70, .literal, "units::isq::si::literals", "_q_mg", "units::isq::si::dim_mass", "units::isq::si::milligram"⟩]

/-- Part 62 of `tagTable`. -/
def tagTable62 : List (TRow) := [
  ⟨70, .literal, "units::isq::si::literals", "_q_mg", "units::isq::si::dim_mass", "units::isq::si::milligram"⟩,
  ⟨70, .literal, "units::isq::si::literals", "_q_mg", "units::isq::si::dim_mass", "units::isq::si::milligram"⟩,
  ⟨70, .literal, "units::isq::si::literals", "_q_ug", "units::isq::si::dim_mass", "units::isq::si::microgram"⟩,
  ⟨70, .literal, "units::isq::si::literals", "_q_ug", "units::isq::si::dim_mass", "units::isq::si::microgram"⟩,
  ⟨70, .literal, "units::isq::si::literals", "_q_ug", "units::isq::si::dim_mass", "units::isq::si::microgram"⟩,
  ⟨70, .literal, "units::isq::si::literals", "_q_ng", "units::isq::si::dim_mass", "units::isq::si::nanogram"⟩,
  ⟨70, .literal, "units::isq::si::literals", "_q_ng", "units::isq::si::dim_mass", "units::isq::si::nanogram"⟩,
  ⟨70, .literal, "units::isq::si::literals", "_q_ng", "units::isq::si::dim_mass", "units::isq::si::nanogram"⟩,
  ⟨70, .literal, "units::isq::si::literals", "_q_pg", "units::isq::si::dim_mass", "units::isq::si::picogram"⟩,
  ⟨70, .literal, "units::isq::si::literals", "_q_pg", "units::isq::si::dim_mass", "units::isq::si::picogram"⟩,
  ⟨70, .literal, "units::isq::si::literals", "_q_pg", "units::isq::si::dim_mass", "units::isq::si::picogram"⟩,
  ⟨70, .literal, "units::isq::si::literals", "_q_fg", "units::isq::si::dim_mass", "units::isq::si::femtogram"⟩,
  ⟨70, .literal, "units::isq::si::literals", "_q_fg", "units::isq::si::dim_mass", "units::isq::si::femtogram"⟩,
  ⟨70, .literal, "units::isq::si::literals", "_q_fg", "units::isq::si::dim_mass", "units::isq::si::femtogram"⟩,
  ⟨70, .literal, "units::isq::si::literals", "_q_ag", "units::isq::si::dim_mass", "units::isq::si::attogram"⟩,
  ⟨70, .literal, "units::isq::si::literals", "_q_ag", "units::isq::si::dim_mass", "units::isq::si::attogram"⟩,
  ⟨70, .literal, "units::isq::si::literals", "_q_ag", "units::isq::si::dim_mass", "units::isq::si::attogram"⟩,
  ⟨70, .literal, "units::isq::si::literals", "_q_zg", "units::isq::si::dim_mass", "units::isq::si::zeptogram"⟩,
  ⟨70, .literal, "units::isq::si::literals", "_q_zg", "units::isq::si::dim_mass", "units::isq::si::zeptogram"⟩,
  ⟨70, .literal, "units::isq::si::literals", "_q_zg", "units::isq::si::dim_mass", "units::isq::si::zeptogram"⟩,
  ⟨70, .literal, "units::isq::si::literals", "_q_yg", "units::isq::si::dim_mass", "units::isq::si::yoctogram"⟩,
  ⟨70, .literal, "units::isq::si::literals", "_q_yg", "units::isq::si::dim_mass", "units::isq::si::yoctogram"⟩,
  ⟨70, .literal, "units::isq::si::literals", "_q_yg", "units::isq::si::dim_mass", "units::isq::si::yoctogram"⟩,
  ⟨70, .literal, "units::isq::si::literals", "_q_g", "units::isq::si::dim_mass", "units::isq::si::gram"⟩,
  ⟨70, .literal, "units::isq::si::literals", "_q_g", "units::isq::si::dim_mass", "units::isq::si::gram"⟩,
  ⟨70, .literal, "units::isq::si::literals", "_q_g", "units::isq::si::dim_mass", "units::isq::si::gram"⟩,
  ⟨69, .rep, "units::aliases::isq::si::acceleration", "m_per_s2", "units::isq::si::dim_acceleration", "units::isq::si::metre_per_second_sq"⟩,
  ⟨69, .literal, "units::isq::si::literals", "_q_m_per_s2", "units::isq::si::dim_acceleration", "units::isq::si::metre_per_second_sq"⟩,
  ⟨69, .literal, "units::isq::si::literals", "_q_m_per_s2", "units::isq::si::dim_acceleration", "units::isq::si::metre_per_second_sq"⟩,
  ⟨69, .literal, "units::isq::si::literals", "_q_m_per_s2", "units::isq::si::dim_acceleration", "units::isq::si::metre_per_second_sq"⟩,
  ⟨68, .rep, "units::aliases::isq::si::speed", "km_per_h", "units::isq::si::dim_speed", "units::isq::si::kilometre_per_hour"⟩,
  ⟨68, .rep, "units::aliases::isq::si::speed", "m_per_s", "units::isq::si::dim_speed", "units::isq::si::metre_per_second"⟩,
  ⟨68, .literal, "units::isq::si::literals", "_q_km_per_h", "units::isq::si::dim_speed", "units::isq::si::kilometre_per_hour"⟩,
  ⟨68, .literal, "units::isq::si::literals", "_q_km_per_h", "units::isq::si::dim_speed", "units::isq::si::kilometre_per_hour"⟩,
  ⟨68, .literal, "units::isq::si::literals", "_q_km_per_h", "units::isq::si::dim_speed", "units::isq::si::kilometre_per_hour"⟩,
  ⟨68, .literal, "units::isq::si::literals", "_q_m_per_s", "units::isq::si::dim_speed", "units::isq::si::metre_per_second"⟩,
  ⟨68, .literal, "units::isq::si::literals", "_q_m_per_s", "units::isq::si::dim_speed", "units::isq::si::metre_per_second"⟩,
  ⟨68, .literal, "units::isq::si::literals", "_q_m_per_s", "units::isq::si::dim_speed", "units::isq::si::metre_per_second"⟩,
  ⟨67, .rep, "units::aliases::isq::si::length", "au", "units::isq::si::dim_length", "units::isq::si::astronomical_unit"⟩,
  ⟨67, .rep, "units::aliases::isq::si::length", "Ym", "units::isq::si::dim_length", "units::isq::si::yottametre"⟩]

/-- Part 63 of `tagTable`. -/
def tagTable63 : List (TRow) := [
  ⟨67, .rep, "units::aliases::isq::si::length", "Zm", "units::isq::si::dim_length", "units::isq::si::zettametre"⟩,
  ⟨67, .rep, "units::aliases::isq::si::length", "Em", "units::isq::si::dim_length", "units::isq::si::exametre"⟩,
  ⟨67, .rep, "units::aliases::isq::si::length", "Pm", "units::isq::si::dim_length", "units::isq::si::petametre"⟩,
  ⟨67, .rep, "units::aliases::isq::si::length", "Tm", "units::isq::si::dim_length", "units::isq::si::terametre"⟩,
  ⟨67, .rep, "units::aliases::isq::si::length", "Gm", "units::isq::si::dim_length", "units::isq::si::gigametre"⟩,
  ⟨67, .rep, "units::aliases::isq::si::length", "Mm", "units::isq::si::dim_length", "units::isq::si::megametre"⟩,
  ⟨67, .rep, "units::aliases::isq::si::length", "km", "units::isq::si::dim_length", "units::isq::si::kilometre"⟩,
  ⟨67, .rep, "units::aliases::isq::si::length", "hm", "units::isq::si::dim_length", "units::isq::si::hectometre"⟩,
  ⟨67, .rep, "units::aliases::isq::si::length", "dam", "units::isq::si::dim_length", "units::isq::si::decametre"⟩,
  ⟨67, .rep, "units::aliases::isq::si::length", "dm", "units::isq::si::dim_length", "units::isq::si::decimetre"⟩,
  ⟨67, .rep, "units::aliases::isq::si::length", "cm", "units::isq::si::dim_length", "units::isq::si::centimetre"⟩,
  ⟨67, .rep, "units::aliases::isq::si::length", "mm", "units::isq::si::dim_length", "units::isq::si::millimetre"⟩,
  ⟨67, .rep, "units::aliases::isq::si::length", "um", "units::isq::si::dim_length", "units::isq::si::micrometre"⟩,
  ⟨67, .rep, "units::aliases::isq::si::length", "nm", "units::isq::si::dim_length", "units::isq::si::nanometre"⟩,
  ⟨67, .rep, "units::aliases::isq::si::length", "pm", "units::isq::si::dim_length", "units::isq::si::picometre"⟩,
  ⟨67, .rep, "units::aliases::isq::si::length", "fm", "units::isq::si::dim_length", "units::isq::si::femtometre"⟩,
  ⟨67, .rep, "units::aliases::isq::si::length", "am", "units::isq::si::dim_length", "units::isq::si::attometre"⟩,
  ⟨67, .rep, "units::aliases::isq::si::length", "zm", "units::isq::si::dim_length", "units::isq::si::zeptometre"⟩,
  ⟨67, .rep, "units::aliases::isq::si::length", "ym", "units::isq::si::dim_length", "units::isq::si::yoctometre"⟩,
  ⟨67, .rep, "units::aliases::isq::si::length", "m", "units::isq::si::dim_length", "units::isq::si::metre"⟩,
  ⟨67, .reference, "units::isq::si::length_references", "au", "units::isq::si::dim_length", "units::isq::si::astronomical_unit"⟩,
  ⟨67, .reference, "units::isq::si::length_references", "Ym", "units::isq::si::dim_length", "units::isq::si::yottametre"⟩,
  ⟨67, .reference, "units::isq::si::length_references", "Zm", "units::isq::si::dim_length", "units::isq::si::zettametre"⟩,
  ⟨67, .reference, "units::isq::si::length_references", "Em", "units::isq::si::dim_length", "units::isq::si::exametre"⟩,
  ⟨67, .reference, "units::isq::si::length_references", "Pm", "units::isq::si::dim_length", "units::isq::si::petametre"⟩,
  ⟨67, .reference, "units::isq::si::length_references", "Tm", "units::isq::si::dim_length", "units::isq::si::terametre"⟩,
  ⟨67, .reference, "units::isq::si::length_references", "Gm", "units::isq::si::dim_length", "units::isq::si::gigametre"⟩,
  ⟨67, .reference, "units::isq::si::length_references", "Mm", "units::isq::si::dim_length", "units::isq::si::megametre"⟩,
  ⟨67, .reference, "units::isq::si::length_references", "km", "units::isq::si::dim_length", "units::isq::si::kilometre"⟩,
  ⟨67, .reference, "units::isq::si::length_references", "hm", "units::isq::si::dim_length", "units::isq::si::hectometre"⟩,
  ⟨67, .reference, "units::isq::si::length_references", "dam", "units::isq::si::dim_length", "units::isq::si::decametre"⟩,
  ⟨67, .reference, "units::isq::si::length_references", "dm", "units::isq::si::dim_length", "units::isq::si::decimetre"⟩,
  ⟨67, .reference, "units::isq::si::length_references", "cm", "units::isq::si::dim_length", "units::isq::si::centimetre"⟩,
  ⟨67, .reference, "units::isq::si::length_references", "mm", "units::isq::si::dim_length", "units::isq::si::millimetre"⟩,
  ⟨67, .reference, "units::isq::si::length_references", "um", "units::isq::si::dim_length", "units::isq::si::micrometre"⟩,
  ⟨67, .reference, "units::isq::si::length_references", "nm", "units::isq::si::dim_length", "units::isq::si::nanometre"⟩,
  ⟨67, .reference, "units::isq::si::length_references", "pm", "units::isq::si::dim_length", "units::isq::si::picometre"⟩,
  ⟨67, .reference, "units::isq::si::length_references", "fm", "units::isq::si::dim_length", "units::isq::si::femtometre"⟩,
  ⟨67, .reference, "units::isq::si::length_references", "am", "units::isq::si::dim_length", "units::isq::si::attometre"⟩,
  ⟨67, .reference, "units::isq::si::length_references", "zm", "units::isq::si::dim_length", "units::isq::si::zeptometre"⟩]

/-- Part 64 of `tagTable`. -/
def tagTable64 : List (TRow) := [
  ⟨67, .reference, "units::isq::si::length_references", "ym", "units::isq::si::dim_length", "units::isq::si::yoctometre"⟩,
  ⟨67, .reference, "units::isq::si::length_references", "m", "units::isq::si::dim_length", "units::isq::si::metre"⟩,
  ⟨67, .literal, "units::isq::si::literals", "_q_au", "units::isq::si::dim_length", "units::isq::si::astronomical_unit"⟩,
  ⟨67, .literal, "units::isq::si::literals", "_q_au", "units::isq::si::dim_length", "units::isq::si::astronomical_unit"⟩,
  ⟨67, .literal, "units::isq::si::literals", "_q_au", "units::isq::si::dim_length", "units::isq::si::astronomical_unit"⟩,
  ⟨67, .literal, "units::isq::si::literals", "_q_Ym", "units::isq::si::dim_length", "units::isq::si::yottametre"⟩,
  ⟨67, .literal, "units::isq::si::literals", "_q_Ym", "units::isq::si::dim_length", "units::isq::si::yottametre"⟩,
  ⟨67, .literal, "units::isq::si::literals", "_q_Ym", "units::isq::si::dim_length", "units::isq::si::yottametre"⟩,
  ⟨67, .literal, "units::isq::si::literals", "_q_Zm", "units::isq::si::dim_length", "units::isq::si::zettametre"⟩,
  ⟨67, .literal, "units::isq::si::literals", "_q_Zm", "units::isq::si::dim_length", "units::isq::si::zettametre"⟩,
  ⟨67, .literal, "units::isq::si::literals", "_q_Zm", "units::isq::si::dim_length", "units::isq::si::zettametre"⟩,
  ⟨67, .literal, "units::isq::si::literals", "_q_Em", "units::isq::si::dim_length", "units::isq::si::exametre"⟩,
  ⟨67, .literal, "units::isq::si::literals", "_q_Em", "units::isq::si::dim_length", "units::isq::si::exametre"⟩,
  ⟨67, .literal, "units::isq::si::literals", "_q_Em", "units::isq::si::dim_length", "units::isq::si::exametre"⟩,
  ⟨67, .literal, "units::isq::si::literals", "_q_Pm", "units::isq::si::dim_length", "units::isq::si::petametre"⟩,
  ⟨67, .literal, "units::isq::si::literals", "_q_Pm", "units::isq::si::dim_length", "units::isq::si::petametre"⟩,
  ⟨67, .literal, "units::isq::si::literals", "_q_Pm", "units::isq::si::dim_length", "units::isq::si::petametre"⟩,
  ⟨67, .literal, "units::isq::si::literals", "_q_Tm", "units::isq::si::dim_length", "units::isq::si::terametre"⟩,
  ⟨67, .literal, "units::isq::si::literals", "_q_Tm", "units::isq::si::dim_length", "units::isq::si::terametre"⟩,
  ⟨67, .literal, "units::isq::si::literals", "_q_Tm", "units::isq::si::dim_length", "units::isq::si::terametre"⟩,
  ⟨67, .literal, "units::isq::si::literals", "_q_Gm", "units::isq::si::dim_length", "units::isq::si::gigametre"⟩,
  ⟨67, .literal, "units::isq::si::literals", "_q_Gm", "units::isq::si::dim_length", "units::isq::si::gigametre"⟩,
  ⟨67, .literal, "units::isq::si::literals", "_q_Gm", "units::isq::si::dim_length", "units::isq::si::gigametre"⟩,
  ⟨67, .literal, "units::isq::si::literals", "_q_Mm", "units::isq::si::dim_length", "units::isq::si::megametre"⟩,
  ⟨67, .literal, "units::isq::si::literals", "_q_Mm", "units::isq::si::dim_length", "units::isq::si::megametre"⟩,
  ⟨67, .literal, "units::isq::si::literals", "_q_Mm", "units::isq::si::dim_length", "units::isq::si::megametre"⟩,
  ⟨67, .literal, "units::isq::si::literals", "_q_km", "units::isq::si::dim_length", "units::isq::si::kilometre"⟩,
  ⟨67, .literal, "units::isq::si::literals", "_q_km", "units::isq::si::dim_length", "units::isq::si::kilometre"⟩,
  ⟨67, .literal, "units::isq::si::literals", "_q_km", "units::isq::si::dim_length", "units::isq::si::kilometre"⟩,
  ⟨67, .literal, "units::isq::si::literals", "_q_hm", "units::isq::si::dim_length", "units::isq::si::hectometre"⟩,
  ⟨67, .literal, "units::isq::si::literals", "_q_hm", "units::isq::si::dim_length", "units::isq::si::hectometre"⟩,
  ⟨67, .literal, "units::isq::si::literals", "_q_hm", "units::isq::si::dim_length", "units::isq::si::hectometre"⟩,
  ⟨67, .literal, "units::isq::si::literals", "_q_dam", "units::isq::si::dim_length", "units::isq::si::decametre"⟩,
  ⟨67, .literal, "units::isq::si::literals", "_q_dam", "units::isq::si::dim_length", "units::isq::si::decametre"⟩,
  ⟨67, .literal, "units::isq::si::literals", "_q_dam", "units::isq::si::dim_length", "units::isq::si::decametre"⟩,
  ⟨67, .literal, "units::isq::si::literals", "_q_dm", "units::isq::si::dim_length", "units::isq::si::decimetre"⟩,
  ⟨67, .literal, "units::isq::si::literals", "_q_dm", "units::isq::si::dim_length", "units::isq::si::decimetre"⟩,
  ⟨67, .literal, "units::isq::si::literals", "_q_dm", "units::isq::si::dim_length", "units::isq::si::decimetre"⟩,
  ⟨67, .literal, "units::isq::si::literals", "_q_cm", "units::isq::si::dim_length", "units::isq::si::centimetre"⟩,
  ⟨67, .literal, "units::isq::si::literals", "_q_cm", "units::isq::si::dim_length", "units::isq::si::centimetre"⟩]

/-- Part 65 of `tagTable`. -/
def tagTable65 : List (TRow) := [
  ⟨67, .literal, "units::isq::si::literals", "_q_cm", "units::isq::si::dim_length", "units::isq::si::centimetre"⟩,
  ⟨67, .literal, "units::isq::si::literals", "_q_mm", "units::isq::si::dim_length", "units::isq::si::millimetre"⟩,
  ⟨67, .literal, "units::isq::si::literals", "_q_mm", "units::isq::si::dim_length", "units::isq::si::millimetre"⟩,
  ⟨67, .literal, "units::isq::si::literals", "_q_mm", "units::isq::si::dim_length", "units::isq::si::millimetre"⟩,
  ⟨67, .literal, "units::isq::si::literals", "_q_um", "units::isq::si::dim_length", "units::isq::si::micrometre"⟩,
  ⟨67, .literal, "units::isq::si::literals", "_q_um", "units::isq::si::dim_length", "units::isq::si::micrometre"⟩,
  ⟨67, .literal, "units::isq::si::literals", "_q_um", "units::isq::si::dim_length", "units::isq::si::micrometre"⟩,
  ⟨67, .literal, "units::isq::si::literals", "_q_nm", "units::isq::si::dim_length", "units::isq::si::nanometre"⟩,
  ⟨67, .literal, "units::isq::si::literals", "_q_nm", "units::isq::si::dim_length", "units::isq::si::nanometre"⟩,
  ⟨67, .literal, "units::isq::si::literals", "_q_nm", "units::isq::si::dim_length", "units::isq::si::nanometre"⟩,
  ⟨67, .literal, "units::isq::si::literals", "_q_pm", "units::isq::si::dim_length", "units::isq::si::picometre"⟩,
  ⟨67, .literal, "units::isq::si::literals", "_q_pm", "units::isq::si::dim_length", "units::isq::si::picometre"⟩,
  ⟨67, .literal, "units::isq::si::literals", "_q_pm", "units::isq::si::dim_length", "units::isq::si::picometre"⟩,
  ⟨67, .literal, "units::isq::si::literals", "_q_fm", "units::isq::si::dim_length", "units::isq::si::femtometre"⟩,
  ⟨67, .literal, "units::isq::si::literals", "_q_fm", "units::isq::si::dim_length", "units::isq::si::femtometre"⟩,
  ⟨67, .literal, "units::isq::si::literals", "_q_fm", "units::isq::si::dim_length", "units::isq::si::femtometre"⟩,
  ⟨67, .literal, "units::isq::si::literals", "_q_am", "units::isq::si::dim_length", "units::isq::si::attometre"⟩,
  ⟨67, .literal, "units::isq::si::literals", "_q_am", "units::isq::si::dim_length", "units::isq::si::attometre"⟩,
  ⟨67, .literal, "units::isq::si::literals", "_q_am", "units::isq::si::dim_length", "units::isq::si::attometre"⟩,
  ⟨67, .literal, "units::isq::si::literals", "_q_zm", "units::isq::si::dim_length", "units::isq::si::zeptometre"⟩,
  ⟨67, .literal, "units::isq::si::literals", "_q_zm", "units::isq::si::dim_length", "units::isq::si::zeptometre"⟩,
  ⟨67, .literal, "units::isq::si::literals", "_q_zm", "units::isq::si::dim_length", "units::isq::si::zeptometre"⟩,
  ⟨67, .literal, "units::isq::si::literals", "_q_ym", "units::isq::si::dim_length", "units::isq::si::yoctometre"⟩,
  ⟨67, .literal, "units::isq::si::literals", "_q_ym", "units::isq::si::dim_length", "units::isq::si::yoctometre"⟩,
  ⟨67, .literal, "units::isq::si::literals", "_q_ym", "units::isq::si::dim_length", "units::isq::si::yoctometre"⟩,
  ⟨67, .literal, "units::isq::si::literals", "_q_m", "units::isq::si::dim_length", "units::isq::si::metre"⟩,
  ⟨67, .literal, "units::isq::si::literals", "_q_m", "units::isq::si::dim_length", "units::isq::si::metre"⟩,
  ⟨67, .literal, "units::isq::si::literals", "_q_m", "units::isq::si::dim_length", "units::isq::si::metre"⟩,
  ⟨65, .rep, "units::aliases::isq::natural::momentum", "GeV", "units::isq::natural::dim_momentum", "units::isq::natural::gigaelectronvolt"⟩,
  ⟨65, .reference, "units::isq::natural::momentum_references", "GeV", "units::isq::natural::dim_momentum", "units::isq::natural::gigaelectronvolt"⟩,
  ⟨64, .rep, "units::aliases::isq::natural::energy", "GeV", "units::isq::natural::dim_energy", "units::isq::natural::gigaelectronvolt"⟩,
  ⟨64, .reference, "units::isq::natural::energy_references", "GeV", "units::isq::natural::dim_energy", "units::isq::natural::gigaelectronvolt"⟩,
  ⟨63, .rep, "units::aliases::isq::natural::force", "GeV2", "units::isq::natural::dim_force", "units::isq::natural::square_gigaelectronvolt"⟩,
  ⟨63, .reference, "units::isq::natural::force_references", "GeV2", "units::isq::natural::dim_force", "units::isq::natural::square_gigaelectronvolt"⟩,
  ⟨62, .rep, "units::aliases::isq::natural::mass", "GeV", "units::isq::natural::dim_mass", "units::isq::natural::gigaelectronvolt"⟩,
  ⟨62, .reference, "units::isq::natural::mass_references", "GeV", "units::isq::natural::dim_mass", "units::isq::natural::gigaelectronvolt"⟩,
  ⟨59, .rep, "units::aliases::isq::natural::acceleration", "GeV", "units::isq::natural::dim_acceleration", "units::isq::natural::gigaelectronvolt"⟩,
  ⟨59, .reference, "units::isq::natural::acceleration_references", "GeV", "units::isq::natural::dim_acceleration", "units::isq::natural::gigaelectronvolt"⟩,
  ⟨58, .rep, "units::aliases::isq::natural::time", "inv_GeV", "units::isq::natural::dim_time", "units::isq::natural::inverted_gigaelectronvolt"⟩,
  ⟨58, .reference, "units::isq::natural::time_references", "inv_GeV", "units::isq::natural::dim_time", "units::isq::natural::inverted_gigaelectronvolt"⟩]

/-- Part 66 of `tagTable`. -/
def tagTable66 : List (TRow) := [
  ⟨57, .rep, "units::aliases::isq::natural::length", "inv_GeV", "units::isq::natural::dim_length", "units::isq::natural::inverted_gigaelectronvolt"⟩,
  ⟨57, .reference, "units::isq::natural::length_references", "inv_GeV", "units::isq::natural::dim_length", "units::isq::natural::inverted_gigaelectronvolt"⟩,
  ⟨54, .rep, "units::aliases::isq::iec80000::transfer_rate", "YB_per_s", "units::isq::iec80000::dim_transfer_rate", "units::isq::iec80000::yottabyte_per_second"⟩,
  ⟨54, .rep, "units::aliases::isq::iec80000::transfer_rate", "ZB_per_s", "units::isq::iec80000::dim_transfer_rate", "units::isq::iec80000::zettabyte_per_second"⟩,
  ⟨54, .rep, "units::aliases::isq::iec80000::transfer_rate", "EB_per_s", "units::isq::iec80000::dim_transfer_rate", "units::isq::iec80000::exabyte_per_second"⟩,
  ⟨54, .rep, "units::aliases::isq::iec80000::transfer_rate", "PB_per_s", "units::isq::iec80000::dim_transfer_rate", "units::isq::iec80000::petabyte_per_second"⟩,
  ⟨54, .rep, "units::aliases::isq::iec80000::transfer_rate", "TB_per_s", "units::isq::iec80000::dim_transfer_rate", "units::isq::iec80000::terabyte_per_second"⟩,
  ⟨54, .rep, "units::aliases::isq::iec80000::transfer_rate", "GB_per_s", "units::isq::iec80000::dim_transfer_rate", "units::isq::iec80000::gigabyte_per_second"⟩,
  ⟨54, .rep, "units::aliases::isq::iec80000::transfer_rate", "MB_per_s", "units::isq::iec80000::dim_transfer_rate", "units::isq::iec80000::megabyte_per_second"⟩,
  ⟨54, .rep, "units::aliases::isq::iec80000::transfer_rate", "kB_per_s", "units::isq::iec80000::dim_transfer_rate", "units::isq::iec80000::kilobyte_per_second"⟩,
  ⟨54, .rep, "units::aliases::isq::iec80000::transfer_rate", "B_per_s", "units::isq::iec80000::dim_transfer_rate", "units::isq::iec80000::byte_per_second"⟩,
  ⟨54, .literal, "units::isq::iec80000::literals", "_q_YB_per_s", "units::isq::iec80000::dim_transfer_rate", "units::isq::iec80000::yottabyte_per_second"⟩,
  ⟨54, .literal, "units::isq::iec80000::literals", "_q_ZB_per_s", "units::isq::iec80000::dim_transfer_rate", "units::isq::iec80000::zettabyte_per_second"⟩,
  ⟨54, .literal, "units::isq::iec80000::literals", "_q_EB_per_s", "units::isq::iec80000::dim_transfer_rate", "units::isq::iec80000::exabyte_per_second"⟩,
  ⟨54, .literal, "units::isq::iec80000::literals", "_q_PB_per_s", "units::isq::iec80000::dim_transfer_rate", "units::isq::iec80000::petabyte_per_second"⟩,
  ⟨54, .literal, "units::isq::iec80000::literals", "_q_TB_per_s", "units::isq::iec80000::dim_transfer_rate", "units::isq::iec80000::terabyte_per_second"⟩,
  ⟨54, .literal, "units::isq::iec80000::literals", "_q_GB_per_s", "units::isq::iec80000::dim_transfer_rate", "units::isq::iec80000::gigabyte_per_second"⟩,
  ⟨54, .literal, "units::isq::iec80000::literals", "_q_MB_per_s", "units::isq::iec80000::dim_transfer_rate", "units::isq::iec80000::megabyte_per_second"⟩,
  ⟨54, .literal, "units::isq::iec80000::literals", "_q_kB_per_s", "units::isq::iec80000::dim_transfer_rate", "units::isq::iec80000::kilobyte_per_second"⟩,
  ⟨54, .literal, "units::isq::iec80000::literals", "_q_B_per_s", "units::isq::iec80000::dim_transfer_rate", "units::isq::iec80000::byte_per_second"⟩,
  ⟨53, .rep, "units::aliases::isq::iec80000::traffic_intensity", "E", "units::isq::iec80000::dim_traffic_intensity", "units::isq::iec80000::erlang"⟩,
  ⟨53, .reference, "units::isq::iec80000::traffic_intensity_references", "E", "units::isq::iec80000::dim_traffic_intensity", "units::isq::iec80000::erlang"⟩,
  ⟨53, .literal, "units::isq::iec80000::literals", "_q_E", "units::isq::iec80000::dim_traffic_intensity", "units::isq::iec80000::erlang"⟩,
  ⟨52, .rep, "units::aliases::isq::iec80000::storage_capacity", "PiB", "units::isq::iec80000::dim_storage_capacity", "units::isq::iec80000::pebibyte"⟩,
  ⟨52, .rep, "units::aliases::isq::iec80000::storage_capacity", "TiB", "units::isq::iec80000::dim_storage_capacity", "units::isq::iec80000::tebibyte"⟩,
  ⟨52, .rep, "units::aliases::isq::iec80000::storage_capacity", "GiB", "units::isq::iec80000::dim_storage_capacity", "units::isq::iec80000::gibibyte"⟩,
  ⟨52, .rep, "units::aliases::isq::iec80000::storage_capacity", "MiB", "units::isq::iec80000::dim_storage_capacity", "units::isq::iec80000::mebibyte"⟩,
  ⟨52, .rep, "units::aliases::isq::iec80000::storage_capacity", "KiB", "units::isq::iec80000::dim_storage_capacity", "units::isq::iec80000::kibibyte"⟩,
  ⟨52, .rep, "units::aliases::isq::iec80000::storage_capacity", "YB", "units::isq::iec80000::dim_storage_capacity", "units::isq::iec80000::yottabyte"⟩,
  ⟨52, .rep, "units::aliases::isq::iec80000::storage_capacity", "ZB", "units::isq::iec80000::dim_storage_capacity", "units::isq::iec80000::zettabyte"⟩,
  ⟨52, .rep, "units::aliases::isq::iec80000::storage_capacity", "EB", "units::isq::iec80000::dim_storage_capacity", "units::isq::iec80000::exabyte"⟩,
  ⟨52, .rep, "units::aliases::isq::iec80000::storage_capacity", "PB", "units::isq::iec80000::dim_storage_capacity", "units::isq::iec80000::petabyte"⟩,
  ⟨52, .rep, "units::aliases::isq::iec80000::storage_capacity", "TB", "units::isq::iec80000::dim_storage_capacity", "units::isq::iec80000::terabyte"⟩,
  ⟨52, .rep, "units::aliases::isq::iec80000::storage_capacity", "GB", "units::isq::iec80000::dim_storage_capacity", "units::isq::iec80000::gigabyte"⟩,
  ⟨52, .rep, "units::aliases::isq::iec80000::storage_capacity", "MB", "units::isq::iec80000::dim_storage_capacity", "units::isq::iec80000::megabyte"⟩,
  ⟨52, .rep, "units::aliases::isq::iec80000::storage_capacity", "kB", "units::isq::iec80000::dim_storage_capacity", "units::isq::iec80000::kilobyte"⟩,
  ⟨52, .rep, "units::aliases::isq::iec80000::storage_capacity", "B", "units::isq::iec80000::dim_storage_capacity", "units::isq::iec80000::byte"⟩,
  ⟨52, .rep, "units::aliases::isq::iec80000::storage_capacity", "Eibit", "units::isq::iec80000::dim_storage_capacity", "units::isq::iec80000::exbibit"⟩,
  ⟨52, .rep, "units::aliases::isq::iec80000::storage_capacity", "Pibit", "units::isq::iec80000::dim_storage_capacity", "units::isq::iec80000::pebibit"⟩,
  ⟨52, .rep, "units::aliases::isq::iec80000::storage_capacity", "Tibit", "units::isq::iec80000::dim_storage_capacity", "units::isq::iec80000::tebibit"⟩]

/-- Part 67 of `tagTable`. -/
def tagTable67 : List (TRow) := [
  ⟨52, .rep, "units::aliases::isq::iec80000::storage_capacity", "Gibit", "units::isq::iec80000::dim_storage_capacity", "units::isq::iec80000::gibibit"⟩,
  ⟨52, .rep, "units::aliases::isq::iec80000::storage_capacity", "Mibit", "units::isq::iec80000::dim_storage_capacity", "units::isq::iec80000::mebibit"⟩,
  ⟨52, .rep, "units::aliases::isq::iec80000::storage_capacity", "Kibit", "units::isq::iec80000::dim_storage_capacity", "units::isq::iec80000::kibibit"⟩,
  ⟨52, .rep, "units::aliases::isq::iec80000::storage_capacity", "Ybit", "units::isq::iec80000::dim_storage_capacity", "units::isq::iec80000::yottabit"⟩,
  ⟨52, .rep, "units::aliases::isq::iec80000::storage_capacity", "Zbit", "units::isq::iec80000::dim_storage_capacity", "units::isq::iec80000::zettabit"⟩,
  ⟨52, .rep, "units::aliases::isq::iec80000::storage_capacity", "Ebit", "units::isq::iec80000::dim_storage_capacity", "units::isq::iec80000::exabit"⟩,
  ⟨52, .rep, "units::aliases::isq::iec80000::storage_capacity", "Pbit", "units::isq::iec80000::dim_storage_capacity", "units::isq::iec80000::petabit"⟩,
  ⟨52, .rep, "units::aliases::isq::iec80000::storage_capacity", "Tbit", "units::isq::iec80000::dim_storage_capacity", "units::isq::iec80000::terabit"⟩,
  ⟨52, .rep, "units::aliases::isq::iec80000::storage_capacity", "Gbit", "units::isq::iec80000::dim_storage_capacity", "units::isq::iec80000::gigabit"⟩,
  ⟨52, .rep, "units::aliases::isq::iec80000::storage_capacity", "Mbit", "units::isq::iec80000::dim_storage_capacity", "units::isq::iec80000::megabit"⟩,
  ⟨52, .rep, "units::aliases::isq::iec80000::storage_capacity", "kbit", "units::isq::iec80000::dim_storage_capacity", "units::isq::iec80000::kilobit"⟩,
  ⟨52, .rep, "units::aliases::isq::iec80000::storage_capacity", "bit", "units::isq::iec80000::dim_storage_capacity", "units::isq::iec80000::bit"⟩,
  ⟨52, .reference, "units::isq::iec80000::storage_capacity_references", "PiB", "units::isq::iec80000::dim_storage_capacity", "units::isq::iec80000::pebibyte"⟩,
  ⟨52, .reference, "units::isq::iec80000::storage_capacity_references", "TiB", "units::isq::iec80000::dim_storage_capacity", "units::isq::iec80000::tebibyte"⟩,
  ⟨52, .reference, "units::isq::iec80000::storage_capacity_references", "GiB", "units::isq::iec80000::dim_storage_capacity", "units::isq::iec80000::gibibyte"⟩,
  ⟨52, .reference, "units::isq::iec80000::storage_capacity_references", "MiB", "units::isq::iec80000::dim_storage_capacity", "units::isq::iec80000::mebibyte"⟩,
  ⟨52, .reference, "units::isq::iec80000::storage_capacity_references", "KiB", "units::isq::iec80000::dim_storage_capacity", "units::isq::iec80000::kibibyte"⟩,
  ⟨52, .reference, "units::isq::iec80000::storage_capacity_references", "YB", "units::isq::iec80000::dim_storage_capacity", "units::isq::iec80000::yottabyte"⟩,
  ⟨52, .reference, "units::isq::iec80000::storage_capacity_references", "ZB", "units::isq::iec80000::dim_storage_capacity", "units::isq::iec80000::zettabyte"⟩,
  ⟨52, .reference, "units::isq::iec80000::storage_capacity_references", "EB", "units::isq::iec80000::dim_storage_capacity", "units::isq::iec80000::exabyte"⟩,
  ⟨52, .reference, "units::isq::iec80000::storage_capacity_references", "PB", "units::isq::iec80000::dim_storage_capacity", "units::isq::iec80000::petabyte"⟩,
  ⟨52, .reference, "units::isq::iec80000::storage_capacity_references", "TB", "units::isq::iec80000::dim_storage_capacity", "units::isq::iec80000::terabyte"⟩,
  ⟨52, .reference, "units::isq::iec80000::storage_capacity_references", "GB", "units::isq::iec80000::dim_storage_capacity", "units::isq::iec80000::gigabyte"⟩,
  ⟨52, .reference, "units::isq::iec80000::storage_capacity_references", "MB", "units::isq::iec80000::dim_storage_capacity", "units::isq::iec80000::megabyte"⟩,
  ⟨52, .reference, "units::isq::iec80000::storage_capacity_references", "kB", "units::isq::iec80000::dim_storage_capacity", "units::isq::iec80000::kilobyte"⟩,
  ⟨52, .reference, "units::isq::iec80000::storage_capacity_references", "B", "units::isq::iec80000::dim_storage_capacity", "units::isq::iec80000::byte"⟩,
  ⟨52, .reference, "units::isq::iec80000::storage_capacity_references", "Eibit", "units::isq::iec80000::dim_storage_capacity", "units::isq::iec80000::exbibit"⟩,
  ⟨52, .reference, "units::isq::iec80000::storage_capacity_references", "Pibit", "units::isq::iec80000::dim_storage_capacity", "units::isq::iec80000::pebibit"⟩,
  ⟨52, .reference, "units::isq::iec80000::storage_capacity_references", "Tibit", "units::isq::iec80000::dim_storage_capacity", "units::isq::iec80000::tebibit"⟩,
  ⟨52, .reference, "units::isq::iec80000::storage_capacity_references", "Gibit", "units::isq::iec80000::dim_storage_capacity", "units::isq::iec80000::gibibit"⟩,
  ⟨52, .reference, "units::isq::iec80000::storage_capacity_references", "Mibit", "units::isq::iec80000::dim_storage_capacity", "units::isq::iec80000::mebibit"⟩,
  ⟨52, .reference, "units::isq::iec80000::storage_capacity_references", "Kibit", "units::isq::iec80000::dim_storage_capacity", "units::isq::iec80000::kibibit"⟩,
  ⟨52, .reference, "units::isq::iec80000::storage_capacity_references", "Ybit", "units::isq::iec80000::dim_storage_capacity", "units::isq::iec80000::yottabit"⟩,
  ⟨52, .reference, "units::isq::iec80000::storage_capacity_references", "Zbit", "units::isq::iec80000::dim_storage_capacity", "units::isq::iec80000::zettabit"⟩,
  ⟨52, .reference, "units::isq::iec80000::storage_capacity_references", "Ebit", "units::isq::iec80000::dim_storage_capacity", "units::isq::iec80000::exabit"⟩,
  ⟨52, .reference, "units::isq::iec80000::storage_capacity_references", "Pbit", "units::isq::iec80000::dim_storage_capacity", "units::isq::iec80000::petabit"⟩,
  ⟨52, .reference, "units::isq::iec80000::storage_capacity_references", "Tbit", "units::isq::iec80000::dim_storage_capacity", "units::isq::iec80000::terabit"⟩,
  ⟨52, .reference, "units::isq::iec80000::storage_capacity_references", "Gbit", "units::isq::iec80000::dim_storage_capacity", "units::isq::iec80000::gigabit"⟩,
  ⟨52, .reference, "units::isq::iec80000::storage_capacity_references", "Mbit", "units::isq::iec80000::dim_storage_capacity", "units::isq::iec80000::megabit"⟩,
  ⟨52, .reference, "units::isq::iec80000::storage_capacity_references", "kbit", "units::isq::iec80000::dim_storage_capacity", "units::isq::iec80000::kilobit"⟩]

/-- Part 68 of `tagTable`. -/
def tagTable68 : List (TRow) := [
  ⟨52, .reference, "units::isq::iec80000::storage_capacity_references", "bit", "units::isq::iec80000::dim_storage_capacity", "units::isq::iec80000::bit"⟩,
  ⟨52, .literal, "units::isq::iec80000::literals", "_q_PiB", "units::isq::iec80000::dim_storage_capacity", "units::isq::iec80000::pebibyte"⟩,
  ⟨52, .literal, "units::isq::iec80000::literals", "_q_TiB", "units::isq::iec80000::dim_storage_capacity", "units::isq::iec80000::tebibyte"⟩,
  ⟨52, .literal, "units::isq::iec80000::literals", "_q_GiB", "units::isq::iec80000::dim_storage_capacity", "units::isq::iec80000::gibibyte"⟩,
  ⟨52, .literal, "units::isq::iec80000::literals", "_q_MiB", "units::isq::iec80000::dim_storage_capacity", "units::isq::iec80000::mebibyte"⟩,
  ⟨52, .literal, "units::isq::iec80000::literals", "_q_KiB", "units::isq::iec80000::dim_storage_capacity", "units::isq::iec80000::kibibyte"⟩,
  ⟨52, .literal, "units::isq::iec80000::literals", "_q_YB", "units::isq::iec80000::dim_storage_capacity", "units::isq::iec80000::yottabyte"⟩,
  ⟨52, .literal, "units::isq::iec80000::literals", "_q_ZB", "units::isq::iec80000::dim_storage_capacity", "units::isq::iec80000::zettabyte"⟩,
  ⟨52, .literal, "units::isq::iec80000::literals", "_q_EB", "units::isq::iec80000::dim_storage_capacity", "units::isq::iec80000::exabyte"⟩,
  ⟨52, .literal, "units::isq::iec80000::literals", "_q_PB", "units::isq::iec80000::dim_storage_capacity", "units::isq::iec80000::petabyte"⟩,
  ⟨52, .literal, "units::isq::iec80000::literals", "_q_TB", "units::isq::iec80000::dim_storage_capacity", "units::isq::iec80000::terabyte"⟩,
  ⟨52, .literal, "units::isq::iec80000::literals", "_q_GB", "units::isq::iec80000::dim_storage_capacity", "units::isq::iec80000::gigabyte"⟩,
  ⟨52, .literal, "units::isq::iec80000::literals", "_q_MB", "units::isq::iec80000::dim_storage_capacity", "units::isq::iec80000::megabyte"⟩,
  ⟨52, .literal, "units::isq::iec80000::literals", "_q_kB", "units::isq::iec80000::dim_storage_capacity", "units::isq::iec80000::kilobyte"⟩,
  ⟨52, .literal, "units::isq::iec80000::literals", "_q_B", "units::isq::iec80000::dim_storage_capacity", "units::isq::iec80000::byte"⟩,
  ⟨52, .literal, "units::isq::iec80000::literals", "_q_Eibit", "units::isq::iec80000::dim_storage_capacity", "units::isq::iec80000::exbibit"⟩,
  ⟨52, .literal, "units::isq::iec80000::literals", "_q_Pibit", "units::isq::iec80000::dim_storage_capacity", "units::isq::iec80000::pebibit"⟩,
  ⟨52, .literal, "units::isq::iec80000::literals", "_q_Tibit", "units::isq::iec80000::dim_storage_capacity", "units::isq::iec80000::tebibit"⟩,
  ⟨52, .literal, "units::isq::iec80000::literals", "_q_Gibit", "units::isq::iec80000::dim_storage_capacity", "units::isq::iec80000::gibibit"⟩,
  ⟨52, .literal, "units::isq::iec80000::literals", "_q_Mibit", "units::isq::iec80000::dim_storage_capacity", "units::isq::iec80000::mebibit"⟩,
  ⟨52, .literal, "units::isq::iec80000::literals", "_q_Kibit", "units::isq::iec80000::dim_storage_capacity", "units::isq::iec80000::kibibit"⟩,
  ⟨52, .literal, "units::isq::iec80000::literals", "_q_Ybit", "units::isq::iec80000::dim_storage_capacity", "units::isq::iec80000::yottabit"⟩,
  ⟨52, .literal, "units::isq::iec80000::literals", "_q_Zbit", "units::isq::iec80000::dim_storage_capacity", "units::isq::iec80000::zettabit"⟩,
  ⟨52, .literal, "units::isq::iec80000::literals", "_q_Ebit", "units::isq::iec80000::dim_storage_capacity", "units::isq::iec80000::exabit"⟩,
  ⟨52, .literal, "units::isq::iec80000::literals", "_q_Pbit", "units::isq::iec80000::dim_storage_capacity", "units::isq::iec80000::petabit"⟩,
  ⟨52, .literal, "units::isq::iec80000::literals", "_q_Tbit", "units::isq::iec80000::dim_storage_capacity", "units::isq::iec80000::terabit"⟩,
  ⟨52, .literal, "units::isq::iec80000::literals", "_q_Gbit", "units::isq::iec80000::dim_storage_capacity", "units::isq::iec80000::gigabit"⟩,
  ⟨52, .literal, "units::isq::iec80000::literals", "_q_Mbit", "units::isq::iec80000::dim_storage_capacity", "units::isq::iec80000::megabit"⟩,
  ⟨52, .literal, "units::isq::iec80000::literals", "_q_kbit", "units::isq::iec80000::dim_storage_capacity", "units::isq::iec80000::kilobit"⟩,
  ⟨52, .literal, "units::isq::iec80000::literals", "_q_bit", "units::isq::iec80000::dim_storage_capacity", "units::isq::iec80000::bit"⟩,
  ⟨51, .rep, "units::aliases::isq::iec80000::modulation_rate", "YBd", "units::isq::si::dim_frequency", "units::isq::iec80000::yottabaud"⟩,
  ⟨51, .rep, "units::aliases::isq::iec80000::modulation_rate", "ZBd", "units::isq::si::dim_frequency", "units::isq::iec80000::zettabaud"⟩,
  ⟨51, .rep, "units::aliases::isq::iec80000::modulation_rate", "EBd", "units::isq::si::dim_frequency", "units::isq::iec80000::exabaud"⟩,
  ⟨51, .rep, "units::aliases::isq::iec80000::modulation_rate", "PBd", "units::isq::si::dim_frequency", "units::isq::iec80000::petabaud"⟩,
  ⟨51, .rep, "units::aliases::isq::iec80000::modulation_rate", "TBd", "units::isq::si::dim_frequency", "units::isq::iec80000::terabaud"⟩,
  ⟨51, .rep, "units::aliases::isq::iec80000::modulation_rate", "GBd", "units::isq::si::dim_frequency", "units::isq::iec80000::gigabaud"⟩,
  ⟨51, .rep, "units::aliases::isq::iec80000::modulation_rate", "MBd", "units::isq::si::dim_frequency", "units::isq::iec80000::megabaud"⟩,
  ⟨51, .rep, "units::aliases::isq::iec80000::modulation_rate", "kBd", "units::isq::si::dim_frequency", "units::isq::iec80000::kilobaud"⟩,
  ⟨51, .rep, "units::aliases::isq::iec80000::modulation_rate", "Bd", "units::isq::si::dim_frequency", "units::isq::iec80000::baud"⟩,
  ⟨51, .reference, "units::isq::iec80000::modulation_rate_references", "YBd", "units::isq::si::dim_frequency", "units::isq::iec80000::yottabaud"⟩]

/-- Part 69 of `tagTable`. -/
def tagTable69 : List (TRow) := [
  ⟨51, .reference, "units::isq::iec80000::modulation_rate_references", "ZBd", "units::isq::si::dim_frequency", "units::isq::iec80000::zettabaud"⟩,
  ⟨51, .reference, "units::isq::iec80000::modulation_rate_references", "EBd", "units::isq::si::dim_frequency", "units::isq::iec80000::exabaud"⟩,
  ⟨51, .reference, "units::isq::iec80000::modulation_rate_references", "PBd", "units::isq::si::dim_frequency", "units::isq::iec80000::petabaud"⟩,
  ⟨51, .reference, "units::isq::iec80000::modulation_rate_references", "TBd", "units::isq::si::dim_frequency", "units::isq::iec80000::terabaud"⟩,
  ⟨51, .reference, "units::isq::iec80000::modulation_rate_references", "GBd", "units::isq::si::dim_frequency", "units::isq::iec80000::gigabaud"⟩,
  ⟨51, .reference, "units::isq::iec80000::modulation_rate_references", "MBd", "units::isq::si::dim_frequency", "units::isq::iec80000::megabaud"⟩,
  ⟨51, .reference, "units::isq::iec80000::modulation_rate_references", "kBd", "units::isq::si::dim_frequency", "units::isq::iec80000::kilobaud"⟩,
  ⟨51, .reference, "units::isq::iec80000::modulation_rate_references", "Bd", "units::isq::si::dim_frequency", "units::isq::iec80000::baud"⟩,
  ⟨51, .literal, "units::isq::iec80000::literals", "_q_YBd", "units::isq::si::dim_frequency", "units::isq::iec80000::yottabaud"⟩,
  ⟨51, .literal, "units::isq::iec80000::literals", "_q_ZBd", "units::isq::si::dim_frequency", "units::isq::iec80000::zettabaud"⟩,
  ⟨51, .literal, "units::isq::iec80000::literals", "_q_EBd", "units::isq::si::dim_frequency", "units::isq::iec80000::exabaud"⟩,
  ⟨51, .literal, "units::isq::iec80000::literals", "_q_PBd", "units::isq::si::dim_frequency", "units::isq::iec80000::petabaud"⟩,
  ⟨51, .literal, "units::isq::iec80000::literals", "_q_TBd", "units::isq::si::dim_frequency", "units::isq::iec80000::terabaud"⟩,
  ⟨51, .literal, "units::isq::iec80000::literals", "_q_GBd", "units::isq::si::dim_frequency", "units::isq::iec80000::gigabaud"⟩,
  ⟨51, .literal, "units::isq::iec80000::literals", "_q_MBd", "units::isq::si::dim_frequency", "units::isq::iec80000::megabaud"⟩,
  ⟨51, .literal, "units::isq::iec80000::literals", "_q_kBd", "units::isq::si::dim_frequency", "units::isq::iec80000::kilobaud"⟩,
  ⟨51, .literal, "units::isq::iec80000::literals", "_q_Bd", "units::isq::si::dim_frequency", "units::isq::iec80000::baud"⟩,
  ⟨50, .rep, "units::aliases::isq::si::frequency", "YHz", "units::isq::si::dim_frequency", "units::isq::si::yottahertz"⟩,
  ⟨50, .rep, "units::aliases::isq::si::frequency", "ZHz", "units::isq::si::dim_frequency", "units::isq::si::zettahertz"⟩,
  ⟨50, .rep, "units::aliases::isq::si::frequency", "EHz", "units::isq::si::dim_frequency", "units::isq::si::exahertz"⟩,
  ⟨50, .rep, "units::aliases::isq::si::frequency", "PHz", "units::isq::si::dim_frequency", "units::isq::si::petahertz"⟩,
  ⟨50, .rep, "units::aliases::isq::si::frequency", "THz", "units::isq::si::dim_frequency", "units::isq::si::terahertz"⟩,
  ⟨50, .rep, "units::aliases::isq::si::frequency", "GHz", "units::isq::si::dim_frequency", "units::isq::si::gigahertz"⟩,
  ⟨50, .rep, "units::aliases::isq::si::frequency", "MHz", "units::isq::si::dim_frequency", "units::isq::si::megahertz"⟩,
  ⟨50, .rep, "units::aliases::isq::si::frequency", "kHz", "units::isq::si::dim_frequency", "units::isq::si::kilohertz"⟩,
  ⟨50, .rep, "units::aliases::isq::si::frequency", "mHz", "units::isq::si::dim_frequency", "units::isq::si::millihertz"⟩,
  ⟨50, .rep, "units::aliases::isq::si::frequency", "uHz", "units::isq::si::dim_frequency", "units::isq::si::microhertz"⟩,
  ⟨50, .rep, "units::aliases::isq::si::frequency", "nHz", "units::isq::si::dim_frequency", "units::isq::si::nanohertz"⟩,
  ⟨50, .rep, "units::aliases::isq::si::frequency", "pHz", "units::isq::si::dim_frequency", "units::isq::si::picohertz"⟩,
  ⟨50, .rep, "units::aliases::isq::si::frequency", "fHz", "units::isq::si::dim_frequency", "units::isq::si::femtohertz"⟩,
  ⟨50, .rep, "units::aliases::isq::si::frequency", "aHz", "units::isq::si::dim_frequency", "units::isq::si::attohertz"⟩,
  ⟨50, .rep, "units::aliases::isq::si::frequency", "zHz", "units::isq::si::dim_frequency", "units::isq::si::zeptohertz"⟩,
  ⟨50, .rep, "units::aliases::isq::si::frequency", "yHz", "units::isq::si::dim_frequency", "units::isq::si::yoctohertz"⟩,
  ⟨50, .rep, "units::aliases::isq::si::frequency", "Hz", "units::isq::si::dim_frequency", "units::isq::si::hertz"⟩,
  ⟨50, .reference, "units::isq::si::frequency_references", "YHz", "units::isq::si::dim_frequency", "units::isq::si::yottahertz"⟩,
  ⟨50, .reference, "units::isq::si::frequency_references", "ZHz", "units::isq::si::dim_frequency", "units::isq::si::zettahertz"⟩,
  ⟨50, .reference, "units::isq::si::frequency_references", "EHz", "units::isq::si::dim_frequency", "units::isq::si::exahertz"⟩,
  ⟨50, .reference, "units::isq::si::frequency_references", "PHz", "units::isq::si::dim_frequency", "units::isq::si::petahertz"⟩,
  ⟨50, .reference, "units::isq::si::frequency_references", "THz", "units::isq::si::dim_frequency", "units::isq::si::terahertz"⟩,
  ⟨50, .reference, "units::isq::si::frequency_references", "GHz", "units::isq::si::dim_frequency", "units::isq::si::gigahertz"⟩]

/-- Part 70 of `tagTable`. -/
def tagTable70 : List (TRow) := [
  ⟨50, .reference, "units::isq::si::frequency_references", "MHz", "units::isq::si::dim_frequency", "units::isq::si::megahertz"⟩,
  ⟨50, .reference, "units::isq::si::frequency_references", "kHz", "units::isq::si::dim_frequency", "units::isq::si::kilohertz"⟩,
  ⟨50, .reference, "units::isq::si::frequency_references", "mHz", "units::isq::si::dim_frequency", "units::isq::si::millihertz"⟩,
  ⟨50, .reference, "units::isq::si::frequency_references", "uHz", "units::isq::si::dim_frequency", "units::isq::si::microhertz"⟩,
  ⟨50, .reference, "units::isq::si::frequency_references", "nHz", "units::isq::si::dim_frequency", "units::isq::si::nanohertz"⟩,
  ⟨50, .reference, "units::isq::si::frequency_references", "pHz", "units::isq::si::dim_frequency", "units::isq::si::picohertz"⟩,
  ⟨50, .reference, "units::isq::si::frequency_references", "fHz", "units::isq::si::dim_frequency", "units::isq::si::femtohertz"⟩,
  ⟨50, .reference, "units::isq::si::frequency_references", "aHz", "units::isq::si::dim_frequency", "units::isq::si::attohertz"⟩,
  ⟨50, .reference, "units::isq::si::frequency_references", "zHz", "units::isq::si::dim_frequency", "units::isq::si::zeptohertz"⟩,
  ⟨50, .reference, "units::isq::si::frequency_references", "yHz", "units::isq::si::dim_frequency", "units::isq::si::yoctohertz"⟩,
  ⟨50, .reference, "units::isq::si::frequency_references", "Hz", "units::isq::si::dim_frequency", "units::isq::si::hertz"⟩,
  ⟨50, .literal, "units::isq::si::literals", "_q_YHz", "units::isq::si::dim_frequency", "units::isq::si::yottahertz"⟩,
  ⟨50, .literal, "units::isq::si::literals", "_q_YHz", "units::isq::si::dim_frequency", "units::isq::si::yottahertz"⟩,
  ⟨50, .literal, "units::isq::si::literals", "_q_YHz", "units::isq::si::dim_frequency", "units::isq::si::yottahertz"⟩,
  ⟨50, .literal, "units::isq::si::literals", "_q_ZHz", "units::isq::si::dim_frequency", "units::isq::si::zettahertz"⟩,
  ⟨50, .literal, "units::isq::si::literals", "_q_ZHz", "units::isq::si::dim_frequency", "units::isq::si::zettahertz"⟩,
  ⟨50, .literal, "units::isq::si::literals", "_q_ZHz", "units::isq::si::dim_frequency", "units::isq::si::zettahertz"⟩,
  ⟨50, .literal, "units::isq::si::literals", "_q_EHz", "units::isq::si::dim_frequency", "units::isq::si::exahertz"⟩,
  ⟨50, .literal, "units::isq::si::literals", "_q_EHz", "units::isq::si::dim_frequency", "units::isq::si::exahertz"⟩,
  ⟨50, .literal, "units::isq::si::literals", "_q_EHz", "units::isq::si::dim_frequency", "units::isq::si::exahertz"⟩,
  ⟨50, .literal, "units::isq::si::literals", "_q_PHz", "units::isq::si::dim_frequency", "units::isq::si::petahertz"⟩,
  ⟨50, .literal, "units::isq::si::literals", "_q_PHz", "units::isq::si::dim_frequency", "units::isq::si::petahertz"⟩,
  ⟨50, .literal, "units::isq::si::literals", "_q_PHz", "units::isq::si::dim_frequency", "units::isq::si::petahertz"⟩,
  ⟨50, .literal, "units::isq::si::literals", "_q_THz", "units::isq::si::dim_frequency", "units::isq::si::terahertz"⟩,
  ⟨50, .literal, "units::isq::si::literals", "_q_THz", "units::isq::si::dim_frequency", "units::isq::si::terahertz"⟩,
  ⟨50, .literal, "units::isq::si::literals", "_q_THz", "units::isq::si::dim_frequency", "units::isq::si::terahertz"⟩,
  ⟨50, .literal, "units::isq::si::literals", "_q_GHz", "units::isq::si::dim_frequency", "units::isq::si::gigahertz"⟩,
  ⟨50, .literal, "units::isq::si::literals", "_q_GHz", "units::isq::si::dim_frequency", "units::isq::si::gigahertz"⟩,
  ⟨50, .literal, "units::isq::si::literals", "_q_GHz", "units::isq::si::dim_frequency", "units::isq::si::gigahertz"⟩,
  ⟨50, .literal, "units::isq::si::literals", "_q_MHz", "units::isq::si::dim_frequency", "units::isq::si::megahertz"⟩,
  ⟨50, .literal, "units::isq::si::literals", "_q_MHz", "units::isq::si::dim_frequency", "units::isq::si::megahertz"⟩,
  ⟨50, .literal, "units::isq::si::literals", "_q_MHz", "units::isq::si::dim_frequency", "units::isq::si::megahertz"⟩,
  ⟨50, .literal, "units::isq::si::literals", "_q_kHz", "units::isq::si::dim_frequency", "units::isq::si::kilohertz"⟩,
  ⟨50, .literal, "units::isq::si::literals", "_q_kHz", "units::isq::si::dim_frequency", "units::isq::si::kilohertz"⟩,
  ⟨50, .literal, "units::isq::si::literals", "_q_kHz", "units::isq::si::dim_frequency", "units::isq::si::kilohertz"⟩,
  ⟨50, .literal, "units::isq::si::literals", "_q_mHz", "units::isq::si::dim_frequency", "units::isq::si::millihertz"⟩,
  ⟨50, .literal, "units::isq::si::literals", "_q_mHz", "units::isq::si::dim_frequency", "units::isq::si::millihertz"⟩,
  ⟨50, .literal, "units::isq::si::literals", "_q_mHz", "units::isq::si::dim_frequency", "units::isq::si::millihertz"⟩,
  ⟨50, .literal, "units::isq::si::literals", "_q_uHz", "units::isq::si::dim_frequency", "units::isq::si::microhertz"⟩,
  ⟨50, .literal, "units::isq::si::literals", "_q_uHz", "units::isq::si::dim_frequency", "units::isq::si::microhertz"⟩]

/-- Part 71 of `tagTable`. -/
def tagTable71 : List (TRow) := [
  ⟨50, .literal, "units::isq::si::literals", "_q_uHz", "units::isq::si::dim_frequency", "units::isq::si::microhertz"⟩,
  ⟨50, .literal, "units::isq::si::literals", "_q_nHz", "units::isq::si::dim_frequency", "units::isq::si::nanohertz"⟩,
  ⟨50, .literal, "units::isq::si::literals", "_q_nHz", "units::isq::si::dim_frequency", "units::isq::si::nanohertz"⟩,
  ⟨50, .literal, "units::isq::si::literals", "_q_nHz", "units::isq::si::dim_frequency", "units::isq::si::nanohertz"⟩,
  ⟨50, .literal, "units::isq::si::literals", "_q_pHz", "units::isq::si::dim_frequency", "units::isq::si::picohertz"⟩,
  ⟨50, .literal, "units::isq::si::literals", "_q_pHz", "units::isq::si::dim_frequency", "units::isq::si::picohertz"⟩,
  ⟨50, .literal, "units::isq::si::literals", "_q_pHz", "units::isq::si::dim_frequency", "units::isq::si::picohertz"⟩,
  ⟨50, .literal, "units::isq::si::literals", "_q_fHz", "units::isq::si::dim_frequency", "units::isq::si::femtohertz"⟩,
  ⟨50, .literal, "units::isq::si::literals", "_q_fHz", "units::isq::si::dim_frequency", "units::isq::si::femtohertz"⟩,
  ⟨50, .literal, "units::isq::si::literals", "_q_fHz", "units::isq::si::dim_frequency", "units::isq::si::femtohertz"⟩,
  ⟨50, .literal, "units::isq::si::literals", "_q_aHz", "units::isq::si::dim_frequency", "units::isq::si::attohertz"⟩,
  ⟨50, .literal, "units::isq::si::literals", "_q_aHz", "units::isq::si::dim_frequency", "units::isq::si::attohertz"⟩,
  ⟨50, .literal, "units::isq::si::literals", "_q_aHz", "units::isq::si::dim_frequency", "units::isq::si::attohertz"⟩,
  ⟨50, .literal, "units::isq::si::literals", "_q_zHz", "units::isq::si::dim_frequency", "units::isq::si::zeptohertz"⟩,
  ⟨50, .literal, "units::isq::si::literals", "_q_zHz", "units::isq::si::dim_frequency", "units::isq::si::zeptohertz"⟩,
  ⟨50, .literal, "units::isq::si::literals", "_q_zHz", "units::isq::si::dim_frequency", "units::isq::si::zeptohertz"⟩,
  ⟨50, .literal, "units::isq::si::literals", "_q_yHz", "units::isq::si::dim_frequency", "units::isq::si::yoctohertz"⟩,
  ⟨50, .literal, "units::isq::si::literals", "_q_yHz", "units::isq::si::dim_frequency", "units::isq::si::yoctohertz"⟩,
  ⟨50, .literal, "units::isq::si::literals", "_q_yHz", "units::isq::si::dim_frequency", "units::isq::si::yoctohertz"⟩,
  ⟨50, .literal, "units::isq::si::literals", "_q_Hz", "units::isq::si::dim_frequency", "units::isq::si::hertz"⟩,
  ⟨50, .literal, "units::isq::si::literals", "_q_Hz", "units::isq::si::dim_frequency", "units::isq::si::hertz"⟩,
  ⟨50, .literal, "units::isq::si::literals", "_q_Hz", "units::isq::si::dim_frequency", "units::isq::si::hertz"⟩,
  ⟨49, .rep, "units::aliases::isq::si::time", "d", "units::isq::si::dim_time", "units::isq::si::day"⟩,
  ⟨49, .rep, "units::aliases::isq::si::time", "h", "units::isq::si::dim_time", "units::isq::si::hour"⟩,
  ⟨49, .rep, "units::aliases::isq::si::time", "min", "units::isq::si::dim_time", "units::isq::si::minute"⟩,
  ⟨49, .rep, "units::aliases::isq::si::time", "s", "units::isq::si::dim_time", "units::isq::si::second"⟩,
  ⟨49, .rep, "units::aliases::isq::si::time", "ms", "units::isq::si::dim_time", "units::isq::si::millisecond"⟩,
  ⟨49, .rep, "units::aliases::isq::si::time", "us", "units::isq::si::dim_time", "units::isq::si::microsecond"⟩,
  ⟨49, .rep, "units::aliases::isq::si::time", "ns", "units::isq::si::dim_time", "units::isq::si::nanosecond"⟩,
  ⟨49, .rep, "units::aliases::isq::si::time", "ps", "units::isq::si::dim_time", "units::isq::si::picosecond"⟩,
  ⟨49, .rep, "units::aliases::isq::si::time", "fs", "units::isq::si::dim_time", "units::isq::si::femtosecond"⟩,
  ⟨49, .rep, "units::aliases::isq::si::time", "as", "units::isq::si::dim_time", "units::isq::si::attosecond"⟩,
  ⟨49, .rep, "units::aliases::isq::si::time", "zs", "units::isq::si::dim_time", "units::isq::si::zeptosecond"⟩,
  ⟨49, .rep, "units::aliases::isq::si::time", "ys", "units::isq::si::dim_time", "units::isq::si::yoctosecond"⟩,
  ⟨49, .reference, "units::isq::si::time_references", "d", "units::isq::si::dim_time", "units::isq::si::day"⟩,
  ⟨49, .reference, "units::isq::si::time_references", "h", "units::isq::si::dim_time", "units::isq::si::hour"⟩,
  ⟨49, .reference, "units::isq::si::time_references", "min", "units::isq::si::dim_time", "units::isq::si::minute"⟩,
  ⟨49, .reference, "units::isq::si::time_references", "s", "units::isq::si::dim_time", "units::isq::si::second"⟩,
  ⟨49, .reference, "units::isq::si::time_references", "ms", "units::isq::si::dim_time", "units::isq::si::millisecond"⟩,
  ⟨49, .reference, "units::isq::si::time_references", "us", "units::isq::si::dim_time", "units::isq::si::microsecond"⟩]

/-- Part 72 of `tagTable`. -/
def tagTable72 : List (TRow) := [
  ⟨49, .reference, "units::isq::si::time_references", "ns", "units::isq::si::dim_time", "units::isq::si::nanosecond"⟩,
  ⟨49, .reference, "units::isq::si::time_references", "ps", "units::isq::si::dim_time", "units::isq::si::picosecond"⟩,
  ⟨49, .reference, "units::isq::si::time_references", "fs", "units::isq::si::dim_time", "units::isq::si::femtosecond"⟩,
  ⟨49, .reference, "units::isq::si::time_references", "as", "units::isq::si::dim_time", "units::isq::si::attosecond"⟩,
  ⟨49, .reference, "units::isq::si::time_references", "zs", "units::isq::si::dim_time", "units::isq::si::zeptosecond"⟩,
  ⟨49, .reference, "units::isq::si::time_references", "ys", "units::isq::si::dim_time", "units::isq::si::yoctosecond"⟩,
  ⟨49, .literal, "units::isq::si::literals", "_q_d", "units::isq::si::dim_time", "units::isq::si::day"⟩,
  ⟨49, .literal, "units::isq::si::literals", "_q_d", "units::isq::si::dim_time", "units::isq::si::day"⟩,
  ⟨49, .literal, "units::isq::si::literals", "_q_d", "units::isq::si::dim_time", "units::isq::si::day"⟩,
  ⟨49, .literal, "units::isq::si::literals", "_q_h", "units::isq::si::dim_time", "units::isq::si::hour"⟩,
  ⟨49, .literal, "units::isq::si::literals", "_q_h", "units::isq::si::dim_time", "units::isq::si::hour"⟩,
  ⟨49, .literal, "units::isq::si::literals", "_q_h", "units::isq::si::dim_time", "units::isq::si::hour"⟩,
  ⟨49, .literal, "units::isq::si::literals", "_q_min", "units::isq::si::dim_time", "units::isq::si::minute"⟩,
  ⟨49, .literal, "units::isq::si::literals", "_q_min", "units::isq::si::dim_time", "units::isq::si::minute"⟩,
  ⟨49, .literal, "units::isq::si::literals", "_q_min", "units::isq::si::dim_time", "units::isq::si::minute"⟩,
  ⟨49, .literal, "units::isq::si::literals", "_q_s", "units::isq::si::dim_time", "units::isq::si::second"⟩,
  ⟨49, .literal, "units::isq::si::literals", "_q_s", "units::isq::si::dim_time", "units::isq::si::second"⟩,
  ⟨49, .literal, "units::isq::si::literals", "_q_s", "units::isq::si::dim_time", "units::isq::si::second"⟩,
  ⟨49, .literal, "units::isq::si::literals", "_q_ms", "units::isq::si::dim_time", "units::isq::si::millisecond"⟩,
  ⟨49, .literal, "units::isq::si::literals", "_q_ms", "units::isq::si::dim_time", "units::isq::si::millisecond"⟩,
  ⟨49, .literal, "units::isq::si::literals", "_q_ms", "units::isq::si::dim_time", "units::isq::si::millisecond"⟩,
  ⟨49, .literal, "units::isq::si::literals", "_q_us", "units::isq::si::dim_time", "units::isq::si::microsecond"⟩,
  ⟨49, .literal, "units::isq::si::literals", "_q_us", "units::isq::si::dim_time", "units::isq::si::microsecond"⟩,
  ⟨49, .literal, "units::isq::si::literals", "_q_us", "units::isq::si::dim_time", "units::isq::si::microsecond"⟩,
  ⟨49, .literal, "units::isq::si::literals", "_q_ns", "units::isq::si::dim_time", "units::isq::si::nanosecond"⟩,
  ⟨49, .literal, "units::isq::si::literals", "_q_ns", "units::isq::si::dim_time", "units::isq::si::nanosecond"⟩,
  ⟨49, .literal, "units::isq::si::literals", "_q_ns", "units::isq::si::dim_time", "units::isq::si::nanosecond"⟩,
  ⟨49, .literal, "units::isq::si::literals", "_q_ps", "units::isq::si::dim_time", "units::isq::si::picosecond"⟩,
  ⟨49, .literal, "units::isq::si::literals", "_q_ps", "units::isq::si::dim_time", "units::isq::si::picosecond"⟩,
  ⟨49, .literal, "units::isq::si::literals", "_q_ps", "units::isq::si::dim_time", "units::isq::si::picosecond"⟩,
  ⟨49, .literal, "units::isq::si::literals", "_q_fs", "units::isq::si::dim_time", "units::isq::si::femtosecond"⟩,
  ⟨49, .literal, "units::isq::si::literals", "_q_fs", "units::isq::si::dim_time", "units::isq::si::femtosecond"⟩,
  ⟨49, .literal, "units::isq::si::literals", "_q_fs", "units::isq::si::dim_time", "units::isq::si::femtosecond"⟩,
  ⟨49, .literal, "units::isq::si::literals", "_q_as", "units::isq::si::dim_time", "units::isq::si::attosecond"⟩,
  ⟨49, .literal, "units::isq::si::literals", "_q_as", "units::isq::si::dim_time", "units::isq::si::attosecond"⟩,
  ⟨49, .literal, "units::isq::si::literals", "_q_as", "units::isq::si::dim_time", "units::isq::si::attosecond"⟩,
  ⟨49, .literal, "units::isq::si::literals", "_q_zs", "units::isq::si::dim_time", "units::isq::si::zeptosecond"⟩,
  ⟨49, .literal, "units::isq::si::literals", "_q_zs", "units::isq::si::dim_time", "units::isq::si::zeptosecond"⟩,
  ⟨49, .literal, "units::isq::si::literals", "_q_zs", "units::isq::si::dim_time", "units::isq::si::zeptosecond"⟩,
  ⟨49, .literal, "units::isq::si::literals", "_q_ys", "units::isq::si::dim_time", "units::isq::si::yoctosecond"⟩]

/-- Part 73 of `tagTable`. -/
def tagTable73 : List (TRow) := [
  ⟨49, .literal, "units::isq::si::literals", "_q_ys", "units::isq::si::dim_time", "units::isq::si::yoctosecond"⟩,
  ⟨49, .literal, "units::isq::si::literals", "_q_ys", "units::isq::si::dim_time", "units::isq::si::yoctosecond"⟩,
  ⟨2, .reference, "units::angle_references", "rad", "units::dim_angle<>", "units::radian"⟩,
  ⟨2, .literal, "units::literals", "_q_rad", "units::dim_angle<>", "units::radian"⟩,
  ⟨2, .literal, "units::literals", "_q_rad", "units::dim_angle<>", "units::radian"⟩,
  ⟨2, .literal, "units::literals", "_q_rad", "units::dim_angle<>", "units::radian"⟩]

/-- The literals, references and aliases, last declared first. -/
def tagTable : List (TRow) :=
  tagTable0 ++ (tagTable1 ++ (tagTable2 ++ (tagTable3 ++ (tagTable4 ++ (tagTable5 ++ (tagTable6 ++ (tagTable7 ++ (tagTable8 ++ (tagTable9 ++ (tagTable10 ++ (tagTable11 ++ (tagTable12 ++ (tagTable13 ++ (tagTable14 ++ (tagTable15 ++ (tagTable16 ++ (tagTable17 ++ (tagTable18 ++ (tagTable19 ++ (tagTable20 ++ (tagTable21 ++ (tagTable22 ++ (tagTable23 ++ (tagTable24 ++ (tagTable25 ++ (tagTable26 ++ (tagTable27 ++ (tagTable28 ++ (tagTable29 ++ (tagTable30 ++ (tagTable31 ++ (tagTable32 ++ (tagTable33 ++ (tagTable34 ++ (tagTable35 ++ (tagTable36 ++ (tagTable37 ++ (tagTable38 ++ (tagTable39 ++ (tagTable40 ++ (tagTable41 ++ (tagTable42 ++ (tagTable43 ++ (tagTable44 ++ (tagTable45 ++ (tagTable46 ++ (tagTable47 ++ (tagTable48 ++ (tagTable49 ++ (tagTable50 ++ (tagTable51 ++ (tagTable52 ++ (tagTable53 ++ (tagTable54 ++ (tagTable55 ++ (tagTable56 ++ (tagTable57 ++ (tagTable58 ++ (tagTable59 ++ (tagTable60 ++ (tagTable61 ++ (tagTable62 ++ (tagTable63 ++ (tagTable64 ++ (tagTable65 ++ (tagTable66 ++ (tagTable67 ++ (tagTable68 ++ (tagTable69 ++ (tagTable70 ++ (tagTable71 ++ (tagTable72 ++ (tagTable73)))))))))))))))))))))))))))))))))))))))))))))))))))))))))))))))))))))))))

/-- Part 0 of `unitDefTable`. -/
def unitDefTable0 : List (String × Ratio × String) := [
  ("units::isq::si::uscs::mile", ⟨6336, 3937, 3⟩, "units::isq::si::metre"),
  ("units::isq::si::uscs::fathom", ⟨72, 3937, 2⟩, "units::isq::si::metre"),
  ("units::isq::si::uscs::foot", ⟨12, 3937, 2⟩, "units::isq::si::metre"),
  ("units::isq::si::typographic::point_prn", ⟨1757299, 5, (-9)⟩, "units::isq::si::metre"),
  ("units::isq::si::typographic::point_comp", ⟨1763889, 5, (-9)⟩, "units::isq::si::metre"),
  ("units::isq::si::typographic::pica_prn", ⟨2108759, 5, (-8)⟩, "units::isq::si::metre"),
  ("units::isq::si::typographic::pica_comp", ⟨4233333, 1, (-9)⟩, "units::isq::si::metre"),
  ("units::isq::si::newton_metre_per_radian", ⟨1, 1, 0⟩, "units::isq::si::newton_metre_per_radian"),
  ("units::isq::si::watt_per_metre_kelvin", ⟨1, 1, 0⟩, "units::isq::si::watt_per_metre_kelvin"),
  ("units::isq::si::newton_per_metre", ⟨1, 1, 0⟩, "units::isq::si::newton_per_metre"),
  ("units::isq::si::yottabecquerel", ⟨1, 1, 24⟩, "units::isq::si::becquerel"),
  ("units::isq::si::zettabecquerel", ⟨1, 1, 21⟩, "units::isq::si::becquerel"),
  ("units::isq::si::exabecquerel", ⟨1, 1, 18⟩, "units::isq::si::becquerel"),
  ("units::isq::si::petabecquerel", ⟨1, 1, 15⟩, "units::isq::si::becquerel"),
  ("units::isq::si::terabecquerel", ⟨1, 1, 12⟩, "units::isq::si::becquerel"),
  ("units::isq::si::gigabecquerel", ⟨1, 1, 9⟩, "units::isq::si::becquerel"),
  ("units::isq::si::megabecquerel", ⟨1, 1, 6⟩, "units::isq::si::becquerel"),
  ("units::isq::si::kilobecquerel", ⟨1, 1, 3⟩, "units::isq::si::becquerel"),
  ("units::isq::si::hectobecquerel", ⟨1, 1, 2⟩, "units::isq::si::becquerel"),
  ("units::isq::si::decabecquerel", ⟨1, 1, 1⟩, "units::isq::si::becquerel"),
  ("units::isq::si::decibecquerel", ⟨1, 1, (-1)⟩, "units::isq::si::becquerel"),
  ("units::isq::si::centibecquerel", ⟨1, 1, (-2)⟩, "units::isq::si::becquerel"),
  ("units::isq::si::millibecquerel", ⟨1, 1, (-3)⟩, "units::isq::si::becquerel"),
  ("units::isq::si::microbecquerel", ⟨1, 1, (-6)⟩, "units::isq::si::becquerel"),
  ("units::isq::si::nanobecquerel", ⟨1, 1, (-9)⟩, "units::isq::si::becquerel"),
  ("units::isq::si::picobecquerel", ⟨1, 1, (-12)⟩, "units::isq::si::becquerel"),
  ("units::isq::si::femtobecquerel", ⟨1, 1, (-15)⟩, "units::isq::si::becquerel"),
  ("units::isq::si::attobecquerel", ⟨1, 1, (-18)⟩, "units::isq::si::becquerel"),
  ("units::isq::si::zeptobecquerel", ⟨1, 1, (-21)⟩, "units::isq::si::becquerel"),
  ("units::isq::si::yoctobecquerel", ⟨1, 1, (-24)⟩, "units::isq::si::becquerel"),
  ("units::isq::si::becquerel", ⟨1, 1, 0⟩, "units::isq::si::becquerel"),
  ("units::isq::si::farad_per_metre", ⟨1, 1, 0⟩, "units::isq::si::farad_per_metre"),
  ("units::isq::si::henry_per_metre", ⟨1, 1, 0⟩, "units::isq::si::henry_per_metre"),
  ("units::isq::si::kilogram_metre_per_second", ⟨1, 1, 0⟩, "units::isq::si::kilogram_metre_per_second"),
  ("units::isq::si::joule_per_mole", ⟨1, 1, 0⟩, "units::isq::si::joule_per_mole"),
  ("units::isq::si::candela_per_metre_sq", ⟨1, 1, 0⟩, "units::isq::si::candela_per_metre_sq"),
  ("units::isq::si::yottacandela", ⟨1, 1, 24⟩, "units::isq::si::candela"),
  ("units::isq::si::zettacandela", ⟨1, 1, 21⟩, "units::isq::si::candela"),
  ("units::isq::si::exacandela", ⟨1, 1, 18⟩, "units::isq::si::candela"),
  ("units::isq::si::petacandela", ⟨1, 1, 15⟩, "units::isq::si::candela")]

/-- Part 1 of `unitDefTable`. -/
def unitDefTable1 : List (String × Ratio × String) := [
  ("units::isq::si::teracandela", ⟨1, 1, 12⟩, "units::isq::si::candela"),
  ("units::isq::si::gigacandela", ⟨1, 1, 9⟩, "units::isq::si::candela"),
  ("units::isq::si::megacandela", ⟨1, 1, 6⟩, "units::isq::si::candela"),
  ("units::isq::si::kilocandela", ⟨1, 1, 3⟩, "units::isq::si::candela"),
  ("units::isq::si::hectocandela", ⟨1, 1, 2⟩, "units::isq::si::candela"),
  ("units::isq::si::decacandela", ⟨1, 1, 1⟩, "units::isq::si::candela"),
  ("units::isq::si::decicandela", ⟨1, 1, (-1)⟩, "units::isq::si::candela"),
  ("units::isq::si::centicandela", ⟨1, 1, (-2)⟩, "units::isq::si::candela"),
  ("units::isq::si::millicandela", ⟨1, 1, (-3)⟩, "units::isq::si::candela"),
  ("units::isq::si::microcandela", ⟨1, 1, (-6)⟩, "units::isq::si::candela"),
  ("units::isq::si::nanocandela", ⟨1, 1, (-9)⟩, "units::isq::si::candela"),
  ("units::isq::si::picocandela", ⟨1, 1, (-12)⟩, "units::isq::si::candela"),
  ("units::isq::si::femtocandela", ⟨1, 1, (-15)⟩, "units::isq::si::candela"),
  ("units::isq::si::attocandela", ⟨1, 1, (-18)⟩, "units::isq::si::candela"),
  ("units::isq::si::zeptocandela", ⟨1, 1, (-21)⟩, "units::isq::si::candela"),
  ("units::isq::si::yoctocandela", ⟨1, 1, (-24)⟩, "units::isq::si::candela"),
  ("units::isq::si::candela", ⟨1, 1, 0⟩, "units::isq::si::candela"),
  ("units::isq::si::international::cubic_foot", ⟨55306341, 1953125, (-3)⟩, "units::isq::si::cubic_metre"),
  ("units::isq::si::international::mile_per_hour", ⟨1397, 3125, 0⟩, "units::isq::si::metre_per_second"),
  ("units::isq::si::international::square_foot", ⟨145161, 15625, (-2)⟩, "units::isq::si::square_metre"),
  ("units::isq::si::yottahenry", ⟨1, 1, 24⟩, "units::isq::si::henry"),
  ("units::isq::si::zettahenry", ⟨1, 1, 21⟩, "units::isq::si::henry"),
  ("units::isq::si::exahenry", ⟨1, 1, 18⟩, "units::isq::si::henry"),
  ("units::isq::si::petahenry", ⟨1, 1, 15⟩, "units::isq::si::henry"),
  ("units::isq::si::terahenry", ⟨1, 1, 12⟩, "units::isq::si::henry"),
  ("units::isq::si::gigahenry", ⟨1, 1, 9⟩, "units::isq::si::henry"),
  ("units::isq::si::megahenry", ⟨1, 1, 6⟩, "units::isq::si::henry"),
  ("units::isq::si::kilohenry", ⟨1, 1, 3⟩, "units::isq::si::henry"),
  ("units::isq::si::millihenry", ⟨1, 1, (-3)⟩, "units::isq::si::henry"),
  ("units::isq::si::microhenry", ⟨1, 1, (-6)⟩, "units::isq::si::henry"),
  ("units::isq::si::nanohenry", ⟨1, 1, (-9)⟩, "units::isq::si::henry"),
  ("units::isq::si::picohenry", ⟨1, 1, (-12)⟩, "units::isq::si::henry"),
  ("units::isq::si::femtohenry", ⟨1, 1, (-15)⟩, "units::isq::si::henry"),
  ("units::isq::si::attohenry", ⟨1, 1, (-18)⟩, "units::isq::si::henry"),
  ("units::isq::si::zeptohenry", ⟨1, 1, (-21)⟩, "units::isq::si::henry"),
  ("units::isq::si::yoctohenry", ⟨1, 1, (-24)⟩, "units::isq::si::henry"),
  ("units::isq::si::henry", ⟨1, 1, 0⟩, "units::isq::si::henry"),
  ("units::isq::si::yottaweber", ⟨1, 1, 24⟩, "units::isq::si::weber"),
  ("units::isq::si::zettaweber", ⟨1, 1, 21⟩, "units::isq::si::weber"),
  ("units::isq::si::exaweber", ⟨1, 1, 18⟩, "units::isq::si::weber")]

/-- Part 2 of `unitDefTable`. -/
def unitDefTable2 : List (String × Ratio × String) := [
  ("units::isq::si::petaweber", ⟨1, 1, 15⟩, "units::isq::si::weber"),
  ("units::isq::si::teraweber", ⟨1, 1, 12⟩, "units::isq::si::weber"),
  ("units::isq::si::gigaweber", ⟨1, 1, 9⟩, "units::isq::si::weber"),
  ("units::isq::si::megaweber", ⟨1, 1, 6⟩, "units::isq::si::weber"),
  ("units::isq::si::kiloweber", ⟨1, 1, 3⟩, "units::isq::si::weber"),
  ("units::isq::si::milliweber", ⟨1, 1, (-3)⟩, "units::isq::si::weber"),
  ("units::isq::si::microweber", ⟨1, 1, (-6)⟩, "units::isq::si::weber"),
  ("units::isq::si::nanoweber", ⟨1, 1, (-9)⟩, "units::isq::si::weber"),
  ("units::isq::si::picoweber", ⟨1, 1, (-12)⟩, "units::isq::si::weber"),
  ("units::isq::si::femtoweber", ⟨1, 1, (-15)⟩, "units::isq::si::weber"),
  ("units::isq::si::attoweber", ⟨1, 1, (-18)⟩, "units::isq::si::weber"),
  ("units::isq::si::zeptoweber", ⟨1, 1, (-21)⟩, "units::isq::si::weber"),
  ("units::isq::si::yoctoweber", ⟨1, 1, (-24)⟩, "units::isq::si::weber"),
  ("units::isq::si::weber", ⟨1, 1, 0⟩, "units::isq::si::weber"),
  ("units::isq::si::gauss", ⟨1, 1, (-4)⟩, "units::isq::si::tesla"),
  ("units::isq::si::yottatesla", ⟨1, 1, 24⟩, "units::isq::si::tesla"),
  ("units::isq::si::zettatesla", ⟨1, 1, 21⟩, "units::isq::si::tesla"),
  ("units::isq::si::exatesla", ⟨1, 1, 18⟩, "units::isq::si::tesla"),
  ("units::isq::si::petatesla", ⟨1, 1, 15⟩, "units::isq::si::tesla"),
  ("units::isq::si::teratesla", ⟨1, 1, 12⟩, "units::isq::si::tesla"),
  ("units::isq::si::gigatesla", ⟨1, 1, 9⟩, "units::isq::si::tesla"),
  ("units::isq::si::megatesla", ⟨1, 1, 6⟩, "units::isq::si::tesla"),
  ("units::isq::si::kilotesla", ⟨1, 1, 3⟩, "units::isq::si::tesla"),
  ("units::isq::si::millitesla", ⟨1, 1, (-3)⟩, "units::isq::si::tesla"),
  ("units::isq::si::microtesla", ⟨1, 1, (-6)⟩, "units::isq::si::tesla"),
  ("units::isq::si::nanotesla", ⟨1, 1, (-9)⟩, "units::isq::si::tesla"),
  ("units::isq::si::picotesla", ⟨1, 1, (-12)⟩, "units::isq::si::tesla"),
  ("units::isq::si::femtotesla", ⟨1, 1, (-15)⟩, "units::isq::si::tesla"),
  ("units::isq::si::attotesla", ⟨1, 1, (-18)⟩, "units::isq::si::tesla"),
  ("units::isq::si::zeptotesla", ⟨1, 1, (-21)⟩, "units::isq::si::tesla"),
  ("units::isq::si::yoctotesla", ⟨1, 1, (-24)⟩, "units::isq::si::tesla"),
  ("units::isq::si::tesla", ⟨1, 1, 0⟩, "units::isq::si::tesla"),
  ("units::isq::si::imperial::rod", ⟨12573, 25, (-2)⟩, "units::isq::si::metre"),
  ("units::isq::si::imperial::chain", ⟨25146, 125, (-1)⟩, "units::isq::si::metre"),
  ("units::isq::si::international::thou", ⟨127, 5, (-6)⟩, "units::isq::si::metre"),
  ("units::isq::si::international::nautical_mile", ⟨1852, 1, 0⟩, "units::isq::si::metre"),
  ("units::isq::si::international::mile", ⟨25146, 15625, 3⟩, "units::isq::si::metre"),
  ("units::isq::si::international::inch", ⟨127, 5, (-3)⟩, "units::isq::si::metre"),
  ("units::isq::si::international::fathom", ⟨2286, 125, (-1)⟩, "units::isq::si::metre"),
  ("units::isq::si::international::foot", ⟨381, 125, (-1)⟩, "units::isq::si::metre")]

/-- Part 3 of `unitDefTable`. -/
def unitDefTable3 : List (String × Ratio × String) := [
  ("units::isq::si::international::yard", ⟨1143, 125, (-1)⟩, "units::isq::si::metre"),
  ("units::isq::si::iau::angstrom", ⟨1, 1, (-10)⟩, "units::isq::si::metre"),
  ("units::isq::si::iau::parsec", ⟨30856775814913673, 1, 0⟩, "units::isq::si::metre"),
  ("units::isq::si::iau::light_year", ⟨94607304725808, 1, 2⟩, "units::isq::si::metre"),
  ("units::isq::si::joule_per_mole_kelvin", ⟨1, 1, 0⟩, "units::isq::si::joule_per_mole_kelvin"),
  ("units::isq::si::joule_per_kilogram_kelvin", ⟨1, 1, 0⟩, "units::isq::si::joule_per_kilogram_kelvin"),
  ("units::isq::si::joule_per_kelvin", ⟨1, 1, 0⟩, "units::isq::si::joule_per_kelvin"),
  ("units::isq::si::fps::cubic_yard", ⟨3919347, 15625, (-2)⟩, "units::isq::si::fps::cubic_foot"),
  ("units::isq::si::fps::cubic_foot", ⟨1, 1, 0⟩, "units::isq::si::fps::cubic_foot"),
  ("units::isq::si::fps::kilopound_force_per_inch_sq", ⟨10724683, 48, (-3)⟩, "units::isq::si::fps::poundal_per_foot_sq"),
  ("units::isq::si::fps::pound_force_per_inch_sq", ⟨10724683, 48, (-6)⟩, "units::isq::si::fps::poundal_per_foot_sq"),
  ("units::isq::si::fps::pound_force_per_foot_sq", ⟨32174049, 1, (-6)⟩, "units::isq::si::fps::poundal_per_foot_sq"),
  ("units::isq::si::fps::poundal_per_foot_sq", ⟨1, 1, 0⟩, "units::isq::si::fps::poundal_per_foot_sq"),
  ("units::isq::si::fps::horse_power", ⟨1769572695, 1, (-5)⟩, "units::isq::si::fps::foot_poundal_per_second"),
  ("units::isq::si::fps::foot_pound_force_per_second", ⟨32174049, 1, (-6)⟩, "units::isq::si::fps::foot_poundal_per_second"),
  ("units::isq::si::fps::foot_poundal_per_second", ⟨1, 1, 0⟩, "units::isq::si::fps::foot_poundal_per_second"),
  ("units::isq::si::fps::foot_pound_force", ⟨32174049, 1, (-6)⟩, "units::isq::si::fps::foot_poundal"),
  ("units::isq::si::fps::foot_poundal", ⟨1, 1, 0⟩, "units::isq::si::fps::foot_poundal"),
  ("units::isq::si::fps::kilopound_force", ⟨32174049, 1, (-3)⟩, "units::isq::si::fps::poundal"),
  ("units::isq::si::fps::pound_force", ⟨32174049, 1, (-6)⟩, "units::isq::si::fps::poundal"),
  ("units::isq::si::fps::poundal", ⟨1, 1, 0⟩, "units::isq::si::fps::poundal"),
  ("units::isq::si::fps::pound_per_foot_cub", ⟨1, 1, 0⟩, "units::isq::si::fps::pound_per_foot_cub"),
  ("units::isq::si::fps::long_ton", ⟨10160469088, 1, (-4)⟩, "units::isq::si::gram"),
  ("units::isq::si::fps::short_ton", ⟨90718474, 1, (-2)⟩, "units::isq::si::gram"),
  ("units::isq::si::fps::hundredweight", ⟨5080234544, 1, (-5)⟩, "units::isq::si::gram"),
  ("units::isq::si::fps::quarter", ⟨1270058636, 1, (-5)⟩, "units::isq::si::gram"),
  ("units::isq::si::fps::stone", ⟨635029318, 1, (-5)⟩, "units::isq::si::gram"),
  ("units::isq::si::fps::ounce", ⟨45359237, 16, (-5)⟩, "units::isq::si::gram"),
  ("units::isq::si::fps::dram", ⟨45359237, 256, (-5)⟩, "units::isq::si::gram"),
  ("units::isq::si::fps::grain", ⟨6479891, 1, (-8)⟩, "units::isq::si::gram"),
  ("units::isq::si::fps::pound", ⟨45359237, 1, (-5)⟩, "units::isq::si::gram"),
  ("units::isq::si::fps::square_foot", ⟨1, 1, 0⟩, "units::isq::si::fps::square_foot"),
  ("units::isq::si::fps::foot_per_second_sq", ⟨1, 1, 0⟩, "units::isq::si::fps::foot_per_second_sq"),
  ("units::isq::si::fps::nautical_mile_per_hour", ⟨1, 6, 1⟩, "units::isq::si::fps::foot_per_second"),
  ("units::isq::si::fps::mile_per_hour", ⟨44, 3, (-1)⟩, "units::isq::si::fps::foot_per_second"),
  ("units::isq::si::fps::foot_per_second", ⟨1, 1, 0⟩, "units::isq::si::fps::foot_per_second"),
  ("units::isq::si::fps::nautical_mile", ⟨2286, 125, 2⟩, "units::isq::si::metre"),
  ("units::isq::si::fps::mile", ⟨201168, 125, 0⟩, "units::isq::si::metre"),
  ("units::isq::si::fps::kiloyard", ⟨1143, 125, 2⟩, "units::isq::si::metre"),
  ("units::isq::si::fps::fathom", ⟨2286, 125, (-1)⟩, "units::isq::si::metre")]

/-- Part 4 of `unitDefTable`. -/
def unitDefTable4 : List (String × Ratio × String) := [
  ("units::isq::si::fps::yard", ⟨1143, 125, (-1)⟩, "units::isq::si::metre"),
  ("units::isq::si::fps::thousandth", ⟨127, 5, (-6)⟩, "units::isq::si::metre"),
  ("units::isq::si::fps::inch", ⟨127, 5, (-3)⟩, "units::isq::si::metre"),
  ("units::isq::si::fps::foot", ⟨381, 125, (-1)⟩, "units::isq::si::metre"),
  ("units::isq::si::joule_per_metre_cub", ⟨1, 1, 0⟩, "units::isq::si::joule_per_metre_cub"),
  ("units::isq::si::yottalitre", ⟨1, 1, 21⟩, "units::isq::si::cubic_metre"),
  ("units::isq::si::exalitre", ⟨1, 1, 15⟩, "units::isq::si::cubic_metre"),
  ("units::isq::si::petalitre", ⟨1, 1, 12⟩, "units::isq::si::cubic_metre"),
  ("units::isq::si::decalitre", ⟨1, 1, (-2)⟩, "units::isq::si::cubic_metre"),
  ("units::isq::si::decilitre", ⟨1, 1, (-4)⟩, "units::isq::si::cubic_metre"),
  ("units::isq::si::centilitre", ⟨1, 1, (-5)⟩, "units::isq::si::cubic_metre"),
  ("units::isq::si::nanolitre", ⟨1, 1, (-12)⟩, "units::isq::si::cubic_metre"),
  ("units::isq::si::picolitre", ⟨1, 1, (-15)⟩, "units::isq::si::cubic_metre"),
  ("units::isq::si::attolitre", ⟨1, 1, (-21)⟩, "units::isq::si::cubic_metre"),
  ("units::isq::si::zeptolitre", ⟨1, 1, (-24)⟩, "units::isq::si::cubic_metre"),
  ("units::isq::si::cubic_yottametre", ⟨1, 1, 72⟩, "units::isq::si::cubic_metre"),
  ("units::isq::si::cubic_zettametre", ⟨1, 1, 63⟩, "units::isq::si::cubic_metre"),
  ("units::isq::si::cubic_exametre", ⟨1, 1, 54⟩, "units::isq::si::cubic_metre"),
  ("units::isq::si::cubic_petametre", ⟨1, 1, 45⟩, "units::isq::si::cubic_metre"),
  ("units::isq::si::cubic_terametre", ⟨1, 1, 36⟩, "units::isq::si::cubic_metre"),
  ("units::isq::si::cubic_gigametre", ⟨1, 1, 27⟩, "units::isq::si::cubic_metre"),
  ("units::isq::si::cubic_megametre", ⟨1, 1, 18⟩, "units::isq::si::cubic_metre"),
  ("units::isq::si::cubic_kilometre", ⟨1, 1, 9⟩, "units::isq::si::cubic_metre"),
  ("units::isq::si::cubic_hectometre", ⟨1, 1, 6⟩, "units::isq::si::cubic_metre"),
  ("units::isq::si::cubic_decametre", ⟨1, 1, 3⟩, "units::isq::si::cubic_metre"),
  ("units::isq::si::cubic_decimetre", ⟨1, 1, (-3)⟩, "units::isq::si::cubic_metre"),
  ("units::isq::si::cubic_centimetre", ⟨1, 1, (-6)⟩, "units::isq::si::cubic_metre"),
  ("units::isq::si::cubic_millimetre", ⟨1, 1, (-9)⟩, "units::isq::si::cubic_metre"),
  ("units::isq::si::cubic_micrometre", ⟨1, 1, (-18)⟩, "units::isq::si::cubic_metre"),
  ("units::isq::si::cubic_nanometre", ⟨1, 1, (-27)⟩, "units::isq::si::cubic_metre"),
  ("units::isq::si::cubic_picometre", ⟨1, 1, (-36)⟩, "units::isq::si::cubic_metre"),
  ("units::isq::si::cubic_femtometre", ⟨1, 1, (-45)⟩, "units::isq::si::cubic_metre"),
  ("units::isq::si::cubic_attometre", ⟨1, 1, (-54)⟩, "units::isq::si::cubic_metre"),
  ("units::isq::si::cubic_zeptometre", ⟨1, 1, (-63)⟩, "units::isq::si::cubic_metre"),
  ("units::isq::si::cubic_yoctometre", ⟨1, 1, (-72)⟩, "units::isq::si::cubic_metre"),
  ("units::isq::si::cubic_metre", ⟨1, 1, 0⟩, "units::isq::si::cubic_metre"),
  ("units::isq::si::volt_per_metre", ⟨1, 1, 0⟩, "units::isq::si::volt_per_metre"),
  ("units::isq::si::pascal_second", ⟨1, 1, 0⟩, "units::isq::si::pascal_second"),
  ("units::isq::si::yottapascal", ⟨1, 1, 24⟩, "units::isq::si::pascal"),
  ("units::isq::si::zettapascal", ⟨1, 1, 21⟩, "units::isq::si::pascal")]

/-- Part 5 of `unitDefTable`. -/
def unitDefTable5 : List (String × Ratio × String) := [
  ("units::isq::si::exapascal", ⟨1, 1, 18⟩, "units::isq::si::pascal"),
  ("units::isq::si::petapascal", ⟨1, 1, 15⟩, "units::isq::si::pascal"),
  ("units::isq::si::terapascal", ⟨1, 1, 12⟩, "units::isq::si::pascal"),
  ("units::isq::si::gigapascal", ⟨1, 1, 9⟩, "units::isq::si::pascal"),
  ("units::isq::si::megapascal", ⟨1, 1, 6⟩, "units::isq::si::pascal"),
  ("units::isq::si::kilopascal", ⟨1, 1, 3⟩, "units::isq::si::pascal"),
  ("units::isq::si::hectopascal", ⟨1, 1, 2⟩, "units::isq::si::pascal"),
  ("units::isq::si::decapascal", ⟨1, 1, 1⟩, "units::isq::si::pascal"),
  ("units::isq::si::decipascal", ⟨1, 1, (-1)⟩, "units::isq::si::pascal"),
  ("units::isq::si::centipascal", ⟨1, 1, (-2)⟩, "units::isq::si::pascal"),
  ("units::isq::si::millipascal", ⟨1, 1, (-3)⟩, "units::isq::si::pascal"),
  ("units::isq::si::micropascal", ⟨1, 1, (-6)⟩, "units::isq::si::pascal"),
  ("units::isq::si::nanopascal", ⟨1, 1, (-9)⟩, "units::isq::si::pascal"),
  ("units::isq::si::picopascal", ⟨1, 1, (-12)⟩, "units::isq::si::pascal"),
  ("units::isq::si::femtopascal", ⟨1, 1, (-15)⟩, "units::isq::si::pascal"),
  ("units::isq::si::attopascal", ⟨1, 1, (-18)⟩, "units::isq::si::pascal"),
  ("units::isq::si::zeptopascal", ⟨1, 1, (-21)⟩, "units::isq::si::pascal"),
  ("units::isq::si::yoctopascal", ⟨1, 1, (-24)⟩, "units::isq::si::pascal"),
  ("units::isq::si::pascal", ⟨1, 1, 0⟩, "units::isq::si::pascal"),
  ("units::isq::si::kilogram_per_metre_cub", ⟨1, 1, 0⟩, "units::isq::si::kilogram_per_metre_cub"),
  ("units::isq::si::ampere_per_metre_sq", ⟨1, 1, 0⟩, "units::isq::si::ampere_per_metre_sq"),
  ("units::isq::si::kelvin", ⟨1, 1, 0⟩, "units::isq::si::kelvin"),
  ("units::isq::si::yottasiemens", ⟨1, 1, 24⟩, "units::isq::si::siemens"),
  ("units::isq::si::zettasiemens", ⟨1, 1, 21⟩, "units::isq::si::siemens"),
  ("units::isq::si::exasiemens", ⟨1, 1, 18⟩, "units::isq::si::siemens"),
  ("units::isq::si::petasiemens", ⟨1, 1, 15⟩, "units::isq::si::siemens"),
  ("units::isq::si::terasiemens", ⟨1, 1, 12⟩, "units::isq::si::siemens"),
  ("units::isq::si::gigasiemens", ⟨1, 1, 9⟩, "units::isq::si::siemens"),
  ("units::isq::si::megasiemens", ⟨1, 1, 6⟩, "units::isq::si::siemens"),
  ("units::isq::si::kilosiemens", ⟨1, 1, 3⟩, "units::isq::si::siemens"),
  ("units::isq::si::millisiemens", ⟨1, 1, (-3)⟩, "units::isq::si::siemens"),
  ("units::isq::si::microsiemens", ⟨1, 1, (-6)⟩, "units::isq::si::siemens"),
  ("units::isq::si::nanosiemens", ⟨1, 1, (-9)⟩, "units::isq::si::siemens"),
  ("units::isq::si::picosiemens", ⟨1, 1, (-12)⟩, "units::isq::si::siemens"),
  ("units::isq::si::femtosiemens", ⟨1, 1, (-15)⟩, "units::isq::si::siemens"),
  ("units::isq::si::attosiemens", ⟨1, 1, (-18)⟩, "units::isq::si::siemens"),
  ("units::isq::si::zeptosiemens", ⟨1, 1, (-21)⟩, "units::isq::si::siemens"),
  ("units::isq::si::yoctosiemens", ⟨1, 1, (-24)⟩, "units::isq::si::siemens"),
  ("units::isq::si::siemens", ⟨1, 1, 0⟩, "units::isq::si::siemens"),
  ("units::isq::si::yottaohm", ⟨1, 1, 24⟩, "units::isq::si::ohm")]

/-- Part 6 of `unitDefTable`. -/
def unitDefTable6 : List (String × Ratio × String) := [
  ("units::isq::si::zettaohm", ⟨1, 1, 21⟩, "units::isq::si::ohm"),
  ("units::isq::si::exaohm", ⟨1, 1, 18⟩, "units::isq::si::ohm"),
  ("units::isq::si::petaohm", ⟨1, 1, 15⟩, "units::isq::si::ohm"),
  ("units::isq::si::teraohm", ⟨1, 1, 12⟩, "units::isq::si::ohm"),
  ("units::isq::si::gigaohm", ⟨1, 1, 9⟩, "units::isq::si::ohm"),
  ("units::isq::si::megaohm", ⟨1, 1, 6⟩, "units::isq::si::ohm"),
  ("units::isq::si::kiloohm", ⟨1, 1, 3⟩, "units::isq::si::ohm"),
  ("units::isq::si::milliohm", ⟨1, 1, (-3)⟩, "units::isq::si::ohm"),
  ("units::isq::si::microohm", ⟨1, 1, (-6)⟩, "units::isq::si::ohm"),
  ("units::isq::si::nanoohm", ⟨1, 1, (-9)⟩, "units::isq::si::ohm"),
  ("units::isq::si::picoohm", ⟨1, 1, (-12)⟩, "units::isq::si::ohm"),
  ("units::isq::si::femtoohm", ⟨1, 1, (-15)⟩, "units::isq::si::ohm"),
  ("units::isq::si::attoohm", ⟨1, 1, (-18)⟩, "units::isq::si::ohm"),
  ("units::isq::si::zeptoohm", ⟨1, 1, (-21)⟩, "units::isq::si::ohm"),
  ("units::isq::si::yoctoohm", ⟨1, 1, (-24)⟩, "units::isq::si::ohm"),
  ("units::isq::si::ohm", ⟨1, 1, 0⟩, "units::isq::si::ohm"),
  ("units::isq::si::mol_per_metre_cub", ⟨1, 1, 0⟩, "units::isq::si::mol_per_metre_cub"),
  ("units::isq::si::coulomb_per_metre_sq", ⟨1, 1, 0⟩, "units::isq::si::coulomb_per_metre_sq"),
  ("units::isq::si::coulomb_per_metre_cub", ⟨1, 1, 0⟩, "units::isq::si::coulomb_per_metre_cub"),
  ("units::isq::si::cgs::barye", ⟨1, 1, 0⟩, "units::isq::si::cgs::barye"),
  ("units::isq::si::cgs::erg_per_second", ⟨1, 1, 0⟩, "units::isq::si::cgs::erg_per_second"),
  ("units::isq::si::cgs::erg", ⟨1, 1, 0⟩, "units::isq::si::cgs::erg"),
  ("units::isq::si::cgs::dyne", ⟨1, 1, 0⟩, "units::isq::si::cgs::dyne"),
  ("units::isq::si::cgs::gal", ⟨1, 1, 0⟩, "units::isq::si::cgs::gal"),
  ("units::isq::si::cgs::centimetre_per_second", ⟨1, 1, 0⟩, "units::isq::si::cgs::centimetre_per_second"),
  ("units::isq::si::enzyme_unit", ⟨1, 6, (-7)⟩, "units::isq::si::katal"),
  ("units::isq::si::yottakatal", ⟨1, 1, 24⟩, "units::isq::si::katal"),
  ("units::isq::si::zettakatal", ⟨1, 1, 21⟩, "units::isq::si::katal"),
  ("units::isq::si::exakatal", ⟨1, 1, 18⟩, "units::isq::si::katal"),
  ("units::isq::si::petakatal", ⟨1, 1, 15⟩, "units::isq::si::katal"),
  ("units::isq::si::terakatal", ⟨1, 1, 12⟩, "units::isq::si::katal"),
  ("units::isq::si::gigakatal", ⟨1, 1, 9⟩, "units::isq::si::katal"),
  ("units::isq::si::megakatal", ⟨1, 1, 6⟩, "units::isq::si::katal"),
  ("units::isq::si::kilokatal", ⟨1, 1, 3⟩, "units::isq::si::katal"),
  ("units::isq::si::hectokatal", ⟨1, 1, 2⟩, "units::isq::si::katal"),
  ("units::isq::si::decakatal", ⟨1, 1, 1⟩, "units::isq::si::katal"),
  ("units::isq::si::decikatal", ⟨1, 1, (-1)⟩, "units::isq::si::katal"),
  ("units::isq::si::centikatal", ⟨1, 1, (-2)⟩, "units::isq::si::katal"),
  ("units::isq::si::millikatal", ⟨1, 1, (-3)⟩, "units::isq::si::katal"),
  ("units::isq::si::microkatal", ⟨1, 1, (-6)⟩, "units::isq::si::katal")]

/-- Part 7 of `unitDefTable`. -/
def unitDefTable7 : List (String × Ratio × String) := [
  ("units::isq::si::nanokatal", ⟨1, 1, (-9)⟩, "units::isq::si::katal"),
  ("units::isq::si::picokatal", ⟨1, 1, (-12)⟩, "units::isq::si::katal"),
  ("units::isq::si::femtokatal", ⟨1, 1, (-15)⟩, "units::isq::si::katal"),
  ("units::isq::si::attokatal", ⟨1, 1, (-18)⟩, "units::isq::si::katal"),
  ("units::isq::si::zeptokatal", ⟨1, 1, (-21)⟩, "units::isq::si::katal"),
  ("units::isq::si::yoctokatal", ⟨1, 1, (-24)⟩, "units::isq::si::katal"),
  ("units::isq::si::katal", ⟨1, 1, 0⟩, "units::isq::si::katal"),
  ("units::isq::si::yottafarad", ⟨1, 1, 24⟩, "units::isq::si::farad"),
  ("units::isq::si::zettafarad", ⟨1, 1, 21⟩, "units::isq::si::farad"),
  ("units::isq::si::exafarad", ⟨1, 1, 18⟩, "units::isq::si::farad"),
  ("units::isq::si::petafarad", ⟨1, 1, 15⟩, "units::isq::si::farad"),
  ("units::isq::si::terafarad", ⟨1, 1, 12⟩, "units::isq::si::farad"),
  ("units::isq::si::gigafarad", ⟨1, 1, 9⟩, "units::isq::si::farad"),
  ("units::isq::si::megafarad", ⟨1, 1, 6⟩, "units::isq::si::farad"),
  ("units::isq::si::kilofarad", ⟨1, 1, 3⟩, "units::isq::si::farad"),
  ("units::isq::si::hectofarad", ⟨1, 1, 2⟩, "units::isq::si::farad"),
  ("units::isq::si::decafarad", ⟨1, 1, 1⟩, "units::isq::si::farad"),
  ("units::isq::si::decifarad", ⟨1, 1, (-1)⟩, "units::isq::si::farad"),
  ("units::isq::si::centifarad", ⟨1, 1, (-2)⟩, "units::isq::si::farad"),
  ("units::isq::si::millifarad", ⟨1, 1, (-3)⟩, "units::isq::si::farad"),
  ("units::isq::si::microfarad", ⟨1, 1, (-6)⟩, "units::isq::si::farad"),
  ("units::isq::si::nanofarad", ⟨1, 1, (-9)⟩, "units::isq::si::farad"),
  ("units::isq::si::picofarad", ⟨1, 1, (-12)⟩, "units::isq::si::farad"),
  ("units::isq::si::femtofarad", ⟨1, 1, (-15)⟩, "units::isq::si::farad"),
  ("units::isq::si::attofarad", ⟨1, 1, (-18)⟩, "units::isq::si::farad"),
  ("units::isq::si::zeptofarad", ⟨1, 1, (-21)⟩, "units::isq::si::farad"),
  ("units::isq::si::yoctofarad", ⟨1, 1, (-24)⟩, "units::isq::si::farad"),
  ("units::isq::si::farad", ⟨1, 1, 0⟩, "units::isq::si::farad"),
  ("units::isq::si::yottavolt", ⟨1, 1, 24⟩, "units::isq::si::volt"),
  ("units::isq::si::zettavolt", ⟨1, 1, 21⟩, "units::isq::si::volt"),
  ("units::isq::si::exavolt", ⟨1, 1, 18⟩, "units::isq::si::volt"),
  ("units::isq::si::petavolt", ⟨1, 1, 15⟩, "units::isq::si::volt"),
  ("units::isq::si::teravolt", ⟨1, 1, 12⟩, "units::isq::si::volt"),
  ("units::isq::si::gigavolt", ⟨1, 1, 9⟩, "units::isq::si::volt"),
  ("units::isq::si::megavolt", ⟨1, 1, 6⟩, "units::isq::si::volt"),
  ("units::isq::si::kilovolt", ⟨1, 1, 3⟩, "units::isq::si::volt"),
  ("units::isq::si::hectovolt", ⟨1, 1, 2⟩, "units::isq::si::volt"),
  ("units::isq::si::decavolt", ⟨1, 1, 1⟩, "units::isq::si::volt"),
  ("units::isq::si::decivolt", ⟨1, 1, (-1)⟩, "units::isq::si::volt"),
  ("units::isq::si::centivolt", ⟨1, 1, (-2)⟩, "units::isq::si::volt")]

/-- Part 8 of `unitDefTable`. -/
def unitDefTable8 : List (String × Ratio × String) := [
  ("units::isq::si::millivolt", ⟨1, 1, (-3)⟩, "units::isq::si::volt"),
  ("units::isq::si::microvolt", ⟨1, 1, (-6)⟩, "units::isq::si::volt"),
  ("units::isq::si::nanovolt", ⟨1, 1, (-9)⟩, "units::isq::si::volt"),
  ("units::isq::si::picovolt", ⟨1, 1, (-12)⟩, "units::isq::si::volt"),
  ("units::isq::si::femtovolt", ⟨1, 1, (-15)⟩, "units::isq::si::volt"),
  ("units::isq::si::attovolt", ⟨1, 1, (-18)⟩, "units::isq::si::volt"),
  ("units::isq::si::zeptovolt", ⟨1, 1, (-21)⟩, "units::isq::si::volt"),
  ("units::isq::si::yoctovolt", ⟨1, 1, (-24)⟩, "units::isq::si::volt"),
  ("units::isq::si::volt", ⟨1, 1, 0⟩, "units::isq::si::volt"),
  ("units::isq::si::yottawatt", ⟨1, 1, 24⟩, "units::isq::si::watt"),
  ("units::isq::si::zettawatt", ⟨1, 1, 21⟩, "units::isq::si::watt"),
  ("units::isq::si::exawatt", ⟨1, 1, 18⟩, "units::isq::si::watt"),
  ("units::isq::si::petawatt", ⟨1, 1, 15⟩, "units::isq::si::watt"),
  ("units::isq::si::terawatt", ⟨1, 1, 12⟩, "units::isq::si::watt"),
  ("units::isq::si::gigawatt", ⟨1, 1, 9⟩, "units::isq::si::watt"),
  ("units::isq::si::megawatt", ⟨1, 1, 6⟩, "units::isq::si::watt"),
  ("units::isq::si::kilowatt", ⟨1, 1, 3⟩, "units::isq::si::watt"),
  ("units::isq::si::milliwatt", ⟨1, 1, (-3)⟩, "units::isq::si::watt"),
  ("units::isq::si::microwatt", ⟨1, 1, (-6)⟩, "units::isq::si::watt"),
  ("units::isq::si::nanowatt", ⟨1, 1, (-9)⟩, "units::isq::si::watt"),
  ("units::isq::si::picowatt", ⟨1, 1, (-12)⟩, "units::isq::si::watt"),
  ("units::isq::si::femtowatt", ⟨1, 1, (-15)⟩, "units::isq::si::watt"),
  ("units::isq::si::attowatt", ⟨1, 1, (-18)⟩, "units::isq::si::watt"),
  ("units::isq::si::zeptowatt", ⟨1, 1, (-21)⟩, "units::isq::si::watt"),
  ("units::isq::si::yoctowatt", ⟨1, 1, (-24)⟩, "units::isq::si::watt"),
  ("units::isq::si::watt", ⟨1, 1, 0⟩, "units::isq::si::watt"),
  ("units::isq::si::coulomb", ⟨1, 1, 0⟩, "units::isq::si::coulomb"),
  ("units::isq::si::yottaampere", ⟨1, 1, 24⟩, "units::isq::si::ampere"),
  ("units::isq::si::zettaampere", ⟨1, 1, 21⟩, "units::isq::si::ampere"),
  ("units::isq::si::exaampere", ⟨1, 1, 18⟩, "units::isq::si::ampere"),
  ("units::isq::si::petaampere", ⟨1, 1, 15⟩, "units::isq::si::ampere"),
  ("units::isq::si::teraampere", ⟨1, 1, 12⟩, "units::isq::si::ampere"),
  ("units::isq::si::gigaampere", ⟨1, 1, 9⟩, "units::isq::si::ampere"),
  ("units::isq::si::megaampere", ⟨1, 1, 6⟩, "units::isq::si::ampere"),
  ("units::isq::si::kiloampere", ⟨1, 1, 3⟩, "units::isq::si::ampere"),
  ("units::isq::si::hectoampere", ⟨1, 1, 2⟩, "units::isq::si::ampere"),
  ("units::isq::si::decaampere", ⟨1, 1, 1⟩, "units::isq::si::ampere"),
  ("units::isq::si::deciampere", ⟨1, 1, (-1)⟩, "units::isq::si::ampere"),
  ("units::isq::si::centiampere", ⟨1, 1, (-2)⟩, "units::isq::si::ampere"),
  ("units::isq::si::milliampere", ⟨1, 1, (-3)⟩, "units::isq::si::ampere")]

/-- Part 9 of `unitDefTable`. -/
def unitDefTable9 : List (String × Ratio × String) := [
  ("units::isq::si::microampere", ⟨1, 1, (-6)⟩, "units::isq::si::ampere"),
  ("units::isq::si::nanoampere", ⟨1, 1, (-9)⟩, "units::isq::si::ampere"),
  ("units::isq::si::picoampere", ⟨1, 1, (-12)⟩, "units::isq::si::ampere"),
  ("units::isq::si::femtoampere", ⟨1, 1, (-15)⟩, "units::isq::si::ampere"),
  ("units::isq::si::attoampere", ⟨1, 1, (-18)⟩, "units::isq::si::ampere"),
  ("units::isq::si::zeptoampere", ⟨1, 1, (-21)⟩, "units::isq::si::ampere"),
  ("units::isq::si::yoctoampere", ⟨1, 1, (-24)⟩, "units::isq::si::ampere"),
  ("units::isq::si::ampere", ⟨1, 1, 0⟩, "units::isq::si::ampere"),
  ("units::isq::si::square_yottametre", ⟨1, 1, 48⟩, "units::isq::si::square_metre"),
  ("units::isq::si::square_zettametre", ⟨1, 1, 42⟩, "units::isq::si::square_metre"),
  ("units::isq::si::square_exametre", ⟨1, 1, 36⟩, "units::isq::si::square_metre"),
  ("units::isq::si::square_petametre", ⟨1, 1, 30⟩, "units::isq::si::square_metre"),
  ("units::isq::si::square_terametre", ⟨1, 1, 24⟩, "units::isq::si::square_metre"),
  ("units::isq::si::square_gigametre", ⟨1, 1, 18⟩, "units::isq::si::square_metre"),
  ("units::isq::si::square_megametre", ⟨1, 1, 12⟩, "units::isq::si::square_metre"),
  ("units::isq::si::square_kilometre", ⟨1, 1, 6⟩, "units::isq::si::square_metre"),
  ("units::isq::si::square_hectometre", ⟨1, 1, 4⟩, "units::isq::si::square_metre"),
  ("units::isq::si::square_decametre", ⟨1, 1, 2⟩, "units::isq::si::square_metre"),
  ("units::isq::si::square_decimetre", ⟨1, 1, (-2)⟩, "units::isq::si::square_metre"),
  ("units::isq::si::square_centimetre", ⟨1, 1, (-4)⟩, "units::isq::si::square_metre"),
  ("units::isq::si::square_millimetre", ⟨1, 1, (-6)⟩, "units::isq::si::square_metre"),
  ("units::isq::si::square_micrometre", ⟨1, 1, (-12)⟩, "units::isq::si::square_metre"),
  ("units::isq::si::square_nanometre", ⟨1, 1, (-18)⟩, "units::isq::si::square_metre"),
  ("units::isq::si::square_picometre", ⟨1, 1, (-24)⟩, "units::isq::si::square_metre"),
  ("units::isq::si::square_femtometre", ⟨1, 1, (-30)⟩, "units::isq::si::square_metre"),
  ("units::isq::si::square_attometre", ⟨1, 1, (-36)⟩, "units::isq::si::square_metre"),
  ("units::isq::si::square_zeptometre", ⟨1, 1, (-42)⟩, "units::isq::si::square_metre"),
  ("units::isq::si::square_yoctometre", ⟨1, 1, (-48)⟩, "units::isq::si::square_metre"),
  ("units::isq::si::square_metre", ⟨1, 1, 0⟩, "units::isq::si::square_metre"),
  ("units::isq::si::radian_per_second", ⟨1, 1, 0⟩, "units::isq::si::radian_per_second"),
  ("units::isq::si::mole", ⟨1, 1, 0⟩, "units::isq::si::mole"),
  ("units::isq::si::yottagray", ⟨1, 1, 24⟩, "units::isq::si::gray"),
  ("units::isq::si::zettagray", ⟨1, 1, 21⟩, "units::isq::si::gray"),
  ("units::isq::si::exagray", ⟨1, 1, 18⟩, "units::isq::si::gray"),
  ("units::isq::si::petagray", ⟨1, 1, 15⟩, "units::isq::si::gray"),
  ("units::isq::si::teragray", ⟨1, 1, 12⟩, "units::isq::si::gray"),
  ("units::isq::si::gigagray", ⟨1, 1, 9⟩, "units::isq::si::gray"),
  ("units::isq::si::megagray", ⟨1, 1, 6⟩, "units::isq::si::gray"),
  ("units::isq::si::kilogray", ⟨1, 1, 3⟩, "units::isq::si::gray"),
  ("units::isq::si::hectogray", ⟨1, 1, 2⟩, "units::isq::si::gray")]

/-- Part 10 of `unitDefTable`. -/
def unitDefTable10 : List (String × Ratio × String) := [
  ("units::isq::si::decagray", ⟨1, 1, 1⟩, "units::isq::si::gray"),
  ("units::isq::si::decigray", ⟨1, 1, (-1)⟩, "units::isq::si::gray"),
  ("units::isq::si::centigray", ⟨1, 1, (-2)⟩, "units::isq::si::gray"),
  ("units::isq::si::milligray", ⟨1, 1, (-3)⟩, "units::isq::si::gray"),
  ("units::isq::si::microgray", ⟨1, 1, (-6)⟩, "units::isq::si::gray"),
  ("units::isq::si::nanogray", ⟨1, 1, (-9)⟩, "units::isq::si::gray"),
  ("units::isq::si::picogray", ⟨1, 1, (-12)⟩, "units::isq::si::gray"),
  ("units::isq::si::femtogray", ⟨1, 1, (-15)⟩, "units::isq::si::gray"),
  ("units::isq::si::attogray", ⟨1, 1, (-18)⟩, "units::isq::si::gray"),
  ("units::isq::si::zeptogray", ⟨1, 1, (-21)⟩, "units::isq::si::gray"),
  ("units::isq::si::yoctogray", ⟨1, 1, (-24)⟩, "units::isq::si::gray"),
  ("units::isq::si::gray", ⟨1, 1, 0⟩, "units::isq::si::gray"),
  ("units::isq::si::gigaelectronvolt", ⟨801088317, 5, (-18)⟩, "units::isq::si::joule"),
  ("units::isq::si::electronvolt", ⟨801088317, 5, (-27)⟩, "units::isq::si::joule"),
  ("units::isq::si::yottajoule", ⟨1, 1, 24⟩, "units::isq::si::joule"),
  ("units::isq::si::zettajoule", ⟨1, 1, 21⟩, "units::isq::si::joule"),
  ("units::isq::si::exajoule", ⟨1, 1, 18⟩, "units::isq::si::joule"),
  ("units::isq::si::petajoule", ⟨1, 1, 15⟩, "units::isq::si::joule"),
  ("units::isq::si::terajoule", ⟨1, 1, 12⟩, "units::isq::si::joule"),
  ("units::isq::si::gigajoule", ⟨1, 1, 9⟩, "units::isq::si::joule"),
  ("units::isq::si::megajoule", ⟨1, 1, 6⟩, "units::isq::si::joule"),
  ("units::isq::si::kilojoule", ⟨1, 1, 3⟩, "units::isq::si::joule"),
  ("units::isq::si::millijoule", ⟨1, 1, (-3)⟩, "units::isq::si::joule"),
  ("units::isq::si::microjoule", ⟨1, 1, (-6)⟩, "units::isq::si::joule"),
  ("units::isq::si::nanojoule", ⟨1, 1, (-9)⟩, "units::isq::si::joule"),
  ("units::isq::si::picojoule", ⟨1, 1, (-12)⟩, "units::isq::si::joule"),
  ("units::isq::si::femtojoule", ⟨1, 1, (-15)⟩, "units::isq::si::joule"),
  ("units::isq::si::attojoule", ⟨1, 1, (-18)⟩, "units::isq::si::joule"),
  ("units::isq::si::zeptojoule", ⟨1, 1, (-21)⟩, "units::isq::si::joule"),
  ("units::isq::si::yoctojoule", ⟨1, 1, (-24)⟩, "units::isq::si::joule"),
  ("units::isq::si::joule", ⟨1, 1, 0⟩, "units::isq::si::joule"),
  ("units::isq::si::yottanewton", ⟨1, 1, 24⟩, "units::isq::si::newton"),
  ("units::isq::si::zettanewton", ⟨1, 1, 21⟩, "units::isq::si::newton"),
  ("units::isq::si::exanewton", ⟨1, 1, 18⟩, "units::isq::si::newton"),
  ("units::isq::si::petanewton", ⟨1, 1, 15⟩, "units::isq::si::newton"),
  ("units::isq::si::teranewton", ⟨1, 1, 12⟩, "units::isq::si::newton"),
  ("units::isq::si::giganewton", ⟨1, 1, 9⟩, "units::isq::si::newton"),
  ("units::isq::si::meganewton", ⟨1, 1, 6⟩, "units::isq::si::newton"),
  ("units::isq::si::kilonewton", ⟨1, 1, 3⟩, "units::isq::si::newton"),
  ("units::isq::si::hectonewton", ⟨1, 1, 2⟩, "units::isq::si::newton")]

/-- Part 11 of `unitDefTable`. -/
def unitDefTable11 : List (String × Ratio × String) := [
  ("units::isq::si::decanewton", ⟨1, 1, 1⟩, "units::isq::si::newton"),
  ("units::isq::si::decinewton", ⟨1, 1, (-1)⟩, "units::isq::si::newton"),
  ("units::isq::si::centinewton", ⟨1, 1, (-2)⟩, "units::isq::si::newton"),
  ("units::isq::si::millinewton", ⟨1, 1, (-3)⟩, "units::isq::si::newton"),
  ("units::isq::si::micronewton", ⟨1, 1, (-6)⟩, "units::isq::si::newton"),
  ("units::isq::si::nanonewton", ⟨1, 1, (-9)⟩, "units::isq::si::newton"),
  ("units::isq::si::piconewton", ⟨1, 1, (-12)⟩, "units::isq::si::newton"),
  ("units::isq::si::femtonewton", ⟨1, 1, (-15)⟩, "units::isq::si::newton"),
  ("units::isq::si::attonewton", ⟨1, 1, (-18)⟩, "units::isq::si::newton"),
  ("units::isq::si::zeptonewton", ⟨1, 1, (-21)⟩, "units::isq::si::newton"),
  ("units::isq::si::yoctonewton", ⟨1, 1, (-24)⟩, "units::isq::si::newton"),
  ("units::isq::si::newton", ⟨1, 1, 0⟩, "units::isq::si::newton"),
  ("units::isq::si::dalton", ⟨332107813321, 2, (-35)⟩, "units::isq::si::gram"),
  ("units::isq::si::yottatonne", ⟨1, 1, 30⟩, "units::isq::si::gram"),
  ("units::isq::si::zettatonne", ⟨1, 1, 27⟩, "units::isq::si::gram"),
  ("units::isq::si::hectotonne", ⟨1, 1, 8⟩, "units::isq::si::gram"),
  ("units::isq::si::decatonne", ⟨1, 1, 7⟩, "units::isq::si::gram"),
  ("units::isq::si::decitonne", ⟨1, 1, 5⟩, "units::isq::si::gram"),
  ("units::isq::si::centitonne", ⟨1, 1, 4⟩, "units::isq::si::gram"),
  ("units::isq::si::yottagram", ⟨1, 1, 24⟩, "units::isq::si::gram"),
  ("units::isq::si::zettagram", ⟨1, 1, 21⟩, "units::isq::si::gram"),
  ("units::isq::si::exagram", ⟨1, 1, 18⟩, "units::isq::si::gram"),
  ("units::isq::si::petagram", ⟨1, 1, 15⟩, "units::isq::si::gram"),
  ("units::isq::si::teragram", ⟨1, 1, 12⟩, "units::isq::si::gram"),
  ("units::isq::si::gigagram", ⟨1, 1, 9⟩, "units::isq::si::gram"),
  ("units::isq::si::megagram", ⟨1, 1, 6⟩, "units::isq::si::gram"),
  ("units::isq::si::kilogram", ⟨1, 1, 3⟩, "units::isq::si::gram"),
  ("units::isq::si::hectogram", ⟨1, 1, 2⟩, "units::isq::si::gram"),
  ("units::isq::si::decagram", ⟨1, 1, 1⟩, "units::isq::si::gram"),
  ("units::isq::si::decigram", ⟨1, 1, (-1)⟩, "units::isq::si::gram"),
  ("units::isq::si::centigram", ⟨1, 1, (-2)⟩, "units::isq::si::gram"),
  ("units::isq::si::milligram", ⟨1, 1, (-3)⟩, "units::isq::si::gram"),
  ("units::isq::si::microgram", ⟨1, 1, (-6)⟩, "units::isq::si::gram"),
  ("units::isq::si::nanogram", ⟨1, 1, (-9)⟩, "units::isq::si::gram"),
  ("units::isq::si::picogram", ⟨1, 1, (-12)⟩, "units::isq::si::gram"),
  ("units::isq::si::femtogram", ⟨1, 1, (-15)⟩, "units::isq::si::gram"),
  ("units::isq::si::attogram", ⟨1, 1, (-18)⟩, "units::isq::si::gram"),
  ("units::isq::si::zeptogram", ⟨1, 1, (-21)⟩, "units::isq::si::gram"),
  ("units::isq::si::yoctogram", ⟨1, 1, (-24)⟩, "units::isq::si::gram"),
  ("units::isq::si::gram", ⟨1, 1, 0⟩, "units::isq::si::gram")]

/-- Part 12 of `unitDefTable`. -/
def unitDefTable12 : List (String × Ratio × String) := [
  ("units::isq::si::metre_per_second_sq", ⟨1, 1, 0⟩, "units::isq::si::metre_per_second_sq"),
  ("units::isq::si::kilometre_per_hour", ⟨1, 36, 1⟩, "units::isq::si::metre_per_second"),
  ("units::isq::si::metre_per_second", ⟨1, 1, 0⟩, "units::isq::si::metre_per_second"),
  ("units::isq::si::astronomical_unit", ⟨1495978707, 1, 2⟩, "units::isq::si::metre"),
  ("units::isq::si::yottametre", ⟨1, 1, 24⟩, "units::isq::si::metre"),
  ("units::isq::si::zettametre", ⟨1, 1, 21⟩, "units::isq::si::metre"),
  ("units::isq::si::exametre", ⟨1, 1, 18⟩, "units::isq::si::metre"),
  ("units::isq::si::petametre", ⟨1, 1, 15⟩, "units::isq::si::metre"),
  ("units::isq::si::terametre", ⟨1, 1, 12⟩, "units::isq::si::metre"),
  ("units::isq::si::gigametre", ⟨1, 1, 9⟩, "units::isq::si::metre"),
  ("units::isq::si::megametre", ⟨1, 1, 6⟩, "units::isq::si::metre"),
  ("units::isq::si::kilometre", ⟨1, 1, 3⟩, "units::isq::si::metre"),
  ("units::isq::si::hectometre", ⟨1, 1, 2⟩, "units::isq::si::metre"),
  ("units::isq::si::decametre", ⟨1, 1, 1⟩, "units::isq::si::metre"),
  ("units::isq::si::decimetre", ⟨1, 1, (-1)⟩, "units::isq::si::metre"),
  ("units::isq::si::centimetre", ⟨1, 1, (-2)⟩, "units::isq::si::metre"),
  ("units::isq::si::millimetre", ⟨1, 1, (-3)⟩, "units::isq::si::metre"),
  ("units::isq::si::micrometre", ⟨1, 1, (-6)⟩, "units::isq::si::metre"),
  ("units::isq::si::nanometre", ⟨1, 1, (-9)⟩, "units::isq::si::metre"),
  ("units::isq::si::picometre", ⟨1, 1, (-12)⟩, "units::isq::si::metre"),
  ("units::isq::si::femtometre", ⟨1, 1, (-15)⟩, "units::isq::si::metre"),
  ("units::isq::si::attometre", ⟨1, 1, (-18)⟩, "units::isq::si::metre"),
  ("units::isq::si::zeptometre", ⟨1, 1, (-21)⟩, "units::isq::si::metre"),
  ("units::isq::si::yoctometre", ⟨1, 1, (-24)⟩, "units::isq::si::metre"),
  ("units::isq::si::metre", ⟨1, 1, 0⟩, "units::isq::si::metre"),
  ("units::isq::natural::square_gigaelectronvolt", ⟨1, 1, 0⟩, "units::isq::natural::square_gigaelectronvolt"),
  ("units::isq::natural::inverted_gigaelectronvolt", ⟨1, 1, 0⟩, "units::isq::natural::inverted_gigaelectronvolt"),
  ("units::isq::natural::gigaelectronvolt", ⟨1, 1, 9⟩, "units::isq::natural::electronvolt"),
  ("units::isq::natural::electronvolt", ⟨1, 1, 0⟩, "units::isq::natural::electronvolt"),
  ("units::isq::iec80000::yottabyte_per_second", ⟨1, 1, 24⟩, "units::isq::iec80000::byte_per_second"),
  ("units::isq::iec80000::zettabyte_per_second", ⟨1, 1, 21⟩, "units::isq::iec80000::byte_per_second"),
  ("units::isq::iec80000::exabyte_per_second", ⟨1, 1, 18⟩, "units::isq::iec80000::byte_per_second"),
  ("units::isq::iec80000::petabyte_per_second", ⟨1, 1, 15⟩, "units::isq::iec80000::byte_per_second"),
  ("units::isq::iec80000::terabyte_per_second", ⟨1, 1, 12⟩, "units::isq::iec80000::byte_per_second"),
  ("units::isq::iec80000::gigabyte_per_second", ⟨1, 1, 9⟩, "units::isq::iec80000::byte_per_second"),
  ("units::isq::iec80000::megabyte_per_second", ⟨1, 1, 6⟩, "units::isq::iec80000::byte_per_second"),
  ("units::isq::iec80000::kilobyte_per_second", ⟨1, 1, 3⟩, "units::isq::iec80000::byte_per_second"),
  ("units::isq::iec80000::byte_per_second", ⟨1, 1, 0⟩, "units::isq::iec80000::byte_per_second"),
  ("units::isq::iec80000::erlang", ⟨1, 1, 0⟩, "units::isq::iec80000::erlang"),
  ("units::isq::iec80000::pebibyte", ⟨9007199254740992, 1, 0⟩, "units::isq::iec80000::bit")]

/-- Part 13 of `unitDefTable`. -/
def unitDefTable13 : List (String × Ratio × String) := [
  ("units::isq::iec80000::tebibyte", ⟨8796093022208, 1, 0⟩, "units::isq::iec80000::bit"),
  ("units::isq::iec80000::gibibyte", ⟨8589934592, 1, 0⟩, "units::isq::iec80000::bit"),
  ("units::isq::iec80000::mebibyte", ⟨8388608, 1, 0⟩, "units::isq::iec80000::bit"),
  ("units::isq::iec80000::kibibyte", ⟨8192, 1, 0⟩, "units::isq::iec80000::bit"),
  ("units::isq::iec80000::yottabyte", ⟨8, 1, 24⟩, "units::isq::iec80000::bit"),
  ("units::isq::iec80000::zettabyte", ⟨8, 1, 21⟩, "units::isq::iec80000::bit"),
  ("units::isq::iec80000::exabyte", ⟨8, 1, 18⟩, "units::isq::iec80000::bit"),
  ("units::isq::iec80000::petabyte", ⟨8, 1, 15⟩, "units::isq::iec80000::bit"),
  ("units::isq::iec80000::terabyte", ⟨8, 1, 12⟩, "units::isq::iec80000::bit"),
  ("units::isq::iec80000::gigabyte", ⟨8, 1, 9⟩, "units::isq::iec80000::bit"),
  ("units::isq::iec80000::megabyte", ⟨8, 1, 6⟩, "units::isq::iec80000::bit"),
  ("units::isq::iec80000::kilobyte", ⟨8, 1, 3⟩, "units::isq::iec80000::bit"),
  ("units::isq::iec80000::byte", ⟨8, 1, 0⟩, "units::isq::iec80000::bit"),
  ("units::isq::iec80000::exbibit", ⟨1152921504606846976, 1, 0⟩, "units::isq::iec80000::bit"),
  ("units::isq::iec80000::pebibit", ⟨1125899906842624, 1, 0⟩, "units::isq::iec80000::bit"),
  ("units::isq::iec80000::tebibit", ⟨1099511627776, 1, 0⟩, "units::isq::iec80000::bit"),
  ("units::isq::iec80000::gibibit", ⟨1073741824, 1, 0⟩, "units::isq::iec80000::bit"),
  ("units::isq::iec80000::mebibit", ⟨1048576, 1, 0⟩, "units::isq::iec80000::bit"),
  ("units::isq::iec80000::kibibit", ⟨1024, 1, 0⟩, "units::isq::iec80000::bit"),
  ("units::isq::iec80000::yottabit", ⟨1, 1, 24⟩, "units::isq::iec80000::bit"),
  ("units::isq::iec80000::zettabit", ⟨1, 1, 21⟩, "units::isq::iec80000::bit"),
  ("units::isq::iec80000::exabit", ⟨1, 1, 18⟩, "units::isq::iec80000::bit"),
  ("units::isq::iec80000::petabit", ⟨1, 1, 15⟩, "units::isq::iec80000::bit"),
  ("units::isq::iec80000::terabit", ⟨1, 1, 12⟩, "units::isq::iec80000::bit"),
  ("units::isq::iec80000::gigabit", ⟨1, 1, 9⟩, "units::isq::iec80000::bit"),
  ("units::isq::iec80000::megabit", ⟨1, 1, 6⟩, "units::isq::iec80000::bit"),
  ("units::isq::iec80000::kilobit", ⟨1, 1, 3⟩, "units::isq::iec80000::bit"),
  ("units::isq::iec80000::bit", ⟨1, 1, 0⟩, "units::isq::iec80000::bit"),
  ("units::isq::si::yottahertz", ⟨1, 1, 24⟩, "units::isq::si::hertz"),
  ("units::isq::si::zettahertz", ⟨1, 1, 21⟩, "units::isq::si::hertz"),
  ("units::isq::si::exahertz", ⟨1, 1, 18⟩, "units::isq::si::hertz"),
  ("units::isq::si::petahertz", ⟨1, 1, 15⟩, "units::isq::si::hertz"),
  ("units::isq::si::terahertz", ⟨1, 1, 12⟩, "units::isq::si::hertz"),
  ("units::isq::si::gigahertz", ⟨1, 1, 9⟩, "units::isq::si::hertz"),
  ("units::isq::si::megahertz", ⟨1, 1, 6⟩, "units::isq::si::hertz"),
  ("units::isq::si::kilohertz", ⟨1, 1, 3⟩, "units::isq::si::hertz"),
  ("units::isq::si::millihertz", ⟨1, 1, (-3)⟩, "units::isq::si::hertz"),
  ("units::isq::si::microhertz", ⟨1, 1, (-6)⟩, "units::isq::si::hertz"),
  ("units::isq::si::nanohertz", ⟨1, 1, (-9)⟩, "units::isq::si::hertz"),
  ("units::isq::si::picohertz", ⟨1, 1, (-12)⟩, "units::isq::si::hertz")]

/-- Part 14 of `unitDefTable`. -/
def unitDefTable14 : List (String × Ratio × String) := [
  ("units::isq::si::femtohertz", ⟨1, 1, (-15)⟩, "units::isq::si::hertz"),
  ("units::isq::si::attohertz", ⟨1, 1, (-18)⟩, "units::isq::si::hertz"),
  ("units::isq::si::zeptohertz", ⟨1, 1, (-21)⟩, "units::isq::si::hertz"),
  ("units::isq::si::yoctohertz", ⟨1, 1, (-24)⟩, "units::isq::si::hertz"),
  ("units::isq::si::hertz", ⟨1, 1, 0⟩, "units::isq::si::hertz"),
  ("units::isq::si::day", ⟨864, 1, 2⟩, "units::isq::si::second"),
  ("units::isq::si::hour", ⟨36, 1, 2⟩, "units::isq::si::second"),
  ("units::isq::si::minute", ⟨6, 1, 1⟩, "units::isq::si::second"),
  ("units::isq::si::millisecond", ⟨1, 1, (-3)⟩, "units::isq::si::second"),
  ("units::isq::si::microsecond", ⟨1, 1, (-6)⟩, "units::isq::si::second"),
  ("units::isq::si::nanosecond", ⟨1, 1, (-9)⟩, "units::isq::si::second"),
  ("units::isq::si::picosecond", ⟨1, 1, (-12)⟩, "units::isq::si::second"),
  ("units::isq::si::femtosecond", ⟨1, 1, (-15)⟩, "units::isq::si::second"),
  ("units::isq::si::attosecond", ⟨1, 1, (-18)⟩, "units::isq::si::second"),
  ("units::isq::si::zeptosecond", ⟨1, 1, (-21)⟩, "units::isq::si::second"),
  ("units::isq::si::yoctosecond", ⟨1, 1, (-24)⟩, "units::isq::si::second"),
  ("units::isq::si::second", ⟨1, 1, 0⟩, "units::isq::si::second"),
  ("units::radian", ⟨1, 1, 0⟩, "units::radian"),
  ("units::percent", ⟨1, 1, (-2)⟩, "units::one"),
  ("units::one", ⟨1, 1, 0⟩, "units::one")]

/-- The units registered for downcasting. -/
def unitDefTable : List (String × Ratio × String) :=
  unitDefTable0 ++ (unitDefTable1 ++ (unitDefTable2 ++ (unitDefTable3 ++ (unitDefTable4 ++ (unitDefTable5 ++ (unitDefTable6 ++ (unitDefTable7 ++ (unitDefTable8 ++ (unitDefTable9 ++ (unitDefTable10 ++ (unitDefTable11 ++ (unitDefTable12 ++ (unitDefTable13 ++ (unitDefTable14))))))))))))))

/-- Part 0 of `dimDefTable`. -/
def dimDefTable0 : List (String × List (String × Int × Int)) := [
  ("units::isq::si::dim_torque", [("units::dim_angle<>", (-1), 1), ("units::isq::si::dim_length", 2, 1), ("units::isq::si::dim_mass", 1, 1), ("units::isq::si::dim_time", (-2), 1)]),
  ("units::isq::si::dim_thermal_conductivity", [("units::isq::si::dim_length", 1, 1), ("units::isq::si::dim_mass", 1, 1), ("units::isq::si::dim_time", (-3), 1), ("units::isq::si::dim_thermodynamic_temperature", (-1), 1)]),
  ("units::isq::si::dim_surface_tension", [("units::isq::si::dim_mass", 1, 1), ("units::isq::si::dim_time", (-2), 1)]),
  ("units::isq::si::dim_radioactivity", [("units::isq::si::dim_time", (-1), 1)]),
  ("units::isq::si::dim_permittivity", [("units::isq::si::dim_electric_current", 2, 1), ("units::isq::si::dim_length", (-3), 1), ("units::isq::si::dim_mass", (-1), 1), ("units::isq::si::dim_time", 4, 1)]),
  ("units::isq::si::dim_permeability", [("units::isq::si::dim_electric_current", (-2), 1), ("units::isq::si::dim_length", 1, 1), ("units::isq::si::dim_mass", 1, 1), ("units::isq::si::dim_time", (-2), 1)]),
  ("units::isq::si::dim_momentum", [("units::isq::si::dim_length", 1, 1), ("units::isq::si::dim_mass", 1, 1), ("units::isq::si::dim_time", (-1), 1)]),
  ("units::isq::si::dim_molar_energy", [("units::isq::si::dim_length", 2, 1), ("units::isq::si::dim_mass", 1, 1), ("units::isq::si::dim_amount_of_substance", (-1), 1), ("units::isq::si::dim_time", (-2), 1)]),
  ("units::isq::si::dim_luminance", [("units::isq::si::dim_luminous_intensity", 1, 1), ("units::isq::si::dim_length", (-2), 1)]),
  ("units::isq::si::dim_inductance", [("units::isq::si::dim_electric_current", (-2), 1), ("units::isq::si::dim_length", 2, 1), ("units::isq::si::dim_mass", 1, 1), ("units::isq::si::dim_time", (-2), 1)]),
  ("units::isq::si::dim_magnetic_flux", [("units::isq::si::dim_electric_current", (-1), 1), ("units::isq::si::dim_length", 2, 1), ("units::isq::si::dim_mass", 1, 1), ("units::isq::si::dim_time", (-2), 1)]),
  ("units::isq::si::dim_magnetic_induction", [("units::isq::si::dim_electric_current", (-1), 1), ("units::isq::si::dim_mass", 1, 1), ("units::isq::si::dim_time", (-2), 1)]),
  ("units::isq::si::dim_molar_heat_capacity", [("units::isq::si::dim_length", 2, 1), ("units::isq::si::dim_mass", 1, 1), ("units::isq::si::dim_amount_of_substance", (-1), 1), ("units::isq::si::dim_time", (-2), 1), ("units::isq::si::dim_thermodynamic_temperature", (-1), 1)]),
  ("units::isq::si::dim_specific_heat_capacity", [("units::isq::si::dim_length", 2, 1), ("units::isq::si::dim_time", (-2), 1), ("units::isq::si::dim_thermodynamic_temperature", (-1), 1)]),
  ("units::isq::si::dim_heat_capacity", [("units::isq::si::dim_length", 2, 1), ("units::isq::si::dim_mass", 1, 1), ("units::isq::si::dim_time", (-2), 1), ("units::isq::si::dim_thermodynamic_temperature", (-1), 1)]),
  ("units::isq::si::fps::dim_volume", [("units::isq::si::fps::dim_length", 3, 1)]),
  ("units::isq::si::fps::dim_pressure", [("units::isq::si::fps::dim_length", (-1), 1), ("units::isq::si::fps::dim_mass", 1, 1), ("units::isq::si::dim_time", (-2), 1)]),
  ("units::isq::si::fps::dim_power", [("units::isq::si::fps::dim_length", 2, 1), ("units::isq::si::fps::dim_mass", 1, 1), ("units::isq::si::dim_time", (-3), 1)]),
  ("units::isq::si::fps::dim_energy", [("units::isq::si::fps::dim_length", 2, 1), ("units::isq::si::fps::dim_mass", 1, 1), ("units::isq::si::dim_time", (-2), 1)]),
  ("units::isq::si::fps::dim_force", [("units::isq::si::fps::dim_length", 1, 1), ("units::isq::si::fps::dim_mass", 1, 1), ("units::isq::si::dim_time", (-2), 1)]),
  ("units::isq::si::fps::dim_density", [("units::isq::si::fps::dim_length", (-3), 1), ("units::isq::si::fps::dim_mass", 1, 1)]),
  ("units::isq::si::fps::dim_area", [("units::isq::si::fps::dim_length", 2, 1)]),
  ("units::isq::si::fps::dim_acceleration", [("units::isq::si::fps::dim_length", 1, 1), ("units::isq::si::dim_time", (-2), 1)]),
  ("units::isq::si::fps::dim_speed", [("units::isq::si::fps::dim_length", 1, 1), ("units::isq::si::dim_time", (-1), 1)]),
  ("units::isq::si::dim_energy_density", [("units::isq::si::dim_length", (-1), 1), ("units::isq::si::dim_mass", 1, 1), ("units::isq::si::dim_time", (-2), 1)]),
  ("units::isq::si::dim_volume", [("units::isq::si::dim_length", 3, 1)]),
  ("units::isq::si::dim_electric_field_strength", [("units::isq::si::dim_electric_current", (-1), 1), ("units::isq::si::dim_length", 1, 1), ("units::isq::si::dim_mass", 1, 1), ("units::isq::si::dim_time", (-3), 1)]),
  ("units::isq::si::dim_dynamic_viscosity", [("units::isq::si::dim_length", (-1), 1), ("units::isq::si::dim_mass", 1, 1), ("units::isq::si::dim_time", (-1), 1)]),
  ("units::isq::si::dim_pressure", [("units::isq::si::dim_length", (-1), 1), ("units::isq::si::dim_mass", 1, 1), ("units::isq::si::dim_time", (-2), 1)]),
  ("units::isq::si::dim_density", [("units::isq::si::dim_length", (-3), 1), ("units::isq::si::dim_mass", 1, 1)]),
  ("units::isq::si::dim_current_density", [("units::isq::si::dim_electric_current", 1, 1), ("units::isq::si::dim_length", (-2), 1)]),
  ("units::isq::si::dim_conductance", [("units::isq::si::dim_electric_current", 2, 1), ("units::isq::si::dim_length", (-2), 1), ("units::isq::si::dim_mass", (-1), 1), ("units::isq::si::dim_time", 3, 1)]),
  ("units::isq::si::dim_resistance", [("units::isq::si::dim_electric_current", (-2), 1), ("units::isq::si::dim_length", 2, 1), ("units::isq::si::dim_mass", 1, 1), ("units::isq::si::dim_time", (-3), 1)]),
  ("units::isq::si::dim_concentration", [("units::isq::si::dim_length", (-3), 1), ("units::isq::si::dim_amount_of_substance", 1, 1)]),
  ("units::isq::si::dim_surface_charge_density", [("units::isq::si::dim_electric_current", 1, 1), ("units::isq::si::dim_length", (-2), 1), ("units::isq::si::dim_time", 1, 1)]),
  ("units::isq::si::dim_charge_density", [("units::isq::si::dim_electric_current", 1, 1), ("units::isq::si::dim_length", (-3), 1), ("units::isq::si::dim_time", 1, 1)]),
  ("units::isq::si::cgs::dim_pressure", [("units::isq::si::cgs::dim_length", (-1), 1), ("units::isq::si::cgs::dim_mass", 1, 1), ("units::isq::si::dim_time", (-2), 1)]),
  ("units::isq::si::cgs::dim_power", [("units::isq::si::cgs::dim_length", 2, 1), ("units::isq::si::cgs::dim_mass", 1, 1), ("units::isq::si::dim_time", (-3), 1)]),
  ("units::isq::si::cgs::dim_energy", [("units::isq::si::cgs::dim_length", 2, 1), ("units::isq::si::cgs::dim_mass", 1, 1), ("units::isq::si::dim_time", (-2), 1)]),
  ("units::isq::si::cgs::dim_force", [("units::isq::si::cgs::dim_length", 1, 1), ("units::isq::si::cgs::dim_mass", 1, 1), ("units::isq::si::dim_time", (-2), 1)])]

/-- Part 1 of `dimDefTable`. -/
def dimDefTable1 : List (String × List (String × Int × Int)) := [
  ("units::isq::si::cgs::dim_area", [("units::isq::si::cgs::dim_length", 2, 1)]),
  ("units::isq::si::cgs::dim_acceleration", [("units::isq::si::cgs::dim_length", 1, 1), ("units::isq::si::dim_time", (-2), 1)]),
  ("units::isq::si::cgs::dim_speed", [("units::isq::si::cgs::dim_length", 1, 1), ("units::isq::si::dim_time", (-1), 1)]),
  ("units::isq::si::dim_catalytic_activity", [("units::isq::si::dim_amount_of_substance", 1, 1), ("units::isq::si::dim_time", (-1), 1)]),
  ("units::isq::si::dim_capacitance", [("units::isq::si::dim_electric_current", 2, 1), ("units::isq::si::dim_length", (-2), 1), ("units::isq::si::dim_mass", (-1), 1), ("units::isq::si::dim_time", 4, 1)]),
  ("units::isq::si::dim_voltage", [("units::isq::si::dim_electric_current", (-1), 1), ("units::isq::si::dim_length", 2, 1), ("units::isq::si::dim_mass", 1, 1), ("units::isq::si::dim_time", (-3), 1)]),
  ("units::isq::si::dim_power", [("units::isq::si::dim_length", 2, 1), ("units::isq::si::dim_mass", 1, 1), ("units::isq::si::dim_time", (-3), 1)]),
  ("units::isq::si::dim_electric_charge", [("units::isq::si::dim_electric_current", 1, 1), ("units::isq::si::dim_time", 1, 1)]),
  ("units::isq::si::dim_area", [("units::isq::si::dim_length", 2, 1)]),
  ("units::isq::si::dim_angular_velocity", [("units::dim_angle<>", 1, 1), ("units::isq::si::dim_time", (-1), 1)]),
  ("units::isq::si::dim_absorbed_dose", [("units::isq::si::dim_length", 2, 1), ("units::isq::si::dim_time", (-2), 1)]),
  ("units::isq::si::dim_energy", [("units::isq::si::dim_length", 2, 1), ("units::isq::si::dim_mass", 1, 1), ("units::isq::si::dim_time", (-2), 1)]),
  ("units::isq::si::dim_force", [("units::isq::si::dim_length", 1, 1), ("units::isq::si::dim_mass", 1, 1), ("units::isq::si::dim_time", (-2), 1)]),
  ("units::isq::si::dim_acceleration", [("units::isq::si::dim_length", 1, 1), ("units::isq::si::dim_time", (-2), 1)]),
  ("units::isq::si::dim_speed", [("units::isq::si::dim_length", 1, 1), ("units::isq::si::dim_time", (-1), 1)]),
  ("units::isq::natural::dim_momentum", [("units::isq::natural::dim_length", 1, 1), ("units::isq::natural::dim_mass", 1, 1), ("units::isq::natural::dim_time", (-1), 1)]),
  ("units::isq::natural::dim_energy", [("units::isq::natural::dim_length", 2, 1), ("units::isq::natural::dim_mass", 1, 1), ("units::isq::natural::dim_time", (-2), 1)]),
  ("units::isq::natural::dim_force", [("units::isq::natural::dim_length", 1, 1), ("units::isq::natural::dim_mass", 1, 1), ("units::isq::natural::dim_time", (-2), 1)]),
  ("units::isq::natural::dim_speed", [("units::isq::natural::dim_length", 1, 1), ("units::isq::natural::dim_time", (-1), 1)]),
  ("units::isq::natural::dim_acceleration", [("units::isq::natural::dim_length", 1, 1), ("units::isq::natural::dim_time", (-2), 1)]),
  ("units::isq::iec80000::dim_transfer_rate", [("units::isq::iec80000::dim_storage_capacity", 1, 1), ("units::isq::si::dim_time", (-1), 1)]),
  ("units::isq::si::dim_frequency", [("units::isq::si::dim_time", (-1), 1)]),
  ("units::dim_one", [])]

/-- The dimensions registered for downcasting. -/
def dimDefTable : List (String × List (String × Int × Int)) :=
  dimDefTable0 ++ (dimDefTable1)

end Verif.Systems
