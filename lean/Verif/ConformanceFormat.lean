import Verif.ConformanceText

/-!
# Tests of text output and of the mathematical functions, replayed in the model (generated by tools/gen_conformance_text.py)

The number of each check is its line in the test.
-/

namespace Verif.Conformance

open Systems

set_option maxRecDepth 100000

/-- /repo/test/unit_test/runtime/fmt_test.cpp. -/
def testFmt : List (Nat × CheckT) := [
  (53, .stream [] (.lit n!"units::isq::si::literals::_q_W" true 60) "" "60 W"),
  (58, .agree "{}" (.lit n!"units::isq::si::literals::_q_W" true 60)),
  (63, .agree "{:%Q %q}" (.lit n!"units::isq::si::literals::_q_W" true 60)),
  (74, .stream [] (.lit n!"units::isq::si::literals::_q_Pa" false (2047 / 2)) "" "1023.5 Pa"),
  (79, .agree "{}" (.lit n!"units::isq::si::literals::_q_Pa" false (2047 / 2))),
  (84, .agree "{:%Q %q}" (.lit n!"units::isq::si::literals::_q_Pa" false (2047 / 2))),
  (96, .stream [] (.lit n!"units::isq::si::literals::_q_us" true 125) "" "125 µs"),
  (101, .agree "{}" (.lit n!"units::isq::si::literals::_q_us" true 125)),
  (106, .agree "{:%Q %q}" (.lit n!"units::isq::si::literals::_q_us" true 125)),
  (119, .stream [] (.make (.alias n!"units::isq::si::length" (.scaled (1) (1) (6) (.nm n!"units::isq::si::metre")) (.flt .f64)) (.num (.int .i32) 123)) "" "123 Mm"),
  (124, .agree "{}" (.make (.alias n!"units::isq::si::length" (.scaled (1) (1) (6) (.nm n!"units::isq::si::metre")) (.flt .f64)) (.num (.int .i32) 123))),
  (129, .agree "{:%Q %q}" (.make (.alias n!"units::isq::si::length" (.scaled (1) (1) (6) (.nm n!"units::isq::si::metre")) (.flt .f64)) (.num (.int .i32) 123))),
  (140, .stream [] (.make (.alias n!"units::isq::si::energy" (.scaled (1) (1) (-2) (.nm n!"units::isq::si::joule")) (.flt .f64)) (.num (.int .i32) 60)) "" "60 cJ"),
  (145, .agree "{}" (.make (.alias n!"units::isq::si::energy" (.scaled (1) (1) (-2) (.nm n!"units::isq::si::joule")) (.flt .f64)) (.num (.int .i32) 60))),
  (150, .agree "{:%Q %q}" (.make (.alias n!"units::isq::si::energy" (.scaled (1) (1) (-2) (.nm n!"units::isq::si::joule")) (.flt .f64)) (.num (.int .i32) 60))),
  (162, .stream [] (.lit n!"units::isq::si::literals::_q_l" true 2) "" "2 l"),
  (167, .agree "{}" (.lit n!"units::isq::si::literals::_q_l" true 2)),
  (172, .agree "{:%Q %q}" (.lit n!"units::isq::si::literals::_q_l" true 2)),
  (183, .stream [] (.lit n!"units::isq::si::literals::_q_ml" true 2) "" "2 ml"),
  (188, .agree "{}" (.lit n!"units::isq::si::literals::_q_ml" true 2)),
  (193, .agree "{:%Q %q}" (.lit n!"units::isq::si::literals::_q_ml" true 2)),
  (208, .stream [] (.op .div (.op .div (.lit n!"units::isq::si::literals::_q_m" true 20) (.lit n!"units::isq::si::literals::_q_s" true 2)) (.lit n!"units::isq::si::literals::_q_s" true 1)) "" "10 m/s²"),
  (213, .agree "{}" (.op .div (.op .div (.lit n!"units::isq::si::literals::_q_m" true 20) (.lit n!"units::isq::si::literals::_q_s" true 2)) (.lit n!"units::isq::si::literals::_q_s" true 1))),
  (218, .agree "{:%Q %q}" (.op .div (.op .div (.lit n!"units::isq::si::literals::_q_m" true 20) (.lit n!"units::isq::si::literals::_q_s" true 2)) (.lit n!"units::isq::si::literals::_q_s" true 1))),
  (229, .stream [] (.op .mul (.op .mul (.lit n!"units::isq::si::literals::_q_m" true 2) (.lit n!"units::isq::si::literals::_q_m" true 1)) (.lit n!"units::isq::si::literals::_q_m" true 1)) "" "2 m³"),
  (234, .agree "{}" (.op .mul (.op .mul (.lit n!"units::isq::si::literals::_q_m" true 2) (.lit n!"units::isq::si::literals::_q_m" true 1)) (.lit n!"units::isq::si::literals::_q_m" true 1))),
  (239, .agree "{:%Q %q}" (.op .mul (.op .mul (.lit n!"units::isq::si::literals::_q_m" true 2) (.lit n!"units::isq::si::literals::_q_m" true 1)) (.lit n!"units::isq::si::literals::_q_m" true 1))),
  (250, .stream [] (.op .div (.lit n!"units::isq::si::literals::_q_N" true 20) (.lit n!"units::isq::si::literals::_q_m" true 2)) "" "10 N/m"),
  (255, .agree "{}" (.op .div (.lit n!"units::isq::si::literals::_q_N" true 20) (.lit n!"units::isq::si::literals::_q_m" true 2))),
  (260, .agree "{:%Q %q}" (.op .div (.lit n!"units::isq::si::literals::_q_N" true 20) (.lit n!"units::isq::si::literals::_q_m" true 2))),
  (274, .stream [] (.op .div (.lit n!"units::isq::si::literals::_q_km" true 20) (.lit n!"units::isq::si::literals::_q_h" true 2)) "" "10 km/h"),
  (279, .agree "{}" (.op .div (.lit n!"units::isq::si::literals::_q_km" true 20) (.lit n!"units::isq::si::literals::_q_h" true 2))),
  (284, .agree "{:%Q %q}" (.op .div (.lit n!"units::isq::si::literals::_q_km" true 20) (.lit n!"units::isq::si::literals::_q_h" true 2))),
  (321, .stream [] (.op .mul (.lit n!"units::isq::si::literals::_q_N" true 4) (.lit n!"units::isq::si::literals::_q_cm" true 2)) "" "8 cJ"),
  (326, .agree "{}" (.op .mul (.lit n!"units::isq::si::literals::_q_N" true 4) (.lit n!"units::isq::si::literals::_q_cm" true 2))),
  (331, .agree "{:%Q %q}" (.op .mul (.lit n!"units::isq::si::literals::_q_N" true 4) (.lit n!"units::isq::si::literals::_q_cm" true 2))),
  (342, .stream [] (.op .mul (.op .mul (.lit n!"units::isq::si::literals::_q_um" true 2) (.lit n!"units::isq::si::literals::_q_cm" true 2)) (.lit n!"units::isq::si::literals::_q_cm" true 2)) "" "8 × 10⁻¹⁰ m³"),
  (347, .agree "{}" (.op .mul (.op .mul (.lit n!"units::isq::si::literals::_q_um" true 2) (.lit n!"units::isq::si::literals::_q_cm" true 2)) (.lit n!"units::isq::si::literals::_q_cm" true 2))),
  (352, .agree "{:%Q %q}" (.op .mul (.op .mul (.lit n!"units::isq::si::literals::_q_um" true 2) (.lit n!"units::isq::si::literals::_q_cm" true 2)) (.lit n!"units::isq::si::literals::_q_cm" true 2))),
  (363, .stream [] (.op .div (.op .mul (.num (.int .i32) 4) (.lit n!"units::isq::si::literals::_q_min" true 2)) (.op .mul (.lit n!"units::isq::si::literals::_q_s" true 2) (.lit n!"units::isq::si::literals::_q_s" true 2))) "" "2 [6 × 10¹] Hz"),
  (368, .agree "{}" (.op .div (.op .mul (.num (.int .i32) 4) (.lit n!"units::isq::si::literals::_q_min" true 2)) (.op .mul (.lit n!"units::isq::si::literals::_q_s" true 2) (.lit n!"units::isq::si::literals::_q_s" true 2)))),
  (373, .agree "{:%Q %q}" (.op .div (.op .mul (.num (.int .i32) 4) (.lit n!"units::isq::si::literals::_q_min" true 2)) (.op .mul (.lit n!"units::isq::si::literals::_q_s" true 2) (.lit n!"units::isq::si::literals::_q_s" true 2)))),
  (384, .stream [] (.op .div (.lit n!"units::isq::si::literals::_q_J" true 20) (.lit n!"units::isq::si::literals::_q_min" true 2)) "" "10 [1/6 × 10⁻¹] W"),
  (389, .agree "{}" (.op .div (.lit n!"units::isq::si::literals::_q_J" true 20) (.lit n!"units::isq::si::literals::_q_min" true 2))),
  (394, .agree "{:%Q %q}" (.op .div (.lit n!"units::isq::si::literals::_q_J" true 20) (.lit n!"units::isq::si::literals::_q_min" true 2))),
  (405, .stream [] (.op .div (.lit n!"units::isq::si::literals::_q_kJ" true 60) (.lit n!"units::isq::si::literals::_q_min" true 2)) "" "30 [1/6 × 10²] W"),
  (410, .agree "{}" (.op .div (.lit n!"units::isq::si::literals::_q_kJ" true 60) (.lit n!"units::isq::si::literals::_q_min" true 2))),
  (415, .agree "{:%Q %q}" (.op .div (.lit n!"units::isq::si::literals::_q_kJ" true 60) (.lit n!"units::isq::si::literals::_q_min" true 2))),
  (429, .stream [] (.op .div (.lit n!"units::isq::si::literals::_q_m" true 4) (.lit n!"units::isq::si::literals::_q_m" true 2)) "" "2"),
  (434, .agree "{}" (.op .div (.lit n!"units::isq::si::literals::_q_m" true 4) (.lit n!"units::isq::si::literals::_q_m" true 2))),
  (439, .fmt "{:%Q %q}" (.op .div (.lit n!"units::isq::si::literals::_q_m" true 4) (.lit n!"units::isq::si::literals::_q_m" true 2)) "2 "),
  (450, .stream [] (.op .div (.lit n!"units::isq::si::literals::_q_km" true 4) (.lit n!"units::isq::si::literals::_q_m" true 2)) "" "2 × 10³"),
  (455, .agree "{}" (.op .div (.lit n!"units::isq::si::literals::_q_km" true 4) (.lit n!"units::isq::si::literals::_q_m" true 2))),
  (460, .fmt "{:%Q %q}" (.op .div (.lit n!"units::isq::si::literals::_q_km" true 4) (.lit n!"units::isq::si::literals::_q_m" true 2)) "2 × 10³"),
  (475, .stream [] (.cast (.unit (.nm n!"units::percent")) (.op .div (.lit n!"units::isq::si::literals::_q_m" false 15) (.lit n!"units::isq::si::literals::_q_m" false 100))) "" "15 %"),
  (480, .agree "{}" (.cast (.unit (.nm n!"units::percent")) (.op .div (.lit n!"units::isq::si::literals::_q_m" false 15) (.lit n!"units::isq::si::literals::_q_m" false 100)))),
  (485, .agree "{:%Q %q}" (.cast (.unit (.nm n!"units::percent")) (.op .div (.lit n!"units::isq::si::literals::_q_m" false 15) (.lit n!"units::isq::si::literals::_q_m" false 100)))),
  (501, .stream [] (.op .mul (.op .mul (.lit n!"units::isq::si::literals::_q_s" true 2) (.lit n!"units::isq::si::literals::_q_m" true 2)) (.lit n!"units::isq::si::literals::_q_kg" true 2)) "" "8 m ⋅ kg ⋅ s"),
  (506, .agree "{}" (.op .mul (.op .mul (.lit n!"units::isq::si::literals::_q_s" true 2) (.lit n!"units::isq::si::literals::_q_m" true 2)) (.lit n!"units::isq::si::literals::_q_kg" true 2))),
  (511, .agree "{:%Q %q}" (.op .mul (.op .mul (.lit n!"units::isq::si::literals::_q_s" true 2) (.lit n!"units::isq::si::literals::_q_m" true 2)) (.lit n!"units::isq::si::literals::_q_kg" true 2))),
  (522, .stream [] (.op .mul (.op .mul (.lit n!"units::isq::si::literals::_q_s" false 2) (.make (.alias n!"units::isq::si::cgs::length" (.nm n!"units::isq::si::cgs::centimetre") (.flt .f64)) (.num (.int .i32) 2))) (.make (.alias n!"units::isq::si::cgs::mass" (.nm n!"units::isq::si::cgs::gram") (.flt .f64)) (.num (.int .i32) 2))) "" "8 cm ⋅ g ⋅ s"),
  (527, .agree "{}" (.op .mul (.op .mul (.lit n!"units::isq::si::literals::_q_s" false 2) (.make (.alias n!"units::isq::si::cgs::length" (.nm n!"units::isq::si::cgs::centimetre") (.flt .f64)) (.num (.int .i32) 2))) (.make (.alias n!"units::isq::si::cgs::mass" (.nm n!"units::isq::si::cgs::gram") (.flt .f64)) (.num (.int .i32) 2)))),
  (532, .agree "{:%Q %q}" (.op .mul (.op .mul (.lit n!"units::isq::si::literals::_q_s" false 2) (.make (.alias n!"units::isq::si::cgs::length" (.nm n!"units::isq::si::cgs::centimetre") (.flt .f64)) (.num (.int .i32) 2))) (.make (.alias n!"units::isq::si::cgs::mass" (.nm n!"units::isq::si::cgs::gram") (.flt .f64)) (.num (.int .i32) 2)))),
  (544, .stream [] (.op .mul (.lit n!"units::isq::si::literals::_q_km" true 4) (.lit n!"units::isq::si::literals::_q_s" true 2)) "" "8 × 10³ m ⋅ s"),
  (549, .agree "{}" (.op .mul (.lit n!"units::isq::si::literals::_q_km" true 4) (.lit n!"units::isq::si::literals::_q_s" true 2))),
  (554, .agree "{:%Q %q}" (.op .mul (.lit n!"units::isq::si::literals::_q_km" true 4) (.lit n!"units::isq::si::literals::_q_s" true 2))),
  (565, .stream [] (.op .div (.op .mul (.lit n!"units::isq::si::literals::_q_kg" true 4) (.lit n!"units::isq::si::literals::_q_min" true 2)) (.op .mul (.lit n!"units::isq::si::literals::_q_s" true 2) (.lit n!"units::isq::si::literals::_q_s" true 2))) "" "2 [6 × 10¹] kg/s"),
  (570, .agree "{}" (.op .div (.op .mul (.lit n!"units::isq::si::literals::_q_kg" true 4) (.lit n!"units::isq::si::literals::_q_min" true 2)) (.op .mul (.lit n!"units::isq::si::literals::_q_s" true 2) (.lit n!"units::isq::si::literals::_q_s" true 2)))),
  (575, .agree "{:%Q %q}" (.op .div (.op .mul (.lit n!"units::isq::si::literals::_q_kg" true 4) (.lit n!"units::isq::si::literals::_q_min" true 2)) (.op .mul (.lit n!"units::isq::si::literals::_q_s" true 2) (.lit n!"units::isq::si::literals::_q_s" true 2)))),
  (586, .stream [] (.op .div (.lit n!"units::isq::si::literals::_q_kg" true 20) (.lit n!"units::isq::si::literals::_q_min" true 2)) "" "10 [1/6 × 10⁻¹] kg/s"),
  (591, .agree "{}" (.op .div (.lit n!"units::isq::si::literals::_q_kg" true 20) (.lit n!"units::isq::si::literals::_q_min" true 2))),
  (596, .agree "{:%Q %q}" (.op .div (.lit n!"units::isq::si::literals::_q_kg" true 20) (.lit n!"units::isq::si::literals::_q_min" true 2))),
  (607, .stream [] (.op .mul (.op .mul (.lit n!"units::isq::si::literals::_q_s" false 2) (.make (.alias n!"units::isq::si::cgs::length" (.nm n!"units::isq::si::metre") (.flt .f64)) (.num (.int .i32) 2))) (.make (.alias n!"units::isq::si::cgs::mass" (.nm n!"units::isq::si::kilogram") (.flt .f64)) (.num (.int .i32) 2))) "" "8 × 10⁵ cm ⋅ g ⋅ s"),
  (612, .agree "{}" (.op .mul (.op .mul (.lit n!"units::isq::si::literals::_q_s" false 2) (.make (.alias n!"units::isq::si::cgs::length" (.nm n!"units::isq::si::metre") (.flt .f64)) (.num (.int .i32) 2))) (.make (.alias n!"units::isq::si::cgs::mass" (.nm n!"units::isq::si::kilogram") (.flt .f64)) (.num (.int .i32) 2)))),
  (617, .agree "{:%Q %q}" (.op .mul (.op .mul (.lit n!"units::isq::si::literals::_q_s" false 2) (.make (.alias n!"units::isq::si::cgs::length" (.nm n!"units::isq::si::metre") (.flt .f64)) (.num (.int .i32) 2))) (.make (.alias n!"units::isq::si::cgs::mass" (.nm n!"units::isq::si::kilogram") (.flt .f64)) (.num (.int .i32) 2)))),
  (628, .stream [] (.op .div (.lit n!"units::isq::si::literals::_q_min" true 60) (.lit n!"units::isq::si::literals::_q_km" true 2)) "" "30 [6 × 10⁻²] 1/m ⋅ s"),
  (633, .agree "{}" (.op .div (.lit n!"units::isq::si::literals::_q_min" true 60) (.lit n!"units::isq::si::literals::_q_km" true 2))),
  (638, .agree "{:%Q %q}" (.op .div (.lit n!"units::isq::si::literals::_q_min" true 60) (.lit n!"units::isq::si::literals::_q_km" true 2))),
  (649, .stream [] (.op .mul (.lit n!"units::isq::si::literals::_q_m" true 4) (.lit n!"units::isq::si::literals::_q_s" true 2)) "" "8 m ⋅ s"),
  (654, .agree "{}" (.op .mul (.lit n!"units::isq::si::literals::_q_m" true 4) (.lit n!"units::isq::si::literals::_q_s" true 2))),
  (659, .agree "{:%Q %q}" (.op .mul (.lit n!"units::isq::si::literals::_q_m" true 4) (.lit n!"units::isq::si::literals::_q_s" true 2))),
  (670, .stream [] (.op .mul (.op .mul (.lit n!"units::isq::si::literals::_q_m" true 4) (.lit n!"units::isq::si::literals::_q_s" true 2)) (.lit n!"units::isq::si::literals::_q_s" true 2)) "" "16 m ⋅ s²"),
  (675, .agree "{}" (.op .mul (.op .mul (.lit n!"units::isq::si::literals::_q_m" true 4) (.lit n!"units::isq::si::literals::_q_s" true 2)) (.lit n!"units::isq::si::literals::_q_s" true 2))),
  (680, .agree "{:%Q %q}" (.op .mul (.op .mul (.lit n!"units::isq::si::literals::_q_m" true 4) (.lit n!"units::isq::si::literals::_q_s" true 2)) (.lit n!"units::isq::si::literals::_q_s" true 2))),
  (691, .stream [] (.op .div (.op .div (.lit n!"units::isq::si::literals::_q_s" true 8) (.lit n!"units::isq::si::literals::_q_m" true 2)) (.lit n!"units::isq::si::literals::_q_m" true 2)) "" "2 1/m² ⋅ s"),
  (696, .agree "{}" (.op .div (.op .div (.lit n!"units::isq::si::literals::_q_s" true 8) (.lit n!"units::isq::si::literals::_q_m" true 2)) (.lit n!"units::isq::si::literals::_q_m" true 2))),
  (701, .agree "{:%Q %q}" (.op .div (.op .div (.lit n!"units::isq::si::literals::_q_s" true 8) (.lit n!"units::isq::si::literals::_q_m" true 2)) (.lit n!"units::isq::si::literals::_q_m" true 2))),
  (712, .stream [] (.op .div (.op .div (.lit n!"units::isq::si::literals::_q_m" true 8) (.lit n!"units::isq::si::literals::_q_kg" true 2)) (.lit n!"units::isq::si::literals::_q_kg" true 2)) "" "2 m/kg²"),
  (717, .agree "{}" (.op .div (.op .div (.lit n!"units::isq::si::literals::_q_m" true 8) (.lit n!"units::isq::si::literals::_q_kg" true 2)) (.lit n!"units::isq::si::literals::_q_kg" true 2))),
  (722, .agree "{:%Q %q}" (.op .div (.op .div (.lit n!"units::isq::si::literals::_q_m" true 8) (.lit n!"units::isq::si::literals::_q_kg" true 2)) (.lit n!"units::isq::si::literals::_q_kg" true 2))),
  (733, .stream [] (.sqrt (.lit n!"units::isq::si::literals::_q_m" true 9)) "" "3 m^(1/2)"),
  (738, .agree "{}" (.sqrt (.lit n!"units::isq::si::literals::_q_m" true 9))),
  (743, .agree "{:%Q %q}" (.sqrt (.lit n!"units::isq::si::literals::_q_m" true 9))),
  (754, .stream [] (.sqrt (.op .div (.num (.int .i32) 9) (.lit n!"units::isq::si::literals::_q_m" true 1))) "" "3 1/m^(1/2)"),
  (759, .agree "{}" (.sqrt (.op .div (.num (.int .i32) 9) (.lit n!"units::isq::si::literals::_q_m" true 1)))),
  (764, .agree "{:%Q %q}" (.sqrt (.op .div (.num (.int .i32) 9) (.lit n!"units::isq::si::literals::_q_m" true 1)))),
  (776, .fmt "{:%Q}" (.lit n!"units::isq::si::literals::_q_km_per_h" true 123) "123"),
  (781, .fmt "{:%Q}" (.op .sub (.lit n!"units::isq::si::literals::_q_m" true 5) (.lit n!"units::isq::si::literals::_q_m" true 10)) "-5"),
  (789, .fmt "{:%Q}" (.op .div (.lit n!"units::isq::si::literals::_q_km" false 221) (.lit n!"units::isq::si::literals::_q_h" true 2)) "110.5"),
  (794, .fmt "{:%Q}" (.op .sub (.lit n!"units::isq::si::literals::_q_m" false (157 / 50)) (.lit n!"units::isq::si::literals::_q_m" true 10)) "-6.86"),
  (818, .fmt "{:%q}" (.lit n!"units::isq::si::literals::_q_km_per_h" true 123) "km/h"),
  (823, .fmt "{:%Aq}" (.lit n!"units::isq::si::literals::_q_km_per_h" true 123) "km/h"),
  (830, .fmt "{:%q}" (.lit n!"units::isq::si::literals::_q_kR" true 123) "kΩ"),
  (835, .fmt "{:%q}" (.lit n!"units::isq::si::literals::_q_uV" true 123) "µV"),
  (843, .fmt "{:%Aq}" (.lit n!"units::isq::si::literals::_q_kR" true 123) "kohm"),
  (848, .fmt "{:%Aq}" (.lit n!"units::isq::si::literals::_q_uV" true 123) "uV"),
  (857, .fmt "{:%Q%q}" (.lit n!"units::isq::si::literals::_q_km_per_h" true 123) "123km/h"),
  (862, .fmt "{:%Q###%q}" (.lit n!"units::isq::si::literals::_q_km_per_h" true 123) "123###km/h"),
  (867, .fmt "{:%q %Q}" (.lit n!"units::isq::si::literals::_q_km_per_h" true 123) "km/h 123"),
  (872, .fmt "{:%Q%t%q}" (.lit n!"units::isq::si::literals::_q_km_per_h" true 123) "123\tkm/h"),
  (877, .fmt "{:%Q%n%q}" (.lit n!"units::isq::si::literals::_q_km_per_h" true 123) "123\nkm/h"),
  (882, .fmt "{:%Q%% %q}" (.lit n!"units::isq::si::literals::_q_km_per_h" true 123) "123% km/h"),
  (895, .stream [.text "|", .setw 10] (.lit n!"units::isq::si::literals::_q_m" true 123) "|" "|     123 m|"),
  (901, .stream [.text "|", .setw 10, .adjust .right] (.lit n!"units::isq::si::literals::_q_m" true 123) "|" "|     123 m|"),
  (907, .stream [.text "|", .setw 10, .adjust .left] (.lit n!"units::isq::si::literals::_q_m" true 123) "|" "|123 m     |"),
  (913, .stream [.text "|", .setw 10, .setfill '*'] (.lit n!"units::isq::si::literals::_q_m" true 123) "|" "|*****123 m|"),
  (919, .stream [.text "|", .setw 10, .setfill '*', .adjust .right] (.lit n!"units::isq::si::literals::_q_m" true 123) "|" "|*****123 m|"),
  (925, .stream [.text "|", .setw 10, .setfill '*', .adjust .left] (.lit n!"units::isq::si::literals::_q_m" true 123) "|" "|123 m*****|"),
  (931, .fmt "|{:0}|" (.lit n!"units::isq::si::literals::_q_m" true 123) "|123 m|"),
  (932, .fmt "|{:10}|" (.lit n!"units::isq::si::literals::_q_m" true 123) "|     123 m|"),
  (933, .fmt "|{:<10}|" (.lit n!"units::isq::si::literals::_q_m" true 123) "|123 m     |"),
  (934, .fmt "|{:>10}|" (.lit n!"units::isq::si::literals::_q_m" true 123) "|     123 m|"),
  (935, .fmt "|{:^10}|" (.lit n!"units::isq::si::literals::_q_m" true 123) "|  123 m   |"),
  (936, .fmt "|{:*<10}|" (.lit n!"units::isq::si::literals::_q_m" true 123) "|123 m*****|"),
  (937, .fmt "|{:*>10}|" (.lit n!"units::isq::si::literals::_q_m" true 123) "|*****123 m|"),
  (938, .fmt "|{:*^10}|" (.lit n!"units::isq::si::literals::_q_m" true 123) "|**123 m***|"),
  (943, .fmt "|{:0%Q%q}|" (.lit n!"units::isq::si::literals::_q_m" true 123) "|123m|"),
  (944, .fmt "|{:10%Q%q}|" (.lit n!"units::isq::si::literals::_q_m" true 123) "|      123m|"),
  (945, .fmt "|{:<10%Q%q}|" (.lit n!"units::isq::si::literals::_q_m" true 123) "|123m      |"),
  (946, .fmt "|{:>10%Q%q}|" (.lit n!"units::isq::si::literals::_q_m" true 123) "|      123m|"),
  (947, .fmt "|{:^10%Q%q}|" (.lit n!"units::isq::si::literals::_q_m" true 123) "|   123m   |"),
  (948, .fmt "|{:*<10%Q%q}|" (.lit n!"units::isq::si::literals::_q_m" true 123) "|123m******|"),
  (949, .fmt "|{:*>10%Q%q}|" (.lit n!"units::isq::si::literals::_q_m" true 123) "|******123m|"),
  (950, .fmt "|{:*^10%Q%q}|" (.lit n!"units::isq::si::literals::_q_m" true 123) "|***123m***|"),
  (955, .fmt "|{:0%Q}|" (.lit n!"units::isq::si::literals::_q_m" true 123) "|123|"),
  (956, .fmt "|{:10%Q}|" (.lit n!"units::isq::si::literals::_q_m" true 123) "|       123|"),
  (957, .fmt "|{:<10%Q}|" (.lit n!"units::isq::si::literals::_q_m" true 123) "|123       |"),
  (958, .fmt "|{:>10%Q}|" (.lit n!"units::isq::si::literals::_q_m" true 123) "|       123|"),
  (959, .fmt "|{:^10%Q}|" (.lit n!"units::isq::si::literals::_q_m" true 123) "|   123    |"),
  (960, .fmt "|{:*<10%Q}|" (.lit n!"units::isq::si::literals::_q_m" true 123) "|123*******|"),
  (961, .fmt "|{:*>10%Q}|" (.lit n!"units::isq::si::literals::_q_m" true 123) "|*******123|"),
  (962, .fmt "|{:*^10%Q}|" (.lit n!"units::isq::si::literals::_q_m" true 123) "|***123****|"),
  (967, .fmt "|{:0%q}|" (.lit n!"units::isq::si::literals::_q_m" true 123) "|m|"),
  (968, .fmt "|{:10%q}|" (.lit n!"units::isq::si::literals::_q_m" true 123) "|m         |"),
  (969, .fmt "|{:<10%q}|" (.lit n!"units::isq::si::literals::_q_m" true 123) "|m         |"),
  (970, .fmt "|{:>10%q}|" (.lit n!"units::isq::si::literals::_q_m" true 123) "|         m|"),
  (971, .fmt "|{:^10%q}|" (.lit n!"units::isq::si::literals::_q_m" true 123) "|    m     |"),
  (972, .fmt "|{:*<10%q}|" (.lit n!"units::isq::si::literals::_q_m" true 123) "|m*********|"),
  (973, .fmt "|{:*>10%q}|" (.lit n!"units::isq::si::literals::_q_m" true 123) "|*********m|"),
  (974, .fmt "|{:*^10%q}|" (.lit n!"units::isq::si::literals::_q_m" true 123) "|****m*****|"),
  (985, .fmt "{0:%Q%q},{0:%+Q%q},{0:%-Q%q},{0:% Q%q}" (.lit n!"units::isq::si::literals::_q_m" true 1) "1m,+1m,1m, 1m"),
  (986, .fmt "{0:%Q%q},{0:%+Q%q},{0:%-Q%q},{0:% Q%q}" (.neg (.lit n!"units::isq::si::literals::_q_m" true 1)) "-1m,-1m,-1m,-1m"),
  (993, .fmt "{0:%Q},{0:%+Q},{0:%-Q},{0:% Q}" (.lit n!"units::isq::si::literals::_q_m" true 1) "1,+1,1, 1"),
  (994, .fmt "{0:%Q},{0:%+Q},{0:%-Q},{0:% Q}" (.neg (.lit n!"units::isq::si::literals::_q_m" true 1)) "-1,-1,-1,-1"),
  (1004, .fmt "{:%.0Q %q}" (.lit n!"units::isq::si::literals::_q_m" false (2469 / 2000)) "1 m"),
  (1005, .fmt "{:%.1Q %q}" (.lit n!"units::isq::si::literals::_q_m" false (2469 / 2000)) "1.2 m"),
  (1006, .fmt "{:%.2Q %q}" (.lit n!"units::isq::si::literals::_q_m" false (2469 / 2000)) "1.23 m"),
  (1010, .fmt "{:%.3Q %q}" (.lit n!"units::isq::si::literals::_q_m" false (2469 / 2000)) "1.235 m"),
  (1012, .fmt "{:%.4Q %q}" (.lit n!"units::isq::si::literals::_q_m" false (2469 / 2000)) "1.2345 m"),
  (1013, .fmt "{:%.5Q %q}" (.lit n!"units::isq::si::literals::_q_m" false (2469 / 2000)) "1.23450 m"),
  (1014, .fmt "{:%.10Q %q}" (.lit n!"units::isq::si::literals::_q_m" false (2469 / 2000)) "1.2345000000 m"),
  (1019, .fmt "{:%.0Q}" (.lit n!"units::isq::si::literals::_q_m" false (2469 / 2000)) "1"),
  (1020, .fmt "{:%.1Q}" (.lit n!"units::isq::si::literals::_q_m" false (2469 / 2000)) "1.2"),
  (1021, .fmt "{:%.2Q}" (.lit n!"units::isq::si::literals::_q_m" false (2469 / 2000)) "1.23"),
  (1025, .fmt "{:%.3Q}" (.lit n!"units::isq::si::literals::_q_m" false (2469 / 2000)) "1.235"),
  (1027, .fmt "{:%.4Q}" (.lit n!"units::isq::si::literals::_q_m" false (2469 / 2000)) "1.2345"),
  (1028, .fmt "{:%.5Q}" (.lit n!"units::isq::si::literals::_q_m" false (2469 / 2000)) "1.23450"),
  (1029, .fmt "{:%.10Q}" (.lit n!"units::isq::si::literals::_q_m" false (2469 / 2000)) "1.2345000000"),
  (1037, .throws "{:%.1Q %q}" (.lit n!"units::isq::si::literals::_q_m" true 1)),
  (1042, .throws "{:%.1Q}" (.lit n!"units::isq::si::literals::_q_m" true 1)),
  (1050, .fmt "{:%bQ %q}" (.lit n!"units::isq::si::literals::_q_m" true 42) "101010 m"),
  (1051, .fmt "{:%BQ %q}" (.lit n!"units::isq::si::literals::_q_m" true 42) "101010 m"),
  (1052, .fmt "{:%dQ %q}" (.lit n!"units::isq::si::literals::_q_m" true 42) "42 m"),
  (1053, .fmt "{:%oQ %q}" (.lit n!"units::isq::si::literals::_q_m" true 42) "52 m"),
  (1054, .fmt "{:%xQ %q}" (.lit n!"units::isq::si::literals::_q_m" true 42) "2a m"),
  (1055, .fmt "{:%XQ %q}" (.lit n!"units::isq::si::literals::_q_m" true 42) "2A m"),
  (1068, .fmt "{:%eQ %q}" (.lit n!"units::isq::si::literals::_q_m" false (6172839 / 5000000)) "1.234568e+00 m"),
  (1069, .fmt "{:%.3eQ %q}" (.lit n!"units::isq::si::literals::_q_m" false (6172839 / 5000000)) "1.235e+00 m"),
  (1070, .fmt "{:%EQ %q}" (.lit n!"units::isq::si::literals::_q_m" false (6172839 / 5000000)) "1.234568E+00 m"),
  (1071, .fmt "{:%.3EQ %q}" (.lit n!"units::isq::si::literals::_q_m" false (6172839 / 5000000)) "1.235E+00 m"),
  (1072, .fmt "{:%gQ %q}" (.lit n!"units::isq::si::literals::_q_m" false (6172839 / 5000000)) "1.23457 m"),
  (1073, .fmt "{:%gQ %q}" (.lit n!"units::isq::si::literals::_q_m" false 123456780) "1.23457e+08 m"),
  (1074, .fmt "{:%.3gQ %q}" (.lit n!"units::isq::si::literals::_q_m" false (6172839 / 5000000)) "1.23 m"),
  (1075, .fmt "{:%.3gQ %q}" (.lit n!"units::isq::si::literals::_q_m" false 123456780) "1.23e+08 m"),
  (1076, .fmt "{:%GQ %q}" (.lit n!"units::isq::si::literals::_q_m" false (6172839 / 5000000)) "1.23457 m"),
  (1077, .fmt "{:%GQ %q}" (.lit n!"units::isq::si::literals::_q_m" false 123456780) "1.23457E+08 m"),
  (1078, .fmt "{:%.3GQ %q}" (.lit n!"units::isq::si::literals::_q_m" false (6172839 / 5000000)) "1.23 m"),
  (1079, .fmt "{:%.3GQ %q}" (.lit n!"units::isq::si::literals::_q_m" false 123456780) "1.23E+08 m"),
  (1084, .fmt "{:%bQ}" (.lit n!"units::isq::si::literals::_q_m" true 42) "101010"),
  (1085, .fmt "{:%BQ}" (.lit n!"units::isq::si::literals::_q_m" true 42) "101010"),
  (1086, .fmt "{:%dQ}" (.lit n!"units::isq::si::literals::_q_m" true 42) "42"),
  (1087, .fmt "{:%oQ}" (.lit n!"units::isq::si::literals::_q_m" true 42) "52"),
  (1088, .fmt "{:%xQ}" (.lit n!"units::isq::si::literals::_q_m" true 42) "2a"),
  (1089, .fmt "{:%XQ}" (.lit n!"units::isq::si::literals::_q_m" true 42) "2A"),
  (1102, .fmt "{:%eQ}" (.lit n!"units::isq::si::literals::_q_m" false (6172839 / 5000000)) "1.234568e+00"),
  (1103, .fmt "{:%.3eQ}" (.lit n!"units::isq::si::literals::_q_m" false (6172839 / 5000000)) "1.235e+00"),
  (1104, .fmt "{:%EQ}" (.lit n!"units::isq::si::literals::_q_m" false (6172839 / 5000000)) "1.234568E+00"),
  (1105, .fmt "{:%.3EQ}" (.lit n!"units::isq::si::literals::_q_m" false (6172839 / 5000000)) "1.235E+00"),
  (1106, .fmt "{:%gQ}" (.lit n!"units::isq::si::literals::_q_m" false (6172839 / 5000000)) "1.23457"),
  (1107, .fmt "{:%gQ}" (.lit n!"units::isq::si::literals::_q_m" false 123456780) "1.23457e+08"),
  (1108, .fmt "{:%.3gQ}" (.lit n!"units::isq::si::literals::_q_m" false (6172839 / 5000000)) "1.23"),
  (1109, .fmt "{:%.3gQ}" (.lit n!"units::isq::si::literals::_q_m" false 123456780) "1.23e+08"),
  (1110, .fmt "{:%GQ}" (.lit n!"units::isq::si::literals::_q_m" false (6172839 / 5000000)) "1.23457"),
  (1111, .fmt "{:%GQ}" (.lit n!"units::isq::si::literals::_q_m" false 123456780) "1.23457E+08"),
  (1112, .fmt "{:%.3GQ}" (.lit n!"units::isq::si::literals::_q_m" false (6172839 / 5000000)) "1.23"),
  (1113, .fmt "{:%.3GQ}" (.lit n!"units::isq::si::literals::_q_m" false 123456780) "1.23E+08"),
  (1121, .fmt "{:%#bQ %q}" (.lit n!"units::isq::si::literals::_q_m" true 42) "0b101010 m"),
  (1122, .fmt "{:%#BQ %q}" (.lit n!"units::isq::si::literals::_q_m" true 42) "0B101010 m"),
  (1123, .fmt "{:%#oQ %q}" (.lit n!"units::isq::si::literals::_q_m" true 42) "052 m"),
  (1124, .fmt "{:%#xQ %q}" (.lit n!"units::isq::si::literals::_q_m" true 42) "0x2a m"),
  (1125, .fmt "{:%#XQ %q}" (.lit n!"units::isq::si::literals::_q_m" true 42) "0X2A m"),
  (1130, .fmt "{:%#bQ}" (.lit n!"units::isq::si::literals::_q_m" true 42) "0b101010"),
  (1131, .fmt "{:%#BQ}" (.lit n!"units::isq::si::literals::_q_m" true 42) "0B101010"),
  (1132, .fmt "{:%#oQ}" (.lit n!"units::isq::si::literals::_q_m" true 42) "052"),
  (1133, .fmt "{:%#xQ}" (.lit n!"units::isq::si::literals::_q_m" true 42) "0x2a"),
  (1134, .fmt "{:%#XQ}" (.lit n!"units::isq::si::literals::_q_m" true 42) "0X2A"),
  (1173, .stream [] (.op .div (.lit n!"units::isq::si::literals::_q_km" true 121) (.lit n!"units::isq::si::literals::_q_h" true 2)) "" "60 km/h"),
  (1179, .stream [] (.cast (.ty (.rep (.int .i32))) (.op .div (.lit n!"units::isq::si::literals::_q_km" true 121) (.lit n!"units::isq::si::literals::_q_h" true 2))) "" "60 km/h"),
  (1185, .stream [] (.cast (.ty (.rep (.flt .f64))) (.op .div (.lit n!"units::isq::si::literals::_q_km" true 121) (.lit n!"units::isq::si::literals::_q_h" true 2))) "" "60 km/h"),
  (1196, .stream [] (.op .div (.lit n!"units::isq::si::literals::_q_km" false 121) (.lit n!"units::isq::si::literals::_q_h" true 2)) "" "60.5 km/h"),
  (1202, .stream [] (.cast (.ty (.rep (.int .i32))) (.op .div (.lit n!"units::isq::si::literals::_q_km" false 121) (.lit n!"units::isq::si::literals::_q_h" true 2))) "" "60 km/h"),
  (1208, .stream [] (.cast (.ty (.rep (.flt .f64))) (.op .div (.lit n!"units::isq::si::literals::_q_km" false 121) (.lit n!"units::isq::si::literals::_q_h" true 2))) "" "60.5 km/h")]

#guard failuresT [n!"generic/dimensionless.h", n!"isq/si/cgs/cgs.h", n!"isq/si/si.h"] testFmt = some []

/-- /repo/test/unit_test/runtime/fmt_units_test.cpp. -/
def testFmtUnits : List (Nat × CheckT) := [
  (48, .fmt "{}" (.lit n!"units::isq::si::literals::_q_ns" true 1) "1 ns"),
  (49, .fmt "{}" (.lit n!"units::isq::si::literals::_q_us" true 1) "1 µs"),
  (50, .fmt "{}" (.lit n!"units::isq::si::literals::_q_ms" true 1) "1 ms"),
  (52, .fmt "{:%Q %Aq}" (.lit n!"units::isq::si::literals::_q_us" true 1) "1 us"),
  (57, .fmt "{}" (.lit n!"units::isq::si::literals::_q_mm" true 1) "1 mm"),
  (58, .fmt "{}" (.lit n!"units::isq::si::literals::_q_cm" true 1) "1 cm"),
  (59, .fmt "{}" (.lit n!"units::isq::si::literals::_q_km" true 1) "1 km"),
  (60, .fmt "{}" (.op .mul (.num (.int .i32) 1) (.ref n!"units::isq::si::mass_references::ft")) "1 ft"),
  (61, .fmt "{}" (.lit n!"units::isq::si::uscs::literals::_q_ft_us" true 1) "1 ft(us)"),
  (62, .fmt "{}" (.lit n!"units::isq::si::international::literals::_q_yd" true 1) "1 yd"),
  (63, .fmt "{}" (.lit n!"units::isq::si::international::literals::_q_in" true 1) "1 in"),
  (64, .fmt "{}" (.lit n!"units::isq::si::international::literals::_q_fathom" true 1) "1 fathom"),
  (65, .fmt "{}" (.lit n!"units::isq::si::uscs::literals::_q_fathom_us" true 1) "1 fathom(us)"),
  (66, .fmt "{}" (.lit n!"units::isq::si::international::literals::_q_mi" true 1) "1 mi"),
  (67, .fmt "{}" (.lit n!"units::isq::si::uscs::literals::_q_mi_us" true 1) "1 mi(us)"),
  (68, .fmt "{}" (.lit n!"units::isq::si::international::literals::_q_naut_mi" true 1) "1 mi(naut)"),
  (69, .fmt "{}" (.lit n!"units::isq::si::imperial::literals::_q_ch" true 1) "1 ch"),
  (70, .fmt "{}" (.lit n!"units::isq::si::imperial::literals::_q_rd" true 1) "1 rd"),
  (71, .fmt "{}" (.lit n!"units::isq::si::international::literals::_q_thou" true 1) "1 thou"),
  (72, .fmt "{}" (.lit n!"units::isq::si::iau::literals::_q_pc" true 1) "1 pc"),
  (73, .fmt "{}" (.lit n!"units::isq::si::iau::literals::_q_ly" true 1) "1 ly"),
  (74, .fmt "{}" (.lit n!"units::isq::si::iau::literals::_q_pc" true 1) "1 pc"),
  (75, .fmt "{}" (.lit n!"units::isq::si::iau::literals::_q_angstrom" true 1) "1 angstrom"),
  (76, .fmt "{}" (.lit n!"units::isq::si::literals::_q_au" true 1) "1 au"),
  (77, .fmt "{}" (.lit n!"units::isq::si::typographic::literals::_q_pica_comp" true 1) "1 pica(comp)"),
  (78, .fmt "{}" (.lit n!"units::isq::si::typographic::literals::_q_pica_prn" true 1) "1 pica(prn)"),
  (79, .fmt "{}" (.lit n!"units::isq::si::typographic::literals::_q_point_comp" true 1) "1 point(comp)"),
  (80, .fmt "{}" (.lit n!"units::isq::si::typographic::literals::_q_point_prn" true 1) "1 point(prn)"),
  (85, .fmt "{}" (.lit n!"units::isq::si::literals::_q_kg" true 1) "1 kg"),
  (90, .fmt "{}" (.lit n!"units::isq::si::literals::_q_m2" true 1) "1 m²"),
  (91, .fmt "{}" (.lit n!"units::isq::si::literals::_q_mm2" true 1) "1 mm²"),
  (92, .fmt "{}" (.lit n!"units::isq::si::literals::_q_cm2" true 1) "1 cm²"),
  (93, .fmt "{}" (.lit n!"units::isq::si::literals::_q_km2" true 1) "1 km²"),
  (94, .fmt "{}" (.lit n!"units::isq::si::international::literals::_q_ft2" true 1) "1 ft²"),
  (96, .fmt "{:%Q %Aq}" (.lit n!"units::isq::si::literals::_q_m2" true 1) "1 m^2"),
  (97, .fmt "{:%Q %Aq}" (.lit n!"units::isq::si::literals::_q_mm2" true 1) "1 mm^2"),
  (98, .fmt "{:%Q %Aq}" (.lit n!"units::isq::si::literals::_q_cm2" true 1) "1 cm^2"),
  (99, .fmt "{:%Q %Aq}" (.lit n!"units::isq::si::literals::_q_km2" true 1) "1 km^2"),
  (100, .fmt "{:%Q %Aq}" (.lit n!"units::isq::si::international::literals::_q_ft2" true 1) "1 ft^2"),
  (105, .fmt "{}" (.lit n!"units::isq::si::literals::_q_kg_per_m3" true 1) "1 kg/m³"),
  (106, .fmt "{:%Q %Aq}" (.lit n!"units::isq::si::literals::_q_kg_per_m3" true 1) "1 kg/m^3"),
  (111, .fmt "{}" (.lit n!"units::isq::si::literals::_q_R" true 1) "1 Ω"),
  (112, .fmt "{}" (.lit n!"units::isq::si::literals::_q_kR" true 1) "1 kΩ"),
  (113, .fmt "{}" (.lit n!"units::isq::si::literals::_q_mR" true 1) "1 mΩ"),
  (114, .fmt "{}" (.lit n!"units::isq::si::literals::_q_MR" true 1) "1 MΩ"),
  (116, .fmt "{:%Q %Aq}" (.lit n!"units::isq::si::literals::_q_R" true 1) "1 ohm"),
  (117, .fmt "{:%Q %Aq}" (.lit n!"units::isq::si::literals::_q_kR" true 1) "1 kohm"),
  (118, .fmt "{:%Q %Aq}" (.lit n!"units::isq::si::literals::_q_mR" true 1) "1 mohm"),
  (119, .fmt "{:%Q %Aq}" (.lit n!"units::isq::si::literals::_q_MR" true 1) "1 Mohm"),
  (124, .fmt "{}" (.lit n!"units::isq::si::literals::_q_V" true 1) "1 V"),
  (125, .fmt "{}" (.lit n!"units::isq::si::literals::_q_mV" true 1) "1 mV"),
  (126, .fmt "{}" (.lit n!"units::isq::si::literals::_q_uV" true 1) "1 µV"),
  (127, .fmt "{}" (.lit n!"units::isq::si::literals::_q_nV" true 1) "1 nV"),
  (128, .fmt "{}" (.lit n!"units::isq::si::literals::_q_pV" true 1) "1 pV"),
  (130, .fmt "{:%Q %Aq}" (.lit n!"units::isq::si::literals::_q_uV" true 1) "1 uV"),
  (135, .fmt "{}" (.lit n!"units::isq::si::literals::_q_m3" true 1) "1 m³"),
  (136, .fmt "{}" (.lit n!"units::isq::si::literals::_q_mm3" true 1) "1 mm³"),
  (137, .fmt "{}" (.lit n!"units::isq::si::literals::_q_cm3" true 1) "1 cm³"),
  (138, .fmt "{}" (.lit n!"units::isq::si::literals::_q_km3" true 1) "1 km³"),
  (139, .fmt "{}" (.lit n!"units::isq::si::international::literals::_q_ft3" true 1) "1 ft³"),
  (141, .fmt "{:%Q %Aq}" (.lit n!"units::isq::si::literals::_q_m3" true 1) "1 m^3"),
  (142, .fmt "{:%Q %Aq}" (.lit n!"units::isq::si::literals::_q_mm3" true 1) "1 mm^3"),
  (143, .fmt "{:%Q %Aq}" (.lit n!"units::isq::si::literals::_q_cm3" true 1) "1 cm^3"),
  (144, .fmt "{:%Q %Aq}" (.lit n!"units::isq::si::literals::_q_km3" true 1) "1 km^3"),
  (145, .fmt "{:%Q %Aq}" (.lit n!"units::isq::si::international::literals::_q_ft3" true 1) "1 ft^3"),
  (150, .fmt "{}" (.lit n!"units::isq::si::literals::_q_mHz" true 1) "1 mHz"),
  (151, .fmt "{}" (.lit n!"units::isq::si::literals::_q_kHz" true 1) "1 kHz"),
  (152, .fmt "{}" (.lit n!"units::isq::si::literals::_q_MHz" true 1) "1 MHz"),
  (153, .fmt "{}" (.lit n!"units::isq::si::literals::_q_GHz" true 1) "1 GHz"),
  (154, .fmt "{}" (.lit n!"units::isq::si::literals::_q_THz" true 1) "1 THz"),
  (159, .fmt "{}" (.lit n!"units::isq::si::literals::_q_m_per_s" true 1) "1 m/s"),
  (160, .fmt "{}" (.lit n!"units::isq::si::literals::_q_km_per_h" true 1) "1 km/h"),
  (161, .fmt "{}" (.lit n!"units::isq::si::international::literals::_q_mi_per_h" true 1) "1 mi/h"),
  (166, .fmt "{}" (.lit n!"units::isq::si::literals::_q_m_per_s2" true 1) "1 m/s²"),
  (167, .fmt "{:%Q %Aq}" (.lit n!"units::isq::si::literals::_q_m_per_s2" true 1) "1 m/s^2"),
  (172, .fmt "{}" (.lit n!"units::isq::si::literals::_q_kg_m_per_s" true 1) "1 kg ⋅ m/s"),
  (173, .fmt "{:%Q %Aq}" (.lit n!"units::isq::si::literals::_q_kg_m_per_s" true 1) "1 kg m/s"),
  (178, .fmt "{}" (.lit n!"units::isq::si::literals::_q_mJ" true 1) "1 mJ"),
  (179, .fmt "{}" (.lit n!"units::isq::si::literals::_q_kJ" true 1) "1 kJ"),
  (180, .fmt "{}" (.lit n!"units::isq::si::literals::_q_MJ" true 1) "1 MJ"),
  (181, .fmt "{}" (.lit n!"units::isq::si::literals::_q_GJ" true 1) "1 GJ"),
  (186, .fmt "{}" (.lit n!"units::isq::si::literals::_q_mW" true 1) "1 mW"),
  (187, .fmt "{}" (.lit n!"units::isq::si::literals::_q_kW" true 1) "1 kW"),
  (188, .fmt "{}" (.lit n!"units::isq::si::literals::_q_MW" true 1) "1 MW"),
  (189, .fmt "{}" (.lit n!"units::isq::si::literals::_q_GW" true 1) "1 GW"),
  (194, .fmt "{}" (.lit n!"units::isq::si::literals::_q_N_per_m" true 1) "1 N/m"),
  (199, .fmt "{}" (.lit n!"units::isq::si::literals::_q_T" true 1) "1 T"),
  (204, .fmt "{}" (.lit n!"units::isq::si::literals::_q_Wb" true 1) "1 Wb"),
  (205, .fmt "{}" (.lit n!"units::isq::si::literals::_q_G" true 1) "1 G"),
  (210, .fmt "{}" (.lit n!"units::isq::si::literals::_q_H" true 1) "1 H"),
  (211, .fmt "{}" (.lit n!"units::isq::si::literals::_q_mH" true 1) "1 mH"),
  (216, .fmt "{}" (.lit n!"units::isq::si::literals::_q_S" true 1) "1 S"),
  (217, .fmt "{}" (.lit n!"units::isq::si::literals::_q_nS" true 1) "1 nS"),
  (222, .fmt "{}" (.lit n!"units::isq::si::literals::_q_kat" true 1) "1 kat"),
  (223, .fmt "{}" (.lit n!"units::isq::si::literals::_q_U" true 1) "1 U"),
  (228, .fmt "{}" (.lit n!"units::isq::si::literals::_q_Gy" true 1) "1 Gy"),
  (229, .fmt "{}" (.lit n!"units::isq::si::literals::_q_kGy" true 1) "1 kGy"),
  (230, .fmt "{}" (.lit n!"units::isq::si::literals::_q_mGy" true 1) "1 mGy"),
  (235, .fmt "{}" (.op .add (.lit n!"units::isq::si::international::literals::_q_in" true 1) (.lit n!"units::isq::si::international::literals::_q_yd" true 1)) "37 in"),
  (240, .fmt "{}" (.lit n!"units::isq::si::literals::_q_A_per_m2" true 1) "1 A/m²"),
  (241, .fmt "{:%Q %Aq}" (.lit n!"units::isq::si::literals::_q_A_per_m2" true 1) "1 A/m^2"),
  (246, .fmt "{}" (.lit n!"units::isq::si::literals::_q_mol_per_m3" true 1) "1 mol/m³"),
  (247, .fmt "{:%Q %Aq}" (.lit n!"units::isq::si::literals::_q_mol_per_m3" true 1) "1 mol/m^3"),
  (252, .fmt "{}" (.lit n!"units::isq::si::literals::_q_cd_per_m2" true 1) "1 cd/m²"),
  (253, .fmt "{:%Q %Aq}" (.lit n!"units::isq::si::literals::_q_cd_per_m2" true 1) "1 cd/m^2"),
  (258, .fmt "{}" (.lit n!"units::isq::si::literals::_q_Pa_s" true 1) "1 Pa ⋅ s"),
  (259, .fmt "{:%Q %Aq}" (.lit n!"units::isq::si::literals::_q_Pa_s" true 1) "1 Pa s"),
  (264, .fmt "{}" (.lit n!"units::isq::si::literals::_q_J_per_K" true 1) "1 J/K"),
  (269, .fmt "{}" (.lit n!"units::isq::si::literals::_q_J_per_kg_K" true 1) "1 J ⋅ K⁻¹ ⋅ kg⁻¹"),
  (270, .fmt "{:%Q %Aq}" (.lit n!"units::isq::si::literals::_q_J_per_kg_K" true 1) "1 J K^-1 kg^-1"),
  (275, .fmt "{}" (.lit n!"units::isq::si::literals::_q_J_per_mol_K" true 1) "1 J ⋅ K⁻¹ ⋅ mol⁻¹"),
  (276, .fmt "{:%Q %Aq}" (.lit n!"units::isq::si::literals::_q_J_per_mol_K" true 1) "1 J K^-1 mol^-1"),
  (281, .fmt "{}" (.lit n!"units::isq::si::literals::_q_W_per_m_K" true 1) "1 W ⋅ m⁻¹ ⋅ K⁻¹"),
  (282, .fmt "{:%Q %Aq}" (.lit n!"units::isq::si::literals::_q_W_per_m_K" true 1) "1 W m^-1 K^-1"),
  (287, .fmt "{}" (.lit n!"units::isq::si::literals::_q_V_per_m" true 1) "1 V/m"),
  (292, .fmt "{}" (.lit n!"units::isq::si::literals::_q_C_per_m3" true 1) "1 C/m³"),
  (293, .fmt "{:%Q %Aq}" (.lit n!"units::isq::si::literals::_q_C_per_m3" true 1) "1 C/m^3"),
  (294, .fmt "{}" (.lit n!"units::isq::si::literals::_q_C_per_m2" true 1) "1 C/m²"),
  (295, .fmt "{:%Q %Aq}" (.lit n!"units::isq::si::literals::_q_C_per_m2" true 1) "1 C/m^2"),
  (300, .fmt "{}" (.lit n!"units::isq::si::literals::_q_F_per_m" true 1) "1 F/m"),
  (305, .fmt "{}" (.lit n!"units::isq::si::literals::_q_H_per_m" true 1) "1 H/m"),
  (310, .fmt "{}" (.lit n!"units::isq::si::literals::_q_J_per_mol" true 1) "1 J/mol"),
  (315, .fmt "{}" (.lit n!"units::isq::si::literals::_q_N_m_per_rad" true 1) "1 N ⋅ m/rad"),
  (320, .fmt "{}" (.op .mul (.num (.int .i32) 1) (.ref n!"units::isq::iec80000::storage_capacity_references::bit")) "1 bit"),
  (321, .fmt "{}" (.op .mul (.num (.int .i32) 1) (.ref n!"units::isq::iec80000::storage_capacity_references::kbit")) "1 kbit"),
  (322, .fmt "{}" (.op .mul (.num (.int .i32) 1) (.ref n!"units::isq::iec80000::storage_capacity_references::Tibit")) "1 Tibit"),
  (323, .fmt "{}" (.op .mul (.num (.int .i32) 1) (.ref n!"units::isq::iec80000::storage_capacity_references::B")) "1 B"),
  (324, .fmt "{}" (.op .mul (.num (.int .i32) 1) (.ref n!"units::isq::iec80000::storage_capacity_references::kB")) "1 kB"),
  (325, .fmt "{}" (.op .mul (.num (.int .i32) 1) (.ref n!"units::isq::iec80000::storage_capacity_references::TiB")) "1 TiB"),
  (330, .fmt "{}" (.op .mul (.num (.int .i32) 1) (.op .div (.ref n!"units::isq::iec80000::storage_capacity_references::B") (.ref n!"units::isq::si::time_references::s"))) "1 B/s"),
  (331, .fmt "{}" (.op .mul (.num (.int .i32) 1) (.op .div (.ref n!"units::isq::iec80000::storage_capacity_references::kB") (.ref n!"units::isq::si::time_references::s"))) "1 kB/s"),
  (332, .fmt "{}" (.op .mul (.num (.int .i32) 1) (.op .div (.ref n!"units::isq::iec80000::storage_capacity_references::TB") (.ref n!"units::isq::si::time_references::s"))) "1 TB/s"),
  (337, .fmt "{}" (.op .mul (.num (.int .i32) 1) (.ref n!"units::isq::iec80000::traffic_intensity_references::E")) "1 E"),
  (343, .fmt "{}" (.op .mul (.num (.int .i32) 1) (.ref n!"units::isq::iec80000::modulation_rate_references::Bd")) "1 Bd"),
  (344, .fmt "{}" (.op .mul (.num (.int .i32) 1) (.ref n!"units::isq::iec80000::modulation_rate_references::kBd")) "1 kBd"),
  (345, .fmt "{}" (.op .mul (.num (.int .i32) 1) (.ref n!"units::isq::iec80000::modulation_rate_references::TBd")) "1 TBd"),
  (346, .fmt "{}" (.cast (.unit (.nm n!"units::isq::iec80000::baud")) (.op .div (.num (.int .i32) 4) (.op .mul (.num (.int .i32) 2) (.ref n!"units::isq::si::time_references::s")))) "2 Bd"),
  (351, .fmt "{}" (.op .mul (.op .mul (.lit n!"units::isq::si::international::literals::_q_mi" true 1) (.lit n!"units::isq::si::international::literals::_q_mi" true 1)) (.lit n!"units::isq::si::international::literals::_q_mi" true 1)) "1 [15900351812136/3814697265625 × 10⁹] m³"),
  (352, .fmt "{}" (.op .mul (.lit n!"units::isq::si::literals::_q_au" true 1) (.lit n!"units::isq::si::literals::_q_au" true 1)) "1 [2237952291797391849 × 10⁴] m²"),
  (354, .fmt "{:%Q %Aq}" (.op .mul (.op .mul (.lit n!"units::isq::si::international::literals::_q_mi" true 1) (.lit n!"units::isq::si::international::literals::_q_mi" true 1)) (.lit n!"units::isq::si::international::literals::_q_mi" true 1)) "1 [15900351812136/3814697265625 x 10^9] m^3"),
  (355, .fmt "{:%Q %Aq}" (.op .mul (.lit n!"units::isq::si::literals::_q_au" true 1) (.lit n!"units::isq::si::literals::_q_au" true 1)) "1 [2237952291797391849 x 10^4] m^2"),
  (360, .fmt "{}" (.make (.alias n!"units::isq::si::mass" (.scaled (2) (3) (0) (.nm n!"units::isq::si::gram")) (.flt .f64)) (.num (.int .i32) 1)) "1 [2/3 × 10⁻³] kg"),
  (361, .fmt "{:%Q %Aq}" (.make (.alias n!"units::isq::si::mass" (.scaled (2) (3) (0) (.nm n!"units::isq::si::gram")) (.flt .f64)) (.num (.int .i32) 1)) "1 [2/3 x 10^-3] kg")]

#guard failuresT [n!"generic/dimensionless.h", n!"isq/iec80000/iec80000.h", n!"isq/si/iau/iau.h", n!"isq/si/imperial/imperial.h", n!"isq/si/international/international.h", n!"isq/si/si.h", n!"isq/si/typographic/typographic.h", n!"isq/si/uscs/uscs.h"] testFmtUnits = some []

/-- /repo/test/unit_test/runtime/math_test.cpp. -/
def testRuntimeMath : List (Nat × CheckT) := [
  (38, .check (.cmp .eq (.pow 0 1 (.lit n!"units::isq::si::literals::_q_m" true 2)) (.num (.int .i32) 1))),
  (42, .check (.cmp .eq (.pow 1 1 (.lit n!"units::isq::si::literals::_q_m" true 2)) (.lit n!"units::isq::si::literals::_q_m" true 2))),
  (46, .check (.cmp .eq (.pow 2 1 (.lit n!"units::isq::si::literals::_q_m" true 2)) (.lit n!"units::isq::si::literals::_q_m2" true 4))),
  (50, .check (.cmp .eq (.pow 3 1 (.lit n!"units::isq::si::literals::_q_m" true 2)) (.lit n!"units::isq::si::literals::_q_m3" true 8))),
  (56, .check (.cmp .eq (.sqrt (.lit n!"units::isq::si::literals::_q_m2" true 4)) (.lit n!"units::isq::si::literals::_q_m" true 2))),
  (61, .check (.cmp .eq (.cbrt (.lit n!"units::isq::si::literals::_q_m3" true 8)) (.lit n!"units::isq::si::literals::_q_m" true 2))),
  (66, .check (.cmp .eq (.pow 1 4 (.lit n!"units::isq::si::literals::_q_m2" true 16)) (.sqrt (.lit n!"units::isq::si::literals::_q_m" true 4)))),
  (75, .check (.cmp .eq (.abs (.neg (.lit n!"units::isq::si::literals::_q_m" true 1))) (.lit n!"units::isq::si::literals::_q_m" true 1))),
  (81, .check (.cmp .eq (.abs (.neg (.lit n!"units::isq::si::literals::_q_m" false 1))) (.lit n!"units::isq::si::literals::_q_m" true 1))),
  (90, .check (.cmp .eq (.abs (.lit n!"units::isq::si::literals::_q_m" true 1)) (.lit n!"units::isq::si::literals::_q_m" true 1))),
  (96, .check (.cmp .eq (.abs (.lit n!"units::isq::si::literals::_q_m" false 1)) (.lit n!"units::isq::si::literals::_q_m" true 1)))]

#guard failuresT [n!"generic/dimensionless.h", n!"isq/si/area.h", n!"isq/si/length.h", n!"isq/si/volume.h"] testRuntimeMath = some []

end Verif.Conformance
