import Verif.Conformance

/-!
# Static tests of the systems of units, replayed in the model (generated by tools/gen_conformance.py)

The number of each check is the line of the assertion in the test.
-/

namespace Verif.Conformance

open Systems

set_option Elab.async false
set_option maxRecDepth 100000

/-- /repo/test/unit_test/static/si_test.cpp: 210 of its 210 assertions. -/
def testSi : List (Nat × Check) := [
  (37, .cmp .eq (.lit n!"units::isq::si::literals::_q_km" true 1) (.lit n!"units::isq::si::literals::_q_m" true 1000)),
  (38, .cmp .eq (.lit n!"units::isq::si::literals::_q_m" true 1) (.lit n!"units::isq::si::literals::_q_cm" true 100)),
  (39, .cmp .eq (.lit n!"units::isq::si::literals::_q_m" true 1) (.lit n!"units::isq::si::literals::_q_dm" true 10)),
  (40, .cmp .eq (.lit n!"units::isq::si::literals::_q_m" true 1) (.lit n!"units::isq::si::literals::_q_mm" true 1000)),
  (41, .cmp .eq (.lit n!"units::isq::si::literals::_q_hm" true 1) (.lit n!"units::isq::si::literals::_q_m" true 100)),
  (42, .cmp .eq (.lit n!"units::isq::si::literals::_q_au" true 1) (.lit n!"units::isq::si::literals::_q_m" true 149597870700)),
  (43, .cmp .eq (.op .add (.lit n!"units::isq::si::literals::_q_km" true 1) (.lit n!"units::isq::si::literals::_q_m" true 1)) (.lit n!"units::isq::si::literals::_q_m" true 1001)),
  (44, .cmp .eq (.op .div (.lit n!"units::isq::si::literals::_q_km" true 10) (.lit n!"units::isq::si::literals::_q_km" true 5)) (.num (.int .i32) 2)),
  (45, .cmp .lt (.op .div (.lit n!"units::isq::si::literals::_q_km" true 10) (.lit n!"units::isq::si::literals::_q_km" true 5)) (.num (.int .i32) 3)),
  (46, .cmp .eq (.op .div (.lit n!"units::isq::si::literals::_q_mm" true 100) (.lit n!"units::isq::si::literals::_q_cm" true 5)) (.make (.alias n!"units::dimensionless" (.scaled (1) (1) (-1) (.nm n!"units::one")) (.flt .f64)) (.num (.int .i32) 20))),
  (47, .cmp .eq (.op .div (.lit n!"units::isq::si::literals::_q_mm" true 100) (.lit n!"units::isq::si::literals::_q_cm" true 5)) (.make (.alias n!"units::dimensionless" (.nm n!"units::one") (.flt .f64)) (.num (.int .i32) 2))),
  (48, .cmp .eq (.op .div (.lit n!"units::isq::si::literals::_q_km" true 10) (.num (.int .i32) 2)) (.lit n!"units::isq::si::literals::_q_km" true 5)),
  (50, .symbol n!"units::isq::si::millimetre" "mm" "mm"),
  (51, .symbol n!"units::isq::si::centimetre" "cm" "cm"),
  (52, .symbol n!"units::isq::si::decimetre" "dm" "dm"),
  (53, .symbol n!"units::isq::si::kilometre" "km" "km"),
  (57, .cmp .eq (.lit n!"units::isq::si::literals::_q_kg" true 1) (.lit n!"units::isq::si::literals::_q_g" true 1000)),
  (58, .cmp .eq (.lit n!"units::isq::si::literals::_q_t" true 1) (.lit n!"units::isq::si::literals::_q_kg" true 1000)),
  (59, .cmp .eq (.lit n!"units::isq::si::literals::_q_kt" true 1) (.lit n!"units::isq::si::literals::_q_kg" true 1000000)),
  (61, .symbol n!"units::isq::si::kilogram" "kg" "kg"),
  (62, .symbol n!"units::isq::si::tonne" "t" "t"),
  (63, .symbol n!"units::isq::si::kilotonne" "kt" "kt"),
  (67, .cmp .eq (.lit n!"units::isq::si::literals::_q_us" true 1) (.lit n!"units::isq::si::literals::_q_ns" true 1000)),
  (68, .cmp .eq (.lit n!"units::isq::si::literals::_q_ms" true 1) (.lit n!"units::isq::si::literals::_q_us" true 1000)),
  (69, .cmp .eq (.lit n!"units::isq::si::literals::_q_s" true 1) (.lit n!"units::isq::si::literals::_q_ms" true 1000)),
  (70, .cmp .eq (.lit n!"units::isq::si::literals::_q_min" true 1) (.lit n!"units::isq::si::literals::_q_s" true 60)),
  (71, .cmp .eq (.lit n!"units::isq::si::literals::_q_h" true 1) (.lit n!"units::isq::si::literals::_q_min" true 60)),
  (72, .cmp .eq (.lit n!"units::isq::si::literals::_q_h" true 1) (.lit n!"units::isq::si::literals::_q_s" true 3600)),
  (73, .cmp .eq (.lit n!"units::isq::si::literals::_q_d" true 1) (.lit n!"units::isq::si::literals::_q_h" true 24)),
  (74, .cmp .eq (.lit n!"units::isq::si::literals::_q_d" true 1) (.lit n!"units::isq::si::literals::_q_s" true 86400)),
  (76, .symbol n!"units::isq::si::nanosecond" "ns" "ns"),
  (77, .symbol n!"units::isq::si::microsecond" "µs" "us"),
  (78, .symbol n!"units::isq::si::millisecond" "ms" "ms"),
  (92, .cmp .eq (.lit n!"units::isq::si::literals::_q_mHz" true 1000) (.lit n!"units::isq::si::literals::_q_Hz" true 1)),
  (93, .cmp .eq (.lit n!"units::isq::si::literals::_q_Hz" true 1000) (.lit n!"units::isq::si::literals::_q_kHz" true 1)),
  (94, .cmp .eq (.lit n!"units::isq::si::literals::_q_kHz" true 1000) (.lit n!"units::isq::si::literals::_q_MHz" true 1)),
  (95, .cmp .eq (.lit n!"units::isq::si::literals::_q_MHz" true 1000) (.lit n!"units::isq::si::literals::_q_GHz" true 1)),
  (96, .cmp .eq (.lit n!"units::isq::si::literals::_q_GHz" true 1000) (.lit n!"units::isq::si::literals::_q_THz" true 1)),
  (98, .symbol n!"units::isq::si::millihertz" "mHz" "mHz"),
  (99, .symbol n!"units::isq::si::kilohertz" "kHz" "kHz"),
  (100, .symbol n!"units::isq::si::megahertz" "MHz" "MHz"),
  (101, .symbol n!"units::isq::si::gigahertz" "GHz" "GHz"),
  (102, .symbol n!"units::isq::si::terahertz" "THz" "THz"),
  (104, .cmp .eq (.op .div (.num (.int .i32) 2) (.lit n!"units::isq::si::literals::_q_s" true 1)) (.lit n!"units::isq::si::literals::_q_Hz" true 2)),
  (105, .cmp .eq (.op .div (.num (.int .i32) 120) (.lit n!"units::isq::si::literals::_q_min" true 1)) (.lit n!"units::isq::si::literals::_q_Hz" true 2)),
  (106, .cmp .eq (.op .div (.num (.int .i32) 1000) (.lit n!"units::isq::si::literals::_q_s" true 1)) (.lit n!"units::isq::si::literals::_q_kHz" true 1)),
  (107, .cmp .eq (.op .div (.num (.int .i32) 1) (.lit n!"units::isq::si::literals::_q_ms" true 1)) (.lit n!"units::isq::si::literals::_q_kHz" true 1)),
  (108, .cmp .eq (.lit n!"units::isq::si::literals::_q_GHz" false (16 / 5)) (.lit n!"units::isq::si::literals::_q_Hz" true 3200000000)),
  (109, .cmp .eq (.number (.op .mul (.lit n!"units::isq::si::literals::_q_Hz" true 10) (.lit n!"units::isq::si::literals::_q_min" true 1))) (.num (.int .i32) 10)),
  (110, .cmp .eq (.op .mul (.lit n!"units::isq::si::literals::_q_Hz" true 10) (.lit n!"units::isq::si::literals::_q_min" true 1)) (.make (.alias n!"units::dimensionless" (.scaled (60) (1) (0) (.nm n!"units::one")) (.flt .f64)) (.num (.int .i32) 10))),
  (111, .cmp .eq (.op .mul (.lit n!"units::isq::si::literals::_q_Hz" true 10) (.lit n!"units::isq::si::literals::_q_min" true 1)) (.make (.alias n!"units::dimensionless" (.nm n!"units::one") (.flt .f64)) (.num (.int .i32) 600))),
  (112, .cmp .eq (.op .div (.num (.int .i32) 2) (.lit n!"units::isq::si::literals::_q_Hz" true 1)) (.lit n!"units::isq::si::literals::_q_s" true 2)),
  (115, .cmp .eq (.op .mul (.lit n!"units::isq::si::literals::_q_kg" true 10) (.lit n!"units::isq::si::literals::_q_m_per_s2" true 10)) (.lit n!"units::isq::si::literals::_q_N" true 100)),
  (116, .cmp .eq (.op .div (.lit n!"units::isq::si::literals::_q_N" true 100) (.lit n!"units::isq::si::literals::_q_m_per_s2" true 1)) (.lit n!"units::isq::si::literals::_q_kg" true 100)),
  (117, .cmp .eq (.op .div (.lit n!"units::isq::si::literals::_q_N" true 100) (.lit n!"units::isq::si::literals::_q_kg" true 1)) (.lit n!"units::isq::si::literals::_q_m_per_s2" true 100)),
  (121, .cmp .eq (.op .div (.lit n!"units::isq::si::literals::_q_N" true 10) (.lit n!"units::isq::si::literals::_q_m2" true 10)) (.lit n!"units::isq::si::literals::_q_Pa" true 1)),
  (122, .cmp .eq (.op .div (.lit n!"units::isq::si::literals::_q_N" true 10) (.lit n!"units::isq::si::literals::_q_Pa" true 1)) (.lit n!"units::isq::si::literals::_q_m2" true 10)),
  (123, .cmp .eq (.op .mul (.lit n!"units::isq::si::literals::_q_Pa" true 1) (.lit n!"units::isq::si::literals::_q_m2" true 10)) (.lit n!"units::isq::si::literals::_q_N" true 10)),
  (127, .cmp .eq (.lit n!"units::isq::si::literals::_q_mJ" true 1000) (.lit n!"units::isq::si::literals::_q_J" true 1)),
  (128, .cmp .eq (.lit n!"units::isq::si::literals::_q_J" true 1000) (.lit n!"units::isq::si::literals::_q_kJ" true 1)),
  (129, .cmp .eq (.lit n!"units::isq::si::literals::_q_kJ" true 1000) (.lit n!"units::isq::si::literals::_q_MJ" true 1)),
  (130, .cmp .eq (.lit n!"units::isq::si::literals::_q_MJ" true 1000) (.lit n!"units::isq::si::literals::_q_GJ" true 1)),
  (132, .symbol n!"units::isq::si::millijoule" "mJ" "mJ"),
  (133, .symbol n!"units::isq::si::kilojoule" "kJ" "kJ"),
  (134, .symbol n!"units::isq::si::megajoule" "MJ" "MJ"),
  (135, .symbol n!"units::isq::si::gigajoule" "GJ" "GJ"),
  (137, .cmp .eq (.op .mul (.lit n!"units::isq::si::literals::_q_N" true 10) (.lit n!"units::isq::si::literals::_q_m" true 10)) (.lit n!"units::isq::si::literals::_q_J" true 100)),
  (138, .cmp .eq (.op .div (.lit n!"units::isq::si::literals::_q_J" true 100) (.lit n!"units::isq::si::literals::_q_m" true 10)) (.lit n!"units::isq::si::literals::_q_N" true 10)),
  (139, .cmp .eq (.op .div (.lit n!"units::isq::si::literals::_q_J" true 100) (.lit n!"units::isq::si::literals::_q_N" true 10)) (.lit n!"units::isq::si::literals::_q_m" true 10)),
  (140, .cmp .eq (.op .mul (.lit n!"units::isq::si::literals::_q_Pa" true 10) (.lit n!"units::isq::si::literals::_q_m3" true 10)) (.lit n!"units::isq::si::literals::_q_J" true 100)),
  (141, .cmp .eq (.op .div (.lit n!"units::isq::si::literals::_q_J" true 100) (.lit n!"units::isq::si::literals::_q_Pa" true 10)) (.lit n!"units::isq::si::literals::_q_m3" true 10)),
  (142, .cmp .eq (.op .div (.lit n!"units::isq::si::literals::_q_J" true 100) (.lit n!"units::isq::si::literals::_q_m3" true 10)) (.lit n!"units::isq::si::literals::_q_Pa" true 10)),
  (146, .cmp .eq (.lit n!"units::isq::si::literals::_q_mW" true 1000) (.lit n!"units::isq::si::literals::_q_W" true 1)),
  (147, .cmp .eq (.lit n!"units::isq::si::literals::_q_W" true 1000) (.lit n!"units::isq::si::literals::_q_kW" true 1)),
  (148, .cmp .eq (.lit n!"units::isq::si::literals::_q_kW" true 1000) (.lit n!"units::isq::si::literals::_q_MW" true 1)),
  (149, .cmp .eq (.lit n!"units::isq::si::literals::_q_MW" true 1000) (.lit n!"units::isq::si::literals::_q_GW" true 1)),
  (151, .symbol n!"units::isq::si::milliwatt" "mW" "mW"),
  (152, .symbol n!"units::isq::si::kilowatt" "kW" "kW"),
  (153, .symbol n!"units::isq::si::megawatt" "MW" "MW"),
  (154, .symbol n!"units::isq::si::gigawatt" "GW" "GW"),
  (156, .cmp .eq (.op .div (.lit n!"units::isq::si::literals::_q_J" true 10) (.lit n!"units::isq::si::literals::_q_s" true 10)) (.lit n!"units::isq::si::literals::_q_W" true 1)),
  (157, .cmp .eq (.op .mul (.lit n!"units::isq::si::literals::_q_W" true 1) (.lit n!"units::isq::si::literals::_q_s" true 10)) (.lit n!"units::isq::si::literals::_q_J" true 10)),
  (158, .cmp .eq (.op .div (.lit n!"units::isq::si::literals::_q_J" true 10) (.lit n!"units::isq::si::literals::_q_W" true 1)) (.lit n!"units::isq::si::literals::_q_s" true 10)),
  (162, .cmp .eq (.op .mul (.lit n!"units::isq::si::literals::_q_A" true 10) (.lit n!"units::isq::si::literals::_q_s" true 10)) (.lit n!"units::isq::si::literals::_q_C" true 100)),
  (163, .cmp .eq (.op .div (.lit n!"units::isq::si::literals::_q_C" true 100) (.lit n!"units::isq::si::literals::_q_A" true 10)) (.lit n!"units::isq::si::literals::_q_s" true 10)),
  (164, .cmp .eq (.op .div (.lit n!"units::isq::si::literals::_q_C" true 100) (.lit n!"units::isq::si::literals::_q_s" true 10)) (.lit n!"units::isq::si::literals::_q_A" true 10)),
  (168, .cmp .eq (.op .div (.lit n!"units::isq::si::literals::_q_W" true 10) (.lit n!"units::isq::si::literals::_q_A" true 10)) (.lit n!"units::isq::si::literals::_q_V" true 1)),
  (169, .cmp .eq (.op .div (.lit n!"units::isq::si::literals::_q_W" true 10) (.lit n!"units::isq::si::literals::_q_V" true 1)) (.lit n!"units::isq::si::literals::_q_A" true 10)),
  (170, .cmp .eq (.op .mul (.lit n!"units::isq::si::literals::_q_V" true 1) (.lit n!"units::isq::si::literals::_q_A" true 10)) (.lit n!"units::isq::si::literals::_q_W" true 10)),
  (171, .cmp .eq (.op .div (.lit n!"units::isq::si::literals::_q_J" true 10) (.lit n!"units::isq::si::literals::_q_C" true 10)) (.lit n!"units::isq::si::literals::_q_V" true 1)),
  (172, .cmp .eq (.op .div (.lit n!"units::isq::si::literals::_q_J" true 10) (.lit n!"units::isq::si::literals::_q_V" true 1)) (.lit n!"units::isq::si::literals::_q_C" true 10)),
  (173, .cmp .eq (.op .mul (.lit n!"units::isq::si::literals::_q_C" true 10) (.lit n!"units::isq::si::literals::_q_V" true 1)) (.lit n!"units::isq::si::literals::_q_J" true 10)),
  (177, .cmp .eq (.op .div (.lit n!"units::isq::si::literals::_q_C" true 10) (.lit n!"units::isq::si::literals::_q_V" true 10)) (.lit n!"units::isq::si::literals::_q_F" true 1)),
  (178, .cmp .eq (.op .div (.lit n!"units::isq::si::literals::_q_C" true 10) (.lit n!"units::isq::si::literals::_q_F" true 1)) (.lit n!"units::isq::si::literals::_q_V" true 10)),
  (179, .cmp .eq (.op .mul (.lit n!"units::isq::si::literals::_q_V" true 10) (.lit n!"units::isq::si::literals::_q_F" true 1)) (.lit n!"units::isq::si::literals::_q_C" true 10)),
  (183, .cmp .eq (.lit n!"units::isq::si::literals::_q_T" true 1) (.op .div (.op .mul (.lit n!"units::isq::si::literals::_q_V" true 1) (.lit n!"units::isq::si::literals::_q_s" true 1)) (.op .mul (.lit n!"units::isq::si::literals::_q_m" true 1) (.lit n!"units::isq::si::literals::_q_m" true 1)))),
  (184, .cmp .eq (.op .div (.lit n!"units::isq::si::literals::_q_T" true 10) (.lit n!"units::isq::si::literals::_q_s" true 1)) (.op .div (.lit n!"units::isq::si::literals::_q_V" true 10) (.op .mul (.lit n!"units::isq::si::literals::_q_m" true 1) (.lit n!"units::isq::si::literals::_q_m" true 1)))),
  (185, .cmp .eq (.op .mul (.lit n!"units::isq::si::literals::_q_T" true 10) (.op .mul (.lit n!"units::isq::si::literals::_q_m" true 1) (.lit n!"units::isq::si::literals::_q_m" true 1))) (.op .mul (.lit n!"units::isq::si::literals::_q_s" true 10) (.lit n!"units::isq::si::literals::_q_V" true 1))),
  (186, .cmp .eq (.op .div (.lit n!"units::isq::si::literals::_q_N" true 10) (.op .mul (.lit n!"units::isq::si::literals::_q_A" true 1) (.lit n!"units::isq::si::literals::_q_m" true 1))) (.lit n!"units::isq::si::literals::_q_T" true 10)),
  (188, .symbol n!"units::isq::si::millitesla" "mT" "mT"),
  (189, .symbol n!"units::isq::si::microtesla" "µT" "uT"),
  (190, .symbol n!"units::isq::si::nanotesla" "nT" "nT"),
  (191, .symbol n!"units::isq::si::picotesla" "pT" "pT"),
  (195, .cmp .eq (.lit n!"units::isq::si::literals::_q_Wb" true 1) (.op .mul (.lit n!"units::isq::si::literals::_q_T" true 1) (.lit n!"units::isq::si::literals::_q_m2" true 1))),
  (196, .cmp .eq (.lit n!"units::isq::si::literals::_q_J" true 1) (.op .mul (.lit n!"units::isq::si::literals::_q_Wb" true 1) (.lit n!"units::isq::si::literals::_q_A" true 1))),
  (197, .cmp .eq (.op .mul (.lit n!"units::isq::si::literals::_q_N" true 1) (.lit n!"units::isq::si::literals::_q_s" true 1)) (.op .div (.op .mul (.lit n!"units::isq::si::literals::_q_Wb" true 1) (.lit n!"units::isq::si::literals::_q_C" true 1)) (.lit n!"units::isq::si::literals::_q_m" true 1))),
  (199, .symbol n!"units::isq::si::milliweber" "mWb" "mWb"),
  (200, .symbol n!"units::isq::si::microweber" "µWb" "uWb"),
  (201, .symbol n!"units::isq::si::nanoweber" "nWb" "nWb"),
  (202, .symbol n!"units::isq::si::picoweber" "pWb" "pWb"),
  (206, .cmp .eq (.lit n!"units::isq::si::literals::_q_H" true 1) (.op .div (.lit n!"units::isq::si::literals::_q_Wb" true 1) (.lit n!"units::isq::si::literals::_q_A" true 1))),
  (207, .cmp .eq (.lit n!"units::isq::si::literals::_q_V" true 1) (.op .div (.op .mul (.lit n!"units::isq::si::literals::_q_H" true 1) (.lit n!"units::isq::si::literals::_q_A" true 1)) (.lit n!"units::isq::si::literals::_q_s" true 1))),
  (208, .cmp .eq (.lit n!"units::isq::si::literals::_q_J" true 1) (.op .mul (.op .mul (.lit n!"units::isq::si::literals::_q_H" true 1) (.lit n!"units::isq::si::literals::_q_A" true 1)) (.lit n!"units::isq::si::literals::_q_A" true 1))),
  (210, .symbol n!"units::isq::si::millihenry" "mH" "mH"),
  (211, .symbol n!"units::isq::si::microhenry" "µH" "uH"),
  (212, .symbol n!"units::isq::si::nanohenry" "nH" "nH"),
  (213, .symbol n!"units::isq::si::picohenry" "pH" "pH"),
  (217, .cmp .eq (.op .mul (.lit n!"units::isq::si::literals::_q_S" true 1) (.lit n!"units::isq::si::literals::_q_R" true 1)) (.num (.int .i32) 1)),
  (218, .cmp .eq (.lit n!"units::isq::si::literals::_q_S" true 1) (.op .div (.lit n!"units::isq::si::literals::_q_A" true 1) (.lit n!"units::isq::si::literals::_q_V" true 1))),
  (219, .cmp .eq (.lit n!"units::isq::si::literals::_q_W" true 1) (.op .div (.op .mul (.lit n!"units::isq::si::literals::_q_A" true 1) (.lit n!"units::isq::si::literals::_q_A" true 1)) (.lit n!"units::isq::si::literals::_q_S" true 1))),
  (221, .symbol n!"units::isq::si::millisiemens" "mS" "mS"),
  (222, .symbol n!"units::isq::si::microsiemens" "µS" "uS"),
  (223, .symbol n!"units::isq::si::nanosiemens" "nS" "nS"),
  (227, .cmp .eq (.lit n!"units::isq::si::literals::_q_kat" true 1) (.op .div (.lit n!"units::isq::si::literals::_q_mol" true 1) (.lit n!"units::isq::si::literals::_q_s" true 1))),
  (228, .cmp .eq (.lit n!"units::isq::si::literals::_q_U" true 1000000) (.op .div (.lit n!"units::isq::si::literals::_q_mol" true 1) (.lit n!"units::isq::si::literals::_q_min" true 1))),
  (230, .symbol n!"units::isq::si::katal" "kat" "kat"),
  (231, .symbol n!"units::isq::si::enzyme_unit" "U" "U"),
  (235, .cmp .eq (.lit n!"units::isq::si::literals::_q_Gy" true 1) (.op .div (.lit n!"units::isq::si::literals::_q_J" true 1) (.lit n!"units::isq::si::literals::_q_kg" true 1))),
  (236, .cmp .eq (.op .div (.op .mul (.lit n!"units::isq::si::literals::_q_W" false 9) (.lit n!"units::isq::si::literals::_q_s" true 3)) (.lit n!"units::isq::si::literals::_q_kg" true 60)) (.lit n!"units::isq::si::literals::_q_mGy" true 450)),
  (238, .symbol n!"units::isq::si::gray" "Gy" "Gy"),
  (239, .symbol n!"units::isq::si::milligray" "mGy" "mGy"),
  (240, .symbol n!"units::isq::si::kilogray" "kGy" "kGy"),
  (246, .cmp .eq (.op .div (.lit n!"units::isq::si::literals::_q_m" true 10) (.lit n!"units::isq::si::literals::_q_s" true 5)) (.lit n!"units::isq::si::literals::_q_m_per_s" true 2)),
  (247, .cmp .eq (.op .mul (.op .div (.num (.int .i32) 10) (.lit n!"units::isq::si::literals::_q_s" true 5)) (.lit n!"units::isq::si::literals::_q_m" true 1)) (.lit n!"units::isq::si::literals::_q_m_per_s" true 2)),
  (248, .cmp .eq (.op .div (.lit n!"units::isq::si::literals::_q_km" true 1) (.lit n!"units::isq::si::literals::_q_s" true 1)) (.lit n!"units::isq::si::literals::_q_m_per_s" true 1000)),
  (249, .cmp .eq (.op .div (.lit n!"units::isq::si::literals::_q_km" true 1) (.lit n!"units::isq::si::literals::_q_h" true 1)) (.lit n!"units::isq::si::literals::_q_km_per_h" true 1)),
  (250, .cmp .eq (.op .div (.lit n!"units::isq::si::literals::_q_km" false 1) (.lit n!"units::isq::si::literals::_q_h" true 1)) (.lit n!"units::isq::si::literals::_q_km_per_h" true 1)),
  (251, .cmp .eq (.op .div (.lit n!"units::isq::si::literals::_q_m" false 1000) (.lit n!"units::isq::si::literals::_q_s" false 3600)) (.lit n!"units::isq::si::literals::_q_km_per_h" true 1)),
  (253, .cmp .eq (.op .mul (.lit n!"units::isq::si::literals::_q_km_per_h" true 2) (.lit n!"units::isq::si::literals::_q_h" true 2)) (.lit n!"units::isq::si::literals::_q_km" true 4)),
  (254, .cmp .eq (.op .mul (.lit n!"units::isq::si::literals::_q_km_per_h" true 2) (.lit n!"units::isq::si::literals::_q_min" true 15)) (.lit n!"units::isq::si::literals::_q_m" true 500)),
  (255, .cmp .eq (.op .mul (.lit n!"units::isq::si::literals::_q_km_per_h" true 2) (.lit n!"units::isq::si::literals::_q_min" false 15)) (.lit n!"units::isq::si::literals::_q_m" true 500)),
  (256, .cmp .eq (.op .mul (.lit n!"units::isq::si::literals::_q_km_per_h" false 2) (.lit n!"units::isq::si::literals::_q_min" true 15)) (.lit n!"units::isq::si::literals::_q_m" true 500)),
  (258, .cmp .eq (.op .div (.lit n!"units::isq::si::literals::_q_km" true 2) (.lit n!"units::isq::si::literals::_q_km_per_h" true 2)) (.lit n!"units::isq::si::literals::_q_h" true 1)),
  (259, .cmp .eq (.op .div (.lit n!"units::isq::si::literals::_q_m" true 2000) (.lit n!"units::isq::si::literals::_q_km_per_h" true 2)) (.lit n!"units::isq::si::literals::_q_h" true 1)),
  (260, .cmp .eq (.op .div (.castUnit (.nm n!"units::isq::si::kilometre") (.lit n!"units::isq::si::literals::_q_m" true 2000)) (.lit n!"units::isq::si::literals::_q_km_per_h" true 2)) (.lit n!"units::isq::si::literals::_q_h" true 1)),
  (262, .unitText n!"units::isq::si::dim_speed" n!"units::isq::si::metre_per_second" "m/s" "m/s"),
  (263, .symbol n!"units::isq::si::kilometre_per_hour" "km/h" "km/h"),
  (267, .cmp .eq (.op .div (.lit n!"units::isq::si::literals::_q_m_per_s" true 10) (.lit n!"units::isq::si::literals::_q_s" true 10)) (.lit n!"units::isq::si::literals::_q_m_per_s2" true 1)),
  (268, .cmp .eq (.op .div (.lit n!"units::isq::si::literals::_q_m_per_s" true 10) (.lit n!"units::isq::si::literals::_q_m_per_s2" true 1)) (.lit n!"units::isq::si::literals::_q_s" true 10)),
  (269, .cmp .eq (.op .mul (.lit n!"units::isq::si::literals::_q_m_per_s2" true 1) (.lit n!"units::isq::si::literals::_q_s" true 10)) (.lit n!"units::isq::si::literals::_q_m_per_s" true 10)),
  (271, .unitText n!"units::isq::si::dim_acceleration" n!"units::isq::si::metre_per_second_sq" "m/s²" "m/s^2"),
  (275, .cmp .eq (.op .mul (.lit n!"units::isq::si::literals::_q_m" true 10) (.lit n!"units::isq::si::literals::_q_m" true 10)) (.lit n!"units::isq::si::literals::_q_m2" true 100)),
  (276, .cmp .eq (.op .div (.lit n!"units::isq::si::literals::_q_m2" true 100) (.lit n!"units::isq::si::literals::_q_m" true 10)) (.lit n!"units::isq::si::literals::_q_m" true 10)),
  (277, .cmp .eq (.op .mul (.lit n!"units::isq::si::literals::_q_km" true 10) (.lit n!"units::isq::si::literals::_q_km" true 10)) (.lit n!"units::isq::si::literals::_q_km2" true 100)),
  (278, .cmp .eq (.lit n!"units::isq::si::literals::_q_m2" true 1) (.lit n!"units::isq::si::literals::_q_cm2" true 10000)),
  (279, .cmp .eq (.lit n!"units::isq::si::literals::_q_ha" true 1) (.lit n!"units::isq::si::literals::_q_m2" true 10000)),
  (281, .symbol n!"units::isq::si::hectare" "ha" "ha"),
  (283, .unitText n!"units::isq::si::dim_area" n!"units::isq::si::square_metre" "m²" "m^2"),
  (287, .cmp .eq (.op .mul (.op .mul (.lit n!"units::isq::si::literals::_q_m" true 1) (.lit n!"units::isq::si::literals::_q_m" true 1)) (.lit n!"units::isq::si::literals::_q_m" true 1)) (.lit n!"units::isq::si::literals::_q_m3" true 1)),
  (288, .cmp .eq (.op .mul (.lit n!"units::isq::si::literals::_q_m2" true 10) (.lit n!"units::isq::si::literals::_q_m" true 10)) (.lit n!"units::isq::si::literals::_q_m3" true 100)),
  (289, .cmp .eq (.op .mul (.op .mul (.lit n!"units::isq::si::literals::_q_km" true 10) (.lit n!"units::isq::si::literals::_q_km" true 10)) (.lit n!"units::isq::si::literals::_q_km" true 10)) (.lit n!"units::isq::si::literals::_q_km3" true 1000)),
  (290, .cmp .eq (.lit n!"units::isq::si::literals::_q_m3" true 1) (.lit n!"units::isq::si::literals::_q_cm3" true 1000000)),
  (291, .cmp .eq (.op .mul (.op .mul (.lit n!"units::isq::si::literals::_q_dm" true 1) (.lit n!"units::isq::si::literals::_q_dm" true 1)) (.lit n!"units::isq::si::literals::_q_dm" true 1)) (.lit n!"units::isq::si::literals::_q_l" true 1)),
  (292, .cmp .eq (.lit n!"units::isq::si::literals::_q_l" true 1000) (.lit n!"units::isq::si::literals::_q_m3" true 1)),
  (293, .cmp .eq (.lit n!"units::isq::si::literals::_q_kl" true 1) (.lit n!"units::isq::si::literals::_q_m3" true 1)),
  (295, .symbol n!"units::isq::si::litre" "l" "l"),
  (296, .symbol n!"units::isq::si::kilolitre" "kl" "kl"),
  (298, .unitText n!"units::isq::si::dim_volume" n!"units::isq::si::cubic_metre" "m³" "m^3"),
  (302, .cmp .eq (.op .div (.lit n!"units::isq::si::literals::_q_N" true 10) (.lit n!"units::isq::si::literals::_q_m" true 2)) (.lit n!"units::isq::si::literals::_q_N_per_m" true 5)),
  (303, .cmp .eq (.op .div (.lit n!"units::isq::si::literals::_q_N" true 10) (.lit n!"units::isq::si::literals::_q_N_per_m" true 5)) (.lit n!"units::isq::si::literals::_q_m" true 2)),
  (304, .cmp .eq (.op .mul (.lit n!"units::isq::si::literals::_q_m" true 2) (.lit n!"units::isq::si::literals::_q_N_per_m" true 5)) (.lit n!"units::isq::si::literals::_q_N" true 10)),
  (306, .unitText n!"units::isq::si::dim_surface_tension" n!"units::isq::si::newton_per_metre" "N/m" "N/m"),
  (310, .cmp .eq (.lit n!"units::isq::si::literals::_q_A_per_m2" true 12) (.op .div (.lit n!"units::isq::si::literals::_q_A" true 60) (.lit n!"units::isq::si::literals::_q_m2" true 5))),
  (311, .cmp .eq (.lit n!"units::isq::si::literals::_q_A_per_m2" true 1) (.op .div (.op .mul (.lit n!"units::isq::si::literals::_q_S" true 1) (.lit n!"units::isq::si::literals::_q_V" true 1)) (.lit n!"units::isq::si::literals::_q_m2" true 1))),
  (313, .unitText n!"units::isq::si::dim_current_density" n!"units::isq::si::ampere_per_metre_sq" "A/m²" "A/m^2"),
  (317, .cmp .eq (.lit n!"units::isq::si::literals::_q_mol_per_m3" true 1) (.op .div (.op .mul (.lit n!"units::isq::si::literals::_q_kg_per_m3" true 1) (.lit n!"units::isq::si::literals::_q_mol" true 1)) (.lit n!"units::isq::si::literals::_q_kg" true 1))),
  (318, .unitText n!"units::isq::si::dim_concentration" n!"units::isq::si::ampere_per_metre_sq" "mol/m³" "mol/m^3"),
  (322, .cmp .eq (.lit n!"units::isq::si::literals::_q_cd_per_m2" true 1) (.op .div (.lit n!"units::isq::si::literals::_q_cd" true 1) (.lit n!"units::isq::si::literals::_q_m2" true 1))),
  (323, .unitText n!"units::isq::si::dim_luminance" n!"units::isq::si::candela_per_metre_sq" "cd/m²" "cd/m^2"),
  (327, .cmp .eq (.lit n!"units::isq::si::literals::_q_Pa_s" true 1) (.op .div (.op .mul (.lit n!"units::isq::si::literals::_q_N" true 1) (.lit n!"units::isq::si::literals::_q_s" true 1)) (.lit n!"units::isq::si::literals::_q_m2" true 1))),
  (328, .unitText n!"units::isq::si::dim_dynamic_viscosity" n!"units::isq::si::pascal_second" "Pa ⋅ s" "Pa s"),
  (332, .cmp .eq (.lit n!"units::isq::si::literals::_q_J_per_K" true 1) (.op .mul (.lit n!"units::isq::si::literals::_q_J_per_kg_K" true 1) (.lit n!"units::isq::si::literals::_q_kg" true 1))),
  (333, .cmp .eq (.op .mul (.lit n!"units::isq::si::literals::_q_J_per_K" true 1) (.lit n!"units::isq::si::literals::_q_K" true 1)) (.op .mul (.op .mul (.lit n!"units::isq::si::literals::_q_s" true 1) (.lit n!"units::isq::si::literals::_q_N" true 1)) (.lit n!"units::isq::si::literals::_q_m_per_s" true 1))),
  (334, .cmp .eq (.lit n!"units::isq::si::literals::_q_J_per_mol_K" true 1) (.op .div (.lit n!"units::isq::si::literals::_q_J_per_K" true 1) (.lit n!"units::isq::si::literals::_q_mol" true 1))),
  (336, .unitText n!"units::isq::si::dim_heat_capacity" n!"units::isq::si::joule_per_kelvin" "J/K" "J/K"),
  (337, .unitText n!"units::isq::si::dim_specific_heat_capacity" n!"units::isq::si::joule_per_kilogram_kelvin" "J ⋅ K⁻¹ ⋅ kg⁻¹" "J K^-1 kg^-1"),
  (341, .cmp .eq (.op .mul (.op .mul (.lit n!"units::isq::si::literals::_q_W_per_m_K" true 20) (.lit n!"units::isq::si::literals::_q_m" true 10)) (.lit n!"units::isq::si::literals::_q_K" true 300)) (.lit n!"units::isq::si::literals::_q_W" true 60000)),
  (342, .unitText n!"units::isq::si::dim_thermal_conductivity" n!"units::isq::si::watt_per_metre_kelvin" "W ⋅ m⁻¹ ⋅ K⁻¹" "W m^-1 K^-1"),
  (346, .cmp .eq (.op .div (.lit n!"units::isq::si::literals::_q_N" true 100) (.lit n!"units::isq::si::literals::_q_C" true 20)) (.lit n!"units::isq::si::literals::_q_V_per_m" true 5)),
  (347, .cmp .eq (.op .mul (.op .mul (.lit n!"units::isq::si::literals::_q_C" true 1) (.lit n!"units::isq::si::literals::_q_V_per_m" true 10)) (.lit n!"units::isq::si::literals::_q_m" true 3)) (.lit n!"units::isq::si::literals::_q_J" true 30)),
  (349, .unitText n!"units::isq::si::dim_electric_field_strength" n!"units::isq::si::volt_per_metre" "V/m" "V/m"),
  (353, .cmp .eq (.op .div (.lit n!"units::isq::si::literals::_q_C" false 20) (.lit n!"units::isq::si::literals::_q_m3" true 40)) (.lit n!"units::isq::si::literals::_q_C_per_m3" false (1 / 2))),
  (354, .cmp .eq (.op .div (.lit n!"units::isq::si::literals::_q_C" false 10) (.lit n!"units::isq::si::literals::_q_m2" true 20)) (.lit n!"units::isq::si::literals::_q_C_per_m2" false (1 / 2))),
  (355, .cmp .eq (.lit n!"units::isq::si::literals::_q_C_per_m3" false 20) (.op .div (.lit n!"units::isq::si::literals::_q_C_per_m2" false 10) (.lit n!"units::isq::si::literals::_q_m" false (1 / 2)))),
  (356, .cmp .eq (.op .div (.op .div (.lit n!"units::isq::si::literals::_q_C" true 1) (.lit n!"units::isq::si::literals::_q_m" true 1)) (.lit n!"units::isq::si::literals::_q_m" true 1)) (.op .div (.lit n!"units::isq::si::literals::_q_C" true 1) (.lit n!"units::isq::si::literals::_q_m2" true 1))),
  (357, .cmp .eq (.lit n!"units::isq::si::literals::_q_C_per_m2" true 1) (.op .mul (.lit n!"units::isq::si::literals::_q_C_per_m3" true 1) (.lit n!"units::isq::si::literals::_q_m" true 1))),
  (358, .cmp .eq (.op .mul (.op .mul (.lit n!"units::isq::si::literals::_q_V_per_m" true 1) (.lit n!"units::isq::si::literals::_q_C_per_m3" true 10)) (.lit n!"units::isq::si::literals::_q_m3" true 1)) (.lit n!"units::isq::si::literals::_q_N" true 10)),
  (360, .unitText n!"units::isq::si::dim_charge_density" n!"units::isq::si::coulomb_per_metre_cub" "C/m³" "C/m^3"),
  (361, .unitText n!"units::isq::si::dim_surface_charge_density" n!"units::isq::si::coulomb_per_metre_sq" "C/m²" "C/m^2"),
  (365, .cmp .eq (.lit n!"units::isq::si::literals::_q_F_per_m" true 1) (.op .div (.lit n!"units::isq::si::literals::_q_F" true 1) (.lit n!"units::isq::si::literals::_q_m" true 1))),
  (366, .cmp .eq (.op .div (.op .mul (.op .mul (.op .div (.num (.int .i32) 1) (.lit n!"units::isq::si::literals::_q_F_per_m" true 1)) (.lit n!"units::isq::si::literals::_q_C" true 1)) (.lit n!"units::isq::si::literals::_q_C" true 1)) (.lit n!"units::isq::si::literals::_q_m2" true 1)) (.lit n!"units::isq::si::literals::_q_N" true 1)),
  (367, .cmp .eq (.op .mul (.op .div (.lit n!"units::isq::si::literals::_q_C_per_m3" true 1) (.lit n!"units::isq::si::literals::_q_F_per_m" true 1)) (.lit n!"units::isq::si::literals::_q_m" true 1)) (.lit n!"units::isq::si::literals::_q_V_per_m" true 1)),
  (369, .unitText n!"units::isq::si::dim_permittivity" n!"units::isq::si::farad_per_metre" "F/m" "F/m"),
  (373, .cmp .eq (.op .div (.op .mul (.lit n!"units::isq::si::literals::_q_H_per_m" true 1) (.lit n!"units::isq::si::literals::_q_A" true 1)) (.lit n!"units::isq::si::literals::_q_m" true 1)) (.lit n!"units::isq::si::literals::_q_T" true 1)),
  (374, .cmp .eq (.op .mul (.op .mul (.lit n!"units::isq::si::literals::_q_H_per_m" true 1) (.lit n!"units::isq::si::literals::_q_A" true 1)) (.lit n!"units::isq::si::literals::_q_A" true 1)) (.lit n!"units::isq::si::literals::_q_N" true 1)),
  (376, .unitText n!"units::isq::si::dim_permeability" n!"units::isq::si::henry_per_metre" "H/m" "H/m"),
  (380, .cmp .eq (.op .mul (.op .mul (.lit n!"units::isq::si::literals::_q_J_per_mol" true 1) (.lit n!"units::isq::si::literals::_q_mol_per_m3" true 1)) (.lit n!"units::isq::si::literals::_q_m3" true 1)) (.op .mul (.lit n!"units::isq::si::literals::_q_N" true 1) (.lit n!"units::isq::si::literals::_q_m" true 1))),
  (382, .unitText n!"units::isq::si::dim_molar_energy" n!"units::isq::si::joule_per_mole" "J/mol" "J/mol"),
  (386, .cmp .eq (.op .div (.lit n!"units::literals::_q_rad" true 1) (.lit n!"units::isq::si::literals::_q_s" true 1)) (.lit n!"units::isq::si::literals::_q_rad_per_s" true 1)),
  (387, .unitText n!"units::isq::si::dim_angular_velocity" n!"units::isq::si::radian_per_second" "ω" "w")]

#guard failures [n!"generic/angle.h", n!"generic/dimensionless.h", n!"isq/si/si.h"] testSi = some []

/-- /repo/test/unit_test/static/cgs_test.cpp: 31 of its 31 assertions. -/
def testCgs : List (Nat × Check) := [
  (37, .symbol n!"units::isq::si::cgs::centimetre" "cm" "cm"),
  (47, .cmp .eq (.number (.op .div (.lit n!"units::isq::si::cgs::literals::_q_cm" true 10) (.lit n!"units::isq::si::cgs::literals::_q_s" true 5))) (.num (.int .i32) 2)),
  (48, .cmp .eq (.number (.lit n!"units::isq::si::cgs::literals::_q_cm_per_s" true 2)) (.num (.int .i32) 2)),
  (49, .cmp .eq (.op .div (.lit n!"units::isq::si::cgs::literals::_q_cm" true 10) (.lit n!"units::isq::si::cgs::literals::_q_s" true 5)) (.lit n!"units::isq::si::cgs::literals::_q_cm_per_s" true 2)),
  (50, .cmp .eq (.op .div (.lit n!"units::isq::si::cgs::literals::_q_cm" true 10) (.lit n!"units::isq::si::cgs::literals::_q_cm_per_s" true 2)) (.lit n!"units::isq::si::cgs::literals::_q_s" true 5)),
  (51, .cmp .eq (.lit n!"units::isq::si::cgs::literals::_q_cm" true 10) (.op .mul (.lit n!"units::isq::si::cgs::literals::_q_cm_per_s" true 2) (.lit n!"units::isq::si::cgs::literals::_q_s" true 5))),
  (53, .unitText n!"units::isq::si::cgs::dim_speed" n!"units::isq::si::cgs::centimetre_per_second" "cm/s" "cm/s"),
  (56, .coherent n!"units::isq::si::cgs::dim_length" n!"units::isq::si::cgs::centimetre"),
  (58, .cmp .eq (.number (.op .mul (.lit n!"units::isq::si::cgs::literals::_q_cm" true 1) (.lit n!"units::isq::si::cgs::literals::_q_cm" true 1))) (.num (.int .i32) 1)),
  (59, .cmp .eq (.number (.lit n!"units::isq::si::cgs::literals::_q_cm2" true 1)) (.num (.int .i32) 1)),
  (60, .cmp .eq (.op .mul (.lit n!"units::isq::si::cgs::literals::_q_cm" true 1) (.lit n!"units::isq::si::cgs::literals::_q_cm" true 1)) (.lit n!"units::isq::si::cgs::literals::_q_cm2" true 1)),
  (61, .cmp .eq (.op .mul (.lit n!"units::isq::si::cgs::literals::_q_cm" true 100) (.lit n!"units::isq::si::cgs::literals::_q_cm" true 100)) (.make (.alias n!"units::isq::si::cgs::area" (.nm n!"units::isq::si::square_metre") (.flt .f64)) (.num (.int .i32) 1))),
  (62, .cmp .eq (.op .mul (.lit n!"units::isq::si::cgs::literals::_q_cm" true 100) (.lit n!"units::isq::si::cgs::literals::_q_cm" true 100)) (.op .mul (.make (.alias n!"units::isq::si::cgs::length" (.nm n!"units::isq::si::metre") (.flt .f64)) (.num (.int .i32) 1)) (.make (.alias n!"units::isq::si::cgs::length" (.nm n!"units::isq::si::metre") (.flt .f64)) (.num (.int .i32) 1)))),
  (63, .cmp .eq (.op .div (.lit n!"units::isq::si::cgs::literals::_q_cm2" true 100) (.lit n!"units::isq::si::cgs::literals::_q_cm" true 10)) (.lit n!"units::isq::si::cgs::literals::_q_cm" true 10)),
  (65, .unitText n!"units::isq::si::cgs::dim_area" n!"units::isq::si::cgs::square_centimetre" "cm²" "cm^2"),
  (71, .cmp .eq (.op .div (.lit n!"units::isq::si::cgs::literals::_q_cm_per_s" true 10) (.lit n!"units::isq::si::cgs::literals::_q_s" true 10)) (.lit n!"units::isq::si::cgs::literals::_q_Gal" true 1)),
  (72, .cmp .eq (.op .div (.lit n!"units::isq::si::cgs::literals::_q_cm_per_s" true 10) (.lit n!"units::isq::si::cgs::literals::_q_Gal" true 1)) (.lit n!"units::isq::si::cgs::literals::_q_s" true 10)),
  (73, .cmp .eq (.op .mul (.lit n!"units::isq::si::cgs::literals::_q_Gal" true 1) (.lit n!"units::isq::si::cgs::literals::_q_s" true 10)) (.lit n!"units::isq::si::cgs::literals::_q_cm_per_s" true 10)),
  (77, .cmp .eq (.op .mul (.lit n!"units::isq::si::cgs::literals::_q_g" true 10) (.lit n!"units::isq::si::cgs::literals::_q_Gal" true 10)) (.lit n!"units::isq::si::cgs::literals::_q_dyn" true 100)),
  (78, .cmp .eq (.op .div (.lit n!"units::isq::si::cgs::literals::_q_dyn" true 100) (.lit n!"units::isq::si::cgs::literals::_q_g" true 10)) (.lit n!"units::isq::si::cgs::literals::_q_Gal" true 10)),
  (79, .cmp .eq (.op .div (.lit n!"units::isq::si::cgs::literals::_q_dyn" true 100) (.lit n!"units::isq::si::cgs::literals::_q_Gal" true 10)) (.lit n!"units::isq::si::cgs::literals::_q_g" true 10)),
  (83, .cmp .eq (.op .div (.lit n!"units::isq::si::cgs::literals::_q_dyn" true 10) (.lit n!"units::isq::si::cgs::literals::_q_cm2" true 10)) (.lit n!"units::isq::si::cgs::literals::_q_Ba" true 1)),
  (84, .cmp .eq (.op .div (.lit n!"units::isq::si::cgs::literals::_q_dyn" true 10) (.lit n!"units::isq::si::cgs::literals::_q_Ba" true 1)) (.lit n!"units::isq::si::cgs::literals::_q_cm2" true 10)),
  (85, .cmp .eq (.op .mul (.lit n!"units::isq::si::cgs::literals::_q_Ba" true 1) (.lit n!"units::isq::si::cgs::literals::_q_cm2" true 10)) (.lit n!"units::isq::si::cgs::literals::_q_dyn" true 10)),
  (89, .cmp .eq (.op .mul (.lit n!"units::isq::si::cgs::literals::_q_dyn" true 10) (.lit n!"units::isq::si::cgs::literals::_q_cm" true 10)) (.lit n!"units::isq::si::cgs::literals::_q_erg" true 100)),
  (90, .cmp .eq (.op .div (.lit n!"units::isq::si::cgs::literals::_q_erg" true 100) (.lit n!"units::isq::si::cgs::literals::_q_cm" true 10)) (.lit n!"units::isq::si::cgs::literals::_q_dyn" true 10)),
  (91, .cmp .eq (.op .div (.lit n!"units::isq::si::cgs::literals::_q_erg" true 100) (.lit n!"units::isq::si::cgs::literals::_q_dyn" true 10)) (.lit n!"units::isq::si::cgs::literals::_q_cm" true 10)),
  (97, .cmp .eq (.op .div (.lit n!"units::isq::si::cgs::literals::_q_erg" true 10) (.lit n!"units::isq::si::cgs::literals::_q_s" true 10)) (.lit n!"units::isq::si::cgs::literals::_q_erg_per_s" true 1)),
  (98, .cmp .eq (.op .mul (.lit n!"units::isq::si::cgs::literals::_q_erg_per_s" true 1) (.lit n!"units::isq::si::cgs::literals::_q_s" true 10)) (.lit n!"units::isq::si::cgs::literals::_q_erg" true 10)),
  (99, .cmp .eq (.op .div (.lit n!"units::isq::si::cgs::literals::_q_erg" true 10) (.lit n!"units::isq::si::cgs::literals::_q_erg_per_s" true 1)) (.lit n!"units::isq::si::cgs::literals::_q_s" true 10)),
  (101, .unitText n!"units::isq::si::cgs::dim_power" n!"units::isq::si::cgs::erg_per_second" "erg/s" "erg/s")]

#guard failures [n!"isq/si/cgs/cgs.h"] testCgs = some []

/-- /repo/test/unit_test/static/fps_test.cpp: 28 of its 28 assertions. -/
def testFps : List (Nat × Check) := [
  (38, .symbol n!"units::isq::si::fps::foot" "ft" "ft"),
  (48, .cmp .eq (.op .div (.lit n!"units::isq::si::fps::literals::_q_ft" true 10) (.lit n!"units::isq::si::fps::literals::_q_s" true 5)) (.lit n!"units::isq::si::fps::literals::_q_ft_per_s" true 2)),
  (49, .cmp .eq (.op .div (.lit n!"units::isq::si::fps::literals::_q_ft" true 10) (.lit n!"units::isq::si::fps::literals::_q_ft_per_s" true 2)) (.lit n!"units::isq::si::fps::literals::_q_s" true 5)),
  (50, .cmp .eq (.lit n!"units::isq::si::fps::literals::_q_ft" true 10) (.op .mul (.lit n!"units::isq::si::fps::literals::_q_ft_per_s" true 2) (.lit n!"units::isq::si::fps::literals::_q_s" true 5))),
  (52, .unitText n!"units::isq::si::fps::dim_speed" n!"units::isq::si::fps::foot_per_second" "ft/s" "ft/s"),
  (55, .coherent n!"units::isq::si::fps::dim_length" n!"units::isq::si::fps::foot"),
  (57, .cmp .eq (.op .mul (.lit n!"units::isq::si::fps::literals::_q_ft" true 1) (.lit n!"units::isq::si::fps::literals::_q_ft" true 1)) (.lit n!"units::isq::si::fps::literals::_q_ft2" true 1)),
  (58, .cmp .eq (.op .div (.lit n!"units::isq::si::fps::literals::_q_ft2" true 100) (.lit n!"units::isq::si::fps::literals::_q_ft" true 10)) (.lit n!"units::isq::si::fps::literals::_q_ft" true 10)),
  (60, .unitText n!"units::isq::si::fps::dim_area" n!"units::isq::si::fps::square_foot" "ft²" "ft^2"),
  (66, .cmp .eq (.op .div (.lit n!"units::isq::si::fps::literals::_q_ft_per_s" true 10) (.lit n!"units::isq::si::fps::literals::_q_s" true 10)) (.lit n!"units::isq::si::fps::literals::_q_ft_per_s2" true 1)),
  (67, .cmp .eq (.op .div (.lit n!"units::isq::si::fps::literals::_q_ft_per_s" true 10) (.lit n!"units::isq::si::fps::literals::_q_ft_per_s2" true 1)) (.lit n!"units::isq::si::fps::literals::_q_s" true 10)),
  (68, .cmp .eq (.op .mul (.lit n!"units::isq::si::fps::literals::_q_ft_per_s2" true 1) (.lit n!"units::isq::si::fps::literals::_q_s" true 10)) (.lit n!"units::isq::si::fps::literals::_q_ft_per_s" true 10)),
  (72, .cmp .eq (.op .mul (.lit n!"units::isq::si::fps::literals::_q_lb" true 10) (.lit n!"units::isq::si::fps::literals::_q_ft_per_s2" true 10)) (.lit n!"units::isq::si::fps::literals::_q_pdl" true 100)),
  (73, .cmp .eq (.op .div (.lit n!"units::isq::si::fps::literals::_q_pdl" true 100) (.lit n!"units::isq::si::fps::literals::_q_lb" true 10)) (.lit n!"units::isq::si::fps::literals::_q_ft_per_s2" true 10)),
  (74, .cmp .eq (.op .div (.lit n!"units::isq::si::fps::literals::_q_pdl" true 100) (.lit n!"units::isq::si::fps::literals::_q_ft_per_s2" true 10)) (.lit n!"units::isq::si::fps::literals::_q_lb" true 10)),
  (77, .cmp .eq (.op .div (.lit n!"units::isq::si::fps::literals::_q_pdl" true 10) (.lit n!"units::isq::si::fps::literals::_q_ft2" true 10)) (.lit n!"units::isq::si::fps::literals::_q_pdl_per_ft2" true 1)),
  (78, .cmp .eq (.op .div (.lit n!"units::isq::si::fps::literals::_q_pdl" true 10) (.lit n!"units::isq::si::fps::literals::_q_pdl_per_ft2" true 1)) (.lit n!"units::isq::si::fps::literals::_q_ft2" true 10)),
  (79, .cmp .eq (.op .mul (.lit n!"units::isq::si::fps::literals::_q_pdl_per_ft2" true 1) (.lit n!"units::isq::si::fps::literals::_q_ft2" true 10)) (.lit n!"units::isq::si::fps::literals::_q_pdl" true 10)),
  (83, .cmp .eq (.op .mul (.lit n!"units::isq::si::fps::literals::_q_pdl" true 10) (.lit n!"units::isq::si::fps::literals::_q_ft" true 10)) (.lit n!"units::isq::si::fps::literals::_q_ft_pdl" true 100)),
  (84, .cmp .eq (.op .div (.lit n!"units::isq::si::fps::literals::_q_ft_pdl" true 100) (.lit n!"units::isq::si::fps::literals::_q_ft" true 10)) (.lit n!"units::isq::si::fps::literals::_q_pdl" true 10)),
  (85, .cmp .eq (.op .div (.lit n!"units::isq::si::fps::literals::_q_ft_pdl" true 100) (.lit n!"units::isq::si::fps::literals::_q_pdl" true 10)) (.lit n!"units::isq::si::fps::literals::_q_ft" true 10)),
  (87, .unitText n!"units::isq::si::fps::dim_energy" n!"units::isq::si::fps::foot_poundal" "ft ⋅ pdl" "ft pdl"),
  (88, .unitText n!"units::isq::si::fps::dim_energy" n!"units::isq::si::fps::foot_pound_force" "ft ⋅ lbf" "ft lbf"),
  (94, .cmp .eq (.op .div (.lit n!"units::isq::si::fps::literals::_q_ft_pdl" true 10) (.lit n!"units::isq::si::fps::literals::_q_s" true 10)) (.lit n!"units::isq::si::fps::literals::_q_ft_pdl_per_s" true 1)),
  (95, .cmp .eq (.op .mul (.lit n!"units::isq::si::fps::literals::_q_ft_pdl_per_s" true 1) (.lit n!"units::isq::si::fps::literals::_q_s" true 10)) (.lit n!"units::isq::si::fps::literals::_q_ft_pdl" true 10)),
  (96, .cmp .eq (.op .div (.lit n!"units::isq::si::fps::literals::_q_ft_pdl" true 10) (.lit n!"units::isq::si::fps::literals::_q_ft_pdl_per_s" true 1)) (.lit n!"units::isq::si::fps::literals::_q_s" true 10)),
  (98, .unitText n!"units::isq::si::fps::dim_power" n!"units::isq::si::fps::foot_poundal_per_second" "ft ⋅ pdl/s" "ft pdl/s"),
  (99, .unitText n!"units::isq::si::fps::dim_power" n!"units::isq::si::fps::foot_pound_force_per_second" "ft ⋅ lbf/s" "ft lbf/s")]

#guard failures [n!"isq/si/acceleration.h", n!"isq/si/fps/fps.h", n!"isq/si/time.h"] testFps = some []

/-- /repo/test/unit_test/static/us_test.cpp: 7 of its 7 assertions. -/
def testUs : List (Nat × Check) := [
  (39, .cmp .eq (.lit n!"units::isq::si::international::literals::_q_yd" true 1) (.lit n!"units::isq::si::literals::_q_m" false (1143 / 1250))),
  (40, .cmp .eq (.lit n!"units::isq::si::international::literals::_q_yd" true 1) (.lit n!"units::isq::si::international::literals::_q_ft" true 3)),
  (41, .cmp .eq (.lit n!"units::isq::si::international::literals::_q_ft" true 1) (.lit n!"units::isq::si::international::literals::_q_in" true 12)),
  (42, .cmp .eq (.lit n!"units::isq::si::international::literals::_q_mi" true 1) (.lit n!"units::isq::si::international::literals::_q_yd" true 1760)),
  (44, .cmp .eq (.op .add (.lit n!"units::isq::si::international::literals::_q_in" true 5) (.lit n!"units::isq::si::literals::_q_cm" true 8)) (.lit n!"units::isq::si::literals::_q_mm" true 207)),
  (51, .cmp .eq (.op .div (.lit n!"units::isq::si::international::literals::_q_mi" false 10) (.lit n!"units::isq::si::literals::_q_h" true 2)) (.lit n!"units::isq::si::international::literals::_q_mi_per_h" true 5)),
  (53, .symbol n!"units::isq::si::international::mile_per_hour" "mi/h" "mi/h")]

#guard failures [n!"isq/si/international/length.h", n!"isq/si/international/speed.h", n!"isq/si/length.h", n!"isq/si/time.h"] testUs = some []

/-- /repo/test/unit_test/static/si_cgs_test.cpp: 57 of its 57 assertions. -/
def testSiCgs : List (Nat × Check) := [
  (39, .ratio (.alias n!"units::isq::si::length" (.nm n!"units::isq::si::metre") (.flt .f64)) (1) (1) (0)),
  (40, .ratio (.alias n!"units::isq::si::cgs::length" (.nm n!"units::isq::si::cgs::centimetre") (.flt .f64)) (1) (100) (0)),
  (41, .ratio (.alias n!"units::isq::si::speed" (.nm n!"units::isq::si::metre_per_second") (.flt .f64)) (1) (1) (0)),
  (42, .ratio (.alias n!"units::isq::si::cgs::speed" (.nm n!"units::isq::si::cgs::centimetre_per_second") (.flt .f64)) (1) (100) (0)),
  (43, .ratio (.alias n!"units::isq::si::force" (.nm n!"units::isq::si::newton") (.flt .f64)) (1000) (1) (0)),
  (44, .ratio (.alias n!"units::isq::si::cgs::force" (.nm n!"units::isq::si::cgs::dyne") (.flt .f64)) (1) (100) (0)),
  (46, .cmp .eq (.make (.alias n!"units::isq::si::cgs::length" (.nm n!"units::isq::si::cgs::centimetre") (.flt .f64)) (.num (.int .i32) 100)) (.make (.alias n!"units::isq::si::length" (.nm n!"units::isq::si::metre") (.flt .f64)) (.num (.int .i32) 1))),
  (47, .cmp .eq (.make (.alias n!"units::isq::si::cgs::mass" (.nm n!"units::isq::si::cgs::gram") (.flt .f64)) (.num (.int .i32) 1000)) (.make (.alias n!"units::isq::si::mass" (.nm n!"units::isq::si::kilogram") (.flt .f64)) (.num (.int .i32) 1))),
  (48, .cmp .eq (.make (.alias n!"units::isq::si::cgs::time" (.nm n!"units::isq::si::cgs::second") (.flt .f64)) (.num (.int .i32) 1)) (.make (.alias n!"units::isq::si::time" (.nm n!"units::isq::si::second") (.flt .f64)) (.num (.int .i32) 1))),
  (49, .cmp .eq (.make (.alias n!"units::isq::si::cgs::speed" (.nm n!"units::isq::si::cgs::centimetre_per_second") (.flt .f64)) (.num (.int .i32) 100)) (.make (.alias n!"units::isq::si::speed" (.nm n!"units::isq::si::metre_per_second") (.flt .f64)) (.num (.int .i32) 1))),
  (50, .cmp .eq (.make (.alias n!"units::isq::si::cgs::area" (.nm n!"units::isq::si::cgs::square_centimetre") (.flt .f64)) (.num (.int .i32) 10000)) (.make (.alias n!"units::isq::si::area" (.nm n!"units::isq::si::square_metre") (.flt .f64)) (.num (.int .i32) 1))),
  (51, .cmp .eq (.make (.alias n!"units::isq::si::cgs::acceleration" (.nm n!"units::isq::si::cgs::gal") (.flt .f64)) (.num (.int .i32) 100)) (.make (.alias n!"units::isq::si::acceleration" (.nm n!"units::isq::si::metre_per_second_sq") (.flt .f64)) (.num (.int .i32) 1))),
  (52, .cmp .eq (.make (.alias n!"units::isq::si::cgs::force" (.nm n!"units::isq::si::cgs::dyne") (.flt .f64)) (.num (.int .i32) 100000)) (.make (.alias n!"units::isq::si::force" (.nm n!"units::isq::si::newton") (.flt .f64)) (.num (.int .i32) 1))),
  (53, .cmp .eq (.make (.alias n!"units::isq::si::cgs::energy" (.nm n!"units::isq::si::cgs::erg") (.flt .f64)) (.num (.int .i32) 10000000)) (.make (.alias n!"units::isq::si::energy" (.nm n!"units::isq::si::joule") (.flt .f64)) (.num (.int .i32) 1))),
  (54, .cmp .eq (.make (.alias n!"units::isq::si::cgs::power" (.nm n!"units::isq::si::cgs::erg_per_second") (.flt .f64)) (.num (.int .i32) 10000000)) (.make (.alias n!"units::isq::si::power" (.nm n!"units::isq::si::watt") (.flt .f64)) (.num (.int .i32) 1))),
  (55, .cmp .eq (.make (.alias n!"units::isq::si::cgs::pressure" (.nm n!"units::isq::si::cgs::barye") (.flt .f64)) (.num (.int .i32) 10)) (.make (.alias n!"units::isq::si::pressure" (.nm n!"units::isq::si::pascal") (.flt .f64)) (.num (.int .i32) 1))),
  (61, .cmp .eq (.make (.alias n!"units::isq::si::cgs::length" (.nm n!"units::isq::si::cgs::centimetre") (.flt .f64)) (.num (.int .i32) 100)) (.lit n!"units::isq::si::literals::_q_m" true 1)),
  (62, .cmp .eq (.make (.alias n!"units::isq::si::cgs::mass" (.nm n!"units::isq::si::cgs::gram") (.flt .f64)) (.num (.int .i32) 1000)) (.lit n!"units::isq::si::literals::_q_kg" true 1)),
  (63, .cmp .eq (.make (.alias n!"units::isq::si::cgs::time" (.nm n!"units::isq::si::cgs::second") (.flt .f64)) (.num (.int .i32) 1)) (.lit n!"units::isq::si::literals::_q_s" true 1)),
  (64, .cmp .eq (.make (.alias n!"units::isq::si::cgs::speed" (.nm n!"units::isq::si::cgs::centimetre_per_second") (.flt .f64)) (.num (.int .i32) 100)) (.lit n!"units::isq::si::literals::_q_m_per_s" true 1)),
  (65, .cmp .eq (.make (.alias n!"units::isq::si::cgs::acceleration" (.nm n!"units::isq::si::cgs::gal") (.flt .f64)) (.num (.int .i32) 100)) (.lit n!"units::isq::si::literals::_q_m_per_s2" true 1)),
  (66, .cmp .eq (.make (.alias n!"units::isq::si::cgs::force" (.nm n!"units::isq::si::cgs::dyne") (.flt .f64)) (.num (.int .i32) 100000)) (.lit n!"units::isq::si::literals::_q_N" true 1)),
  (67, .cmp .eq (.make (.alias n!"units::isq::si::cgs::energy" (.nm n!"units::isq::si::cgs::erg") (.flt .f64)) (.num (.int .i32) 10000000)) (.lit n!"units::isq::si::literals::_q_J" true 1)),
  (68, .cmp .eq (.make (.alias n!"units::isq::si::cgs::power" (.nm n!"units::isq::si::cgs::erg_per_second") (.flt .f64)) (.num (.int .i32) 10000000)) (.lit n!"units::isq::si::literals::_q_W" true 1)),
  (69, .cmp .eq (.make (.alias n!"units::isq::si::cgs::pressure" (.nm n!"units::isq::si::cgs::barye") (.flt .f64)) (.num (.int .i32) 10)) (.lit n!"units::isq::si::literals::_q_Pa" true 1)),
  (77, .cmp .eq (.lit n!"units::isq::si::cgs::literals::_q_cm" true 100) (.make (.alias n!"units::isq::si::length" (.nm n!"units::isq::si::metre") (.flt .f64)) (.num (.int .i32) 1))),
  (78, .cmp .eq (.lit n!"units::isq::si::cgs::literals::_q_g" true 1000) (.make (.alias n!"units::isq::si::mass" (.nm n!"units::isq::si::kilogram") (.flt .f64)) (.num (.int .i32) 1))),
  (79, .cmp .eq (.lit n!"units::isq::si::cgs::literals::_q_s" true 1) (.make (.alias n!"units::isq::si::time" (.nm n!"units::isq::si::second") (.flt .f64)) (.num (.int .i32) 1))),
  (80, .cmp .eq (.lit n!"units::isq::si::cgs::literals::_q_cm_per_s" true 100) (.make (.alias n!"units::isq::si::speed" (.nm n!"units::isq::si::metre_per_second") (.flt .f64)) (.num (.int .i32) 1))),
  (81, .cmp .eq (.lit n!"units::isq::si::cgs::literals::_q_Gal" true 100) (.make (.alias n!"units::isq::si::acceleration" (.nm n!"units::isq::si::metre_per_second_sq") (.flt .f64)) (.num (.int .i32) 1))),
  (82, .cmp .eq (.lit n!"units::isq::si::cgs::literals::_q_dyn" true 100000) (.make (.alias n!"units::isq::si::force" (.nm n!"units::isq::si::newton") (.flt .f64)) (.num (.int .i32) 1))),
  (83, .cmp .eq (.lit n!"units::isq::si::cgs::literals::_q_erg" true 10000000) (.make (.alias n!"units::isq::si::energy" (.nm n!"units::isq::si::joule") (.flt .f64)) (.num (.int .i32) 1))),
  (84, .cmp .eq (.lit n!"units::isq::si::cgs::literals::_q_erg_per_s" true 10000000) (.make (.alias n!"units::isq::si::power" (.nm n!"units::isq::si::watt") (.flt .f64)) (.num (.int .i32) 1))),
  (85, .cmp .eq (.lit n!"units::isq::si::cgs::literals::_q_Ba" true 10) (.make (.alias n!"units::isq::si::pressure" (.nm n!"units::isq::si::pascal") (.flt .f64)) (.num (.int .i32) 1))),
  (96, .cmp .eq (.lit n!"units::isq::si::cgs::literals::_q_s" true 1) (.lit n!"units::isq::si::cgs::literals::_q_s" true 1)),
  (97, .cmp .eq (.lit n!"units::isq::si::cgs::literals::_q_cm_per_s" true 100) (.lit n!"units::isq::si::literals::_q_m_per_s" true 1)),
  (98, .cmp .eq (.lit n!"units::isq::si::cgs::literals::_q_Gal" true 100) (.lit n!"units::isq::si::literals::_q_m_per_s2" true 1)),
  (99, .cmp .eq (.lit n!"units::isq::si::cgs::literals::_q_dyn" true 100000) (.lit n!"units::isq::si::literals::_q_N" true 1)),
  (100, .cmp .eq (.lit n!"units::isq::si::cgs::literals::_q_erg" true 10000000) (.lit n!"units::isq::si::literals::_q_J" true 1)),
  (101, .cmp .eq (.lit n!"units::isq::si::cgs::literals::_q_erg_per_s" true 10000000) (.lit n!"units::isq::si::literals::_q_W" true 1)),
  (102, .cmp .eq (.lit n!"units::isq::si::cgs::literals::_q_Ba" true 10) (.castRep (.flt .f64) (.lit n!"units::isq::si::literals::_q_Pa" true 1))),
  (110, .cmp .eq (.op .add (.lit n!"units::isq::si::cgs::literals::_q_cm" true 100) (.make (.alias n!"units::isq::si::length" (.nm n!"units::isq::si::metre") (.flt .f64)) (.num (.int .i32) 1))) (.make (.alias n!"units::isq::si::length" (.nm n!"units::isq::si::metre") (.flt .f64)) (.num (.int .i32) 2))),
  (111, .cmp .eq (.op .add (.make (.alias n!"units::isq::si::length" (.nm n!"units::isq::si::metre") (.flt .f64)) (.num (.int .i32) 1)) (.lit n!"units::isq::si::cgs::literals::_q_cm" true 100)) (.make (.alias n!"units::isq::si::length" (.nm n!"units::isq::si::metre") (.flt .f64)) (.num (.int .i32) 2))),
  (112, .cmp .eq (.op .add (.cast (.alias n!"units::isq::si::length" (.nm n!"units::isq::si::metre") (.flt .f64)) (.lit n!"units::isq::si::cgs::literals::_q_cm" true 100)) (.make (.alias n!"units::isq::si::length" (.nm n!"units::isq::si::metre") (.flt .f64)) (.num (.int .i32) 1))) (.make (.alias n!"units::isq::si::length" (.nm n!"units::isq::si::metre") (.flt .f64)) (.num (.int .i32) 2))),
  (113, .cmp .eq (.op .add (.make (.alias n!"units::isq::si::length" (.nm n!"units::isq::si::metre") (.flt .f64)) (.num (.int .i32) 1)) (.cast (.alias n!"units::isq::si::length" (.nm n!"units::isq::si::metre") (.flt .f64)) (.lit n!"units::isq::si::cgs::literals::_q_cm" true 100))) (.make (.alias n!"units::isq::si::length" (.nm n!"units::isq::si::metre") (.flt .f64)) (.num (.int .i32) 2))),
  (114, .cmp .eq (.op .add (.lit n!"units::isq::si::cgs::literals::_q_cm" true 100) (.cast (.alias n!"units::isq::si::cgs::length" (.nm n!"units::isq::si::cgs::centimetre") (.flt .f64)) (.make (.alias n!"units::isq::si::length" (.nm n!"units::isq::si::metre") (.flt .f64)) (.num (.int .i32) 1)))) (.lit n!"units::isq::si::cgs::literals::_q_cm" true 200)),
  (115, .cmp .eq (.op .add (.cast (.alias n!"units::isq::si::cgs::length" (.nm n!"units::isq::si::cgs::centimetre") (.flt .f64)) (.make (.alias n!"units::isq::si::length" (.nm n!"units::isq::si::metre") (.flt .f64)) (.num (.int .i32) 1))) (.lit n!"units::isq::si::cgs::literals::_q_cm" true 100)) (.lit n!"units::isq::si::cgs::literals::_q_cm" true 200)),
  (119, .cmp .eq (.op .sub (.lit n!"units::isq::si::cgs::literals::_q_cm" true 500) (.make (.alias n!"units::isq::si::length" (.nm n!"units::isq::si::metre") (.flt .f64)) (.num (.int .i32) 1))) (.make (.alias n!"units::isq::si::length" (.nm n!"units::isq::si::metre") (.flt .f64)) (.num (.int .i32) 4))),
  (120, .cmp .eq (.op .sub (.make (.alias n!"units::isq::si::length" (.nm n!"units::isq::si::metre") (.flt .f64)) (.num (.int .i32) 5)) (.lit n!"units::isq::si::cgs::literals::_q_cm" true 100)) (.make (.alias n!"units::isq::si::length" (.nm n!"units::isq::si::metre") (.flt .f64)) (.num (.int .i32) 4))),
  (121, .cmp .eq (.op .sub (.cast (.alias n!"units::isq::si::length" (.nm n!"units::isq::si::metre") (.flt .f64)) (.lit n!"units::isq::si::cgs::literals::_q_cm" true 500)) (.make (.alias n!"units::isq::si::length" (.nm n!"units::isq::si::metre") (.flt .f64)) (.num (.int .i32) 1))) (.make (.alias n!"units::isq::si::length" (.nm n!"units::isq::si::metre") (.flt .f64)) (.num (.int .i32) 4))),
  (122, .cmp .eq (.op .sub (.make (.alias n!"units::isq::si::length" (.nm n!"units::isq::si::metre") (.flt .f64)) (.num (.int .i32) 5)) (.cast (.alias n!"units::isq::si::length" (.nm n!"units::isq::si::metre") (.flt .f64)) (.lit n!"units::isq::si::cgs::literals::_q_cm" true 100))) (.make (.alias n!"units::isq::si::length" (.nm n!"units::isq::si::metre") (.flt .f64)) (.num (.int .i32) 4))),
  (123, .cmp .eq (.op .sub (.lit n!"units::isq::si::cgs::literals::_q_cm" true 500) (.cast (.alias n!"units::isq::si::cgs::length" (.nm n!"units::isq::si::cgs::centimetre") (.flt .f64)) (.make (.alias n!"units::isq::si::length" (.nm n!"units::isq::si::metre") (.flt .f64)) (.num (.int .i32) 1)))) (.lit n!"units::isq::si::cgs::literals::_q_cm" true 400)),
  (124, .cmp .eq (.op .sub (.cast (.alias n!"units::isq::si::cgs::length" (.nm n!"units::isq::si::cgs::centimetre") (.flt .f64)) (.make (.alias n!"units::isq::si::length" (.nm n!"units::isq::si::metre") (.flt .f64)) (.num (.int .i32) 5))) (.lit n!"units::isq::si::cgs::literals::_q_cm" true 100)) (.lit n!"units::isq::si::cgs::literals::_q_cm" true 400)),
  (130, .cmp .eq (.op .mul (.castDim n!"units::isq::si::dim_length" (.lit n!"units::isq::si::cgs::literals::_q_cm" false 200)) (.make (.alias n!"units::isq::si::length" (.nm n!"units::isq::si::metre") (.flt .f64)) (.num (.int .i32) 2))) (.make (.alias n!"units::isq::si::area" (.nm n!"units::isq::si::square_metre") (.flt .f64)) (.num (.int .i32) 4))),
  (131, .cmp .eq (.op .mul (.lit n!"units::isq::si::cgs::literals::_q_cm" false 200) (.castDim n!"units::isq::si::cgs::dim_length" (.make (.alias n!"units::isq::si::length" (.nm n!"units::isq::si::metre") (.flt .f64)) (.num (.int .i32) 2)))) (.lit n!"units::isq::si::cgs::literals::_q_cm2" true 40000)),
  (143, .cmp .eq (.op .div (.make (.alias n!"units::isq::si::area" (.nm n!"units::isq::si::square_metre") (.flt .f64)) (.num (.int .i32) 4)) (.cast (.alias n!"units::isq::si::length" (.nm n!"units::isq::si::metre") (.flt .f64)) (.lit n!"units::isq::si::cgs::literals::_q_cm" true 200))) (.make (.alias n!"units::isq::si::length" (.nm n!"units::isq::si::metre") (.flt .f64)) (.num (.int .i32) 2))),
  (144, .cmp .eq (.op .div (.cast (.alias n!"units::isq::si::cgs::area" (.nm n!"units::isq::si::cgs::square_centimetre") (.flt .f64)) (.make (.alias n!"units::isq::si::area" (.nm n!"units::isq::si::square_metre") (.flt .f64)) (.num (.int .i32) 4))) (.lit n!"units::isq::si::cgs::literals::_q_cm" false 200)) (.lit n!"units::isq::si::cgs::literals::_q_cm" true 200))]

#guard failures [n!"isq/si/acceleration.h", n!"isq/si/area.h", n!"isq/si/cgs/cgs.h", n!"isq/si/energy.h", n!"isq/si/force.h", n!"isq/si/length.h", n!"isq/si/mass.h", n!"isq/si/power.h", n!"isq/si/pressure.h", n!"isq/si/speed.h", n!"isq/si/time.h"] testSiCgs = some []

/-- /repo/test/unit_test/static/si_fps_test.cpp: 57 of its 57 assertions. -/
def testSiFps : List (Nat × Check) := [
  (39, .cmp .eq (.make (.alias n!"units::isq::si::fps::length" (.nm n!"units::isq::si::fps::foot") (.flt .f64)) (.num (.int .i32) 1)) (.make (.alias n!"units::isq::si::length" (.nm n!"units::isq::si::metre") (.flt .f64)) (.num (.flt .f64) (381 / 1250)))),
  (40, .cmp .eq (.make (.alias n!"units::isq::si::fps::mass" (.nm n!"units::isq::si::fps::pound") (.flt .f64)) (.num (.int .i32) 1)) (.make (.alias n!"units::isq::si::mass" (.nm n!"units::isq::si::kilogram") (.flt .f64)) (.num (.flt .f64) (45359237 / 100000000)))),
  (41, .cmp .eq (.make (.alias n!"units::isq::si::fps::time" (.nm n!"units::isq::si::fps::second") (.flt .f64)) (.num (.int .i32) 1)) (.make (.alias n!"units::isq::si::time" (.nm n!"units::isq::si::second") (.flt .f64)) (.num (.int .i32) 1))),
  (42, .cmp .eq (.make (.alias n!"units::isq::si::fps::speed" (.nm n!"units::isq::si::fps::foot_per_second") (.flt .f64)) (.num (.int .i32) 1)) (.make (.alias n!"units::isq::si::speed" (.nm n!"units::isq::si::metre_per_second") (.flt .f64)) (.num (.flt .f64) (381 / 1250)))),
  (43, .cmp .eq (.make (.alias n!"units::isq::si::fps::area" (.nm n!"units::isq::si::fps::square_foot") (.flt .f64)) (.num (.int .i32) 1)) (.make (.alias n!"units::isq::si::area" (.nm n!"units::isq::si::square_metre") (.flt .f64)) (.num (.flt .f64) (145161 / 1562500)))),
  (44, .cmp .eq (.make (.alias n!"units::isq::si::fps::acceleration" (.nm n!"units::isq::si::fps::foot_per_second_sq") (.flt .f64)) (.num (.int .i32) 1)) (.make (.alias n!"units::isq::si::acceleration" (.nm n!"units::isq::si::metre_per_second_sq") (.flt .f64)) (.num (.flt .f64) (381 / 1250)))),
  (45, .both (.cmp .gt (.make (.alias n!"units::isq::si::fps::force" (.nm n!"units::isq::si::fps::poundal") (.flt .f64)) (.num (.int .i32) 1)) (.make (.alias n!"units::isq::si::force" (.nm n!"units::isq::si::newton") (.flt .f64)) (.num (.flt .f64) (69127 / 500000)))) (.cmp .lt (.make (.alias n!"units::isq::si::fps::force" (.nm n!"units::isq::si::fps::poundal") (.flt .f64)) (.num (.int .i32) 1)) (.make (.alias n!"units::isq::si::force" (.nm n!"units::isq::si::newton") (.flt .f64)) (.num (.flt .f64) (8641 / 62500))))),
  (47, .both (.cmp .gt (.make (.alias n!"units::isq::si::fps::energy" (.nm n!"units::isq::si::fps::foot_poundal") (.flt .f64)) (.num (.int .i32) 1)) (.make (.alias n!"units::isq::si::energy" (.nm n!"units::isq::si::joule") (.flt .f64)) (.num (.flt .f64) (10535027523451 / 250000000000000)))) (.cmp .lt (.make (.alias n!"units::isq::si::fps::energy" (.nm n!"units::isq::si::fps::foot_poundal") (.flt .f64)) (.num (.int .i32) 1)) (.make (.alias n!"units::isq::si::energy" (.nm n!"units::isq::si::joule") (.flt .f64)) (.num (.flt .f64) (21070055046903 / 500000000000000))))),
  (49, .both (.cmp .gt (.make (.alias n!"units::isq::si::fps::power" (.nm n!"units::isq::si::fps::foot_poundal_per_second") (.flt .f64)) (.num (.int .i32) 1)) (.make (.alias n!"units::isq::si::power" (.nm n!"units::isq::si::watt") (.flt .f64)) (.num (.flt .f64) (10535027523451 / 250000000000000)))) (.cmp .lt (.make (.alias n!"units::isq::si::fps::power" (.nm n!"units::isq::si::fps::foot_poundal_per_second") (.flt .f64)) (.num (.int .i32) 1)) (.make (.alias n!"units::isq::si::power" (.nm n!"units::isq::si::watt") (.flt .f64)) (.num (.flt .f64) (21070055046903 / 500000000000000))))),
  (51, .both (.cmp .gt (.make (.alias n!"units::isq::si::fps::pressure" (.nm n!"units::isq::si::fps::poundal_per_foot_sq") (.flt .f64)) (.num (.int .i32) 1)) (.make (.alias n!"units::isq::si::pressure" (.nm n!"units::isq::si::pascal") (.flt .f64)) (.num (.flt .f64) (2976327887 / 2000000000)))) (.cmp .lt (.make (.alias n!"units::isq::si::fps::pressure" (.nm n!"units::isq::si::fps::poundal_per_foot_sq") (.flt .f64)) (.num (.int .i32) 1)) (.make (.alias n!"units::isq::si::pressure" (.nm n!"units::isq::si::pascal") (.flt .f64)) (.num (.flt .f64) (14881639437 / 10000000000))))),
  (58, .cmp .eq (.make (.alias n!"units::isq::si::fps::length" (.nm n!"units::isq::si::fps::foot") (.flt .f64)) (.num (.int .i32) 1)) (.lit n!"units::isq::si::literals::_q_m" false (381 / 1250))),
  (59, .cmp .eq (.make (.alias n!"units::isq::si::fps::mass" (.nm n!"units::isq::si::fps::pound") (.flt .f64)) (.num (.int .i32) 1)) (.lit n!"units::isq::si::literals::_q_kg" false (45359237 / 100000000))),
  (60, .cmp .eq (.make (.alias n!"units::isq::si::fps::time" (.nm n!"units::isq::si::fps::second") (.flt .f64)) (.num (.int .i32) 1)) (.lit n!"units::isq::si::literals::_q_s" true 1)),
  (61, .cmp .eq (.make (.alias n!"units::isq::si::fps::speed" (.nm n!"units::isq::si::fps::foot_per_second") (.flt .f64)) (.num (.int .i32) 1)) (.lit n!"units::isq::si::literals::_q_m_per_s" false (381 / 1250))),
  (62, .cmp .eq (.make (.alias n!"units::isq::si::fps::area" (.nm n!"units::isq::si::fps::square_foot") (.flt .f64)) (.num (.int .i32) 1)) (.lit n!"units::isq::si::literals::_q_m2" false (145161 / 1562500))),
  (63, .cmp .eq (.make (.alias n!"units::isq::si::fps::acceleration" (.nm n!"units::isq::si::fps::foot_per_second_sq") (.flt .f64)) (.num (.int .i32) 1)) (.lit n!"units::isq::si::literals::_q_m_per_s2" false (381 / 1250))),
  (64, .both (.cmp .gt (.make (.alias n!"units::isq::si::fps::force" (.nm n!"units::isq::si::fps::poundal") (.flt .f64)) (.num (.int .i32) 1)) (.lit n!"units::isq::si::literals::_q_N" false (69127 / 500000))) (.cmp .lt (.make (.alias n!"units::isq::si::fps::force" (.nm n!"units::isq::si::fps::poundal") (.flt .f64)) (.num (.int .i32) 1)) (.lit n!"units::isq::si::literals::_q_N" false (8641 / 62500)))),
  (66, .both (.cmp .gt (.make (.alias n!"units::isq::si::fps::energy" (.nm n!"units::isq::si::fps::foot_poundal") (.flt .f64)) (.num (.int .i32) 1)) (.lit n!"units::isq::si::literals::_q_J" false (10535027523451 / 250000000000000))) (.cmp .lt (.make (.alias n!"units::isq::si::fps::energy" (.nm n!"units::isq::si::fps::foot_poundal") (.flt .f64)) (.num (.int .i32) 1)) (.lit n!"units::isq::si::literals::_q_J" false (21070055046903 / 500000000000000)))),
  (68, .both (.cmp .gt (.make (.alias n!"units::isq::si::fps::power" (.nm n!"units::isq::si::fps::foot_poundal_per_second") (.flt .f64)) (.num (.int .i32) 1)) (.lit n!"units::isq::si::literals::_q_W" false (10535027523451 / 250000000000000))) (.cmp .lt (.make (.alias n!"units::isq::si::fps::power" (.nm n!"units::isq::si::fps::foot_poundal_per_second") (.flt .f64)) (.num (.int .i32) 1)) (.lit n!"units::isq::si::literals::_q_W" false (21070055046903 / 500000000000000)))),
  (70, .both (.cmp .gt (.make (.alias n!"units::isq::si::fps::pressure" (.nm n!"units::isq::si::fps::poundal_per_foot_sq") (.flt .f64)) (.num (.int .i32) 1)) (.lit n!"units::isq::si::literals::_q_Pa" false (2976327887 / 2000000000))) (.cmp .lt (.make (.alias n!"units::isq::si::fps::pressure" (.nm n!"units::isq::si::fps::poundal_per_foot_sq") (.flt .f64)) (.num (.int .i32) 1)) (.lit n!"units::isq::si::literals::_q_Pa" false (14881639437 / 10000000000)))),
  (79, .cmp .eq (.op .mul (.num (.int .i32) 1) (.ref n!"units::isq::si::fps::length_references::ft")) (.make (.alias n!"units::isq::si::length" (.nm n!"units::isq::si::metre") (.flt .f64)) (.num (.flt .f64) (381 / 1250)))),
  (80, .cmp .eq (.lit n!"units::isq::si::fps::literals::_q_lb" true 1) (.make (.alias n!"units::isq::si::mass" (.nm n!"units::isq::si::kilogram") (.flt .f64)) (.num (.flt .f64) (45359237 / 100000000)))),
  (81, .cmp .eq (.lit n!"units::isq::si::fps::literals::_q_s" true 1) (.make (.alias n!"units::isq::si::time" (.nm n!"units::isq::si::second") (.flt .f64)) (.num (.int .i32) 1))),
  (82, .cmp .eq (.lit n!"units::isq::si::fps::literals::_q_ft_per_s" true 1) (.make (.alias n!"units::isq::si::speed" (.nm n!"units::isq::si::metre_per_second") (.flt .f64)) (.num (.flt .f64) (381 / 1250)))),
  (83, .cmp .eq (.lit n!"units::isq::si::fps::literals::_q_ft2" true 1) (.make (.alias n!"units::isq::si::area" (.nm n!"units::isq::si::square_metre") (.flt .f64)) (.num (.flt .f64) (145161 / 1562500)))),
  (84, .cmp .eq (.lit n!"units::isq::si::fps::literals::_q_ft_per_s2" true 1) (.make (.alias n!"units::isq::si::acceleration" (.nm n!"units::isq::si::metre_per_second_sq") (.flt .f64)) (.num (.flt .f64) (381 / 1250)))),
  (85, .both (.cmp .gt (.lit n!"units::isq::si::fps::literals::_q_pdl" true 1) (.make (.alias n!"units::isq::si::force" (.nm n!"units::isq::si::newton") (.flt .f64)) (.num (.flt .f64) (69127 / 500000)))) (.cmp .lt (.lit n!"units::isq::si::fps::literals::_q_pdl" true 1) (.make (.alias n!"units::isq::si::force" (.nm n!"units::isq::si::newton") (.flt .f64)) (.num (.flt .f64) (8641 / 62500))))),
  (87, .both (.cmp .gt (.lit n!"units::isq::si::fps::literals::_q_ft_pdl" true 1) (.make (.alias n!"units::isq::si::energy" (.nm n!"units::isq::si::joule") (.flt .f64)) (.num (.flt .f64) (10535027523451 / 250000000000000)))) (.cmp .lt (.lit n!"units::isq::si::fps::literals::_q_ft_pdl" true 1) (.make (.alias n!"units::isq::si::energy" (.nm n!"units::isq::si::joule") (.flt .f64)) (.num (.flt .f64) (21070055046903 / 500000000000000))))),
  (89, .both (.cmp .gt (.lit n!"units::isq::si::fps::literals::_q_ft_pdl_per_s" true 1) (.make (.alias n!"units::isq::si::power" (.nm n!"units::isq::si::watt") (.flt .f64)) (.num (.flt .f64) (10535027523451 / 250000000000000)))) (.cmp .lt (.lit n!"units::isq::si::fps::literals::_q_ft_pdl_per_s" true 1) (.make (.alias n!"units::isq::si::power" (.nm n!"units::isq::si::watt") (.flt .f64)) (.num (.flt .f64) (21070055046903 / 500000000000000))))),
  (91, .both (.cmp .gt (.lit n!"units::isq::si::fps::literals::_q_pdl_per_ft2" true 1) (.make (.alias n!"units::isq::si::pressure" (.nm n!"units::isq::si::pascal") (.flt .f64)) (.num (.flt .f64) (2976327887 / 2000000000)))) (.cmp .lt (.lit n!"units::isq::si::fps::literals::_q_pdl_per_ft2" true 1) (.make (.alias n!"units::isq::si::pressure" (.nm n!"units::isq::si::pascal") (.flt .f64)) (.num (.flt .f64) (14881639437 / 10000000000))))),
  (103, .cmp .eq (.op .mul (.num (.int .i32) 1) (.ref n!"units::isq::si::fps::length_references::ft")) (.lit n!"units::isq::si::literals::_q_m" false (381 / 1250))),
  (104, .cmp .eq (.lit n!"units::isq::si::fps::literals::_q_lb" true 1) (.lit n!"units::isq::si::literals::_q_kg" false (45359237 / 100000000))),
  (105, .cmp .eq (.lit n!"units::isq::si::fps::literals::_q_s" true 1) (.lit n!"units::isq::si::fps::literals::_q_s" true 1)),
  (106, .cmp .eq (.lit n!"units::isq::si::fps::literals::_q_ft_per_s" true 1) (.lit n!"units::isq::si::literals::_q_m_per_s" false (381 / 1250))),
  (107, .cmp .eq (.lit n!"units::isq::si::fps::literals::_q_ft2" true 1) (.lit n!"units::isq::si::literals::_q_m2" false (145161 / 1562500))),
  (108, .cmp .eq (.lit n!"units::isq::si::fps::literals::_q_ft_per_s2" true 1) (.lit n!"units::isq::si::literals::_q_m_per_s2" false (381 / 1250))),
  (109, .both (.cmp .gt (.lit n!"units::isq::si::fps::literals::_q_pdl" true 1) (.lit n!"units::isq::si::literals::_q_N" false (69127 / 500000))) (.cmp .lt (.lit n!"units::isq::si::fps::literals::_q_pdl" true 1) (.lit n!"units::isq::si::literals::_q_N" false (8641 / 62500)))),
  (111, .both (.cmp .gt (.lit n!"units::isq::si::fps::literals::_q_ft_pdl" true 1) (.lit n!"units::isq::si::literals::_q_J" false (10535027523451 / 250000000000000))) (.cmp .lt (.lit n!"units::isq::si::fps::literals::_q_ft_pdl" true 1) (.lit n!"units::isq::si::literals::_q_J" false (21070055046903 / 500000000000000)))),
  (113, .both (.cmp .gt (.lit n!"units::isq::si::fps::literals::_q_ft_pdl_per_s" true 1) (.lit n!"units::isq::si::literals::_q_W" false (10535027523451 / 250000000000000))) (.cmp .lt (.lit n!"units::isq::si::fps::literals::_q_ft_pdl_per_s" true 1) (.lit n!"units::isq::si::literals::_q_W" false (21070055046903 / 500000000000000)))),
  (115, .both (.cmp .gt (.lit n!"units::isq::si::fps::literals::_q_pdl_per_ft2" true 1) (.lit n!"units::isq::si::literals::_q_Pa" false (2976327887 / 2000000000))) (.cmp .lt (.lit n!"units::isq::si::fps::literals::_q_pdl_per_ft2" true 1) (.lit n!"units::isq::si::literals::_q_Pa" false (14881639437 / 10000000000)))),
  (127, .cmp .eq (.op .add (.make (.alias n!"units::isq::si::length" (.nm n!"units::isq::si::metre") (.flt .f64)) (.num (.int .i32) 1)) (.op .mul (.num (.int .i32) 1) (.ref n!"units::isq::si::fps::length_references::ft"))) (.make (.alias n!"units::isq::si::length" (.nm n!"units::isq::si::metre") (.flt .f64)) (.num (.flt .f64) (1631 / 1250)))),
  (128, .cmp .eq (.op .add (.op .mul (.num (.int .i32) 1) (.ref n!"units::isq::si::fps::length_references::ft")) (.make (.alias n!"units::isq::si::length" (.nm n!"units::isq::si::metre") (.flt .f64)) (.num (.int .i32) 1))) (.make (.alias n!"units::isq::si::length" (.nm n!"units::isq::si::metre") (.flt .f64)) (.num (.flt .f64) (1631 / 1250)))),
  (129, .cmp .eq (.op .add (.cast (.alias n!"units::isq::si::length" (.nm n!"units::isq::si::metre") (.flt .f64)) (.op .div (.op .mul (.num (.flt .f64) 1) (.ref n!"units::isq::si::fps::length_references::ft")) (.num (.flt .f64) (381 / 1250)))) (.make (.alias n!"units::isq::si::length" (.nm n!"units::isq::si::metre") (.flt .f64)) (.num (.int .i32) 1))) (.make (.alias n!"units::isq::si::length" (.nm n!"units::isq::si::metre") (.flt .f64)) (.num (.int .i32) 2))),
  (130, .cmp .eq (.op .add (.make (.alias n!"units::isq::si::length" (.nm n!"units::isq::si::metre") (.flt .f64)) (.num (.int .i32) 1)) (.cast (.alias n!"units::isq::si::length" (.nm n!"units::isq::si::metre") (.flt .f64)) (.op .div (.op .mul (.num (.flt .f64) 1) (.ref n!"units::isq::si::fps::length_references::ft")) (.num (.flt .f64) (381 / 1250))))) (.make (.alias n!"units::isq::si::length" (.nm n!"units::isq::si::metre") (.flt .f64)) (.num (.int .i32) 2))),
  (131, .cmp .eq (.op .add (.op .mul (.num (.int .i32) 1) (.ref n!"units::isq::si::fps::length_references::ft")) (.cast (.alias n!"units::isq::si::fps::length" (.nm n!"units::isq::si::fps::foot") (.flt .f64)) (.make (.alias n!"units::isq::si::length" (.nm n!"units::isq::si::metre") (.flt .f64)) (.num (.flt .f64) (381 / 1250))))) (.op .mul (.num (.int .i32) 2) (.ref n!"units::isq::si::fps::length_references::ft"))),
  (132, .cmp .eq (.op .add (.cast (.alias n!"units::isq::si::fps::length" (.nm n!"units::isq::si::fps::foot") (.flt .f64)) (.make (.alias n!"units::isq::si::length" (.nm n!"units::isq::si::metre") (.flt .f64)) (.num (.flt .f64) (381 / 1250)))) (.op .mul (.num (.int .i32) 1) (.ref n!"units::isq::si::fps::length_references::ft"))) (.op .mul (.num (.int .i32) 2) (.ref n!"units::isq::si::fps::length_references::ft"))),
  (136, .cmp .eq (.op .sub (.op .mul (.num (.int .i32) 1) (.ref n!"units::isq::si::fps::length_references::ft")) (.make (.alias n!"units::isq::si::length" (.nm n!"units::isq::si::metre") (.flt .f64)) (.num (.int .i32) 1))) (.neg (.make (.alias n!"units::isq::si::length" (.nm n!"units::isq::si::metre") (.flt .f64)) (.num (.flt .f64) (869 / 1250))))),
  (137, .cmp .eq (.op .sub (.make (.alias n!"units::isq::si::length" (.nm n!"units::isq::si::metre") (.flt .f64)) (.num (.int .i32) 1)) (.op .mul (.num (.int .i32) 1) (.ref n!"units::isq::si::fps::length_references::ft"))) (.make (.alias n!"units::isq::si::length" (.nm n!"units::isq::si::metre") (.flt .f64)) (.num (.flt .f64) (869 / 1250)))),
  (138, .both (.cmp .gt (.op .sub (.cast (.alias n!"units::isq::si::length" (.nm n!"units::isq::si::metre") (.flt .f64)) (.op .mul (.num (.flt .f64) 6) (.ref n!"units::isq::si::fps::length_references::ft"))) (.make (.alias n!"units::isq::si::length" (.nm n!"units::isq::si::metre") (.flt .f64)) (.num (.int .i32) 1))) (.make (.alias n!"units::isq::si::length" (.nm n!"units::isq::si::metre") (.flt .f64)) (.num (.flt .f64) (8287 / 10000)))) (.cmp .lt (.op .sub (.cast (.alias n!"units::isq::si::length" (.nm n!"units::isq::si::metre") (.flt .f64)) (.op .mul (.num (.flt .f64) 6) (.ref n!"units::isq::si::fps::length_references::ft"))) (.make (.alias n!"units::isq::si::length" (.nm n!"units::isq::si::metre") (.flt .f64)) (.num (.int .i32) 1))) (.make (.alias n!"units::isq::si::length" (.nm n!"units::isq::si::metre") (.flt .f64)) (.num (.flt .f64) (8289 / 10000))))),
  (140, .cmp .eq (.op .sub (.make (.alias n!"units::isq::si::length" (.nm n!"units::isq::si::metre") (.flt .f64)) (.num (.int .i32) 5)) (.cast (.alias n!"units::isq::si::length" (.nm n!"units::isq::si::metre") (.flt .f64)) (.op .mul (.num (.int .i32) 6) (.ref n!"units::isq::si::fps::length_references::ft")))) (.make (.alias n!"units::isq::si::length" (.nm n!"units::isq::si::metre") (.flt .f64)) (.num (.flt .f64) (1982 / 625)))),
  (141, .cmp .eq (.op .sub (.op .mul (.num (.flt .f64) 6) (.ref n!"units::isq::si::fps::length_references::ft")) (.cast (.alias n!"units::isq::si::fps::length" (.nm n!"units::isq::si::fps::foot") (.flt .f64)) (.make (.alias n!"units::isq::si::length" (.nm n!"units::isq::si::metre") (.flt .f64)) (.num (.flt .f64) (381 / 1250))))) (.op .mul (.num (.flt .f64) 5) (.ref n!"units::isq::si::fps::length_references::ft"))),
  (142, .cmp .eq (.op .sub (.cast (.alias n!"units::isq::si::fps::length" (.nm n!"units::isq::si::fps::foot") (.flt .f64)) (.make (.alias n!"units::isq::si::length" (.nm n!"units::isq::si::metre") (.flt .f64)) (.num (.flt .f64) (1143 / 625)))) (.op .mul (.num (.flt .f64) 1) (.ref n!"units::isq::si::fps::length_references::ft"))) (.op .mul (.num (.flt .f64) 5) (.ref n!"units::isq::si::fps::length_references::ft"))),
  (147, .cmp .eq (.op .mul (.cast (.alias n!"units::isq::si::length" (.nm n!"units::isq::si::metre") (.flt .f64)) (.op .mul (.num (.flt .f64) 2) (.ref n!"units::isq::si::fps::length_references::ft"))) (.make (.alias n!"units::isq::si::length" (.nm n!"units::isq::si::metre") (.flt .f64)) (.num (.int .i32) 2))) (.make (.alias n!"units::isq::si::area" (.nm n!"units::isq::si::square_metre") (.flt .f64)) (.num (.flt .f64) (762 / 625)))),
  (148, .cmp .eq (.op .mul (.cast (.alias n!"units::isq::si::length" (.nm n!"units::isq::si::metre") (.flt .f64)) (.op .mul (.num (.flt .f64) 2) (.ref n!"units::isq::si::fps::length_references::ft"))) (.make (.alias n!"units::isq::si::length" (.nm n!"units::isq::si::metre") (.flt .f64)) (.num (.flt .f64) (381 / 625)))) (.make (.alias n!"units::isq::si::area" (.nm n!"units::isq::si::square_metre") (.flt .f64)) (.num (.flt .f64) (145161 / 390625)))),
  (149, .cmp .eq (.op .mul (.op .mul (.num (.flt .f64) 2) (.ref n!"units::isq::si::fps::length_references::ft")) (.cast (.alias n!"units::isq::si::fps::length" (.nm n!"units::isq::si::fps::foot") (.flt .f64)) (.make (.alias n!"units::isq::si::length" (.nm n!"units::isq::si::metre") (.flt .f64)) (.num (.flt .f64) (381 / 625))))) (.lit n!"units::isq::si::fps::literals::_q_ft2" false 4)),
  (154, .cmp .eq (.op .div (.make (.alias n!"units::isq::si::area" (.nm n!"units::isq::si::square_metre") (.flt .f64)) (.num (.flt .f64) (580644 / 390625))) (.cast (.alias n!"units::isq::si::length" (.nm n!"units::isq::si::metre") (.flt .f64)) (.op .mul (.num (.int .i32) 4) (.ref n!"units::isq::si::fps::length_references::ft")))) (.make (.alias n!"units::isq::si::length" (.nm n!"units::isq::si::metre") (.flt .f64)) (.num (.flt .f64) (762 / 625)))),
  (155, .cmp .eq (.op .div (.cast (.alias n!"units::isq::si::fps::area" (.nm n!"units::isq::si::fps::square_foot") (.flt .f64)) (.make (.alias n!"units::isq::si::area" (.nm n!"units::isq::si::square_metre") (.flt .f64)) (.num (.flt .f64) (580644 / 390625)))) (.op .mul (.num (.flt .f64) 4) (.ref n!"units::isq::si::fps::length_references::ft"))) (.op .mul (.num (.flt .f64) 4) (.ref n!"units::isq::si::fps::length_references::ft")))]

#guard failures [n!"isq/si/acceleration.h", n!"isq/si/area.h", n!"isq/si/energy.h", n!"isq/si/force.h", n!"isq/si/fps/fps.h", n!"isq/si/length.h", n!"isq/si/mass.h", n!"isq/si/power.h", n!"isq/si/pressure.h", n!"isq/si/speed.h", n!"isq/si/time.h"] testSiFps = some []

/-- /repo/test/unit_test/static/iec80000_test.cpp: 17 of its 17 assertions. -/
def testIec80000 : List (Nat × Check) := [
  (35, .cmp .eq (.op .mul (.num (.int .i32) 1) (.ref n!"units::isq::iec80000::storage_capacity_references::B")) (.op .mul (.num (.int .i32) 8) (.ref n!"units::isq::iec80000::storage_capacity_references::bit"))),
  (36, .cmp .eq (.op .mul (.num (.int .i32) 1024) (.ref n!"units::isq::iec80000::storage_capacity_references::bit")) (.op .mul (.num (.int .i32) 1) (.ref n!"units::isq::iec80000::storage_capacity_references::Kibit"))),
  (37, .cmp .eq (.op .mul (.num (.int .i32) 1024) (.ref n!"units::isq::iec80000::storage_capacity_references::B")) (.op .mul (.num (.int .i32) 1) (.ref n!"units::isq::iec80000::storage_capacity_references::KiB"))),
  (38, .cmp .eq (.op .mul (.op .mul (.num (.int .i32) 8) (.num (.int .i32) 1024)) (.ref n!"units::isq::iec80000::storage_capacity_references::bit")) (.op .mul (.num (.int .i32) 1) (.ref n!"units::isq::iec80000::storage_capacity_references::KiB"))),
  (39, .cmp .eq (.op .mul (.op .mul (.num (.int .i32) 8) (.num (.int .i32) 1)) (.ref n!"units::isq::iec80000::storage_capacity_references::Kibit")) (.op .mul (.num (.int .i32) 1) (.ref n!"units::isq::iec80000::storage_capacity_references::KiB"))),
  (41, .cmp .eq (.op .mul (.num (.int .i32) 1) (.ref n!"units::isq::iec80000::storage_capacity_references::kbit")) (.op .mul (.num (.int .i32) 1000) (.ref n!"units::isq::iec80000::storage_capacity_references::bit"))),
  (42, .cmp .eq (.op .mul (.num (.int .i32) 2000) (.ref n!"units::isq::iec80000::storage_capacity_references::Mibit")) (.op .mul (.num (.int .i32) 2097152) (.ref n!"units::isq::iec80000::storage_capacity_references::kbit"))),
  (44, .cmp .eq (.op .mul (.num (.int .i32) 1) (.ref n!"units::isq::iec80000::storage_capacity_references::Kibit")) (.op .mul (.num (.int .i32) 1024) (.ref n!"units::isq::iec80000::storage_capacity_references::bit"))),
  (45, .cmp .eq (.op .mul (.num (.int .i32) 1) (.ref n!"units::isq::iec80000::storage_capacity_references::Mibit")) (.op .mul (.num (.int .i32) 1024) (.ref n!"units::isq::iec80000::storage_capacity_references::Kibit"))),
  (46, .cmp .eq (.op .mul (.num (.int .i32) 1) (.ref n!"units::isq::iec80000::storage_capacity_references::Gibit")) (.op .mul (.num (.int .i32) 1024) (.ref n!"units::isq::iec80000::storage_capacity_references::Mibit"))),
  (47, .cmp .eq (.op .mul (.num (.int .i32) 1) (.ref n!"units::isq::iec80000::storage_capacity_references::Tibit")) (.op .mul (.num (.int .i32) 1024) (.ref n!"units::isq::iec80000::storage_capacity_references::Gibit"))),
  (48, .cmp .eq (.op .mul (.num (.int .i32) 1) (.ref n!"units::isq::iec80000::storage_capacity_references::Pibit")) (.op .mul (.num (.int .i32) 1024) (.ref n!"units::isq::iec80000::storage_capacity_references::Tibit"))),
  (49, .cmp .eq (.op .mul (.num (.int .i32) 1) (.ref n!"units::isq::iec80000::storage_capacity_references::Eibit")) (.op .mul (.num (.int .i32) 1024) (.ref n!"units::isq::iec80000::storage_capacity_references::Pibit"))),
  (53, .cmp .eq (.op .div (.op .mul (.num (.int .i32) 16) (.ref n!"units::isq::iec80000::storage_capacity_references::B")) (.op .mul (.num (.int .i32) 2) (.ref n!"units::isq::si::time_references::s"))) (.op .mul (.num (.int .i32) 8) (.op .div (.ref n!"units::isq::iec80000::storage_capacity_references::B") (.ref n!"units::isq::si::time_references::s")))),
  (54, .cmp .eq (.op .div (.op .mul (.num (.int .i32) 120) (.ref n!"units::isq::iec80000::storage_capacity_references::kB")) (.op .mul (.num (.int .i32) 2) (.ref n!"units::isq::si::time_references::min"))) (.op .mul (.num (.int .i32) 1000) (.op .div (.ref n!"units::isq::iec80000::storage_capacity_references::B") (.ref n!"units::isq::si::time_references::s")))),
  (58, .cmp .eq (.op .div (.num (.int .i32) 12) (.op .mul (.num (.int .i32) 2) (.ref n!"units::isq::si::time_references::s"))) (.op .mul (.num (.int .i32) 6) (.ref n!"units::isq::iec80000::modulation_rate_references::Bd"))),
  (59, .cmp .eq (.op .div (.num (.int .i32) 6000) (.op .mul (.num (.int .i32) 3) (.ref n!"units::isq::si::time_references::s"))) (.op .mul (.num (.int .i32) 2) (.ref n!"units::isq::iec80000::modulation_rate_references::kBd")))]

#guard failures [n!"isq/iec80000/iec80000.h", n!"isq/si/time.h"] testIec80000 = some []

/-- /repo/test/unit_test/static/references_test.cpp: 9 of its 12 assertions. -/
def testReferences : List (Nat × Check) := [
  (35, .cmp .eq (.op .mul (.num (.int .i32) 2) (.ref n!"units::isq::si::length_references::m")) (.lit n!"units::isq::si::literals::_q_m" true 2)),
  (36, .cmp .eq (.op .mul (.num (.int .i32) 2) (.ref n!"units::isq::si::time_references::s")) (.lit n!"units::isq::si::literals::_q_s" true 2)),
  (59, .cmp .eq (.op .div (.lit n!"units::isq::si::literals::_q_m" true 2) (.op .mul (.num (.int .i32) 1) (.ref n!"units::isq::si::time_references::s"))) (.lit n!"units::isq::si::literals::_q_m_per_s" true 2)),
  (60, .cmp .eq (.op .mul (.num (.int .i32) 2) (.op .div (.ref n!"units::isq::si::length_references::m") (.ref n!"units::isq::si::time_references::s"))) (.lit n!"units::isq::si::literals::_q_m_per_s" true 2)),
  (64, .cmp .eq (.op .mul (.num (.int .i32) 2) (.op .div (.ref n!"units::isq::si::length_references::m") (.ref n!"units::isq::si::time_references::s"))) (.lit n!"units::isq::si::literals::_q_m_per_s" true 2)),
  (67, .cmp .eq (.op .div (.op .mul (.num (.int .i32) 120) (.ref n!"units::isq::si::length_references::km")) (.op .mul (.num (.int .i32) 2) (.ref n!"units::isq::si::time_references::h"))) (.lit n!"units::isq::si::literals::_q_km_per_h" true 60)),
  (73, .sameType (.op .div (.op .mul (.num (.int .i64) 120) (.ref n!"units::isq::si::length_references::km")) (.op .mul (.num (.int .i32) 2) (.ref n!"units::isq::si::time_references::h"))) (.lit n!"units::isq::si::literals::_q_km_per_h" true 60)),
  (74, .sameType (.op .div (.op .mul (.num (.flt .f80) 120) (.ref n!"units::isq::si::length_references::km")) (.op .mul (.num (.int .i32) 2) (.ref n!"units::isq::si::time_references::h"))) (.lit n!"units::isq::si::literals::_q_km_per_h" false 60)),
  (76, .cmp .eq (.op .mul (.op .div (.num (.flt .f64) 1) (.num (.int .i32) 4)) (.ref n!"units::isq::si::area_references::m2")) (.op .div (.lit n!"units::isq::si::literals::_q_m2" false 1) (.num (.int .i32) 4)))]

#guard failures [n!"isq/si/area.h", n!"isq/si/length.h", n!"isq/si/speed.h", n!"isq/si/time.h"] testReferences = some []

end Verif.Conformance
