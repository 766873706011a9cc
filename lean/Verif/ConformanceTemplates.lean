import Verif.ConformanceCore

/-!
# Static tests of the class templates, replayed in the model (generated by tools/gen_conformance_core.py)

The number of each check is the line of the assertion in the test.
-/

namespace Verif.Conformance

open Systems

set_option maxRecDepth 100000

/-- The kinds and point kinds of /repo/test/unit_test/static/quantity_test.cpp. -/
def declsQuantity : List Decl' := []

/-- /repo/test/unit_test/static/quantity_test.cpp. -/
def testQuantity0 : List (Nat × Check2) := [
  (66, .badType (.qty (.nm n!"units::isq::si::dim_length") (.nm n!"units::isq::si::second") (.int .i32))),
  (89, .eqWith (.obj (.alias n!"units::isq::si::length" (.nm n!"units::isq::si::metre") (.flt .f64)) 1) (.obj (.alias n!"units::isq::si::length" (.nm n!"units::isq::si::metre") (.flt .f64)) 1)),
  (90, .cmpWith (.obj (.alias n!"units::isq::si::length" (.nm n!"units::isq::si::metre") (.flt .f64)) 1) (.obj (.alias n!"units::isq::si::length" (.nm n!"units::isq::si::metre") (.flt .f64)) 1)),
  (93, .cmpWith (.obj (.alias n!"units::isq::si::length" (.nm n!"units::isq::si::metre") (.flt .f64)) 1) (.obj (.alias n!"units::isq::si::length" (.nm n!"units::isq::si::metre") (.flt .f64)) 1)),
  (112, .cmp .eq (.number (.special (.alias n!"units::isq::si::length" (.nm n!"units::isq::si::metre") (.int .i32)) .zero)) (.num (.int .i32) 0)),
  (113, .cmp .eq (.number (.special (.alias n!"units::isq::si::length" (.nm n!"units::isq::si::metre") (.int .i32)) .min)) (.limit (.int .i32) false)),
  (114, .cmp .eq (.number (.special (.alias n!"units::isq::si::length" (.nm n!"units::isq::si::metre") (.int .i32)) .max)) (.limit (.int .i32) true)),
  (115, .cmp .eq (.number (.special (.alias n!"units::isq::si::length" (.nm n!"units::isq::si::metre") (.flt .f64)) .zero)) (.num (.flt .f64) 0)),
  (116, .cmp .eq (.number (.special (.alias n!"units::isq::si::length" (.nm n!"units::isq::si::metre") (.flt .f64)) .min)) (.limit (.flt .f64) false)),
  (117, .cmp .eq (.number (.special (.alias n!"units::isq::si::length" (.nm n!"units::isq::si::metre") (.flt .f64)) .max)) (.limit (.flt .f64) true)),
  (125, .constructible (.alias n!"units::isq::si::length" (.nm n!"units::isq::si::metre") (.flt .f64)) (.obj (.rep (.flt .f64)) 1)),
  (126, .not (.convertible (.alias n!"units::isq::si::length" (.nm n!"units::isq::si::metre") (.flt .f64)) (.obj (.rep (.flt .f64)) 1))),
  (128, .constructible (.alias n!"units::isq::si::length" (.nm n!"units::isq::si::metre") (.flt .f64)) (.obj (.rep (.flt .f32)) 1)),
  (129, .not (.convertible (.alias n!"units::isq::si::length" (.nm n!"units::isq::si::metre") (.flt .f64)) (.obj (.rep (.flt .f32)) 1))),
  (131, .constructible (.alias n!"units::isq::si::length" (.nm n!"units::isq::si::metre") (.flt .f32)) (.obj (.rep (.flt .f64)) 1)),
  (132, .not (.convertible (.alias n!"units::isq::si::length" (.nm n!"units::isq::si::metre") (.flt .f32)) (.obj (.rep (.flt .f64)) 1))),
  (134, .constructible (.alias n!"units::isq::si::length" (.nm n!"units::isq::si::metre") (.flt .f64)) (.obj (.rep (.int .i32)) 1)),
  (135, .not (.convertible (.alias n!"units::isq::si::length" (.nm n!"units::isq::si::metre") (.flt .f64)) (.obj (.rep (.int .i32)) 1))),
  (137, .constructible (.alias n!"units::isq::si::length" (.nm n!"units::isq::si::metre") (.flt .f64)) (.obj (.rep (.int .i16)) 1)),
  (138, .not (.convertible (.alias n!"units::isq::si::length" (.nm n!"units::isq::si::metre") (.flt .f64)) (.obj (.rep (.int .i16)) 1))),
  (140, .constructible (.alias n!"units::isq::si::length" (.nm n!"units::isq::si::metre") (.int .i16)) (.obj (.rep (.int .i32)) 1)),
  (141, .not (.convertible (.alias n!"units::isq::si::length" (.nm n!"units::isq::si::metre") (.int .i16)) (.obj (.rep (.int .i32)) 1))),
  (144, .constructible (.alias n!"units::dimensionless" (.nm n!"units::one") (.flt .f64)) (.obj (.rep (.flt .f64)) 1)),
  (145, .convertible (.alias n!"units::dimensionless" (.nm n!"units::one") (.flt .f64)) (.obj (.rep (.flt .f64)) 1)),
  (147, .constructible (.alias n!"units::dimensionless" (.nm n!"units::one") (.flt .f64)) (.obj (.rep (.flt .f32)) 1)),
  (148, .convertible (.alias n!"units::dimensionless" (.nm n!"units::one") (.flt .f64)) (.obj (.rep (.flt .f32)) 1)),
  (150, .constructible (.alias n!"units::dimensionless" (.nm n!"units::one") (.flt .f32)) (.obj (.rep (.flt .f64)) 1)),
  (151, .convertible (.alias n!"units::dimensionless" (.nm n!"units::one") (.flt .f32)) (.obj (.rep (.flt .f64)) 1)),
  (153, .constructible (.alias n!"units::dimensionless" (.nm n!"units::one") (.flt .f64)) (.obj (.rep (.int .i32)) 1)),
  (154, .convertible (.alias n!"units::dimensionless" (.nm n!"units::one") (.flt .f64)) (.obj (.rep (.int .i32)) 1)),
  (156, .constructible (.alias n!"units::dimensionless" (.nm n!"units::one") (.flt .f64)) (.obj (.rep (.int .i16)) 1)),
  (157, .convertible (.alias n!"units::dimensionless" (.nm n!"units::one") (.flt .f64)) (.obj (.rep (.int .i16)) 1)),
  (159, .constructible (.alias n!"units::dimensionless" (.nm n!"units::one") (.int .i16)) (.obj (.rep (.int .i32)) 1)),
  (160, .convertible (.alias n!"units::dimensionless" (.nm n!"units::one") (.int .i16)) (.obj (.rep (.int .i32)) 1)),
  (163, .constructible (.alias n!"units::dimensionless" (.nm n!"units::percent") (.flt .f64)) (.obj (.rep (.flt .f64)) 1)),
  (164, .not (.convertible (.alias n!"units::dimensionless" (.nm n!"units::percent") (.flt .f64)) (.obj (.rep (.flt .f64)) 1))),
  (166, .constructible (.alias n!"units::dimensionless" (.nm n!"units::percent") (.flt .f64)) (.obj (.rep (.flt .f32)) 1)),
  (167, .not (.convertible (.alias n!"units::dimensionless" (.nm n!"units::percent") (.flt .f64)) (.obj (.rep (.flt .f32)) 1))),
  (169, .constructible (.alias n!"units::dimensionless" (.nm n!"units::percent") (.flt .f32)) (.obj (.rep (.flt .f64)) 1)),
  (170, .not (.convertible (.alias n!"units::dimensionless" (.nm n!"units::percent") (.flt .f32)) (.obj (.rep (.flt .f64)) 1))),
  (172, .constructible (.alias n!"units::dimensionless" (.nm n!"units::percent") (.flt .f64)) (.obj (.rep (.int .i32)) 1)),
  (173, .not (.convertible (.alias n!"units::dimensionless" (.nm n!"units::percent") (.flt .f64)) (.obj (.rep (.int .i32)) 1))),
  (175, .constructible (.alias n!"units::dimensionless" (.nm n!"units::percent") (.flt .f64)) (.obj (.rep (.int .i16)) 1)),
  (176, .not (.convertible (.alias n!"units::dimensionless" (.nm n!"units::percent") (.flt .f64)) (.obj (.rep (.int .i16)) 1))),
  (178, .constructible (.alias n!"units::dimensionless" (.nm n!"units::percent") (.int .i16)) (.obj (.rep (.int .i32)) 1)),
  (179, .not (.convertible (.alias n!"units::dimensionless" (.nm n!"units::percent") (.int .i16)) (.obj (.rep (.int .i32)) 1))),
  (182, .not (.constructible (.alias n!"units::isq::si::length" (.nm n!"units::isq::si::metre") (.int .i32)) (.obj (.rep (.flt .f64)) 1))),
  (183, .not (.convertible (.alias n!"units::isq::si::length" (.nm n!"units::isq::si::metre") (.int .i32)) (.obj (.rep (.flt .f64)) 1))),
  (185, .not (.constructible (.alias n!"units::dimensionless" (.nm n!"units::one") (.int .i32)) (.obj (.rep (.flt .f64)) 1))),
  (186, .not (.convertible (.alias n!"units::dimensionless" (.nm n!"units::one") (.int .i32)) (.obj (.rep (.flt .f64)) 1))),
  (188, .cmp .eq (.number (.obj (.alias n!"units::isq::si::length" (.nm n!"units::isq::si::metre") (.int .i32)) 0)) (.num (.int .i32) 0)),
  (189, .cmp .eq (.number (.make (.alias n!"units::isq::si::length" (.nm n!"units::isq::si::metre") (.int .i32)) (.num (.int .i32) 1))) (.num (.int .i32) 1)),
  (190, .cmp .eq (.number (.make (.alias n!"units::isq::si::length" (.nm n!"units::isq::si::metre") (.flt .f64)) (.num (.flt .f64) 1))) (.num (.flt .f64) 1)),
  (191, .cmp .eq (.number (.make (.alias n!"units::isq::si::length" (.nm n!"units::isq::si::metre") (.flt .f64)) (.num (.int .i32) 1))) (.num (.flt .f64) 1)),
  (192, .cmp .eq (.number (.make (.alias n!"units::isq::si::length" (.nm n!"units::isq::si::metre") (.flt .f64)) (.num (.flt .f64) (157 / 50)))) (.num (.flt .f64) (157 / 50))),
  (200, .constructible (.alias n!"units::isq::si::length" (.nm n!"units::isq::si::metre") (.flt .f64)) (.obj (.alias n!"units::isq::si::length" (.nm n!"units::isq::si::metre") (.flt .f64)) 1)),
  (201, .convertible (.alias n!"units::isq::si::length" (.nm n!"units::isq::si::metre") (.flt .f64)) (.obj (.alias n!"units::isq::si::length" (.nm n!"units::isq::si::metre") (.flt .f64)) 1)),
  (202, .constructible (.alias n!"units::isq::si::length" (.nm n!"units::isq::si::centimetre") (.flt .f64)) (.obj (.alias n!"units::isq::si::cgs::length" (.nm n!"units::isq::si::cgs::centimetre") (.flt .f64)) 1)),
  (203, .convertible (.alias n!"units::isq::si::length" (.nm n!"units::isq::si::centimetre") (.flt .f64)) (.obj (.alias n!"units::isq::si::cgs::length" (.nm n!"units::isq::si::cgs::centimetre") (.flt .f64)) 1)),
  (204, .constructible (.alias n!"units::isq::si::fps::length" (.nm n!"units::isq::si::fps::foot") (.flt .f64)) (.obj (.alias n!"units::isq::si::cgs::length" (.nm n!"units::isq::si::cgs::centimetre") (.flt .f64)) 1)),
  (205, .convertible (.alias n!"units::isq::si::fps::length" (.nm n!"units::isq::si::fps::foot") (.flt .f64)) (.obj (.alias n!"units::isq::si::cgs::length" (.nm n!"units::isq::si::cgs::centimetre") (.flt .f64)) 1)),
  (208, .not (.constructible (.alias n!"units::isq::si::length" (.nm n!"units::isq::si::metre") (.flt .f64)) (.obj (.alias n!"units::isq::si::time" (.nm n!"units::isq::si::second") (.flt .f64)) 1))),
  (209, .not (.convertible (.alias n!"units::isq::si::length" (.nm n!"units::isq::si::metre") (.flt .f64)) (.obj (.alias n!"units::isq::si::time" (.nm n!"units::isq::si::second") (.flt .f64)) 1))),
  (210, .not (.constructible (.alias n!"units::isq::si::length" (.nm n!"units::isq::si::metre") (.flt .f64)) (.obj (.alias n!"units::isq::si::speed" (.nm n!"units::isq::si::metre_per_second") (.flt .f64)) 1))),
  (211, .not (.convertible (.alias n!"units::isq::si::length" (.nm n!"units::isq::si::metre") (.flt .f64)) (.obj (.alias n!"units::isq::si::speed" (.nm n!"units::isq::si::metre_per_second") (.flt .f64)) 1))),
  (214, .constructible (.alias n!"units::isq::si::length" (.nm n!"units::isq::si::metre") (.flt .f64)) (.obj (.alias n!"units::isq::si::length" (.nm n!"units::isq::si::metre") (.int .i32)) 1)),
  (215, .convertible (.alias n!"units::isq::si::length" (.nm n!"units::isq::si::metre") (.flt .f64)) (.obj (.alias n!"units::isq::si::length" (.nm n!"units::isq::si::metre") (.int .i32)) 1)),
  (217, .not (.constructible (.alias n!"units::isq::si::length" (.nm n!"units::isq::si::metre") (.int .i32)) (.obj (.alias n!"units::isq::si::length" (.nm n!"units::isq::si::metre") (.flt .f64)) 1))),
  (218, .not (.convertible (.alias n!"units::isq::si::length" (.nm n!"units::isq::si::metre") (.int .i32)) (.obj (.alias n!"units::isq::si::length" (.nm n!"units::isq::si::metre") (.flt .f64)) 1))),
  (220, .constructible (.alias n!"units::isq::si::length" (.nm n!"units::isq::si::metre") (.int .i32)) (.obj (.alias n!"units::isq::si::length" (.nm n!"units::isq::si::kilometre") (.int .i32)) 1)),
  (221, .convertible (.alias n!"units::isq::si::length" (.nm n!"units::isq::si::metre") (.int .i32)) (.obj (.alias n!"units::isq::si::length" (.nm n!"units::isq::si::kilometre") (.int .i32)) 1)),
  (223, .not (.constructible (.alias n!"units::isq::si::length" (.nm n!"units::isq::si::kilometre") (.int .i32)) (.obj (.alias n!"units::isq::si::length" (.nm n!"units::isq::si::metre") (.int .i32)) 1))),
  (224, .not (.convertible (.alias n!"units::isq::si::length" (.nm n!"units::isq::si::kilometre") (.int .i32)) (.obj (.alias n!"units::isq::si::length" (.nm n!"units::isq::si::metre") (.int .i32)) 1))),
  (227, .constructible (.alias n!"units::isq::si::length" (.nm n!"units::isq::si::metre") (.flt .f64)) (.obj (.alias n!"units::isq::si::length" (.nm n!"units::isq::si::kilometre") (.int .i32)) 1)),
  (228, .convertible (.alias n!"units::isq::si::length" (.nm n!"units::isq::si::metre") (.flt .f64)) (.obj (.alias n!"units::isq::si::length" (.nm n!"units::isq::si::kilometre") (.int .i32)) 1)),
  (229, .constructible (.alias n!"units::isq::si::length" (.nm n!"units::isq::si::kilometre") (.flt .f64)) (.obj (.alias n!"units::isq::si::length" (.nm n!"units::isq::si::metre") (.int .i32)) 1)),
  (230, .convertible (.alias n!"units::isq::si::length" (.nm n!"units::isq::si::kilometre") (.flt .f64)) (.obj (.alias n!"units::isq::si::length" (.nm n!"units::isq::si::metre") (.int .i32)) 1)),
  (232, .cmp .eq (.number (.make (.alias n!"units::isq::si::length" (.nm n!"units::isq::si::metre") (.int .i32)) (.lit n!"units::isq::si::literals::_q_m" true 123))) (.num (.int .i32) 123)),
  (233, .cmp .eq (.number (.make (.alias n!"units::isq::si::length" (.nm n!"units::isq::si::kilometre") (.int .i32)) (.lit n!"units::isq::si::literals::_q_km" true 2))) (.num (.int .i32) 2)),
  (234, .cmp .eq (.number (.make (.alias n!"units::isq::si::length" (.nm n!"units::isq::si::metre") (.int .i32)) (.lit n!"units::isq::si::literals::_q_km" true 2))) (.num (.int .i32) 2000)),
  (235, .cmp .eq (.number (.make (.alias n!"units::isq::si::length" (.nm n!"units::isq::si::kilometre") (.flt .f64)) (.lit n!"units::isq::si::literals::_q_m" true 1500))) (.num (.flt .f64) (3 / 2))),
  (254, .type (.deduceQty (.make (.alias n!"units::isq::si::length" (.nm n!"units::isq::si::metre") (.int .i32)) (.num (.int .i32) 123))) (.alias n!"units::isq::si::length" (.nm n!"units::isq::si::metre") (.int .i32))),
  (255, .type (.deduceQty (.make (.alias n!"units::isq::si::speed" (.nm n!"units::isq::si::metre_per_second") (.flt .f64)) (.num (.int .i32) 123))) (.alias n!"units::isq::si::speed" (.nm n!"units::isq::si::metre_per_second") (.flt .f64))),
  (257, .type (.deduceQty (.lit n!"units::isq::si::literals::_q_m" true 123)) (.alias n!"units::isq::si::length" (.nm n!"units::isq::si::metre") (.int .i64))),
  (258, .type (.deduceQty (.num (.int .i32) 1)) (.alias n!"units::dimensionless" (.nm n!"units::one") (.int .i32))),
  (259, .type (.deduceQty (.num (.flt .f64) (123 / 100))) (.alias n!"units::dimensionless" (.nm n!"units::one") (.flt .f64))),
  (266, .cmp .eq (.number (.assign (.make (.alias n!"units::isq::si::length" (.nm n!"units::isq::si::metre") (.int .i32)) (.num (.int .i32) 2)) (.make (.alias n!"units::isq::si::length" (.nm n!"units::isq::si::metre") (.int .i32)) (.num (.int .i32) 1)))) (.num (.int .i32) 1)),
  (267, .cmp .eq (.number (.assign (.make (.alias n!"units::isq::si::length" (.nm n!"units::isq::si::metre") (.int .i32)) (.num (.int .i32) 2)) (.make (.alias n!"units::isq::si::length" (.nm n!"units::isq::si::metre") (.int .i32)) (.num (.int .i32) 1)))) (.num (.int .i32) 1)),
  (274, .cmp .eq (.number (.pos (.lit n!"units::isq::si::literals::_q_m" true 123))) (.num (.int .i32) 123)),
  (275, .cmp .eq (.number (.neg (.lit n!"units::isq::si::literals::_q_m" true 123))) (.neg (.num (.int .i32) 123))),
  (276, .cmp .eq (.number (.pos (.neg (.lit n!"units::isq::si::literals::_q_m" true 123)))) (.neg (.num (.int .i32) 123))),
  (277, .cmp .eq (.number (.neg (.neg (.lit n!"units::isq::si::literals::_q_m" true 123)))) (.num (.int .i32) 123)),
  (279, .both (.same (.postNew .add (.lit n!"units::isq::si::literals::_q_m" true 123)) (.lit n!"units::isq::si::literals::_q_m" true 124)) (.same (.post .add (.lit n!"units::isq::si::literals::_q_m" true 123)) (.lit n!"units::isq::si::literals::_q_m" true 123))),
  (280, .both (.same (.pre .add (.lit n!"units::isq::si::literals::_q_m" true 123)) (.lit n!"units::isq::si::literals::_q_m" true 124)) (.same (.pre .add (.lit n!"units::isq::si::literals::_q_m" true 123)) (.lit n!"units::isq::si::literals::_q_m" true 124))),
  (281, .both (.same (.postNew .sub (.lit n!"units::isq::si::literals::_q_m" true 123)) (.lit n!"units::isq::si::literals::_q_m" true 122)) (.same (.post .sub (.lit n!"units::isq::si::literals::_q_m" true 123)) (.lit n!"units::isq::si::literals::_q_m" true 123))),
  (282, .both (.same (.pre .sub (.lit n!"units::isq::si::literals::_q_m" true 123)) (.lit n!"units::isq::si::literals::_q_m" true 122)) (.same (.pre .sub (.lit n!"units::isq::si::literals::_q_m" true 123)) (.lit n!"units::isq::si::literals::_q_m" true 122))),
  (284, .type (.number (.pos (.op .mul (.make (.rep (.int .i16)) (.num (.int .i32) 1)) (.ref n!"units::isq::si::length_references::m")))) (.rep (.int .i32))),
  (292, .cmp .eq (.number (.assignOp .add (.lit n!"units::isq::si::literals::_q_m" true 1) (.lit n!"units::isq::si::literals::_q_m" true 1))) (.num (.int .i32) 2)),
  (293, .cmp .eq (.number (.assignOp .sub (.lit n!"units::isq::si::literals::_q_m" true 2) (.lit n!"units::isq::si::literals::_q_m" true 1))) (.num (.int .i32) 1)),
  (294, .cmp .eq (.number (.assignOp .mul (.lit n!"units::isq::si::literals::_q_m" true 1) (.num (.int .i32) 2))) (.num (.int .i32) 2)),
  (295, .cmp .eq (.number (.assignOp .div (.lit n!"units::isq::si::literals::_q_m" true 2) (.num (.int .i32) 2))) (.num (.int .i32) 1)),
  (296, .cmp .eq (.number (.assignOp .mod (.lit n!"units::isq::si::literals::_q_m" true 7) (.num (.int .i32) 2))) (.num (.int .i32) 1)),
  (297, .cmp .eq (.number (.assignOp .mul (.lit n!"units::isq::si::literals::_q_m" true 1) (.deduceQty (.num (.int .i32) 2)))) (.num (.int .i32) 2)),
  (298, .cmp .eq (.number (.assignOp .div (.lit n!"units::isq::si::literals::_q_m" true 2) (.deduceQty (.num (.int .i32) 2)))) (.num (.int .i32) 1)),
  (299, .cmp .eq (.number (.assignOp .mod (.lit n!"units::isq::si::literals::_q_m" true 7) (.deduceQty (.num (.int .i32) 2)))) (.num (.int .i32) 1)),
  (300, .cmp .eq (.number (.assignOp .mod (.lit n!"units::isq::si::literals::_q_m" true 7) (.lit n!"units::isq::si::literals::_q_m" true 2))) (.num (.int .i32) 1)),
  (303, .cmp .eq (.number (.assignOp .add (.lit n!"units::isq::si::literals::_q_m" false (5 / 2)) (.lit n!"units::isq::si::literals::_q_m" true 3))) (.num (.flt .f64) (11 / 2))),
  (304, .cmp .eq (.number (.assignOp .add (.lit n!"units::isq::si::literals::_q_m" true 123) (.lit n!"units::isq::si::literals::_q_km" true 1))) (.num (.int .i32) 1123)),
  (305, .cmp .eq (.number (.assignOp .sub (.lit n!"units::isq::si::literals::_q_m" false (11 / 2)) (.lit n!"units::isq::si::literals::_q_m" true 3))) (.num (.flt .f64) (5 / 2))),
  (306, .cmp .eq (.number (.assignOp .sub (.lit n!"units::isq::si::literals::_q_m" true 1123) (.lit n!"units::isq::si::literals::_q_km" true 1))) (.num (.int .i32) 123)),
  (307, .cmp .eq (.number (.assignOp .mul (.lit n!"units::isq::si::literals::_q_m" false (5 / 2)) (.num (.int .i32) 3))) (.num (.flt .f64) (15 / 2))),
  (308, .cmp .eq (.number (.assignOp .div (.lit n!"units::isq::si::literals::_q_m" false (15 / 2)) (.num (.int .i32) 3))) (.num (.flt .f64) (5 / 2))),
  (309, .cmp .eq (.number (.assignOp .mul (.lit n!"units::isq::si::literals::_q_m" false (5 / 2)) (.deduceQty (.num (.int .i32) 3)))) (.num (.flt .f64) (15 / 2))),
  (310, .cmp .eq (.number (.assignOp .div (.lit n!"units::isq::si::literals::_q_m" false (15 / 2)) (.deduceQty (.num (.int .i32) 3)))) (.num (.flt .f64) (5 / 2))),
  (311, .cmp .eq (.number (.assignOp .mod (.lit n!"units::isq::si::literals::_q_m" true 3500) (.lit n!"units::isq::si::literals::_q_km" true 1))) (.num (.int .i32) 500)),
  (313, .cmp .eq (.number (.assignOp .mod (.op .mul (.make (.rep (.int .u8)) (.num (.int .i32) 255)) (.ref n!"units::isq::si::length_references::m")) (.num (.int .i32) 256))) (.assignOp .mod (.num (.int .u8) 255) (.num (.int .i32) 256))),
  (314, .cmp .eq (.number (.assignOp .mod (.op .mul (.make (.rep (.int .u8)) (.num (.int .i32) 255)) (.ref n!"units::isq::si::length_references::m")) (.deduceQty (.num (.int .i32) 256)))) (.assignOp .mod (.num (.int .u8) 255) (.num (.int .i32) 256))),
  (316, .cmp .eq (.number (.assignOp .mod (.op .mul (.make (.rep (.int .u8)) (.num (.int .i32) 255)) (.ref n!"units::isq::si::length_references::m")) (.num (.int .i32) 257))) (.assignOp .mod (.num (.int .u8) 255) (.num (.int .i32) 257))),
  (317, .cmp .eq (.number (.assignOp .mod (.op .mul (.make (.rep (.int .u8)) (.num (.int .i32) 255)) (.ref n!"units::isq::si::length_references::m")) (.deduceQty (.num (.int .i32) 257)))) (.assignOp .mod (.num (.int .u8) 255) (.num (.int .i32) 257))),
  (319, .cmp .ne (.number (.assignOp .mod (.op .mul (.make (.rep (.int .u8)) (.num (.int .i32) 255)) (.ref n!"units::isq::si::length_references::m")) (.op .mul (.num (.int .i32) 257) (.ref n!"units::isq::si::length_references::m")))) (.assignOp .mod (.num (.int .u8) 255) (.num (.int .i32) 257))),
  (324, .cmp .eq (.number (.assignOp .mul (.lit n!"units::isq::si::literals::_q_m" true 22) (.num (.flt .f64) (3333 / 100)))) (.num (.int .i32) 733)),
  (325, .cmp .eq (.number (.assignOp .div (.lit n!"units::isq::si::literals::_q_m" true 22) (.num (.flt .f64) (333 / 100)))) (.num (.int .i32) 6)),
  (326, .cmp .eq (.number (.assignOp .mul (.lit n!"units::isq::si::literals::_q_m" true 22) (.deduceQty (.num (.flt .f64) (3333 / 100))))) (.num (.int .i32) 733)),
  (327, .cmp .eq (.number (.assignOp .div (.lit n!"units::isq::si::literals::_q_m" true 22) (.deduceQty (.num (.flt .f64) (333 / 100))))) (.num (.int .i32) 6)),
  (368, .rejected (.assignOp .add (.obj (.alias n!"units::isq::si::length" (.nm n!"units::isq::si::metre") (.int .i32)) 1) (.lit n!"units::isq::si::literals::_q_m" false (5 / 2)))),
  (368, .rejected (.assignOp .sub (.obj (.alias n!"units::isq::si::length" (.nm n!"units::isq::si::metre") (.int .i32)) 1) (.lit n!"units::isq::si::literals::_q_m" false (5 / 2)))),
  (368, .rejected (.assignOp .add (.obj (.alias n!"units::isq::si::length" (.nm n!"units::isq::si::kilometre") (.int .i32)) 1) (.make (.alias n!"units::isq::si::length" (.nm n!"units::isq::si::metre") (.int .i32)) (.num (.int .i32) 2)))),
  (368, .rejected (.assignOp .sub (.obj (.alias n!"units::isq::si::length" (.nm n!"units::isq::si::kilometre") (.int .i32)) 1) (.make (.alias n!"units::isq::si::length" (.nm n!"units::isq::si::metre") (.int .i32)) (.num (.int .i32) 2)))),
  (368, .rejected (.assignOp .mod (.obj (.alias n!"units::isq::si::length" (.nm n!"units::isq::si::kilometre") (.int .i32)) 1) (.make (.alias n!"units::isq::si::length" (.nm n!"units::isq::si::metre") (.int .i32)) (.num (.int .i32) 2)))),
  (368, .rejected (.assignOp .mod (.obj (.alias n!"units::isq::si::length" (.nm n!"units::isq::si::kilometre") (.int .i32)) 1) (.make (.alias n!"units::dimensionless" (.nm n!"units::percent") (.int .i32)) (.num (.int .i32) 2)))),
  (368, .rejected (.assignOp .mod (.obj (.alias n!"units::isq::si::length" (.nm n!"units::isq::si::kilometre") (.int .i32)) 1) (.make (.alias n!"units::dimensionless" (.nm n!"units::percent") (.flt .f64)) (.num (.int .i32) 2)))),
  (368, .rejected (.assignOp .mul (.obj (.alias n!"units::isq::si::length" (.nm n!"units::isq::si::kilometre") (.int .i32)) 1) (.op .mul (.num (.int .i32) 1) (.op .div (.ref n!"units::isq::si::length_references::km") (.ref n!"units::isq::si::length_references::m"))))),
  (368, .rejected (.assignOp .div (.obj (.alias n!"units::isq::si::length" (.nm n!"units::isq::si::kilometre") (.int .i32)) 1) (.op .mul (.num (.int .i32) 1) (.op .div (.ref n!"units::isq::si::length_references::km") (.ref n!"units::isq::si::length_references::m"))))),
  (368, .rejected (.assignOp .mod (.obj (.alias n!"units::isq::si::length" (.nm n!"units::isq::si::kilometre") (.int .i32)) 1) (.op .mul (.num (.int .i32) 1) (.op .div (.ref n!"units::isq::si::length_references::km") (.ref n!"units::isq::si::length_references::m"))))),
  (368, .rejected (.assignOp .add (.obj (.alias n!"units::isq::si::length" (.nm n!"units::isq::si::metre") (.int .i32)) 1) (.num (.int .i32) 2))),
  (368, .rejected (.assignOp .sub (.obj (.alias n!"units::isq::si::length" (.nm n!"units::isq::si::metre") (.int .i32)) 1) (.num (.int .i32) 2))),
  (368, .rejected (.assignOp .mul (.obj (.alias n!"units::isq::si::length" (.nm n!"units::isq::si::metre") (.int .i32)) 1) (.lit n!"units::isq::si::literals::_q_m" true 2))),
  (368, .rejected (.assignOp .div (.obj (.alias n!"units::isq::si::length" (.nm n!"units::isq::si::metre") (.int .i32)) 1) (.lit n!"units::isq::si::literals::_q_m" true 2))),
  (368, .rejected (.assignOp .mod (.obj (.alias n!"units::isq::si::length" (.nm n!"units::isq::si::metre") (.flt .f64)) 1) (.num (.flt .f64) 2))),
  (368, .rejected (.assignOp .mod (.obj (.alias n!"units::isq::si::length" (.nm n!"units::isq::si::metre") (.flt .f64)) 1) (.num (.int .i32) 2))),
  (368, .rejected (.assignOp .mod (.obj (.alias n!"units::isq::si::length" (.nm n!"units::isq::si::metre") (.flt .f64)) 1) (.lit n!"units::isq::si::literals::_q_m" false 2))),
  (368, .rejected (.assignOp .mod (.obj (.alias n!"units::isq::si::length" (.nm n!"units::isq::si::metre") (.flt .f64)) 1) (.lit n!"units::isq::si::literals::_q_m" true 2))),
  (368, .rejected (.assignOp .mod (.obj (.alias n!"units::isq::si::length" (.nm n!"units::isq::si::metre") (.int .i32)) 1) (.lit n!"units::isq::si::literals::_q_m" false 2))),
  (368, .rejected (.assignOp .add (.obj (.alias n!"units::isq::si::length" (.nm n!"units::isq::si::metre") (.int .i32)) 1) (.ref n!"units::isq::si::length_references::m"))),
  (368, .rejected (.assignOp .sub (.obj (.alias n!"units::isq::si::length" (.nm n!"units::isq::si::metre") (.int .i32)) 1) (.ref n!"units::isq::si::length_references::m"))),
  (368, .rejected (.assignOp .mul (.obj (.alias n!"units::isq::si::length" (.nm n!"units::isq::si::metre") (.int .i32)) 1) (.ref n!"units::isq::si::length_references::m"))),
  (368, .rejected (.assignOp .div (.obj (.alias n!"units::isq::si::length" (.nm n!"units::isq::si::metre") (.int .i32)) 1) (.ref n!"units::isq::si::length_references::m"))),
  (368, .rejected (.assignOp .mod (.obj (.alias n!"units::isq::si::length" (.nm n!"units::isq::si::metre") (.int .i32)) 1) (.ref n!"units::isq::si::length_references::m"))),
  (397, .rejected (.op .add (.lit n!"units::isq::si::literals::_q_s" true 1) (.make (.alias n!"units::isq::si::length" (.nm n!"units::isq::si::metre") (.int .i32)) (.num (.int .i32) 1)))),
  (397, .rejected (.op .sub (.lit n!"units::isq::si::literals::_q_s" true 1) (.make (.alias n!"units::isq::si::length" (.nm n!"units::isq::si::metre") (.int .i32)) (.num (.int .i32) 1))))]

#guard failures2 [n!"generic/dimensionless.h", n!"isq/si/area.h", n!"isq/si/cgs/length.h", n!"isq/si/fps/length.h", n!"isq/si/frequency.h", n!"isq/si/prefixes.h", n!"isq/si/speed.h", n!"isq/si/time.h", n!"isq/si/volume.h"] [] declsQuantity testQuantity0 = some []

/-- /repo/test/unit_test/static/quantity_test.cpp. -/
def testQuantity1 : List (Nat × Check2) := [
  (397, .rejected (.op .mod (.obj (.alias n!"units::isq::si::length" (.nm n!"units::isq::si::metre") (.flt .f64)) 1) (.lit n!"units::isq::si::literals::_q_m" true 2))),
  (397, .rejected (.op .mod (.lit n!"units::isq::si::literals::_q_m" true 2) (.obj (.alias n!"units::isq::si::length" (.nm n!"units::isq::si::metre") (.flt .f64)) 1))),
  (397, .rejected (.op .mod (.obj (.alias n!"units::isq::si::length" (.nm n!"units::isq::si::metre") (.flt .f64)) 1) (.num (.int .i32) 2))),
  (397, .rejected (.op .mod (.obj (.alias n!"units::isq::si::length" (.nm n!"units::isq::si::metre") (.flt .f64)) 1) (.obj (.alias n!"units::isq::si::length" (.nm n!"units::isq::si::metre") (.flt .f64)) 1))),
  (397, .rejected (.op .mod (.obj (.alias n!"units::isq::si::length" (.nm n!"units::isq::si::metre") (.flt .f64)) 1) (.obj (.alias n!"units::isq::si::length" (.nm n!"units::isq::si::metre") (.int .i32)) 1))),
  (397, .rejected (.op .mod (.obj (.alias n!"units::isq::si::length" (.nm n!"units::isq::si::metre") (.int .i32)) 1) (.obj (.alias n!"units::isq::si::length" (.nm n!"units::isq::si::metre") (.flt .f64)) 1))),
  (397, .rejected (.op .add (.make (.alias n!"units::isq::si::length" (.nm n!"units::isq::si::metre") (.int .i32)) (.num (.int .i32) 1)) (.ref n!"units::isq::si::length_references::m"))),
  (397, .rejected (.op .sub (.make (.alias n!"units::isq::si::length" (.nm n!"units::isq::si::metre") (.int .i32)) (.num (.int .i32) 1)) (.ref n!"units::isq::si::length_references::m"))),
  (397, .rejected (.op .mod (.make (.alias n!"units::isq::si::length" (.nm n!"units::isq::si::metre") (.int .i32)) (.num (.int .i32) 1)) (.ref n!"units::isq::si::length_references::m"))),
  (397, .rejected (.op .add (.ref n!"units::isq::si::length_references::m") (.make (.alias n!"units::isq::si::length" (.nm n!"units::isq::si::metre") (.int .i32)) (.num (.int .i32) 1)))),
  (397, .rejected (.op .sub (.ref n!"units::isq::si::length_references::m") (.make (.alias n!"units::isq::si::length" (.nm n!"units::isq::si::metre") (.int .i32)) (.num (.int .i32) 1)))),
  (397, .rejected (.op .mod (.ref n!"units::isq::si::length_references::m") (.make (.alias n!"units::isq::si::length" (.nm n!"units::isq::si::metre") (.int .i32)) (.num (.int .i32) 1)))),
  (400, .type (.op .add (.lit n!"units::isq::si::literals::_q_m" true 1) (.lit n!"units::isq::si::literals::_q_m" true 1)) (.alias n!"units::isq::si::length" (.nm n!"units::isq::si::metre") (.int .i64))),
  (401, .type (.op .sub (.lit n!"units::isq::si::literals::_q_m" true 1) (.lit n!"units::isq::si::literals::_q_m" true 1)) (.alias n!"units::isq::si::length" (.nm n!"units::isq::si::metre") (.int .i64))),
  (402, .type (.op .mul (.lit n!"units::isq::si::literals::_q_m" true 1) (.num (.int .i32) 1)) (.alias n!"units::isq::si::length" (.nm n!"units::isq::si::metre") (.int .i64))),
  (403, .type (.op .mul (.lit n!"units::isq::si::literals::_q_m" true 1) (.deduceQty (.num (.int .i32) 1))) (.alias n!"units::isq::si::length" (.nm n!"units::isq::si::metre") (.int .i64))),
  (404, .type (.op .mul (.num (.int .i32) 1) (.lit n!"units::isq::si::literals::_q_m" true 1)) (.alias n!"units::isq::si::length" (.nm n!"units::isq::si::metre") (.int .i64))),
  (405, .type (.op .mul (.deduceQty (.num (.int .i32) 1)) (.lit n!"units::isq::si::literals::_q_m" true 1)) (.alias n!"units::isq::si::length" (.nm n!"units::isq::si::metre") (.int .i64))),
  (406, .type (.op .div (.lit n!"units::isq::si::literals::_q_m" true 1) (.num (.int .i32) 1)) (.alias n!"units::isq::si::length" (.nm n!"units::isq::si::metre") (.int .i64))),
  (407, .type (.op .div (.lit n!"units::isq::si::literals::_q_m" true 1) (.deduceQty (.num (.int .i32) 1))) (.alias n!"units::isq::si::length" (.nm n!"units::isq::si::metre") (.int .i64))),
  (408, .type (.op .mod (.lit n!"units::isq::si::literals::_q_m" true 1) (.num (.int .i32) 1)) (.alias n!"units::isq::si::length" (.nm n!"units::isq::si::metre") (.int .i64))),
  (409, .type (.op .mod (.lit n!"units::isq::si::literals::_q_m" true 1) (.deduceQty (.num (.int .i32) 1))) (.alias n!"units::isq::si::length" (.nm n!"units::isq::si::metre") (.int .i64))),
  (410, .type (.op .mod (.lit n!"units::isq::si::literals::_q_m" true 1) (.lit n!"units::isq::si::literals::_q_m" true 1)) (.alias n!"units::isq::si::length" (.nm n!"units::isq::si::metre") (.int .i64))),
  (411, .type (.op .mul (.lit n!"units::isq::si::literals::_q_m" true 1) (.make (.alias n!"units::dimensionless" (.nm n!"units::percent") (.int .i64)) (.num (.int .i32) 1))) (.alias n!"units::isq::si::length" (.nm n!"units::isq::si::centimetre") (.int .i64))),
  (412, .type (.op .mul (.make (.alias n!"units::dimensionless" (.nm n!"units::percent") (.int .i64)) (.num (.int .i32) 1)) (.lit n!"units::isq::si::literals::_q_m" true 1)) (.alias n!"units::isq::si::length" (.nm n!"units::isq::si::centimetre") (.int .i64))),
  (413, .type (.op .div (.lit n!"units::isq::si::literals::_q_m" true 1) (.make (.alias n!"units::dimensionless" (.nm n!"units::percent") (.int .i64)) (.num (.int .i32) 1))) (.alias n!"units::isq::si::length" (.nm n!"units::isq::si::hectometre") (.int .i64))),
  (414, .type (.op .mod (.lit n!"units::isq::si::literals::_q_m" true 1) (.make (.alias n!"units::dimensionless" (.nm n!"units::percent") (.int .i64)) (.num (.int .i32) 1))) (.alias n!"units::isq::si::length" (.nm n!"units::isq::si::metre") (.int .i64))),
  (415, .type (.op .mul (.lit n!"units::isq::si::literals::_q_m" true 1) (.lit n!"units::isq::si::literals::_q_m" true 1)) (.alias n!"units::isq::si::area" (.nm n!"units::isq::si::square_metre") (.int .i64))),
  (416, .type (.op .div (.lit n!"units::isq::si::literals::_q_m" true 1) (.lit n!"units::isq::si::literals::_q_m" true 1)) (.alias n!"units::dimensionless" (.nm n!"units::one") (.int .i64))),
  (417, .type (.op .div (.num (.int .i32) 1) (.lit n!"units::isq::si::literals::_q_s" true 1)) (.alias n!"units::isq::si::frequency" (.nm n!"units::isq::si::hertz") (.int .i64))),
  (418, .type (.op .div (.deduceQty (.num (.int .i32) 1)) (.lit n!"units::isq::si::literals::_q_s" true 1)) (.alias n!"units::isq::si::frequency" (.nm n!"units::isq::si::hertz") (.int .i64))),
  (419, .type (.op .div (.make (.alias n!"units::dimensionless" (.nm n!"units::percent") (.int .i64)) (.num (.int .i32) 1)) (.lit n!"units::isq::si::literals::_q_s" true 1)) (.alias n!"units::isq::si::frequency" (.scaled (1) (100) (0) (.nm n!"units::isq::si::hertz")) (.int .i64))),
  (421, .type (.number (.op .add (.op .mul (.make (.rep (.int .u8)) (.num (.int .i32) 1)) (.ref n!"units::isq::si::length_references::m")) (.op .mul (.make (.rep (.int .u8)) (.num (.int .i32) 1)) (.ref n!"units::isq::si::length_references::m")))) (.rep (.int .i32))),
  (422, .type (.number (.op .sub (.op .mul (.make (.rep (.int .u8)) (.num (.int .i32) 1)) (.ref n!"units::isq::si::length_references::m")) (.op .mul (.make (.rep (.int .u8)) (.num (.int .i32) 1)) (.ref n!"units::isq::si::length_references::m")))) (.rep (.int .i32))),
  (423, .cmp .eq (.number (.op .add (.op .mul (.make (.rep (.int .u8)) (.num (.int .i32) 128)) (.ref n!"units::isq::si::length_references::m")) (.op .mul (.make (.rep (.int .u8)) (.num (.int .i32) 128)) (.ref n!"units::isq::si::length_references::m")))) (.op .add (.make (.rep (.int .u8)) (.num (.int .i32) 128)) (.make (.rep (.int .u8)) (.num (.int .i32) 128)))),
  (424, .cmp .eq (.number (.op .sub (.op .mul (.make (.rep (.int .u8)) (.num (.int .i32) 0)) (.ref n!"units::isq::si::length_references::m")) (.op .mul (.make (.rep (.int .u8)) (.num (.int .i32) 1)) (.ref n!"units::isq::si::length_references::m")))) (.op .sub (.make (.rep (.int .u8)) (.num (.int .i32) 0)) (.make (.rep (.int .u8)) (.num (.int .i32) 1)))),
  (426, .sameType (.number (.op .mod (.op .mul (.make (.rep (.int .u8)) (.num (.int .i32) 1)) (.ref n!"units::isq::si::length_references::m")) (.op .mul (.make (.rep (.int .u8)) (.num (.int .i32) 1)) (.ref n!"units::isq::si::length_references::m")))) (.op .mod (.make (.rep (.int .u8)) (.num (.int .i32) 1)) (.make (.rep (.int .u8)) (.num (.int .i32) 1)))),
  (430, .type (.op .add (.lit n!"units::isq::si::literals::_q_m" true 1) (.lit n!"units::isq::si::literals::_q_m" false 1)) (.alias n!"units::isq::si::length" (.nm n!"units::isq::si::metre") (.flt .f80))),
  (431, .type (.op .sub (.lit n!"units::isq::si::literals::_q_m" true 1) (.lit n!"units::isq::si::literals::_q_m" false 1)) (.alias n!"units::isq::si::length" (.nm n!"units::isq::si::metre") (.flt .f80))),
  (432, .type (.op .mul (.lit n!"units::isq::si::literals::_q_m" true 1) (.num (.flt .f80) 1)) (.alias n!"units::isq::si::length" (.nm n!"units::isq::si::metre") (.flt .f80))),
  (433, .type (.op .mul (.num (.int .i32) 1) (.lit n!"units::isq::si::literals::_q_m" false 1)) (.alias n!"units::isq::si::length" (.nm n!"units::isq::si::metre") (.flt .f80))),
  (434, .type (.op .mul (.lit n!"units::isq::si::literals::_q_m" true 1) (.deduceQty (.num (.flt .f80) 1))) (.alias n!"units::isq::si::length" (.nm n!"units::isq::si::metre") (.flt .f80))),
  (435, .type (.op .mul (.deduceQty (.num (.int .i32) 1)) (.lit n!"units::isq::si::literals::_q_m" false 1)) (.alias n!"units::isq::si::length" (.nm n!"units::isq::si::metre") (.flt .f80))),
  (436, .type (.op .div (.lit n!"units::isq::si::literals::_q_m" true 1) (.num (.flt .f80) 1)) (.alias n!"units::isq::si::length" (.nm n!"units::isq::si::metre") (.flt .f80))),
  (437, .type (.op .div (.lit n!"units::isq::si::literals::_q_m" true 1) (.deduceQty (.num (.flt .f80) 1))) (.alias n!"units::isq::si::length" (.nm n!"units::isq::si::metre") (.flt .f80))),
  (438, .type (.op .mul (.lit n!"units::isq::si::literals::_q_m" true 1) (.make (.alias n!"units::dimensionless" (.nm n!"units::percent") (.flt .f80)) (.num (.int .i32) 1))) (.alias n!"units::isq::si::length" (.nm n!"units::isq::si::centimetre") (.flt .f80))),
  (439, .type (.op .mul (.make (.alias n!"units::dimensionless" (.nm n!"units::percent") (.int .i64)) (.num (.int .i32) 1)) (.lit n!"units::isq::si::literals::_q_m" false 1)) (.alias n!"units::isq::si::length" (.nm n!"units::isq::si::centimetre") (.flt .f80))),
  (440, .type (.op .mul (.lit n!"units::isq::si::literals::_q_m" true 1) (.lit n!"units::isq::si::literals::_q_m" false 1)) (.alias n!"units::isq::si::area" (.nm n!"units::isq::si::square_metre") (.flt .f80))),
  (441, .type (.op .div (.lit n!"units::isq::si::literals::_q_m" true 1) (.make (.alias n!"units::dimensionless" (.nm n!"units::percent") (.flt .f80)) (.num (.int .i32) 1))) (.alias n!"units::isq::si::length" (.nm n!"units::isq::si::hectometre") (.flt .f80))),
  (442, .type (.op .div (.lit n!"units::isq::si::literals::_q_m" true 1) (.lit n!"units::isq::si::literals::_q_m" false 1)) (.alias n!"units::dimensionless" (.nm n!"units::one") (.flt .f80))),
  (443, .type (.op .div (.num (.int .i32) 1) (.lit n!"units::isq::si::literals::_q_s" false 1)) (.alias n!"units::isq::si::frequency" (.nm n!"units::isq::si::hertz") (.flt .f80))),
  (444, .type (.op .div (.deduceQty (.num (.int .i32) 1)) (.lit n!"units::isq::si::literals::_q_s" false 1)) (.alias n!"units::isq::si::frequency" (.nm n!"units::isq::si::hertz") (.flt .f80))),
  (445, .type (.op .div (.make (.alias n!"units::dimensionless" (.nm n!"units::percent") (.int .i64)) (.num (.int .i32) 1)) (.lit n!"units::isq::si::literals::_q_s" false 1)) (.alias n!"units::isq::si::frequency" (.scaled (1) (100) (0) (.nm n!"units::isq::si::hertz")) (.flt .f80))),
  (446, .type (.op .mod (.lit n!"units::isq::si::literals::_q_m" true 1) (.make (.rep (.int .i16)) (.num (.int .i32) 1))) (.alias n!"units::isq::si::length" (.nm n!"units::isq::si::metre") (.int .i64))),
  (447, .type (.op .mod (.lit n!"units::isq::si::literals::_q_m" true 1) (.deduceQty (.make (.rep (.int .i16)) (.num (.int .i32) 1)))) (.alias n!"units::isq::si::length" (.nm n!"units::isq::si::metre") (.int .i64))),
  (448, .type (.op .mod (.lit n!"units::isq::si::literals::_q_m" true 1) (.make (.alias n!"units::dimensionless" (.nm n!"units::percent") (.int .i16)) (.num (.int .i32) 1))) (.alias n!"units::isq::si::length" (.nm n!"units::isq::si::metre") (.int .i64))),
  (449, .type (.op .mod (.lit n!"units::isq::si::literals::_q_m" true 1) (.make (.alias n!"units::isq::si::length" (.nm n!"units::isq::si::metre") (.int .i16)) (.num (.int .i32) 1))) (.alias n!"units::isq::si::length" (.nm n!"units::isq::si::metre") (.int .i64))),
  (451, .type (.op .add (.lit n!"units::isq::si::literals::_q_m" false 1) (.lit n!"units::isq::si::literals::_q_m" true 1)) (.alias n!"units::isq::si::length" (.nm n!"units::isq::si::metre") (.flt .f80))),
  (452, .type (.op .sub (.lit n!"units::isq::si::literals::_q_m" false 1) (.lit n!"units::isq::si::literals::_q_m" true 1)) (.alias n!"units::isq::si::length" (.nm n!"units::isq::si::metre") (.flt .f80))),
  (453, .type (.op .mul (.lit n!"units::isq::si::literals::_q_m" false 1) (.num (.int .i32) 1)) (.alias n!"units::isq::si::length" (.nm n!"units::isq::si::metre") (.flt .f80))),
  (454, .type (.op .mul (.num (.flt .f80) 1) (.lit n!"units::isq::si::literals::_q_m" true 1)) (.alias n!"units::isq::si::length" (.nm n!"units::isq::si::metre") (.flt .f80))),
  (455, .type (.op .mul (.lit n!"units::isq::si::literals::_q_m" false 1) (.deduceQty (.num (.int .i32) 1))) (.alias n!"units::isq::si::length" (.nm n!"units::isq::si::metre") (.flt .f80))),
  (456, .type (.op .mul (.deduceQty (.num (.flt .f80) 1)) (.lit n!"units::isq::si::literals::_q_m" true 1)) (.alias n!"units::isq::si::length" (.nm n!"units::isq::si::metre") (.flt .f80))),
  (457, .type (.op .div (.lit n!"units::isq::si::literals::_q_m" false 1) (.num (.int .i32) 1)) (.alias n!"units::isq::si::length" (.nm n!"units::isq::si::metre") (.flt .f80))),
  (458, .type (.op .div (.lit n!"units::isq::si::literals::_q_m" false 1) (.deduceQty (.num (.int .i32) 1))) (.alias n!"units::isq::si::length" (.nm n!"units::isq::si::metre") (.flt .f80))),
  (459, .type (.op .mul (.lit n!"units::isq::si::literals::_q_m" false 1) (.make (.alias n!"units::dimensionless" (.nm n!"units::percent") (.int .i64)) (.num (.int .i32) 1))) (.alias n!"units::isq::si::length" (.nm n!"units::isq::si::centimetre") (.flt .f80))),
  (460, .type (.op .mul (.make (.alias n!"units::dimensionless" (.nm n!"units::percent") (.flt .f80)) (.num (.int .i32) 1)) (.lit n!"units::isq::si::literals::_q_m" true 1)) (.alias n!"units::isq::si::length" (.nm n!"units::isq::si::centimetre") (.flt .f80))),
  (461, .type (.op .div (.lit n!"units::isq::si::literals::_q_m" false 1) (.make (.alias n!"units::dimensionless" (.nm n!"units::percent") (.int .i64)) (.num (.int .i32) 1))) (.alias n!"units::isq::si::length" (.nm n!"units::isq::si::hectometre") (.flt .f80))),
  (462, .type (.op .mul (.lit n!"units::isq::si::literals::_q_m" false 1) (.lit n!"units::isq::si::literals::_q_m" true 1)) (.alias n!"units::isq::si::area" (.nm n!"units::isq::si::square_metre") (.flt .f80))),
  (463, .type (.op .div (.lit n!"units::isq::si::literals::_q_m" false 1) (.lit n!"units::isq::si::literals::_q_m" true 1)) (.alias n!"units::dimensionless" (.nm n!"units::one") (.flt .f80))),
  (464, .type (.op .div (.num (.flt .f80) 1) (.lit n!"units::isq::si::literals::_q_s" true 1)) (.alias n!"units::isq::si::frequency" (.nm n!"units::isq::si::hertz") (.flt .f80))),
  (465, .type (.op .div (.deduceQty (.num (.flt .f80) 1)) (.lit n!"units::isq::si::literals::_q_s" true 1)) (.alias n!"units::isq::si::frequency" (.nm n!"units::isq::si::hertz") (.flt .f80))),
  (466, .type (.op .div (.make (.alias n!"units::dimensionless" (.nm n!"units::percent") (.flt .f80)) (.num (.int .i32) 1)) (.lit n!"units::isq::si::literals::_q_s" true 1)) (.alias n!"units::isq::si::frequency" (.scaled (1) (100) (0) (.nm n!"units::isq::si::hertz")) (.flt .f80))),
  (469, .type (.op .add (.lit n!"units::isq::si::literals::_q_m" true 1) (.lit n!"units::isq::si::literals::_q_km" true 1)) (.alias n!"units::isq::si::length" (.nm n!"units::isq::si::metre") (.int .i64))),
  (470, .type (.op .add (.lit n!"units::isq::si::literals::_q_m" false 1) (.lit n!"units::isq::si::literals::_q_km" true 1)) (.alias n!"units::isq::si::length" (.nm n!"units::isq::si::metre") (.flt .f80))),
  (471, .type (.op .add (.lit n!"units::isq::si::literals::_q_m" true 1) (.lit n!"units::isq::si::literals::_q_km" false 1)) (.alias n!"units::isq::si::length" (.nm n!"units::isq::si::metre") (.flt .f80))),
  (472, .type (.op .add (.lit n!"units::isq::si::literals::_q_m" false 1) (.lit n!"units::isq::si::literals::_q_km" false 1)) (.alias n!"units::isq::si::length" (.nm n!"units::isq::si::metre") (.flt .f80))),
  (474, .type (.op .add (.lit n!"units::isq::si::literals::_q_km" true 1) (.lit n!"units::isq::si::literals::_q_m" true 1)) (.alias n!"units::isq::si::length" (.nm n!"units::isq::si::metre") (.int .i64))),
  (475, .type (.op .add (.lit n!"units::isq::si::literals::_q_km" false 1) (.lit n!"units::isq::si::literals::_q_m" true 1)) (.alias n!"units::isq::si::length" (.nm n!"units::isq::si::metre") (.flt .f80))),
  (476, .type (.op .add (.lit n!"units::isq::si::literals::_q_km" true 1) (.lit n!"units::isq::si::literals::_q_m" false 1)) (.alias n!"units::isq::si::length" (.nm n!"units::isq::si::metre") (.flt .f80))),
  (477, .type (.op .add (.lit n!"units::isq::si::literals::_q_km" false 1) (.lit n!"units::isq::si::literals::_q_m" false 1)) (.alias n!"units::isq::si::length" (.nm n!"units::isq::si::metre") (.flt .f80))),
  (479, .type (.op .sub (.lit n!"units::isq::si::literals::_q_m" true 1) (.lit n!"units::isq::si::literals::_q_km" true 1)) (.alias n!"units::isq::si::length" (.nm n!"units::isq::si::metre") (.int .i64))),
  (480, .type (.op .sub (.lit n!"units::isq::si::literals::_q_m" false 1) (.lit n!"units::isq::si::literals::_q_km" true 1)) (.alias n!"units::isq::si::length" (.nm n!"units::isq::si::metre") (.flt .f80))),
  (481, .type (.op .sub (.lit n!"units::isq::si::literals::_q_m" true 1) (.lit n!"units::isq::si::literals::_q_km" false 1)) (.alias n!"units::isq::si::length" (.nm n!"units::isq::si::metre") (.flt .f80))),
  (482, .type (.op .sub (.lit n!"units::isq::si::literals::_q_m" false 1) (.lit n!"units::isq::si::literals::_q_km" false 1)) (.alias n!"units::isq::si::length" (.nm n!"units::isq::si::metre") (.flt .f80))),
  (484, .type (.op .sub (.lit n!"units::isq::si::literals::_q_km" true 1) (.lit n!"units::isq::si::literals::_q_m" true 1)) (.alias n!"units::isq::si::length" (.nm n!"units::isq::si::metre") (.int .i64))),
  (485, .type (.op .sub (.lit n!"units::isq::si::literals::_q_km" false 1) (.lit n!"units::isq::si::literals::_q_m" true 1)) (.alias n!"units::isq::si::length" (.nm n!"units::isq::si::metre") (.flt .f80))),
  (486, .type (.op .sub (.lit n!"units::isq::si::literals::_q_km" true 1) (.lit n!"units::isq::si::literals::_q_m" false 1)) (.alias n!"units::isq::si::length" (.nm n!"units::isq::si::metre") (.flt .f80))),
  (487, .type (.op .sub (.lit n!"units::isq::si::literals::_q_km" false 1) (.lit n!"units::isq::si::literals::_q_m" false 1)) (.alias n!"units::isq::si::length" (.nm n!"units::isq::si::metre") (.flt .f80))),
  (489, .type (.op .mod (.lit n!"units::isq::si::literals::_q_m" true 1) (.lit n!"units::isq::si::literals::_q_km" true 1)) (.alias n!"units::isq::si::length" (.nm n!"units::isq::si::metre") (.int .i64))),
  (490, .type (.op .mod (.lit n!"units::isq::si::literals::_q_km" true 1) (.lit n!"units::isq::si::literals::_q_m" true 1)) (.alias n!"units::isq::si::length" (.nm n!"units::isq::si::kilometre") (.int .i64))),
  (493, .type (.op .mul (.lit n!"units::isq::si::literals::_q_m_per_s" true 1) (.lit n!"units::isq::si::literals::_q_s" true 1)) (.alias n!"units::isq::si::length" (.nm n!"units::isq::si::metre") (.int .i64))),
  (494, .type (.op .mul (.lit n!"units::isq::si::literals::_q_m_per_s" true 1) (.lit n!"units::isq::si::literals::_q_h" true 1)) (.alias n!"units::isq::si::length" (.scaled (36) (1) (2) (.nm n!"units::isq::si::metre")) (.int .i64))),
  (495, .type (.op .mul (.lit n!"units::isq::si::literals::_q_m" true 1) (.lit n!"units::isq::si::literals::_q_min" true 1)) (.qty (.unknown [(n!"units::isq::si::dim_length", (1), (1)), (n!"units::isq::si::dim_time", (1), (1))]) (.scaled (60) (1) (0) (.unknown)) (.int .i64))),
  (496, .type (.op .mul (.lit n!"units::isq::si::literals::_q_s" true 1) (.lit n!"units::isq::si::literals::_q_Hz" true 1)) (.alias n!"units::dimensionless" (.nm n!"units::one") (.int .i64))),
  (497, .type (.op .div (.num (.int .i32) 1) (.lit n!"units::isq::si::literals::_q_min" true 1)) (.alias n!"units::isq::si::frequency" (.scaled (1) (60) (0) (.nm n!"units::isq::si::hertz")) (.int .i64))),
  (498, .type (.op .div (.num (.int .i32) 1) (.lit n!"units::isq::si::literals::_q_Hz" true 1)) (.alias n!"units::isq::si::time" (.nm n!"units::isq::si::second") (.int .i64))),
  (499, .type (.op .div (.num (.int .i32) 1) (.lit n!"units::isq::si::literals::_q_km" true 1)) (.qty (.unknown [(n!"units::isq::si::dim_length", (-1), (1))]) (.scaled (1) (1) (-3) (.unknown)) (.int .i64))),
  (500, .type (.op .div (.lit n!"units::isq::si::literals::_q_km" true 1) (.lit n!"units::isq::si::literals::_q_m" true 1)) (.alias n!"units::dimensionless" (.scaled (1000) (1) (0) (.nm n!"units::one")) (.int .i64))),
  (501, .type (.op .div (.lit n!"units::isq::si::literals::_q_m" true 1) (.lit n!"units::isq::si::literals::_q_s" true 1)) (.alias n!"units::isq::si::speed" (.nm n!"units::isq::si::metre_per_second") (.int .i64))),
  (502, .type (.op .div (.lit n!"units::isq::si::literals::_q_m" true 1) (.lit n!"units::isq::si::literals::_q_min" true 1)) (.alias n!"units::isq::si::speed" (.scaled (1) (60) (0) (.nm n!"units::isq::si::metre_per_second")) (.int .i64))),
  (503, .type (.op .div (.lit n!"units::isq::si::literals::_q_min" true 1) (.lit n!"units::isq::si::literals::_q_m" true 1)) (.qty (.unknown [(n!"units::isq::si::dim_length", (-1), (1)), (n!"units::isq::si::dim_time", (1), (1))]) (.scaled (60) (1) (0) (.unknown)) (.int .i64))),
  (505, .cmp .eq (.number (.op .add (.lit n!"units::isq::si::literals::_q_m" true 1) (.lit n!"units::isq::si::literals::_q_m" true 1))) (.num (.int .i32) 2)),
  (506, .cmp .eq (.number (.op .add (.lit n!"units::isq::si::literals::_q_m" true 1) (.lit n!"units::isq::si::literals::_q_km" true 1))) (.num (.int .i32) 1001)),
  (507, .cmp .eq (.number (.op .add (.lit n!"units::isq::si::literals::_q_km" true 1) (.lit n!"units::isq::si::literals::_q_m" true 1))) (.num (.int .i32) 1001)),
  (508, .cmp .eq (.number (.op .sub (.lit n!"units::isq::si::literals::_q_m" true 2) (.lit n!"units::isq::si::literals::_q_m" true 1))) (.num (.int .i32) 1)),
  (509, .cmp .eq (.number (.op .sub (.lit n!"units::isq::si::literals::_q_km" true 1) (.lit n!"units::isq::si::literals::_q_m" true 1))) (.num (.int .i32) 999)),
  (510, .cmp .eq (.number (.op .mul (.lit n!"units::isq::si::literals::_q_m" true 2) (.num (.int .i32) 2))) (.num (.int .i32) 4)),
  (511, .cmp .eq (.number (.op .mul (.lit n!"units::isq::si::literals::_q_m" true 2) (.deduceQty (.num (.int .i32) 2)))) (.num (.int .i32) 4)),
  (512, .cmp .eq (.number (.op .mul (.lit n!"units::isq::si::literals::_q_m" true 2) (.make (.alias n!"units::dimensionless" (.nm n!"units::percent") (.int .i32)) (.num (.int .i32) 2)))) (.num (.int .i32) 4)),
  (513, .cmp .eq (.number (.op .mul (.num (.int .i32) 3) (.lit n!"units::isq::si::literals::_q_m" true 3))) (.num (.int .i32) 9)),
  (514, .cmp .eq (.number (.op .mul (.deduceQty (.num (.int .i32) 3)) (.lit n!"units::isq::si::literals::_q_m" true 3))) (.num (.int .i32) 9)),
  (515, .cmp .eq (.number (.op .mul (.make (.alias n!"units::dimensionless" (.nm n!"units::percent") (.int .i32)) (.num (.int .i32) 3)) (.lit n!"units::isq::si::literals::_q_m" true 3))) (.num (.int .i32) 9)),
  (516, .cmp .eq (.number (.op .div (.lit n!"units::isq::si::literals::_q_m" true 4) (.num (.int .i32) 2))) (.num (.int .i32) 2)),
  (517, .cmp .eq (.number (.op .div (.lit n!"units::isq::si::literals::_q_m" true 4) (.deduceQty (.num (.int .i32) 2)))) (.num (.int .i32) 2)),
  (518, .cmp .eq (.number (.op .div (.lit n!"units::isq::si::literals::_q_m" true 4) (.make (.alias n!"units::dimensionless" (.nm n!"units::percent") (.int .i32)) (.num (.int .i32) 2)))) (.num (.int .i32) 2)),
  (519, .cmp .eq (.number (.op .div (.lit n!"units::isq::si::literals::_q_km" true 4) (.lit n!"units::isq::si::literals::_q_m" true 2))) (.num (.int .i32) 2)),
  (520, .cmp .eq (.number (.op .div (.lit n!"units::isq::si::literals::_q_m" true 4000) (.lit n!"units::isq::si::literals::_q_m" true 2))) (.num (.int .i32) 2000)),
  (522, .cmp .eq (.number (.op .add (.lit n!"units::isq::si::literals::_q_m" false (3 / 2)) (.lit n!"units::isq::si::literals::_q_m" true 1))) (.num (.flt .f64) (5 / 2))),
  (523, .cmp .eq (.number (.op .add (.lit n!"units::isq::si::literals::_q_m" false (3 / 2)) (.lit n!"units::isq::si::literals::_q_km" true 1))) (.num (.flt .f64) (2003 / 2))),
  (524, .cmp .eq (.number (.op .add (.lit n!"units::isq::si::literals::_q_km" false (3 / 2)) (.lit n!"units::isq::si::literals::_q_m" true 1))) (.num (.int .i32) 1501)),
  (525, .cmp .eq (.number (.op .sub (.lit n!"units::isq::si::literals::_q_m" false (5 / 2)) (.lit n!"units::isq::si::literals::_q_m" true 1))) (.num (.flt .f64) (3 / 2))),
  (526, .cmp .eq (.number (.op .sub (.lit n!"units::isq::si::literals::_q_km" false (3 / 2)) (.lit n!"units::isq::si::literals::_q_m" true 1))) (.num (.int .i32) 1499)),
  (527, .cmp .eq (.number (.op .mul (.lit n!"units::isq::si::literals::_q_m" false (5 / 2)) (.num (.int .i32) 2))) (.num (.int .i32) 5)),
  (528, .cmp .eq (.number (.op .mul (.lit n!"units::isq::si::literals::_q_m" false (5 / 2)) (.deduceQty (.num (.int .i32) 2)))) (.num (.int .i32) 5)),
  (529, .cmp .eq (.number (.op .mul (.lit n!"units::isq::si::literals::_q_m" false (5 / 2)) (.make (.alias n!"units::dimensionless" (.nm n!"units::percent") (.int .i32)) (.num (.int .i32) 2)))) (.num (.int .i32) 5)),
  (530, .cmp .eq (.number (.op .mul (.num (.flt .f80) (5 / 2)) (.lit n!"units::isq::si::literals::_q_m" true 2))) (.num (.int .i32) 5)),
  (531, .cmp .eq (.number (.op .mul (.deduceQty (.num (.flt .f80) (5 / 2))) (.lit n!"units::isq::si::literals::_q_m" true 2))) (.num (.int .i32) 5)),
  (532, .cmp .eq (.number (.op .mul (.make (.alias n!"units::dimensionless" (.nm n!"units::percent") (.flt .f80)) (.num (.flt .f80) (5 / 2))) (.lit n!"units::isq::si::literals::_q_m" true 2))) (.num (.int .i32) 5)),
  (533, .cmp .eq (.number (.op .div (.lit n!"units::isq::si::literals::_q_m" false 5) (.num (.int .i32) 2))) (.num (.flt .f64) (5 / 2))),
  (534, .cmp .eq (.number (.op .div (.lit n!"units::isq::si::literals::_q_m" false 5) (.deduceQty (.num (.int .i32) 2)))) (.num (.flt .f64) (5 / 2))),
  (535, .cmp .eq (.number (.op .div (.lit n!"units::isq::si::literals::_q_m" false 5) (.make (.alias n!"units::dimensionless" (.nm n!"units::percent") (.int .i32)) (.num (.int .i32) 2)))) (.num (.flt .f64) (5 / 2))),
  (536, .cmp .eq (.number (.op .div (.lit n!"units::isq::si::literals::_q_km" false 5) (.lit n!"units::isq::si::literals::_q_m" true 2))) (.num (.flt .f64) (5 / 2))),
  (537, .cmp .eq (.number (.op .div (.lit n!"units::isq::si::literals::_q_m" false 5000) (.lit n!"units::isq::si::literals::_q_m" true 2))) (.num (.int .i32) 2500)),
  (539, .cmp .eq (.number (.op .add (.lit n!"units::isq::si::literals::_q_m" true 1) (.lit n!"units::isq::si::literals::_q_m" false (3 / 2)))) (.num (.flt .f64) (5 / 2))),
  (540, .cmp .eq (.number (.op .add (.lit n!"units::isq::si::literals::_q_m" true 1) (.lit n!"units::isq::si::literals::_q_km" false (3 / 2)))) (.num (.int .i32) 1501)),
  (541, .cmp .eq (.number (.op .add (.lit n!"units::isq::si::literals::_q_km" true 1) (.lit n!"units::isq::si::literals::_q_m" false (3 / 2)))) (.num (.flt .f64) (2003 / 2))),
  (542, .cmp .eq (.number (.op .sub (.lit n!"units::isq::si::literals::_q_m" true 2) (.lit n!"units::isq::si::literals::_q_m" false (3 / 2)))) (.num (.flt .f64) (1 / 2))),
  (543, .cmp .eq (.number (.op .sub (.lit n!"units::isq::si::literals::_q_km" true 1) (.lit n!"units::isq::si::literals::_q_m" false (3 / 2)))) (.num (.flt .f64) (1997 / 2))),
  (544, .cmp .eq (.number (.op .mul (.lit n!"units::isq::si::literals::_q_m" true 2) (.num (.flt .f80) (5 / 2)))) (.num (.int .i32) 5)),
  (545, .cmp .eq (.number (.op .mul (.lit n!"units::isq::si::literals::_q_m" true 2) (.deduceQty (.num (.flt .f80) (5 / 2))))) (.num (.int .i32) 5)),
  (546, .cmp .eq (.number (.op .mul (.lit n!"units::isq::si::literals::_q_m" true 2) (.make (.alias n!"units::dimensionless" (.nm n!"units::percent") (.flt .f80)) (.num (.flt .f80) (5 / 2))))) (.num (.int .i32) 5)),
  (547, .cmp .eq (.number (.op .mul (.num (.int .i32) 2) (.lit n!"units::isq::si::literals::_q_m" false (5 / 2)))) (.num (.int .i32) 5)),
  (548, .cmp .eq (.number (.op .mul (.deduceQty (.num (.int .i32) 2)) (.lit n!"units::isq::si::literals::_q_m" false (5 / 2)))) (.num (.int .i32) 5)),
  (549, .cmp .eq (.number (.op .mul (.make (.alias n!"units::dimensionless" (.nm n!"units::percent") (.int .i32)) (.num (.int .i32) 2)) (.lit n!"units::isq::si::literals::_q_m" false (5 / 2)))) (.num (.int .i32) 5)),
  (550, .cmp .eq (.number (.op .div (.lit n!"units::isq::si::literals::_q_m" true 5) (.num (.flt .f80) (5 / 2)))) (.num (.int .i32) 2)),
  (551, .cmp .eq (.number (.op .div (.lit n!"units::isq::si::literals::_q_m" true 5) (.deduceQty (.num (.flt .f80) (5 / 2))))) (.num (.int .i32) 2)),
  (552, .cmp .eq (.number (.op .div (.lit n!"units::isq::si::literals::_q_m" true 5) (.make (.alias n!"units::dimensionless" (.nm n!"units::percent") (.flt .f80)) (.num (.flt .f80) (5 / 2))))) (.num (.int .i32) 2)),
  (553, .cmp .eq (.number (.op .div (.lit n!"units::isq::si::literals::_q_km" true 5) (.lit n!"units::isq::si::literals::_q_m" false (5 / 2)))) (.num (.int .i32) 2)),
  (554, .cmp .eq (.number (.op .div (.lit n!"units::isq::si::literals::_q_m" true 5000) (.lit n!"units::isq::si::literals::_q_m" false (5 / 2)))) (.num (.int .i32) 2000))]

#guard failures2 [n!"generic/dimensionless.h", n!"isq/si/area.h", n!"isq/si/cgs/length.h", n!"isq/si/fps/length.h", n!"isq/si/frequency.h", n!"isq/si/prefixes.h", n!"isq/si/speed.h", n!"isq/si/time.h", n!"isq/si/volume.h"] [] declsQuantity testQuantity1 = some []

/-- /repo/test/unit_test/static/quantity_test.cpp. -/
def testQuantity2 : List (Nat × Check2) := [
  (556, .cmp .eq (.number (.op .mod (.lit n!"units::isq::si::literals::_q_m" true 7) (.num (.int .i32) 2))) (.num (.int .i32) 1)),
  (557, .cmp .eq (.number (.op .mod (.lit n!"units::isq::si::literals::_q_m" true 7) (.deduceQty (.num (.int .i32) 2)))) (.num (.int .i32) 1)),
  (558, .cmp .eq (.number (.op .mod (.lit n!"units::isq::si::literals::_q_m" true 7) (.make (.alias n!"units::dimensionless" (.nm n!"units::percent") (.int .i32)) (.num (.int .i32) 2)))) (.num (.int .i32) 1)),
  (559, .cmp .eq (.number (.op .mod (.lit n!"units::isq::si::literals::_q_m" true 7) (.lit n!"units::isq::si::literals::_q_m" true 2))) (.num (.int .i32) 1)),
  (560, .cmp .eq (.number (.op .mod (.lit n!"units::isq::si::literals::_q_km" true 7) (.lit n!"units::isq::si::literals::_q_m" true 2000))) (.num (.int .i32) 7)),
  (562, .cmp .eq (.op .div (.op .mul (.lit n!"units::isq::si::literals::_q_km2" true 10) (.lit n!"units::isq::si::literals::_q_km2" true 10)) (.lit n!"units::isq::si::literals::_q_km2" true 50)) (.lit n!"units::isq::si::literals::_q_km2" true 2)),
  (564, .cmp .eq (.number (.op .div (.lit n!"units::isq::si::literals::_q_km" true 10) (.lit n!"units::isq::si::literals::_q_m" true 5))) (.num (.int .i32) 2)),
  (565, .cmp .eq (.number (.make (.alias n!"units::dimensionless" (.nm n!"units::one") (.flt .f64)) (.op .div (.lit n!"units::isq::si::literals::_q_km" true 10) (.lit n!"units::isq::si::literals::_q_m" true 5)))) (.num (.int .i32) 2000)),
  (570, .cmp .eq (.number (.cast (.unit (.nm n!"units::one")) (.op .div (.lit n!"units::isq::si::literals::_q_km" true 10) (.lit n!"units::isq::si::literals::_q_m" true 5)))) (.num (.int .i32) 2000)),
  (573, .cmp .eq (.number (.op .mul (.lit n!"units::isq::si::literals::_q_s" true 10) (.lit n!"units::isq::si::literals::_q_kHz" true 2))) (.num (.int .i32) 20)),
  (576, .cmp .eq (.op .mul (.lit n!"units::isq::si::literals::_q_m" true 2) (.op .mul (.num (.int .i32) 1) (.ref n!"units::isq::si::length_references::m"))) (.lit n!"units::isq::si::literals::_q_m2" true 2)),
  (577, .cmp .eq (.op .div (.lit n!"units::isq::si::literals::_q_m2" true 2) (.op .mul (.num (.int .i32) 1) (.ref n!"units::isq::si::length_references::m"))) (.lit n!"units::isq::si::literals::_q_m" true 2)),
  (582, .cmp .eq (.assignOp .mul (.deduceQty (.num (.int .i32) 3)) (.deduceQty (.num (.int .i32) 2))) (.num (.int .i32) 6)),
  (583, .cmp .eq (.assignOp .div (.deduceQty (.num (.int .i32) 6)) (.deduceQty (.num (.int .i32) 2))) (.num (.int .i32) 3)),
  (584, .cmp .eq (.op .add (.deduceQty (.num (.int .i32) 1)) (.deduceQty (.num (.int .i32) 1))) (.num (.int .i32) 2)),
  (585, .cmp .eq (.op .add (.num (.int .i32) 1) (.deduceQty (.num (.int .i32) 1))) (.num (.int .i32) 2)),
  (586, .cmp .eq (.op .add (.deduceQty (.num (.int .i32) 1)) (.num (.int .i32) 1)) (.num (.int .i32) 2)),
  (587, .cmp .eq (.op .sub (.deduceQty (.num (.int .i32) 2)) (.deduceQty (.num (.int .i32) 1))) (.num (.int .i32) 1)),
  (588, .cmp .eq (.op .sub (.num (.int .i32) 2) (.deduceQty (.num (.int .i32) 1))) (.num (.int .i32) 1)),
  (589, .cmp .eq (.op .sub (.deduceQty (.num (.int .i32) 2)) (.num (.int .i32) 1)) (.num (.int .i32) 1)),
  (590, .cmp .eq (.op .mul (.deduceQty (.num (.int .i32) 2)) (.deduceQty (.num (.int .i32) 2))) (.num (.int .i32) 4)),
  (591, .cmp .eq (.op .mul (.num (.int .i32) 2) (.deduceQty (.num (.int .i32) 2))) (.num (.int .i32) 4)),
  (592, .cmp .eq (.op .mul (.deduceQty (.num (.int .i32) 2)) (.num (.int .i32) 2)) (.num (.int .i32) 4)),
  (593, .cmp .eq (.op .div (.deduceQty (.num (.int .i32) 4)) (.deduceQty (.num (.int .i32) 2))) (.num (.int .i32) 2)),
  (594, .cmp .eq (.op .div (.num (.int .i32) 4) (.deduceQty (.num (.int .i32) 2))) (.num (.int .i32) 2)),
  (595, .cmp .eq (.op .div (.deduceQty (.num (.int .i32) 4)) (.num (.int .i32) 2)) (.num (.int .i32) 2)),
  (596, .cmp .eq (.op .mod (.deduceQty (.num (.int .i32) 4)) (.deduceQty (.num (.int .i32) 2))) (.num (.int .i32) 0)),
  (597, .cmp .eq (.op .mod (.num (.int .i32) 4) (.deduceQty (.num (.int .i32) 2))) (.num (.int .i32) 0)),
  (598, .cmp .eq (.op .mod (.deduceQty (.num (.int .i32) 4)) (.num (.int .i32) 2)) (.num (.int .i32) 0)),
  (600, .sameType (.op .add (.deduceQty (.num (.int .i32) 1)) (.num (.flt .f64) 0)) (.deduceQty (.num (.flt .f64) 0))),
  (601, .sameType (.op .sub (.deduceQty (.num (.int .i32) 1)) (.num (.flt .f64) 0)) (.deduceQty (.num (.flt .f64) 0))),
  (602, .sameType (.op .add (.num (.flt .f64) 0) (.deduceQty (.num (.int .i32) 1))) (.deduceQty (.num (.flt .f64) 0))),
  (603, .sameType (.op .add (.num (.flt .f64) 0) (.deduceQty (.num (.int .i32) 1))) (.deduceQty (.num (.flt .f64) 0))),
  (604, .cmp .eq (.op .add (.deduceQty (.num (.int .i32) 1)) (.num (.flt .f64) (23 / 10))) (.deduceQty (.op .add (.num (.int .i32) 1) (.num (.flt .f64) (23 / 10))))),
  (605, .cmp .eq (.op .sub (.deduceQty (.num (.int .i32) 1)) (.num (.flt .f64) (23 / 10))) (.deduceQty (.op .sub (.num (.int .i32) 1) (.num (.flt .f64) (23 / 10))))),
  (606, .cmp .eq (.op .add (.num (.flt .f64) (6 / 5)) (.deduceQty (.num (.int .i32) 3))) (.deduceQty (.op .add (.num (.flt .f64) (6 / 5)) (.num (.int .i32) 3)))),
  (607, .cmp .eq (.op .sub (.num (.flt .f64) (6 / 5)) (.deduceQty (.num (.int .i32) 3))) (.deduceQty (.op .sub (.num (.flt .f64) (6 / 5)) (.num (.int .i32) 3)))),
  (609, .type (.number (.op .add (.deduceQty (.make (.rep (.int .u8)) (.num (.int .i32) 1))) (.deduceQty (.make (.rep (.int .u8)) (.num (.int .i32) 1))))) (.rep (.int .i32))),
  (610, .type (.number (.op .sub (.deduceQty (.make (.rep (.int .u8)) (.num (.int .i32) 1))) (.deduceQty (.make (.rep (.int .u8)) (.num (.int .i32) 1))))) (.rep (.int .i32))),
  (611, .cmp .eq (.number (.op .add (.deduceQty (.make (.rep (.int .u8)) (.num (.int .i32) 128))) (.deduceQty (.make (.rep (.int .u8)) (.num (.int .i32) 128))))) (.op .add (.make (.rep (.int .u8)) (.num (.int .i32) 128)) (.make (.rep (.int .u8)) (.num (.int .i32) 128)))),
  (613, .cmp .eq (.number (.op .sub (.deduceQty (.make (.rep (.int .u8)) (.num (.int .i32) 0))) (.deduceQty (.make (.rep (.int .u8)) (.num (.int .i32) 1))))) (.op .sub (.make (.rep (.int .u8)) (.num (.int .i32) 0)) (.make (.rep (.int .u8)) (.num (.int .i32) 1)))),
  (615, .sameType (.number (.op .mod (.deduceQty (.make (.rep (.int .u8)) (.num (.int .i32) 1))) (.deduceQty (.make (.rep (.int .u8)) (.num (.int .i32) 1))))) (.op .mod (.make (.rep (.int .u8)) (.num (.int .i32) 1)) (.make (.rep (.int .u8)) (.num (.int .i32) 1)))),
  (618, .cmp .eq (.op .mul (.deduceQty (.num (.int .i32) 2)) (.op .mul (.num (.int .i32) 1) (.ref n!"units::isq::si::length_references::m"))) (.lit n!"units::isq::si::literals::_q_m" true 2)),
  (619, .cmp .eq (.op .div (.deduceQty (.num (.int .i32) 2)) (.op .mul (.num (.int .i32) 1) (.ref n!"units::isq::si::length_references::m"))) (.op .div (.num (.int .i32) 2) (.lit n!"units::isq::si::literals::_q_m" true 1))),
  (631, .noCmp .eq (.lit n!"units::isq::si::literals::_q_s" true 1) (.make (.alias n!"units::isq::si::length" (.nm n!"units::isq::si::metre") (.int .i32)) (.num (.int .i32) 1))),
  (631, .noCmp .ne (.lit n!"units::isq::si::literals::_q_s" true 1) (.make (.alias n!"units::isq::si::length" (.nm n!"units::isq::si::metre") (.int .i32)) (.num (.int .i32) 1))),
  (634, .cmp .eq (.make (.alias n!"units::isq::si::length" (.nm n!"units::isq::si::metre") (.int .i32)) (.num (.int .i32) 123)) (.make (.alias n!"units::isq::si::length" (.nm n!"units::isq::si::metre") (.int .i32)) (.num (.int .i32) 123))),
  (635, .cmp .ne (.make (.alias n!"units::isq::si::length" (.nm n!"units::isq::si::metre") (.int .i32)) (.num (.int .i32) 321)) (.make (.alias n!"units::isq::si::length" (.nm n!"units::isq::si::metre") (.int .i32)) (.num (.int .i32) 123))),
  (636, .not (.cmp .eq (.make (.alias n!"units::isq::si::length" (.nm n!"units::isq::si::metre") (.int .i32)) (.num (.int .i32) 123)) (.make (.alias n!"units::isq::si::length" (.nm n!"units::isq::si::metre") (.int .i32)) (.num (.int .i32) 321)))),
  (637, .not (.cmp .ne (.make (.alias n!"units::isq::si::length" (.nm n!"units::isq::si::metre") (.int .i32)) (.num (.int .i32) 123)) (.make (.alias n!"units::isq::si::length" (.nm n!"units::isq::si::metre") (.int .i32)) (.num (.int .i32) 123)))),
  (640, .cmp .eq (.make (.alias n!"units::isq::si::length" (.nm n!"units::isq::si::metre") (.flt .f64)) (.num (.int .i32) 123)) (.make (.alias n!"units::isq::si::length" (.nm n!"units::isq::si::metre") (.int .i32)) (.num (.int .i32) 123))),
  (641, .cmp .ne (.make (.alias n!"units::isq::si::length" (.nm n!"units::isq::si::metre") (.flt .f64)) (.num (.int .i32) 321)) (.make (.alias n!"units::isq::si::length" (.nm n!"units::isq::si::metre") (.int .i32)) (.num (.int .i32) 123))),
  (642, .not (.cmp .eq (.make (.alias n!"units::isq::si::length" (.nm n!"units::isq::si::metre") (.flt .f64)) (.num (.int .i32) 123)) (.make (.alias n!"units::isq::si::length" (.nm n!"units::isq::si::metre") (.int .i32)) (.num (.int .i32) 321)))),
  (643, .not (.cmp .ne (.make (.alias n!"units::isq::si::length" (.nm n!"units::isq::si::metre") (.flt .f64)) (.num (.int .i32) 123)) (.make (.alias n!"units::isq::si::length" (.nm n!"units::isq::si::metre") (.int .i32)) (.num (.int .i32) 123)))),
  (645, .cmp .eq (.make (.alias n!"units::isq::si::length" (.nm n!"units::isq::si::kilometre") (.int .i32)) (.num (.int .i32) 123)) (.make (.alias n!"units::isq::si::length" (.nm n!"units::isq::si::metre") (.int .i32)) (.num (.int .i32) 123000))),
  (646, .cmp .ne (.make (.alias n!"units::isq::si::length" (.nm n!"units::isq::si::kilometre") (.int .i32)) (.num (.int .i32) 321)) (.make (.alias n!"units::isq::si::length" (.nm n!"units::isq::si::metre") (.int .i32)) (.num (.int .i32) 123000))),
  (647, .not (.cmp .eq (.make (.alias n!"units::isq::si::length" (.nm n!"units::isq::si::kilometre") (.int .i32)) (.num (.int .i32) 123)) (.make (.alias n!"units::isq::si::length" (.nm n!"units::isq::si::metre") (.int .i32)) (.num (.int .i32) 321000)))),
  (648, .not (.cmp .ne (.make (.alias n!"units::isq::si::length" (.nm n!"units::isq::si::kilometre") (.int .i32)) (.num (.int .i32) 123)) (.make (.alias n!"units::isq::si::length" (.nm n!"units::isq::si::metre") (.int .i32)) (.num (.int .i32) 123000)))),
  (652, .cmp .eq (.deduceQty (.num (.int .i32) 123)) (.num (.int .i32) 123)),
  (653, .cmp .ne (.deduceQty (.num (.int .i32) 321)) (.num (.int .i32) 123)),
  (654, .cmp .eq (.num (.int .i32) 123) (.deduceQty (.num (.int .i32) 123))),
  (655, .cmp .ne (.num (.int .i32) 123) (.deduceQty (.num (.int .i32) 321))),
  (669, .noCmp .lt (.lit n!"units::isq::si::literals::_q_s" true 1) (.make (.alias n!"units::isq::si::length" (.nm n!"units::isq::si::metre") (.int .i32)) (.num (.int .i32) 1))),
  (669, .noCmp .gt (.lit n!"units::isq::si::literals::_q_s" true 1) (.make (.alias n!"units::isq::si::length" (.nm n!"units::isq::si::metre") (.int .i32)) (.num (.int .i32) 1))),
  (669, .noCmp .le (.lit n!"units::isq::si::literals::_q_s" true 1) (.make (.alias n!"units::isq::si::length" (.nm n!"units::isq::si::metre") (.int .i32)) (.num (.int .i32) 1))),
  (669, .noCmp .ge (.lit n!"units::isq::si::literals::_q_s" true 1) (.make (.alias n!"units::isq::si::length" (.nm n!"units::isq::si::metre") (.int .i32)) (.num (.int .i32) 1))),
  (672, .cmp .lt (.make (.alias n!"units::isq::si::length" (.nm n!"units::isq::si::metre") (.int .i32)) (.num (.int .i32) 123)) (.make (.alias n!"units::isq::si::length" (.nm n!"units::isq::si::metre") (.int .i32)) (.num (.int .i32) 321))),
  (673, .cmp .le (.make (.alias n!"units::isq::si::length" (.nm n!"units::isq::si::metre") (.int .i32)) (.num (.int .i32) 123)) (.make (.alias n!"units::isq::si::length" (.nm n!"units::isq::si::metre") (.int .i32)) (.num (.int .i32) 123))),
  (674, .cmp .le (.make (.alias n!"units::isq::si::length" (.nm n!"units::isq::si::metre") (.int .i32)) (.num (.int .i32) 123)) (.make (.alias n!"units::isq::si::length" (.nm n!"units::isq::si::metre") (.int .i32)) (.num (.int .i32) 321))),
  (675, .cmp .gt (.make (.alias n!"units::isq::si::length" (.nm n!"units::isq::si::metre") (.int .i32)) (.num (.int .i32) 321)) (.make (.alias n!"units::isq::si::length" (.nm n!"units::isq::si::metre") (.int .i32)) (.num (.int .i32) 123))),
  (676, .cmp .ge (.make (.alias n!"units::isq::si::length" (.nm n!"units::isq::si::metre") (.int .i32)) (.num (.int .i32) 123)) (.make (.alias n!"units::isq::si::length" (.nm n!"units::isq::si::metre") (.int .i32)) (.num (.int .i32) 123))),
  (677, .cmp .ge (.make (.alias n!"units::isq::si::length" (.nm n!"units::isq::si::metre") (.int .i32)) (.num (.int .i32) 321)) (.make (.alias n!"units::isq::si::length" (.nm n!"units::isq::si::metre") (.int .i32)) (.num (.int .i32) 123))),
  (678, .not (.cmp .lt (.make (.alias n!"units::isq::si::length" (.nm n!"units::isq::si::metre") (.int .i32)) (.num (.int .i32) 321)) (.make (.alias n!"units::isq::si::length" (.nm n!"units::isq::si::metre") (.int .i32)) (.num (.int .i32) 123)))),
  (679, .not (.cmp .lt (.make (.alias n!"units::isq::si::length" (.nm n!"units::isq::si::metre") (.int .i32)) (.num (.int .i32) 123)) (.make (.alias n!"units::isq::si::length" (.nm n!"units::isq::si::metre") (.int .i32)) (.num (.int .i32) 123)))),
  (680, .not (.cmp .le (.make (.alias n!"units::isq::si::length" (.nm n!"units::isq::si::metre") (.int .i32)) (.num (.int .i32) 321)) (.make (.alias n!"units::isq::si::length" (.nm n!"units::isq::si::metre") (.int .i32)) (.num (.int .i32) 123)))),
  (681, .not (.cmp .gt (.make (.alias n!"units::isq::si::length" (.nm n!"units::isq::si::metre") (.int .i32)) (.num (.int .i32) 123)) (.make (.alias n!"units::isq::si::length" (.nm n!"units::isq::si::metre") (.int .i32)) (.num (.int .i32) 321)))),
  (682, .not (.cmp .gt (.make (.alias n!"units::isq::si::length" (.nm n!"units::isq::si::metre") (.int .i32)) (.num (.int .i32) 123)) (.make (.alias n!"units::isq::si::length" (.nm n!"units::isq::si::metre") (.int .i32)) (.num (.int .i32) 123)))),
  (683, .not (.cmp .ge (.make (.alias n!"units::isq::si::length" (.nm n!"units::isq::si::metre") (.int .i32)) (.num (.int .i32) 123)) (.make (.alias n!"units::isq::si::length" (.nm n!"units::isq::si::metre") (.int .i32)) (.num (.int .i32) 321)))),
  (686, .cmp .lt (.make (.alias n!"units::isq::si::length" (.nm n!"units::isq::si::metre") (.flt .f64)) (.num (.int .i32) 123)) (.make (.alias n!"units::isq::si::length" (.nm n!"units::isq::si::metre") (.int .i32)) (.num (.int .i32) 321))),
  (687, .cmp .le (.make (.alias n!"units::isq::si::length" (.nm n!"units::isq::si::metre") (.flt .f64)) (.num (.int .i32) 123)) (.make (.alias n!"units::isq::si::length" (.nm n!"units::isq::si::metre") (.int .i32)) (.num (.int .i32) 123))),
  (688, .cmp .le (.make (.alias n!"units::isq::si::length" (.nm n!"units::isq::si::metre") (.flt .f64)) (.num (.int .i32) 123)) (.make (.alias n!"units::isq::si::length" (.nm n!"units::isq::si::metre") (.int .i32)) (.num (.int .i32) 321))),
  (689, .cmp .gt (.make (.alias n!"units::isq::si::length" (.nm n!"units::isq::si::metre") (.flt .f64)) (.num (.int .i32) 321)) (.make (.alias n!"units::isq::si::length" (.nm n!"units::isq::si::metre") (.int .i32)) (.num (.int .i32) 123))),
  (690, .cmp .ge (.make (.alias n!"units::isq::si::length" (.nm n!"units::isq::si::metre") (.flt .f64)) (.num (.int .i32) 123)) (.make (.alias n!"units::isq::si::length" (.nm n!"units::isq::si::metre") (.int .i32)) (.num (.int .i32) 123))),
  (691, .cmp .ge (.make (.alias n!"units::isq::si::length" (.nm n!"units::isq::si::metre") (.flt .f64)) (.num (.int .i32) 321)) (.make (.alias n!"units::isq::si::length" (.nm n!"units::isq::si::metre") (.int .i32)) (.num (.int .i32) 123))),
  (692, .not (.cmp .lt (.make (.alias n!"units::isq::si::length" (.nm n!"units::isq::si::metre") (.flt .f64)) (.num (.int .i32) 321)) (.make (.alias n!"units::isq::si::length" (.nm n!"units::isq::si::metre") (.int .i32)) (.num (.int .i32) 123)))),
  (693, .not (.cmp .lt (.make (.alias n!"units::isq::si::length" (.nm n!"units::isq::si::metre") (.flt .f64)) (.num (.int .i32) 123)) (.make (.alias n!"units::isq::si::length" (.nm n!"units::isq::si::metre") (.int .i32)) (.num (.int .i32) 123)))),
  (694, .not (.cmp .le (.make (.alias n!"units::isq::si::length" (.nm n!"units::isq::si::metre") (.flt .f64)) (.num (.int .i32) 321)) (.make (.alias n!"units::isq::si::length" (.nm n!"units::isq::si::metre") (.int .i32)) (.num (.int .i32) 123)))),
  (695, .not (.cmp .gt (.make (.alias n!"units::isq::si::length" (.nm n!"units::isq::si::metre") (.flt .f64)) (.num (.int .i32) 123)) (.make (.alias n!"units::isq::si::length" (.nm n!"units::isq::si::metre") (.int .i32)) (.num (.int .i32) 321)))),
  (696, .not (.cmp .gt (.make (.alias n!"units::isq::si::length" (.nm n!"units::isq::si::metre") (.flt .f64)) (.num (.int .i32) 123)) (.make (.alias n!"units::isq::si::length" (.nm n!"units::isq::si::metre") (.int .i32)) (.num (.int .i32) 123)))),
  (697, .not (.cmp .ge (.make (.alias n!"units::isq::si::length" (.nm n!"units::isq::si::metre") (.flt .f64)) (.num (.int .i32) 123)) (.make (.alias n!"units::isq::si::length" (.nm n!"units::isq::si::metre") (.int .i32)) (.num (.int .i32) 321)))),
  (699, .cmp .lt (.make (.alias n!"units::isq::si::length" (.nm n!"units::isq::si::kilometre") (.int .i32)) (.num (.int .i32) 123)) (.make (.alias n!"units::isq::si::length" (.nm n!"units::isq::si::metre") (.int .i32)) (.num (.int .i32) 321000))),
  (700, .cmp .le (.make (.alias n!"units::isq::si::length" (.nm n!"units::isq::si::kilometre") (.int .i32)) (.num (.int .i32) 123)) (.make (.alias n!"units::isq::si::length" (.nm n!"units::isq::si::metre") (.int .i32)) (.num (.int .i32) 123000))),
  (701, .cmp .le (.make (.alias n!"units::isq::si::length" (.nm n!"units::isq::si::kilometre") (.int .i32)) (.num (.int .i32) 123)) (.make (.alias n!"units::isq::si::length" (.nm n!"units::isq::si::metre") (.int .i32)) (.num (.int .i32) 321000))),
  (702, .cmp .gt (.make (.alias n!"units::isq::si::length" (.nm n!"units::isq::si::kilometre") (.int .i32)) (.num (.int .i32) 321)) (.make (.alias n!"units::isq::si::length" (.nm n!"units::isq::si::metre") (.int .i32)) (.num (.int .i32) 123000))),
  (703, .cmp .ge (.make (.alias n!"units::isq::si::length" (.nm n!"units::isq::si::kilometre") (.int .i32)) (.num (.int .i32) 123)) (.make (.alias n!"units::isq::si::length" (.nm n!"units::isq::si::metre") (.int .i32)) (.num (.int .i32) 123000))),
  (704, .cmp .ge (.make (.alias n!"units::isq::si::length" (.nm n!"units::isq::si::kilometre") (.int .i32)) (.num (.int .i32) 321)) (.make (.alias n!"units::isq::si::length" (.nm n!"units::isq::si::metre") (.int .i32)) (.num (.int .i32) 123000))),
  (705, .not (.cmp .lt (.make (.alias n!"units::isq::si::length" (.nm n!"units::isq::si::kilometre") (.int .i32)) (.num (.int .i32) 321)) (.make (.alias n!"units::isq::si::length" (.nm n!"units::isq::si::metre") (.int .i32)) (.num (.int .i32) 123000)))),
  (706, .not (.cmp .lt (.make (.alias n!"units::isq::si::length" (.nm n!"units::isq::si::kilometre") (.int .i32)) (.num (.int .i32) 123)) (.make (.alias n!"units::isq::si::length" (.nm n!"units::isq::si::metre") (.int .i32)) (.num (.int .i32) 123000)))),
  (707, .not (.cmp .le (.make (.alias n!"units::isq::si::length" (.nm n!"units::isq::si::kilometre") (.int .i32)) (.num (.int .i32) 321)) (.make (.alias n!"units::isq::si::length" (.nm n!"units::isq::si::metre") (.int .i32)) (.num (.int .i32) 123000)))),
  (708, .not (.cmp .gt (.make (.alias n!"units::isq::si::length" (.nm n!"units::isq::si::kilometre") (.int .i32)) (.num (.int .i32) 123)) (.make (.alias n!"units::isq::si::length" (.nm n!"units::isq::si::metre") (.int .i32)) (.num (.int .i32) 321000)))),
  (709, .not (.cmp .gt (.make (.alias n!"units::isq::si::length" (.nm n!"units::isq::si::kilometre") (.int .i32)) (.num (.int .i32) 123)) (.make (.alias n!"units::isq::si::length" (.nm n!"units::isq::si::metre") (.int .i32)) (.num (.int .i32) 123000)))),
  (710, .not (.cmp .ge (.make (.alias n!"units::isq::si::length" (.nm n!"units::isq::si::kilometre") (.int .i32)) (.num (.int .i32) 123)) (.make (.alias n!"units::isq::si::length" (.nm n!"units::isq::si::metre") (.int .i32)) (.num (.int .i32) 321000)))),
  (714, .cmp .lt (.deduceQty (.num (.int .i32) 123)) (.num (.int .i32) 321)),
  (715, .cmp .le (.deduceQty (.num (.int .i32) 123)) (.num (.int .i32) 123)),
  (716, .cmp .le (.deduceQty (.num (.int .i32) 123)) (.num (.int .i32) 321)),
  (717, .cmp .gt (.deduceQty (.num (.int .i32) 321)) (.num (.int .i32) 123)),
  (718, .cmp .ge (.deduceQty (.num (.int .i32) 123)) (.num (.int .i32) 123)),
  (719, .cmp .ge (.deduceQty (.num (.int .i32) 321)) (.num (.int .i32) 123)),
  (721, .cmp .lt (.num (.int .i32) 123) (.deduceQty (.num (.int .i32) 321))),
  (722, .cmp .le (.num (.int .i32) 123) (.deduceQty (.num (.int .i32) 123))),
  (723, .cmp .le (.num (.int .i32) 123) (.deduceQty (.num (.int .i32) 321))),
  (724, .cmp .gt (.num (.int .i32) 321) (.deduceQty (.num (.int .i32) 123))),
  (725, .cmp .ge (.num (.int .i32) 123) (.deduceQty (.num (.int .i32) 123))),
  (726, .cmp .ge (.num (.int .i32) 321) (.deduceQty (.num (.int .i32) 123))),
  (733, .eqWith (.obj (.alias n!"units::dimensionless" (.nm n!"units::one") (.flt .f64)) 1) (.obj (.rep (.int .i32)) 1)),
  (734, .eqWith (.obj (.alias n!"units::dimensionless" (.nm n!"units::one") (.flt .f64)) 1) (.obj (.rep (.flt .f64)) 1)),
  (735, .eqWith (.obj (.alias n!"units::dimensionless" (.nm n!"units::one") (.int .i32)) 1) (.obj (.rep (.int .i32)) 1)),
  (736, .not (.eqWith (.obj (.alias n!"units::dimensionless" (.nm n!"units::one") (.int .i32)) 1) (.obj (.rep (.flt .f64)) 1))),
  (743, .rejected (.op .add (.num (.int .i32) 1) (.obj (.alias n!"units::dimensionless" (.nm n!"units::percent") (.int .i32)) 1))),
  (743, .rejected (.op .add (.obj (.alias n!"units::dimensionless" (.nm n!"units::percent") (.int .i32)) 1) (.num (.int .i32) 1))),
  (745, .type (.op .div (.lit n!"units::isq::si::literals::_q_km" true 10) (.lit n!"units::isq::si::literals::_q_km" true 5)) (.qty (.nm n!"units::dim_one") (.nm n!"units::one") (.int .i64))),
  (750, .cmp .eq (.number (.cast (.unit (.nm n!"units::percent")) (.op .div (.lit n!"units::isq::si::literals::_q_m" false 50) (.lit n!"units::isq::si::literals::_q_m" false 100)))) (.num (.int .i32) 50)),
  (752, .cmp .eq (.op .div (.lit n!"units::isq::si::literals::_q_m" false 50) (.lit n!"units::isq::si::literals::_q_m" false 100)) (.make (.alias n!"units::dimensionless" (.nm n!"units::percent") (.flt .f64)) (.num (.int .i32) 50))),
  (754, .cmp .eq (.number (.make (.alias n!"units::dimensionless" (.nm n!"units::one") (.flt .f64)) (.make (.alias n!"units::dimensionless" (.nm n!"units::percent") (.flt .f64)) (.num (.int .i32) 50)))) (.num (.flt .f64) (1 / 2))),
  (761, .type (.op .add (.lit n!"units::isq::si::literals::_q_l" true 2) (.lit n!"units::isq::si::literals::_q_ml" true 2)) (.alias n!"units::isq::si::volume" (.nm n!"units::isq::si::cubic_centimetre") (.int .i64))),
  (762, .cmp .eq (.op .add (.lit n!"units::isq::si::literals::_q_l" true 2) (.lit n!"units::isq::si::literals::_q_ml" true 2)) (.lit n!"units::isq::si::literals::_q_cm3" true 2002)),
  (763, .cmp .eq (.op .add (.lit n!"units::isq::si::literals::_q_l" true 2) (.lit n!"units::isq::si::literals::_q_ml" true 2)) (.lit n!"units::isq::si::literals::_q_ml" true 2002)),
  (764, .cmp .eq (.op .add (.lit n!"units::isq::si::literals::_q_l" true 2) (.lit n!"units::isq::si::literals::_q_cm3" true 2)) (.lit n!"units::isq::si::literals::_q_ml" true 2002)),
  (765, .cmp .eq (.op .add (.lit n!"units::isq::si::literals::_q_dm3" true 2) (.lit n!"units::isq::si::literals::_q_cm3" true 2)) (.lit n!"units::isq::si::literals::_q_ml" true 2002)),
  (772, .cmp .eq (.number (.cast (.ty (.alias n!"units::isq::si::length" (.nm n!"units::isq::si::metre") (.int .i32))) (.lit n!"units::isq::si::literals::_q_km" true 2))) (.num (.int .i32) 2000)),
  (773, .cmp .eq (.number (.cast (.ty (.alias n!"units::isq::si::length" (.nm n!"units::isq::si::kilometre") (.int .i32))) (.lit n!"units::isq::si::literals::_q_m" true 2000))) (.num (.int .i32) 2)),
  (774, .cmp .eq (.number (.cast (.ty (.alias n!"units::isq::si::length" (.nm n!"units::isq::si::metre") (.int .i32))) (.lit n!"units::isq::si::literals::_q_m" false (123 / 100)))) (.num (.int .i32) 1)),
  (775, .cmp .eq (.number (.cast (.unit (.nm n!"units::isq::si::metre")) (.lit n!"units::isq::si::literals::_q_km" true 2))) (.num (.int .i32) 2000)),
  (776, .cmp .eq (.number (.cast (.unit (.nm n!"units::isq::si::kilometre")) (.lit n!"units::isq::si::literals::_q_m" true 2000))) (.num (.int .i32) 2)),
  (777, .cmp .eq (.number (.cast (.ty (.rep (.int .i32))) (.lit n!"units::isq::si::literals::_q_m" false (123 / 100)))) (.num (.int .i32) 1)),
  (778, .cmp .eq (.number (.cast (.dimUnit (.nm n!"units::isq::si::dim_speed") (.nm n!"units::isq::si::kilometre_per_hour")) (.op .div (.lit n!"units::isq::si::literals::_q_m" false 2000) (.lit n!"units::isq::si::literals::_q_s" false 3600)))) (.num (.int .i32) 2)),
  (780, .cmp .eq (.cast (.dim (.nm n!"units::isq::si::dim_length")) (.op .mul (.num (.int .i32) 1) (.ref n!"units::isq::si::cgs::length_references::cm"))) (.op .mul (.num (.int .i32) 1) (.ref n!"units::isq::si::length_references::cm"))),
  (782, .type (.cast (.unit (.nm n!"units::isq::si::litre")) (.lit n!"units::isq::si::literals::_q_dm3" true 2)) (.alias n!"units::isq::si::volume" (.nm n!"units::isq::si::litre") (.int .i64))),
  (783, .not (.type (.cast (.unit (.nm n!"units::isq::si::litre")) (.lit n!"units::isq::si::literals::_q_dm3" true 2)) (.alias n!"units::isq::si::volume" (.nm n!"units::isq::si::cubic_decimetre") (.int .i64)))),
  (796, .type (.op .div (.lit n!"units::isq::si::literals::_q_m" true 10) (.lit n!"units::isq::si::literals::_q_s" true 5)) (.alias n!"units::isq::si::speed" (.nm n!"units::isq::si::metre_per_second") (.int .i64))),
  (797, .type (.op .add (.lit n!"units::isq::si::literals::_q_mm" true 1) (.lit n!"units::isq::si::literals::_q_km" true 1)) (.alias n!"units::isq::si::length" (.nm n!"units::isq::si::millimetre") (.int .i64))),
  (812, .cmp .eq (.op .add (.op .mul (.op .div (.op .mul (.num (.int .i32) 3000) (.ref n!"units::isq::si::length_references::m")) (.op .mul (.num (.int .i32) 400) (.ref n!"units::isq::si::length_references::m"))) (.op .mul (.num (.int .i32) 400) (.ref n!"units::isq::si::length_references::m"))) (.op .mod (.op .mul (.num (.int .i32) 3000) (.ref n!"units::isq::si::length_references::m")) (.op .mul (.num (.int .i32) 400) (.ref n!"units::isq::si::length_references::m")))) (.op .mul (.num (.int .i32) 3000) (.ref n!"units::isq::si::length_references::m"))),
  (813, .sameType (.op .add (.op .mul (.op .div (.op .mul (.num (.int .i32) 3000) (.ref n!"units::isq::si::length_references::m")) (.op .mul (.num (.int .i32) 400) (.ref n!"units::isq::si::length_references::m"))) (.op .mul (.num (.int .i32) 400) (.ref n!"units::isq::si::length_references::m"))) (.op .mod (.op .mul (.num (.int .i32) 3000) (.ref n!"units::isq::si::length_references::m")) (.op .mul (.num (.int .i32) 400) (.ref n!"units::isq::si::length_references::m")))) (.op .mul (.num (.int .i32) 3000) (.ref n!"units::isq::si::length_references::m"))),
  (816, .cmp .eq (.op .add (.op .mul (.op .div (.op .mul (.num (.int .i32) 3) (.ref n!"units::isq::si::length_references::km")) (.op .mul (.num (.int .i32) 400) (.ref n!"units::isq::si::length_references::m"))) (.op .mul (.num (.int .i32) 400) (.ref n!"units::isq::si::length_references::m"))) (.op .mod (.op .mul (.num (.int .i32) 3) (.ref n!"units::isq::si::length_references::km")) (.op .mul (.num (.int .i32) 400) (.ref n!"units::isq::si::length_references::m")))) (.op .mul (.num (.int .i32) 3) (.ref n!"units::isq::si::length_references::km"))),
  (817, .sameType (.op .add (.op .mul (.op .div (.op .mul (.num (.int .i32) 3) (.ref n!"units::isq::si::length_references::km")) (.op .mul (.num (.int .i32) 400) (.ref n!"units::isq::si::length_references::m"))) (.op .mul (.num (.int .i32) 400) (.ref n!"units::isq::si::length_references::m"))) (.op .mod (.op .mul (.num (.int .i32) 3) (.ref n!"units::isq::si::length_references::km")) (.op .mul (.num (.int .i32) 400) (.ref n!"units::isq::si::length_references::m")))) (.op .mul (.num (.int .i32) 3) (.ref n!"units::isq::si::length_references::km"))),
  (820, .cmp .eq (.op .add (.op .mul (.op .div (.op .mul (.num (.int .i32) 3) (.ref n!"units::isq::si::length_references::km")) (.op .mul (.num (.int .i32) 2) (.ref n!"units::isq::si::length_references::m"))) (.op .mul (.num (.int .i32) 2) (.ref n!"units::isq::si::length_references::m"))) (.op .mod (.op .mul (.num (.int .i32) 3) (.ref n!"units::isq::si::length_references::km")) (.op .mul (.num (.int .i32) 2) (.ref n!"units::isq::si::length_references::m")))) (.op .mul (.num (.int .i32) 3) (.ref n!"units::isq::si::length_references::km"))),
  (821, .sameType (.op .add (.op .mul (.op .div (.op .mul (.num (.int .i32) 3) (.ref n!"units::isq::si::length_references::km")) (.op .mul (.num (.int .i32) 400) (.ref n!"units::isq::si::length_references::m"))) (.op .mul (.num (.int .i32) 400) (.ref n!"units::isq::si::length_references::m"))) (.op .mod (.op .mul (.num (.int .i32) 3) (.ref n!"units::isq::si::length_references::km")) (.op .mul (.num (.int .i32) 400) (.ref n!"units::isq::si::length_references::m")))) (.op .mul (.num (.int .i32) 3) (.ref n!"units::isq::si::length_references::km"))),
  (824, .cmp .eq (.op .add (.op .mul (.op .div (.op .mul (.num (.int .i32) 3) (.ref n!"units::isq::si::length_references::km")) (.op .mul (.num (.int .i32) 400000) (.ref n!"units::isq::si::length_references::mm"))) (.op .mul (.num (.int .i32) 400000) (.ref n!"units::isq::si::length_references::mm"))) (.op .mod (.op .mul (.num (.int .i32) 3) (.ref n!"units::isq::si::length_references::km")) (.op .mul (.num (.int .i32) 400000) (.ref n!"units::isq::si::length_references::mm")))) (.op .mul (.num (.int .i32) 3) (.ref n!"units::isq::si::length_references::km"))),
  (825, .sameType (.op .add (.op .mul (.op .div (.op .mul (.num (.int .i32) 3) (.ref n!"units::isq::si::length_references::km")) (.op .mul (.num (.int .i32) 400000) (.ref n!"units::isq::si::length_references::mm"))) (.op .mul (.num (.int .i32) 400000) (.ref n!"units::isq::si::length_references::mm"))) (.op .mod (.op .mul (.num (.int .i32) 3) (.ref n!"units::isq::si::length_references::km")) (.op .mul (.num (.int .i32) 400000) (.ref n!"units::isq::si::length_references::mm")))) (.op .mul (.num (.int .i32) 3) (.ref n!"units::isq::si::length_references::km"))),
  (828, .cmp .eq (.op .add (.op .mul (.op .div (.op .mul (.num (.int .i32) 3) (.ref n!"units::isq::si::length_references::km")) (.op .mul (.num (.int .i32) 2000) (.ref n!"units::isq::si::length_references::mm"))) (.op .mul (.num (.int .i32) 2000) (.ref n!"units::isq::si::length_references::mm"))) (.op .mod (.op .mul (.num (.int .i32) 3) (.ref n!"units::isq::si::length_references::km")) (.op .mul (.num (.int .i32) 2000) (.ref n!"units::isq::si::length_references::mm")))) (.op .mul (.num (.int .i32) 3) (.ref n!"units::isq::si::length_references::km")))]

#guard failures2 [n!"generic/dimensionless.h", n!"isq/si/area.h", n!"isq/si/cgs/length.h", n!"isq/si/fps/length.h", n!"isq/si/frequency.h", n!"isq/si/prefixes.h", n!"isq/si/speed.h", n!"isq/si/time.h", n!"isq/si/volume.h"] [] declsQuantity testQuantity2 = some []

/-- /repo/test/unit_test/static/quantity_test.cpp. -/
def testQuantity3 : List (Nat × Check2) := [
  (829, .sameType (.op .add (.op .mul (.op .div (.op .mul (.num (.int .i32) 3) (.ref n!"units::isq::si::length_references::km")) (.op .mul (.num (.int .i32) 2000) (.ref n!"units::isq::si::length_references::mm"))) (.op .mul (.num (.int .i32) 2000) (.ref n!"units::isq::si::length_references::mm"))) (.op .mod (.op .mul (.num (.int .i32) 3) (.ref n!"units::isq::si::length_references::km")) (.op .mul (.num (.int .i32) 2000) (.ref n!"units::isq::si::length_references::mm")))) (.op .mul (.num (.int .i32) 3) (.ref n!"units::isq::si::length_references::km"))),
  (832, .cmp .eq (.op .add (.op .mul (.op .div (.op .mul (.num (.int .i32) 3) (.ref n!"units::isq::si::length_references::km")) (.op .mul (.num (.int .i32) 400) (.ref n!"units::isq::si::length_references::mm"))) (.op .mul (.num (.int .i32) 400) (.ref n!"units::isq::si::length_references::mm"))) (.op .mod (.op .mul (.num (.int .i32) 3) (.ref n!"units::isq::si::length_references::km")) (.op .mul (.num (.int .i32) 400) (.ref n!"units::isq::si::length_references::mm")))) (.op .mul (.num (.int .i32) 3) (.ref n!"units::isq::si::length_references::km"))),
  (833, .sameType (.op .add (.op .mul (.op .div (.op .mul (.num (.int .i32) 3) (.ref n!"units::isq::si::length_references::km")) (.op .mul (.num (.int .i32) 400) (.ref n!"units::isq::si::length_references::mm"))) (.op .mul (.num (.int .i32) 400) (.ref n!"units::isq::si::length_references::mm"))) (.op .mod (.op .mul (.num (.int .i32) 3) (.ref n!"units::isq::si::length_references::km")) (.op .mul (.num (.int .i32) 400) (.ref n!"units::isq::si::length_references::mm")))) (.op .mul (.num (.int .i32) 3) (.ref n!"units::isq::si::length_references::km"))),
  (836, .cmp .eq (.op .add (.op .mul (.op .div (.op .mul (.num (.int .i32) 3) (.ref n!"units::isq::si::length_references::km")) (.op .mul (.num (.int .i32) 2) (.ref n!"units::isq::si::length_references::mm"))) (.op .mul (.num (.int .i32) 2) (.ref n!"units::isq::si::length_references::mm"))) (.op .mod (.op .mul (.num (.int .i32) 3) (.ref n!"units::isq::si::length_references::km")) (.op .mul (.num (.int .i32) 2) (.ref n!"units::isq::si::length_references::mm")))) (.op .mul (.num (.int .i32) 3) (.ref n!"units::isq::si::length_references::km"))),
  (837, .sameType (.op .add (.op .mul (.op .div (.op .mul (.num (.int .i32) 3) (.ref n!"units::isq::si::length_references::km")) (.op .mul (.num (.int .i32) 2) (.ref n!"units::isq::si::length_references::mm"))) (.op .mul (.num (.int .i32) 2) (.ref n!"units::isq::si::length_references::mm"))) (.op .mod (.op .mul (.num (.int .i32) 3) (.ref n!"units::isq::si::length_references::km")) (.op .mul (.num (.int .i32) 2) (.ref n!"units::isq::si::length_references::mm")))) (.op .mul (.num (.int .i32) 3) (.ref n!"units::isq::si::length_references::km"))),
  (840, .cmp .eq (.op .add (.op .mul (.op .div (.op .mul (.num (.int .i32) 3000) (.ref n!"units::isq::si::length_references::m")) (.num (.int .i32) 400)) (.num (.int .i32) 400)) (.op .mod (.op .mul (.num (.int .i32) 3000) (.ref n!"units::isq::si::length_references::m")) (.num (.int .i32) 400))) (.op .mul (.num (.int .i32) 3000) (.ref n!"units::isq::si::length_references::m"))),
  (841, .sameType (.op .add (.op .mul (.op .div (.op .mul (.num (.int .i32) 3000) (.ref n!"units::isq::si::length_references::m")) (.num (.int .i32) 400)) (.num (.int .i32) 400)) (.op .mod (.op .mul (.num (.int .i32) 3000) (.ref n!"units::isq::si::length_references::m")) (.num (.int .i32) 400))) (.op .mul (.num (.int .i32) 3000) (.ref n!"units::isq::si::length_references::m"))),
  (844, .cmp .eq (.op .add (.op .mul (.op .div (.op .mul (.num (.int .i32) 3000) (.ref n!"units::isq::si::length_references::m")) (.deduceQty (.num (.int .i32) 400))) (.deduceQty (.num (.int .i32) 400))) (.op .mod (.op .mul (.num (.int .i32) 3000) (.ref n!"units::isq::si::length_references::m")) (.deduceQty (.num (.int .i32) 400)))) (.op .mul (.num (.int .i32) 3000) (.ref n!"units::isq::si::length_references::m"))),
  (845, .sameType (.op .add (.op .mul (.op .div (.op .mul (.num (.int .i32) 3000) (.ref n!"units::isq::si::length_references::m")) (.deduceQty (.num (.int .i32) 400))) (.deduceQty (.num (.int .i32) 400))) (.op .mod (.op .mul (.num (.int .i32) 3000) (.ref n!"units::isq::si::length_references::m")) (.deduceQty (.num (.int .i32) 400)))) (.op .mul (.num (.int .i32) 3000) (.ref n!"units::isq::si::length_references::m"))),
  (848, .cmp .eq (.op .add (.op .mul (.op .div (.op .mul (.num (.int .i32) 3) (.ref n!"units::isq::si::length_references::km")) (.deduceQty (.num (.int .i32) 400))) (.deduceQty (.num (.int .i32) 400))) (.op .mod (.op .mul (.num (.int .i32) 3) (.ref n!"units::isq::si::length_references::km")) (.deduceQty (.num (.int .i32) 400)))) (.op .mul (.num (.int .i32) 3) (.ref n!"units::isq::si::length_references::km"))),
  (849, .sameType (.op .add (.op .mul (.op .div (.op .mul (.num (.int .i32) 3) (.ref n!"units::isq::si::length_references::km")) (.deduceQty (.num (.int .i32) 400))) (.deduceQty (.num (.int .i32) 400))) (.op .mod (.op .mul (.num (.int .i32) 3) (.ref n!"units::isq::si::length_references::km")) (.deduceQty (.num (.int .i32) 400)))) (.op .mul (.num (.int .i32) 3) (.ref n!"units::isq::si::length_references::km"))),
  (852, .cmp .eq (.op .add (.op .mul (.op .div (.op .mul (.num (.int .i32) 3) (.ref n!"units::isq::si::length_references::km")) (.deduceQty (.num (.int .i32) 2))) (.deduceQty (.num (.int .i32) 2))) (.op .mod (.op .mul (.num (.int .i32) 3) (.ref n!"units::isq::si::length_references::km")) (.deduceQty (.num (.int .i32) 2)))) (.op .mul (.num (.int .i32) 3) (.ref n!"units::isq::si::length_references::km"))),
  (853, .sameType (.op .add (.op .mul (.op .div (.op .mul (.num (.int .i32) 3) (.ref n!"units::isq::si::length_references::km")) (.deduceQty (.num (.int .i32) 2))) (.deduceQty (.num (.int .i32) 2))) (.op .mod (.op .mul (.num (.int .i32) 3) (.ref n!"units::isq::si::length_references::km")) (.deduceQty (.num (.int .i32) 2)))) (.op .mul (.num (.int .i32) 3) (.ref n!"units::isq::si::length_references::km"))),
  (856, .cmp .eq (.op .add (.op .mul (.op .div (.op .mul (.num (.int .i32) 3) (.ref n!"units::isq::si::length_references::km")) (.make (.alias n!"units::dimensionless" (.scaled (1) (1000) (0) (.nm n!"units::one")) (.int .i32)) (.num (.int .i32) 400))) (.make (.alias n!"units::dimensionless" (.scaled (1) (1000) (0) (.nm n!"units::one")) (.int .i32)) (.num (.int .i32) 400))) (.op .mod (.op .mul (.num (.int .i32) 3) (.ref n!"units::isq::si::length_references::km")) (.make (.alias n!"units::dimensionless" (.scaled (1) (1000) (0) (.nm n!"units::one")) (.int .i32)) (.num (.int .i32) 400)))) (.op .mul (.num (.int .i32) 3) (.ref n!"units::isq::si::length_references::km"))),
  (857, .sameType (.op .add (.op .mul (.op .div (.op .mul (.num (.int .i32) 3) (.ref n!"units::isq::si::length_references::km")) (.make (.alias n!"units::dimensionless" (.scaled (1) (1000) (0) (.nm n!"units::one")) (.int .i32)) (.num (.int .i32) 400))) (.make (.alias n!"units::dimensionless" (.scaled (1) (1000) (0) (.nm n!"units::one")) (.int .i32)) (.num (.int .i32) 400))) (.op .mod (.op .mul (.num (.int .i32) 3) (.ref n!"units::isq::si::length_references::km")) (.make (.alias n!"units::dimensionless" (.scaled (1) (1000) (0) (.nm n!"units::one")) (.int .i32)) (.num (.int .i32) 400)))) (.op .mul (.num (.int .i32) 3) (.ref n!"units::isq::si::length_references::km")))]

#guard failures2 [n!"generic/dimensionless.h", n!"isq/si/area.h", n!"isq/si/cgs/length.h", n!"isq/si/fps/length.h", n!"isq/si/frequency.h", n!"isq/si/prefixes.h", n!"isq/si/speed.h", n!"isq/si/time.h", n!"isq/si/volume.h"] [] declsQuantity testQuantity3 = some []

/-- The kinds and point kinds of /repo/test/unit_test/static/quantity_kind_test.cpp. -/
def declsKind : List Decl' := [.kind "radius_kind" (.nm n!"units::isq::si::dim_length"),
  .kind "width_kind" (.nm n!"units::isq::si::dim_length"),
  .kind "height_kind" (.nm n!"units::isq::si::dim_length"),
  .derived "horizontal_area_kind" "width_kind" (.nm n!"units::isq::si::dim_area"),
  .derived "rate_of_climb_kind" "height_kind" (.nm n!"units::isq::si::dim_speed"),
  .kind "apple" (.nm n!"units::dim_one"),
  .kind "orange" (.nm n!"units::dim_one"),
  .kind "time_kind" (.nm n!"units::isq::si::dim_time"),
  .kind "cgs_width_kind" (.nm n!"units::isq::si::cgs::dim_length")]

/-- A state of the variable of a test of /repo/test/unit_test/static/quantity_kind_test.cpp (line 375). -/
def stateKind_375_1 : Y := .make (.kd (.nm "width_kind") (.nm n!"units::isq::si::metre") (.int .i32)) (.op .mul (.num (.int .i32) 1) (.ref n!"units::isq::si::length_references::m"))

/-- A state of the variable of a test of /repo/test/unit_test/static/quantity_kind_test.cpp (line 375). -/
def stateKind_375_2 : Y := .pre .add (stateKind_375_1)

/-- A state of the variable of a test of /repo/test/unit_test/static/quantity_kind_test.cpp (line 375). -/
def stateKind_375_3 : Y := .pre .sub (stateKind_375_2)

/-- A state of the variable of a test of /repo/test/unit_test/static/quantity_kind_test.cpp (line 375). -/
def stateKind_375_4 : Y := .postNew .add (stateKind_375_3)

/-- A state of the variable of a test of /repo/test/unit_test/static/quantity_kind_test.cpp (line 375). -/
def stateKind_375_5 : Y := .postNew .sub (stateKind_375_4)

/-- A state of the variable of a test of /repo/test/unit_test/static/quantity_kind_test.cpp (line 375). -/
def stateKind_375_6 : Y := .assignOp .add (stateKind_375_5) (stateKind_375_5)

/-- A state of the variable of a test of /repo/test/unit_test/static/quantity_kind_test.cpp (line 375). -/
def stateKind_375_7 : Y := .assignOp .sub (stateKind_375_6) (stateKind_375_6)

/-- A state of the variable of a test of /repo/test/unit_test/static/quantity_kind_test.cpp (line 375). -/
def stateKind_375_8 : Y := .assign (stateKind_375_7) (.make (.kd (.nm "width_kind") (.nm n!"units::isq::si::metre") (.int .i32)) (.op .mul (.num (.int .i32) 3) (.ref n!"units::isq::si::length_references::m")))

/-- A state of the variable of a test of /repo/test/unit_test/static/quantity_kind_test.cpp (line 375). -/
def stateKind_375_9 : Y := .assignOp .mul (stateKind_375_8) (.num (.int .i32) 3)

/-- A state of the variable of a test of /repo/test/unit_test/static/quantity_kind_test.cpp (line 375). -/
def stateKind_375_10 : Y := .assignOp .mul (stateKind_375_9) (.deduceQty (.num (.int .i32) 1))

/-- A state of the variable of a test of /repo/test/unit_test/static/quantity_kind_test.cpp (line 375). -/
def stateKind_375_11 : Y := .assignOp .mul (stateKind_375_10) (.op .div (stateKind_375_10) (stateKind_375_10))

/-- A state of the variable of a test of /repo/test/unit_test/static/quantity_kind_test.cpp (line 375). -/
def stateKind_375_12 : Y := .assignOp .div (stateKind_375_11) (.num (.int .i32) 2)

/-- A state of the variable of a test of /repo/test/unit_test/static/quantity_kind_test.cpp (line 375). -/
def stateKind_375_13 : Y := .assignOp .div (stateKind_375_12) (.deduceQty (.num (.int .i32) 1))

/-- A state of the variable of a test of /repo/test/unit_test/static/quantity_kind_test.cpp (line 375). -/
def stateKind_375_14 : Y := .assignOp .div (stateKind_375_13) (.op .div (stateKind_375_13) (stateKind_375_13))

/-- A state of the variable of a test of /repo/test/unit_test/static/quantity_kind_test.cpp (line 375). -/
def stateKind_375_15 : Y := .assignOp .mod (stateKind_375_14) (.num (.int .i32) 3)

/-- A state of the variable of a test of /repo/test/unit_test/static/quantity_kind_test.cpp (line 375). -/
def stateKind_375_16 : Y := .assignOp .mod (stateKind_375_15) (.deduceQty (.num (.int .i32) 3))

/-- A state of the variable of a test of /repo/test/unit_test/static/quantity_kind_test.cpp (line 375). -/
def stateKind_375_17 : Y := .assignOp .mod (stateKind_375_16) (.op .mul (.num (.int .i32) 3) (.op .div (stateKind_375_16) (stateKind_375_16)))

/-- A state of the variable of a test of /repo/test/unit_test/static/quantity_kind_test.cpp (line 375). -/
def stateKind_375_18 : Y := .assignOp .mod (stateKind_375_17) (stateKind_375_17)

/-- A state of the variable of a test of /repo/test/unit_test/static/quantity_kind_test.cpp (line 375). -/
def stateKind_375_19 : Y := .assign (stateKind_375_18) (.make (.kd (.nm "width_kind") (.nm n!"units::isq::si::metre") (.int .i32)) (.op .mul (.num (.int .i32) 3) (.ref n!"units::isq::si::length_references::m")))

/-- A state of the variable of a test of /repo/test/unit_test/static/quantity_kind_test.cpp (line 375). -/
def stateKind_375_20 : Y := .assignOp .mul (stateKind_375_19) (.num (.flt .f64) (39 / 10))

/-- A state of the variable of a test of /repo/test/unit_test/static/quantity_kind_test.cpp (line 375). -/
def stateKind_375_21 : Y := .assignOp .mul (stateKind_375_20) (.deduceQty (.num (.flt .f64) 1))

/-- A state of the variable of a test of /repo/test/unit_test/static/quantity_kind_test.cpp (line 375). -/
def stateKind_375_22 : Y := .assignOp .mul (stateKind_375_21) (.op .mul (.num (.flt .f64) 1) (.op .div (stateKind_375_21) (stateKind_375_21)))

/-- A state of the variable of a test of /repo/test/unit_test/static/quantity_kind_test.cpp (line 375). -/
def stateKind_375_23 : Y := .assignOp .div (stateKind_375_22) (.num (.flt .f64) (39 / 10))

/-- A state of the variable of a test of /repo/test/unit_test/static/quantity_kind_test.cpp (line 375). -/
def stateKind_375_24 : Y := .assignOp .div (stateKind_375_23) (.deduceQty (.num (.flt .f64) 1))

/-- A state of the variable of a test of /repo/test/unit_test/static/quantity_kind_test.cpp (line 375). -/
def stateKind_375_25 : Y := .assignOp .div (stateKind_375_24) (.op .mul (.num (.flt .f64) 1) (.op .div (stateKind_375_24) (stateKind_375_24)))

/-- /repo/test/unit_test/static/quantity_kind_test.cpp. -/
def testKind0 : List (Nat × Check2) := [
  (81, .isCls (.kd (.nm "width_kind") (.nm n!"units::isq::si::metre") (.flt .f64)) .kd),
  (82, .isCls (.kd (.nm "rate_of_climb_kind") (.nm n!"units::isq::si::metre_per_second") (.flt .f64)) .kd),
  (83, .not (.isCls (.rep (.flt .f64)) .kd)),
  (84, .not (.isCls (.alias n!"units::isq::si::length" (.nm n!"units::isq::si::metre") (.flt .f64)) .kd)),
  (85, .not (.isCls (.pt (.dyn (.nm n!"units::isq::si::dim_length")) (.nm n!"units::isq::si::metre") (.flt .f64)) .kd)),
  (87, .kindOf (.kd (.nm "width_kind") (.nm n!"units::isq::si::metre") (.flt .f64)) (.nm "width_kind")),
  (88, .not (.kindOf (.kd (.nm "width_kind") (.nm n!"units::isq::si::metre") (.flt .f64)) (.nm "height_kind"))),
  (90, .not (.kindOf (.alias n!"units::isq::si::length" (.nm n!"units::isq::si::metre") (.flt .f64)) (.nm "width_kind"))),
  (92, .not (.kindOf (.pt (.dyn (.nm n!"units::isq::si::dim_length")) (.nm n!"units::isq::si::metre") (.flt .f64)) (.nm "width_kind"))),
  (113, .badType (.kd (.nm "width_kind") (.nm n!"units::isq::si::second") (.int .i32))),
  (135, .eqWith (.obj (.kd (.nm "width_kind") (.nm n!"units::isq::si::metre") (.flt .f64)) 1) (.obj (.kd (.nm "width_kind") (.nm n!"units::isq::si::metre") (.flt .f64)) 1)),
  (136, .cmpWith (.obj (.kd (.nm "width_kind") (.nm n!"units::isq::si::metre") (.flt .f64)) 1) (.obj (.kd (.nm "width_kind") (.nm n!"units::isq::si::metre") (.flt .f64)) 1)),
  (139, .cmpWith (.obj (.kd (.nm "width_kind") (.nm n!"units::isq::si::metre") (.flt .f64)) 1) (.obj (.kd (.nm "width_kind") (.nm n!"units::isq::si::metre") (.flt .f64)) 1)),
  (159, .same (.common (.obj (.kd (.nm "radius_kind") (.nm n!"units::isq::si::metre") (.flt .f64)) 0)) (.obj (.alias n!"units::isq::si::length" (.nm n!"units::isq::si::metre") (.flt .f64)) 0)),
  (160, .cmp .eq (.common (.obj (.kd (.nm "radius_kind") (.nm n!"units::isq::si::metre") (.flt .f64)) 0)) (.common (.obj (.kd (.nm "height_kind") (.nm n!"units::isq::si::metre") (.flt .f64)) 0))),
  (163, .not (.eqWith (.obj (.kd (.nm "apple") (.nm n!"units::one") (.flt .f64)) 1) (.obj (.kd (.nm "orange") (.nm n!"units::one") (.flt .f64)) 1))),
  (170, .cmp .eq (.common (.special (.kd (.nm "width_kind") (.nm n!"units::isq::si::metre") (.flt .f64)) .zero)) (.op .mul (.num (.int .i32) 0) (.ref n!"units::isq::si::length_references::m"))),
  (171, .cmp .eq (.common (.special (.kd (.nm "width_kind") (.nm n!"units::isq::si::metre") (.flt .f64)) .one)) (.op .mul (.num (.int .i32) 1) (.ref n!"units::isq::si::length_references::m"))),
  (172, .cmp .eq (.common (.special (.kd (.nm "width_kind") (.nm n!"units::isq::si::metre") (.int .u32)) .min)) (.op .mul (.num (.int .i32) 0) (.ref n!"units::isq::si::length_references::m"))),
  (173, .cmp .eq (.common (.special (.kd (.nm "width_kind") (.nm n!"units::isq::si::metre") (.int .u32)) .max)) (.op .mul (.limit (.int .u32) true) (.ref n!"units::isq::si::length_references::m"))),
  (174, .cmp .eq (.number (.common (.special (.kd (.nm "width_kind") (.nm n!"units::isq::si::metre") (.flt .f64)) .min))) (.limit (.flt .f64) false)),
  (175, .cmp .eq (.number (.common (.special (.kd (.nm "width_kind") (.nm n!"units::isq::si::metre") (.flt .f64)) .max))) (.limit (.flt .f64) true)),
  (194, .cmp .eq (.common (.obj (.kd (.nm "width_kind") (.nm n!"units::isq::si::metre") (.flt .f64)) 0)) (.op .mul (.num (.int .i32) 0) (.ref n!"units::isq::si::length_references::m"))),
  (201, .same (.deduceKd (.make (.kd (.nm "rate_of_climb_kind") (.nm n!"units::isq::si::kilometre_per_hour") (.flt .f64)) (.op .mul (.num (.flt .f64) (1 / 100)) (.op .div (.ref n!"units::isq::si::length_references::km") (.ref n!"units::isq::si::time_references::h"))))) (.make (.kd (.nm "rate_of_climb_kind") (.nm n!"units::isq::si::kilometre_per_hour") (.flt .f64)) (.op .mul (.num (.flt .f64) (1 / 100)) (.op .div (.ref n!"units::isq::si::length_references::km") (.ref n!"units::isq::si::time_references::h"))))),
  (209, .cmp .eq (.common (.makeOnly (.kd (.nm "apple") (.nm n!"units::one") (.int .i32)) (.num (.int .i32) 1))) (.num (.int .i32) 1)),
  (210, .cmp .eq (.common (.makeOnly (.kd (.nm "apple") (.nm n!"units::one") (.flt .f64)) (.num (.flt .f64) 1))) (.num (.int .i32) 1)),
  (211, .cmp .eq (.number (.common (.makeOnly (.kd (.nm "apple") (.nm n!"units::percent") (.int .i32)) (.num (.int .u64) 1)))) (.num (.int .i32) 1)),
  (212, .cmp .eq (.number (.common (.makeOnly (.kd (.nm "apple") (.nm n!"units::percent") (.flt .f64)) (.num (.flt .f80) 1)))) (.num (.int .i32) 1)),
  (213, .both (.not (.constructible (.kd (.nm "apple") (.nm n!"units::one") (.int .i32)) (.num (.flt .f64) 1))) (.not (.convertible (.kd (.nm "apple") (.nm n!"units::one") (.int .i32)) (.num (.flt .f64) 1)))),
  (214, .both (.not (.constructible (.kd (.nm "apple") (.nm n!"units::percent") (.int .i32)) (.num (.flt .f64) 1))) (.not (.convertible (.kd (.nm "apple") (.nm n!"units::percent") (.int .i32)) (.num (.flt .f64) 1)))),
  (215, .both (.not (.constructible (.kd (.nm "width_kind") (.nm n!"units::isq::si::metre") (.flt .f64)) (.num (.flt .f64) 1))) (.not (.convertible (.kd (.nm "width_kind") (.nm n!"units::isq::si::metre") (.flt .f64)) (.num (.flt .f64) 1)))),
  (216, .both (.not (.constructible (.kd (.nm "width_kind") (.nm n!"units::isq::si::metre") (.flt .f64)) (.num (.flt .f32) 1))) (.not (.convertible (.kd (.nm "width_kind") (.nm n!"units::isq::si::metre") (.flt .f64)) (.num (.flt .f32) 1)))),
  (217, .both (.not (.constructible (.kd (.nm "width_kind") (.nm n!"units::isq::si::metre") (.flt .f32)) (.num (.flt .f64) 1))) (.not (.convertible (.kd (.nm "width_kind") (.nm n!"units::isq::si::metre") (.flt .f32)) (.num (.flt .f64) 1)))),
  (218, .both (.not (.constructible (.kd (.nm "width_kind") (.nm n!"units::isq::si::metre") (.flt .f64)) (.num (.int .i32) 1))) (.not (.convertible (.kd (.nm "width_kind") (.nm n!"units::isq::si::metre") (.flt .f64)) (.num (.int .i32) 1)))),
  (225, .cmp .eq (.common (.makeOnly (.kd (.nm "width_kind") (.nm n!"units::isq::si::metre") (.int .i32)) (.op .mul (.num (.int .i32) 1) (.ref n!"units::isq::si::length_references::m")))) (.op .mul (.num (.int .i32) 1) (.ref n!"units::isq::si::length_references::m"))),
  (226, .cmp .eq (.common (.makeOnly (.kd (.nm "width_kind") (.nm n!"units::isq::si::metre") (.int .i32)) (.op .mul (.num (.int .i32) 1) (.ref n!"units::isq::si::length_references::km")))) (.op .mul (.num (.int .i32) 1) (.ref n!"units::isq::si::length_references::km"))),
  (228, .cmp .eq (.common (.makeOnly (.kd (.nm "width_kind") (.nm n!"units::isq::si::metre") (.flt .f64)) (.op .mul (.num (.int .i32) 1) (.ref n!"units::isq::si::cgs::length_references::cm")))) (.op .mul (.num (.int .i32) 1) (.ref n!"units::isq::si::length_references::cm"))),
  (229, .cmp .eq (.common (.makeOnly (.kd (.nm "width_kind") (.nm n!"units::isq::si::metre") (.flt .f64)) (.op .mul (.num (.int .i32) 1) (.ref n!"units::isq::si::length_references::mm")))) (.op .mul (.num (.int .i32) 1) (.ref n!"units::isq::si::length_references::mm"))),
  (230, .cmp .eq (.common (.makeOnly (.kd (.nm "width_kind") (.nm n!"units::isq::si::metre") (.flt .f64)) (.op .mul (.num (.int .i32) 1) (.ref n!"units::isq::si::length_references::m")))) (.op .mul (.num (.int .i32) 1) (.ref n!"units::isq::si::length_references::m"))),
  (231, .cmp .eq (.common (.makeOnly (.kd (.nm "width_kind") (.nm n!"units::isq::si::metre") (.flt .f64)) (.op .mul (.num (.int .i32) 1) (.ref n!"units::isq::si::length_references::km")))) (.op .mul (.num (.int .i32) 1) (.ref n!"units::isq::si::length_references::km"))),
  (232, .cmp .eq (.common (.makeOnly (.kd (.nm "width_kind") (.nm n!"units::isq::si::metre") (.flt .f64)) (.op .mul (.num (.flt .f64) 1) (.ref n!"units::isq::si::length_references::mm")))) (.op .mul (.num (.int .i32) 1) (.ref n!"units::isq::si::length_references::mm"))),
  (233, .cmp .eq (.common (.makeOnly (.kd (.nm "width_kind") (.nm n!"units::isq::si::metre") (.flt .f64)) (.op .mul (.num (.flt .f64) 1) (.ref n!"units::isq::si::length_references::m")))) (.op .mul (.num (.int .i32) 1) (.ref n!"units::isq::si::length_references::m"))),
  (234, .cmp .eq (.common (.makeOnly (.kd (.nm "width_kind") (.nm n!"units::isq::si::metre") (.flt .f64)) (.op .mul (.num (.flt .f64) 1) (.ref n!"units::isq::si::length_references::km")))) (.op .mul (.num (.int .i32) 1) (.ref n!"units::isq::si::length_references::km"))),
  (235, .cmp .eq (.common (.makeOnly (.kd (.nm "width_kind") (.nm n!"units::isq::si::metre") (.flt .f32)) (.op .mul (.num (.flt .f64) 1) (.ref n!"units::isq::si::length_references::mm")))) (.op .mul (.num (.int .i32) 1) (.ref n!"units::isq::si::length_references::mm"))),
  (236, .cmp .eq (.common (.makeOnly (.kd (.nm "width_kind") (.nm n!"units::isq::si::metre") (.flt .f32)) (.op .mul (.num (.flt .f64) 1) (.ref n!"units::isq::si::length_references::m")))) (.op .mul (.num (.int .i32) 1) (.ref n!"units::isq::si::length_references::m"))),
  (237, .cmp .eq (.common (.makeOnly (.kd (.nm "width_kind") (.nm n!"units::isq::si::metre") (.flt .f32)) (.op .mul (.num (.flt .f64) 1) (.ref n!"units::isq::si::length_references::km")))) (.op .mul (.num (.int .i32) 1) (.ref n!"units::isq::si::length_references::km"))),
  (239, .both (.not (.constructible (.kd (.nm "width_kind") (.nm n!"units::isq::si::metre") (.int .i32)) (.op .mul (.num (.int .i32) 1) (.ref n!"units::isq::si::length_references::mm")))) (.not (.convertible (.kd (.nm "width_kind") (.nm n!"units::isq::si::metre") (.int .i32)) (.op .mul (.num (.int .i32) 1) (.ref n!"units::isq::si::length_references::mm"))))),
  (240, .both (.not (.constructible (.kd (.nm "width_kind") (.nm n!"units::isq::si::metre") (.int .i32)) (.op .mul (.num (.flt .f64) 1) (.ref n!"units::isq::si::length_references::mm")))) (.not (.convertible (.kd (.nm "width_kind") (.nm n!"units::isq::si::metre") (.int .i32)) (.op .mul (.num (.flt .f64) 1) (.ref n!"units::isq::si::length_references::mm"))))),
  (241, .both (.not (.constructible (.kd (.nm "width_kind") (.nm n!"units::isq::si::metre") (.int .i32)) (.op .mul (.num (.flt .f64) 1) (.ref n!"units::isq::si::length_references::m")))) (.not (.convertible (.kd (.nm "width_kind") (.nm n!"units::isq::si::metre") (.int .i32)) (.op .mul (.num (.flt .f64) 1) (.ref n!"units::isq::si::length_references::m"))))),
  (242, .both (.not (.constructible (.kd (.nm "width_kind") (.nm n!"units::isq::si::metre") (.int .i32)) (.op .mul (.num (.flt .f64) 1) (.ref n!"units::isq::si::length_references::km")))) (.not (.convertible (.kd (.nm "width_kind") (.nm n!"units::isq::si::metre") (.int .i32)) (.op .mul (.num (.flt .f64) 1) (.ref n!"units::isq::si::length_references::km"))))),
  (243, .both (.not (.constructible (.kd (.nm "width_kind") (.nm n!"units::isq::si::metre") (.int .i32)) (.op .mul (.num (.int .i32) 1) (.ref n!"units::isq::si::time_references::s")))) (.not (.convertible (.kd (.nm "width_kind") (.nm n!"units::isq::si::metre") (.int .i32)) (.op .mul (.num (.int .i32) 1) (.ref n!"units::isq::si::time_references::s"))))),
  (244, .both (.not (.constructible (.kd (.nm "width_kind") (.nm n!"units::isq::si::metre") (.int .i32)) (.op .mul (.num (.int .i32) 1) (.op .mul (.ref n!"units::isq::si::length_references::m") (.ref n!"units::isq::si::length_references::m"))))) (.not (.convertible (.kd (.nm "width_kind") (.nm n!"units::isq::si::metre") (.int .i32)) (.op .mul (.num (.int .i32) 1) (.op .mul (.ref n!"units::isq::si::length_references::m") (.ref n!"units::isq::si::length_references::m")))))),
  (245, .both (.not (.constructible (.kd (.nm "width_kind") (.nm n!"units::isq::si::metre") (.int .i32)) (.op .mul (.num (.int .i32) 1) (.op .div (.ref n!"units::isq::si::length_references::m") (.ref n!"units::isq::si::time_references::s"))))) (.not (.convertible (.kd (.nm "width_kind") (.nm n!"units::isq::si::metre") (.int .i32)) (.op .mul (.num (.int .i32) 1) (.op .div (.ref n!"units::isq::si::length_references::m") (.ref n!"units::isq::si::time_references::s")))))),
  (248, .cmp .eq (.common (.makeOnly (.kd (.nm "width_kind") (.nm n!"units::isq::si::metre") (.flt .f64)) (.op .mul (.num (.flt .f32) 1) (.ref n!"units::isq::si::length_references::m")))) (.op .mul (.num (.int .i32) 1) (.ref n!"units::isq::si::length_references::m"))),
  (249, .cmp .eq (.common (.makeOnly (.kd (.nm "width_kind") (.nm n!"units::isq::si::metre") (.flt .f64)) (.op .mul (.make (.rep (.int .i16)) (.num (.int .i32) 1)) (.ref n!"units::isq::si::length_references::m")))) (.op .mul (.num (.int .i32) 1) (.ref n!"units::isq::si::length_references::m"))),
  (250, .cmp .eq (.common (.makeOnly (.kd (.nm "width_kind") (.nm n!"units::isq::si::metre") (.int .i16)) (.op .mul (.num (.int .i32) 1) (.ref n!"units::isq::si::length_references::m")))) (.op .mul (.num (.int .i32) 1) (.ref n!"units::isq::si::length_references::m"))),
  (253, .cmp .eq (.common (.makeOnly (.kd (.nm "apple") (.nm n!"units::one") (.int .i32)) (.deduceQty (.num (.int .i32) 1)))) (.num (.int .i32) 1)),
  (254, .cmp .eq (.common (.makeOnly (.kd (.nm "apple") (.nm n!"units::one") (.flt .f64)) (.make (.alias n!"units::dimensionless" (.nm n!"units::percent") (.flt .f64)) (.num (.int .i32) 1)))) (.num (.flt .f64) (1 / 100))),
  (255, .cmp .eq (.number (.common (.makeOnly (.kd (.nm "apple") (.nm n!"units::percent") (.flt .f64)) (.deduceQty (.num (.flt .f64) 1))))) (.num (.int .i32) 100)),
  (256, .cmp .eq (.number (.common (.makeOnly (.kd (.nm "apple") (.nm n!"units::percent") (.flt .f64)) (.make (.alias n!"units::dimensionless" (.nm n!"units::percent") (.flt .f64)) (.num (.int .i32) 1))))) (.num (.int .i32) 1)),
  (257, .cmp .eq (.common (.makeOnly (.kd (.nm "apple") (.nm n!"units::one") (.flt .f64)) (.deduceQty (.num (.flt .f64) 1)))) (.num (.int .i32) 1)),
  (258, .cmp .eq (.common (.makeOnly (.kd (.nm "apple") (.nm n!"units::one") (.flt .f64)) (.deduceQty (.num (.flt .f32) 1)))) (.num (.int .i32) 1)),
  (259, .cmp .eq (.common (.makeOnly (.kd (.nm "apple") (.nm n!"units::one") (.flt .f32)) (.deduceQty (.num (.flt .f64) 1)))) (.num (.int .i32) 1)),
  (260, .cmp .eq (.common (.makeOnly (.kd (.nm "apple") (.nm n!"units::one") (.flt .f64)) (.deduceQty (.num (.int .i32) 1)))) (.num (.int .i32) 1)),
  (261, .cmp .eq (.common (.makeOnly (.kd (.nm "apple") (.nm n!"units::one") (.flt .f64)) (.deduceQty (.make (.rep (.int .i16)) (.num (.int .i32) 1))))) (.num (.int .i32) 1)),
  (262, .cmp .eq (.common (.makeOnly (.kd (.nm "apple") (.nm n!"units::one") (.int .i16)) (.deduceQty (.num (.int .i32) 1)))) (.num (.int .i32) 1)),
  (263, .cmp .eq (.number (.common (.makeOnly (.kd (.nm "apple") (.nm n!"units::percent") (.flt .f64)) (.deduceQty (.num (.flt .f64) 1))))) (.num (.flt .f64) 100)),
  (264, .cmp .eq (.number (.common (.makeOnly (.kd (.nm "apple") (.nm n!"units::percent") (.flt .f64)) (.deduceQty (.num (.flt .f32) 1))))) (.num (.flt .f64) 100)),
  (265, .cmp .eq (.number (.common (.makeOnly (.kd (.nm "apple") (.nm n!"units::percent") (.flt .f32)) (.deduceQty (.num (.flt .f64) 1))))) (.num (.flt .f32) 100)),
  (266, .cmp .eq (.number (.common (.makeOnly (.kd (.nm "apple") (.nm n!"units::percent") (.flt .f64)) (.deduceQty (.num (.int .i32) 1))))) (.num (.flt .f64) 100)),
  (267, .cmp .eq (.number (.common (.makeOnly (.kd (.nm "apple") (.nm n!"units::percent") (.flt .f64)) (.deduceQty (.make (.rep (.int .i16)) (.num (.int .i32) 1)))))) (.num (.flt .f64) 100)),
  (268, .cmp .eq (.number (.common (.makeOnly (.kd (.nm "apple") (.nm n!"units::percent") (.int .i16)) (.deduceQty (.num (.int .i32) 1))))) (.num (.flt .f64) 100)),
  (270, .both (.not (.constructible (.alias n!"units::dimensionless" (.nm n!"units::one") (.flt .f64)) (.obj (.kd (.nm "apple") (.nm n!"units::one") (.flt .f64)) 0))) (.not (.convertible (.alias n!"units::dimensionless" (.nm n!"units::one") (.flt .f64)) (.obj (.kd (.nm "apple") (.nm n!"units::one") (.flt .f64)) 0)))),
  (271, .both (.not (.constructible (.alias n!"units::dimensionless" (.nm n!"units::one") (.flt .f64)) (.obj (.kd (.nm "apple") (.nm n!"units::one") (.flt .f32)) 0))) (.not (.convertible (.alias n!"units::dimensionless" (.nm n!"units::one") (.flt .f64)) (.obj (.kd (.nm "apple") (.nm n!"units::one") (.flt .f32)) 0)))),
  (272, .both (.not (.constructible (.alias n!"units::dimensionless" (.nm n!"units::one") (.flt .f32)) (.obj (.kd (.nm "apple") (.nm n!"units::one") (.flt .f64)) 0))) (.not (.convertible (.alias n!"units::dimensionless" (.nm n!"units::one") (.flt .f32)) (.obj (.kd (.nm "apple") (.nm n!"units::one") (.flt .f64)) 0)))),
  (273, .both (.not (.constructible (.alias n!"units::dimensionless" (.nm n!"units::one") (.flt .f64)) (.obj (.kd (.nm "apple") (.nm n!"units::one") (.int .i32)) 0))) (.not (.convertible (.alias n!"units::dimensionless" (.nm n!"units::one") (.flt .f64)) (.obj (.kd (.nm "apple") (.nm n!"units::one") (.int .i32)) 0)))),
  (274, .both (.not (.constructible (.alias n!"units::dimensionless" (.nm n!"units::one") (.flt .f64)) (.obj (.kd (.nm "apple") (.nm n!"units::one") (.int .i16)) 0))) (.not (.convertible (.alias n!"units::dimensionless" (.nm n!"units::one") (.flt .f64)) (.obj (.kd (.nm "apple") (.nm n!"units::one") (.int .i16)) 0)))),
  (275, .both (.not (.constructible (.alias n!"units::dimensionless" (.nm n!"units::one") (.int .i16)) (.obj (.kd (.nm "apple") (.nm n!"units::one") (.int .i32)) 0))) (.not (.convertible (.alias n!"units::dimensionless" (.nm n!"units::one") (.int .i16)) (.obj (.kd (.nm "apple") (.nm n!"units::one") (.int .i32)) 0)))),
  (276, .both (.not (.constructible (.alias n!"units::dimensionless" (.nm n!"units::percent") (.flt .f64)) (.obj (.kd (.nm "apple") (.nm n!"units::percent") (.flt .f64)) 0))) (.not (.convertible (.alias n!"units::dimensionless" (.nm n!"units::percent") (.flt .f64)) (.obj (.kd (.nm "apple") (.nm n!"units::percent") (.flt .f64)) 0)))),
  (277, .both (.not (.constructible (.alias n!"units::dimensionless" (.nm n!"units::percent") (.flt .f64)) (.obj (.kd (.nm "apple") (.nm n!"units::percent") (.flt .f32)) 0))) (.not (.convertible (.alias n!"units::dimensionless" (.nm n!"units::percent") (.flt .f64)) (.obj (.kd (.nm "apple") (.nm n!"units::percent") (.flt .f32)) 0)))),
  (278, .both (.not (.constructible (.alias n!"units::dimensionless" (.nm n!"units::percent") (.flt .f32)) (.obj (.kd (.nm "apple") (.nm n!"units::percent") (.flt .f64)) 0))) (.not (.convertible (.alias n!"units::dimensionless" (.nm n!"units::percent") (.flt .f32)) (.obj (.kd (.nm "apple") (.nm n!"units::percent") (.flt .f64)) 0)))),
  (279, .both (.not (.constructible (.alias n!"units::dimensionless" (.nm n!"units::percent") (.flt .f64)) (.obj (.kd (.nm "apple") (.nm n!"units::percent") (.int .i32)) 0))) (.not (.convertible (.alias n!"units::dimensionless" (.nm n!"units::percent") (.flt .f64)) (.obj (.kd (.nm "apple") (.nm n!"units::percent") (.int .i32)) 0)))),
  (280, .both (.not (.constructible (.alias n!"units::dimensionless" (.nm n!"units::percent") (.flt .f64)) (.obj (.kd (.nm "apple") (.nm n!"units::percent") (.int .i16)) 0))) (.not (.convertible (.alias n!"units::dimensionless" (.nm n!"units::percent") (.flt .f64)) (.obj (.kd (.nm "apple") (.nm n!"units::percent") (.int .i16)) 0)))),
  (281, .both (.not (.constructible (.alias n!"units::dimensionless" (.nm n!"units::percent") (.int .i16)) (.obj (.kd (.nm "apple") (.nm n!"units::percent") (.int .i32)) 0))) (.not (.convertible (.alias n!"units::dimensionless" (.nm n!"units::percent") (.int .i16)) (.obj (.kd (.nm "apple") (.nm n!"units::percent") (.int .i32)) 0)))),
  (282, .both (.not (.constructible (.alias n!"units::dimensionless" (.nm n!"units::one") (.flt .f64)) (.obj (.kd (.nm "apple") (.nm n!"units::percent") (.flt .f64)) 0))) (.not (.convertible (.alias n!"units::dimensionless" (.nm n!"units::one") (.flt .f64)) (.obj (.kd (.nm "apple") (.nm n!"units::percent") (.flt .f64)) 0)))),
  (283, .both (.not (.constructible (.alias n!"units::dimensionless" (.nm n!"units::one") (.flt .f64)) (.obj (.kd (.nm "apple") (.nm n!"units::percent") (.flt .f32)) 0))) (.not (.convertible (.alias n!"units::dimensionless" (.nm n!"units::one") (.flt .f64)) (.obj (.kd (.nm "apple") (.nm n!"units::percent") (.flt .f32)) 0)))),
  (284, .both (.not (.constructible (.alias n!"units::dimensionless" (.nm n!"units::one") (.flt .f32)) (.obj (.kd (.nm "apple") (.nm n!"units::percent") (.flt .f64)) 0))) (.not (.convertible (.alias n!"units::dimensionless" (.nm n!"units::one") (.flt .f32)) (.obj (.kd (.nm "apple") (.nm n!"units::percent") (.flt .f64)) 0)))),
  (285, .both (.not (.constructible (.alias n!"units::dimensionless" (.nm n!"units::one") (.flt .f64)) (.obj (.kd (.nm "apple") (.nm n!"units::percent") (.int .i32)) 0))) (.not (.convertible (.alias n!"units::dimensionless" (.nm n!"units::one") (.flt .f64)) (.obj (.kd (.nm "apple") (.nm n!"units::percent") (.int .i32)) 0)))),
  (286, .both (.not (.constructible (.alias n!"units::dimensionless" (.nm n!"units::one") (.flt .f64)) (.obj (.kd (.nm "apple") (.nm n!"units::percent") (.int .i16)) 0))) (.not (.convertible (.alias n!"units::dimensionless" (.nm n!"units::one") (.flt .f64)) (.obj (.kd (.nm "apple") (.nm n!"units::percent") (.int .i16)) 0)))),
  (287, .both (.not (.constructible (.alias n!"units::dimensionless" (.nm n!"units::one") (.int .i16)) (.obj (.kd (.nm "apple") (.nm n!"units::percent") (.int .i32)) 0))) (.not (.convertible (.alias n!"units::dimensionless" (.nm n!"units::one") (.int .i16)) (.obj (.kd (.nm "apple") (.nm n!"units::percent") (.int .i32)) 0)))),
  (288, .both (.not (.constructible (.alias n!"units::dimensionless" (.nm n!"units::percent") (.flt .f64)) (.obj (.kd (.nm "apple") (.nm n!"units::one") (.flt .f64)) 0))) (.not (.convertible (.alias n!"units::dimensionless" (.nm n!"units::percent") (.flt .f64)) (.obj (.kd (.nm "apple") (.nm n!"units::one") (.flt .f64)) 0)))),
  (289, .both (.not (.constructible (.alias n!"units::dimensionless" (.nm n!"units::percent") (.flt .f64)) (.obj (.kd (.nm "apple") (.nm n!"units::one") (.flt .f32)) 0))) (.not (.convertible (.alias n!"units::dimensionless" (.nm n!"units::percent") (.flt .f64)) (.obj (.kd (.nm "apple") (.nm n!"units::one") (.flt .f32)) 0)))),
  (290, .both (.not (.constructible (.alias n!"units::dimensionless" (.nm n!"units::percent") (.flt .f32)) (.obj (.kd (.nm "apple") (.nm n!"units::one") (.flt .f64)) 0))) (.not (.convertible (.alias n!"units::dimensionless" (.nm n!"units::percent") (.flt .f32)) (.obj (.kd (.nm "apple") (.nm n!"units::one") (.flt .f64)) 0)))),
  (291, .both (.not (.constructible (.alias n!"units::dimensionless" (.nm n!"units::percent") (.flt .f64)) (.obj (.kd (.nm "apple") (.nm n!"units::one") (.int .i32)) 0))) (.not (.convertible (.alias n!"units::dimensionless" (.nm n!"units::percent") (.flt .f64)) (.obj (.kd (.nm "apple") (.nm n!"units::one") (.int .i32)) 0)))),
  (292, .both (.not (.constructible (.alias n!"units::dimensionless" (.nm n!"units::percent") (.flt .f64)) (.obj (.kd (.nm "apple") (.nm n!"units::one") (.int .i16)) 0))) (.not (.convertible (.alias n!"units::dimensionless" (.nm n!"units::percent") (.flt .f64)) (.obj (.kd (.nm "apple") (.nm n!"units::one") (.int .i16)) 0)))),
  (293, .both (.not (.constructible (.alias n!"units::dimensionless" (.nm n!"units::percent") (.int .i16)) (.obj (.kd (.nm "apple") (.nm n!"units::one") (.int .i32)) 0))) (.not (.convertible (.alias n!"units::dimensionless" (.nm n!"units::percent") (.int .i16)) (.obj (.kd (.nm "apple") (.nm n!"units::one") (.int .i32)) 0)))),
  (296, .cmp .eq (.common (.makeOnly (.kd (.nm "time_kind") (.nm n!"units::isq::si::second") (.int .i32)) (.dur (.int .i64) 1 1 42))) (.op .mul (.num (.int .i32) 42) (.ref n!"units::isq::si::time_references::s"))),
  (299, .both (.not (.constructible (.kd (.nm "width_kind") (.nm n!"units::isq::si::metre") (.int .i32)) (.op .mul (.num (.int .i32) 1) (.ref n!"units::isq::si::time_references::s")))) (.not (.convertible (.kd (.nm "width_kind") (.nm n!"units::isq::si::metre") (.int .i32)) (.op .mul (.num (.int .i32) 1) (.ref n!"units::isq::si::time_references::s"))))),
  (300, .both (.not (.constructible (.kd (.nm "width_kind") (.nm n!"units::isq::si::metre") (.int .i32)) (.op .mul (.num (.int .i32) 1) (.op .mul (.ref n!"units::isq::si::length_references::m") (.ref n!"units::isq::si::length_references::m"))))) (.not (.convertible (.kd (.nm "width_kind") (.nm n!"units::isq::si::metre") (.int .i32)) (.op .mul (.num (.int .i32) 1) (.op .mul (.ref n!"units::isq::si::length_references::m") (.ref n!"units::isq::si::length_references::m")))))),
  (301, .both (.not (.constructible (.kd (.nm "width_kind") (.nm n!"units::isq::si::metre") (.int .i32)) (.op .mul (.num (.int .i32) 1) (.op .div (.ref n!"units::isq::si::length_references::m") (.ref n!"units::isq::si::time_references::s"))))) (.not (.convertible (.kd (.nm "width_kind") (.nm n!"units::isq::si::metre") (.int .i32)) (.op .mul (.num (.int .i32) 1) (.op .div (.ref n!"units::isq::si::length_references::m") (.ref n!"units::isq::si::time_references::s")))))),
  (304, .cmp .eq (.common (.makeOnly (.kd (.nm "width_kind") (.nm n!"units::isq::si::centimetre") (.flt .f64)) (.op .mul (.num (.flt .f64) 1) (.ref n!"units::isq::si::cgs::length_references::cm")))) (.op .mul (.num (.int .i32) 1) (.ref n!"units::isq::si::length_references::cm"))),
  (305, .cmp .eq (.common (.makeOnly (.kd (.nm "width_kind") (.nm n!"units::isq::si::cgs::centimetre") (.flt .f64)) (.op .mul (.num (.flt .f64) 1) (.ref n!"units::isq::si::length_references::cm")))) (.op .mul (.num (.int .i32) 1) (.ref n!"units::isq::si::length_references::cm"))),
  (313, .cmp .eq (.common (.makeBoth (.kd (.nm "width_kind") (.nm n!"units::isq::si::metre") (.int .i32)) (.make (.kd (.nm "width_kind") (.nm n!"units::isq::si::metre") (.int .i32)) (.op .mul (.num (.int .i32) 1) (.ref n!"units::isq::si::length_references::m"))))) (.op .mul (.num (.int .i32) 1) (.ref n!"units::isq::si::length_references::m"))),
  (314, .cmp .eq (.common (.makeBoth (.kd (.nm "width_kind") (.nm n!"units::isq::si::centimetre") (.int .i32)) (.make (.kd (.nm "width_kind") (.nm n!"units::isq::si::cgs::centimetre") (.int .i32)) (.op .mul (.num (.int .i32) 1) (.ref n!"units::isq::si::cgs::length_references::cm"))))) (.op .mul (.num (.int .i32) 1) (.ref n!"units::isq::si::length_references::cm"))),
  (315, .cmp .eq (.common (.makeBoth (.kd (.nm "width_kind") (.nm n!"units::isq::si::fps::foot") (.flt .f64)) (.make (.kd (.nm "width_kind") (.nm n!"units::isq::si::cgs::centimetre") (.int .i32)) (.op .mul (.num (.int .i32) 1) (.ref n!"units::isq::si::cgs::length_references::cm"))))) (.op .mul (.num (.int .i32) 1) (.ref n!"units::isq::si::length_references::cm"))),
  (318, .cmp .eq (.common (.makeBoth (.kd (.nm "width_kind") (.nm n!"units::isq::si::metre") (.flt .f64)) (.make (.kd (.nm "width_kind") (.nm n!"units::isq::si::metre") (.int .i32)) (.op .mul (.num (.int .i32) 1) (.ref n!"units::isq::si::length_references::m"))))) (.op .mul (.num (.int .i32) 1) (.ref n!"units::isq::si::length_references::m"))),
  (319, .both (.not (.constructible (.kd (.nm "width_kind") (.nm n!"units::isq::si::metre") (.int .i32)) (.make (.kd (.nm "width_kind") (.nm n!"units::isq::si::metre") (.flt .f64)) (.op .mul (.num (.flt .f64) 1) (.ref n!"units::isq::si::length_references::m"))))) (.not (.convertible (.kd (.nm "width_kind") (.nm n!"units::isq::si::metre") (.int .i32)) (.make (.kd (.nm "width_kind") (.nm n!"units::isq::si::metre") (.flt .f64)) (.op .mul (.num (.flt .f64) 1) (.ref n!"units::isq::si::length_references::m")))))),
  (321, .cmp .eq (.common (.makeBoth (.kd (.nm "width_kind") (.nm n!"units::isq::si::metre") (.int .i32)) (.make (.kd (.nm "width_kind") (.nm n!"units::isq::si::kilometre") (.int .i32)) (.op .mul (.num (.int .i32) 1) (.ref n!"units::isq::si::length_references::km"))))) (.op .mul (.num (.int .i32) 1) (.ref n!"units::isq::si::length_references::km"))),
  (322, .both (.not (.constructible (.kd (.nm "width_kind") (.nm n!"units::isq::si::kilometre") (.int .i32)) (.make (.kd (.nm "width_kind") (.nm n!"units::isq::si::metre") (.int .i32)) (.op .mul (.num (.int .i32) 1) (.ref n!"units::isq::si::length_references::m"))))) (.not (.convertible (.kd (.nm "width_kind") (.nm n!"units::isq::si::kilometre") (.int .i32)) (.make (.kd (.nm "width_kind") (.nm n!"units::isq::si::metre") (.int .i32)) (.op .mul (.num (.int .i32) 1) (.ref n!"units::isq::si::length_references::m")))))),
  (324, .cmp .eq (.common (.makeBoth (.kd (.nm "width_kind") (.nm n!"units::isq::si::metre") (.flt .f64)) (.make (.kd (.nm "width_kind") (.nm n!"units::isq::si::kilometre") (.int .i32)) (.op .mul (.num (.int .i32) 1) (.ref n!"units::isq::si::length_references::km"))))) (.op .mul (.num (.int .i32) 1) (.ref n!"units::isq::si::length_references::km"))),
  (325, .cmp .eq (.common (.makeBoth (.kd (.nm "width_kind") (.nm n!"units::isq::si::kilometre") (.flt .f64)) (.make (.kd (.nm "width_kind") (.nm n!"units::isq::si::metre") (.int .i32)) (.op .mul (.num (.int .i32) 1) (.ref n!"units::isq::si::length_references::m"))))) (.op .mul (.num (.int .i32) 1) (.ref n!"units::isq::si::length_references::m"))),
  (327, .both (.not (.constructible (.kd (.nm "width_kind") (.nm n!"units::isq::si::metre") (.int .i32)) (.make (.kd (.nm "height_kind") (.nm n!"units::isq::si::metre") (.int .i32)) (.op .mul (.num (.int .i32) 1) (.ref n!"units::isq::si::length_references::m"))))) (.not (.convertible (.kd (.nm "width_kind") (.nm n!"units::isq::si::metre") (.int .i32)) (.make (.kd (.nm "height_kind") (.nm n!"units::isq::si::metre") (.int .i32)) (.op .mul (.num (.int .i32) 1) (.ref n!"units::isq::si::length_references::m")))))),
  (328, .both (.not (.constructible (.kd (.nm "apple") (.nm n!"units::one") (.int .i32)) (.op .div (.make (.kd (.nm "width_kind") (.nm n!"units::isq::si::metre") (.int .i32)) (.op .mul (.num (.int .i32) 1) (.ref n!"units::isq::si::length_references::m"))) (.op .mul (.num (.int .i32) 1) (.ref n!"units::isq::si::length_references::m"))))) (.not (.convertible (.kd (.nm "apple") (.nm n!"units::one") (.int .i32)) (.op .div (.make (.kd (.nm "width_kind") (.nm n!"units::isq::si::metre") (.int .i32)) (.op .mul (.num (.int .i32) 1) (.ref n!"units::isq::si::length_references::m"))) (.op .mul (.num (.int .i32) 1) (.ref n!"units::isq::si::length_references::m")))))),
  (329, .both (.not (.constructible (.kd (.nm "apple") (.nm n!"units::one") (.int .i32)) (.make (.kd (.nm "orange") (.nm n!"units::one") (.int .i32)) (.num (.int .i32) 1)))) (.not (.convertible (.kd (.nm "apple") (.nm n!"units::one") (.int .i32)) (.make (.kd (.nm "orange") (.nm n!"units::one") (.int .i32)) (.num (.int .i32) 1))))),
  (337, .both (.not (.constructible (.kd (.nm "width_kind") (.nm n!"units::isq::si::metre") (.int .i32)) (.deducePt (.op .mul (.num (.int .i32) 1) (.ref n!"units::isq::si::length_references::m"))))) (.not (.convertible (.kd (.nm "width_kind") (.nm n!"units::isq::si::metre") (.int .i32)) (.deducePt (.op .mul (.num (.int .i32) 1) (.ref n!"units::isq::si::length_references::m")))))),
  (338, .both (.not (.constructible (.kd (.nm "width_kind") (.nm n!"units::isq::si::metre") (.int .i32)) (.deducePt (.op .mul (.num (.int .i32) 1) (.ref n!"units::isq::si::length_references::km"))))) (.not (.convertible (.kd (.nm "width_kind") (.nm n!"units::isq::si::metre") (.int .i32)) (.deducePt (.op .mul (.num (.int .i32) 1) (.ref n!"units::isq::si::length_references::km")))))),
  (339, .both (.not (.constructible (.kd (.nm "width_kind") (.nm n!"units::isq::si::metre") (.flt .f64)) (.deducePt (.op .mul (.num (.int .i32) 1) (.ref n!"units::isq::si::length_references::m"))))) (.not (.convertible (.kd (.nm "width_kind") (.nm n!"units::isq::si::metre") (.flt .f64)) (.deducePt (.op .mul (.num (.int .i32) 1) (.ref n!"units::isq::si::length_references::m")))))),
  (340, .both (.not (.constructible (.kd (.nm "width_kind") (.nm n!"units::isq::si::metre") (.flt .f64)) (.deducePt (.op .mul (.num (.int .i32) 1) (.ref n!"units::isq::si::length_references::km"))))) (.not (.convertible (.kd (.nm "width_kind") (.nm n!"units::isq::si::metre") (.flt .f64)) (.deducePt (.op .mul (.num (.int .i32) 1) (.ref n!"units::isq::si::length_references::km")))))),
  (341, .both (.not (.constructible (.kd (.nm "width_kind") (.nm n!"units::isq::si::metre") (.flt .f64)) (.deducePt (.op .mul (.num (.flt .f64) 1) (.ref n!"units::isq::si::length_references::m"))))) (.not (.convertible (.kd (.nm "width_kind") (.nm n!"units::isq::si::metre") (.flt .f64)) (.deducePt (.op .mul (.num (.flt .f64) 1) (.ref n!"units::isq::si::length_references::m")))))),
  (342, .both (.not (.constructible (.kd (.nm "width_kind") (.nm n!"units::isq::si::metre") (.flt .f64)) (.deducePt (.op .mul (.num (.flt .f64) 1) (.ref n!"units::isq::si::length_references::km"))))) (.not (.convertible (.kd (.nm "width_kind") (.nm n!"units::isq::si::metre") (.flt .f64)) (.deducePt (.op .mul (.num (.flt .f64) 1) (.ref n!"units::isq::si::length_references::km")))))),
  (343, .both (.not (.constructible (.kd (.nm "width_kind") (.nm n!"units::isq::si::metre") (.flt .f64)) (.deducePt (.op .mul (.num (.flt .f64) 1) (.op .mul (.ref n!"units::isq::si::length_references::m") (.ref n!"units::isq::si::length_references::m")))))) (.not (.convertible (.kd (.nm "width_kind") (.nm n!"units::isq::si::metre") (.flt .f64)) (.deducePt (.op .mul (.num (.flt .f64) 1) (.op .mul (.ref n!"units::isq::si::length_references::m") (.ref n!"units::isq::si::length_references::m"))))))),
  (344, .both (.not (.constructible (.kd (.nm "width_kind") (.nm n!"units::isq::si::metre") (.flt .f64)) (.deducePt (.op .mul (.num (.flt .f64) 1) (.ref n!"units::isq::si::time_references::s"))))) (.not (.convertible (.kd (.nm "width_kind") (.nm n!"units::isq::si::metre") (.flt .f64)) (.deducePt (.op .mul (.num (.flt .f64) 1) (.ref n!"units::isq::si::time_references::s")))))),
  (345, .both (.not (.constructible (.kd (.nm "width_kind") (.nm n!"units::isq::si::metre") (.flt .f64)) (.deducePt (.op .mul (.num (.flt .f64) 1) (.ref n!"units::isq::si::time_references::s"))))) (.not (.convertible (.kd (.nm "width_kind") (.nm n!"units::isq::si::metre") (.flt .f64)) (.deducePt (.op .mul (.num (.flt .f64) 1) (.ref n!"units::isq::si::time_references::s")))))),
  (346, .both (.not (.constructible (.kd (.nm "width_kind") (.nm n!"units::isq::si::metre") (.flt .f64)) (.dur (.int .i64) 1 1 1))) (.not (.convertible (.kd (.nm "width_kind") (.nm n!"units::isq::si::metre") (.flt .f64)) (.dur (.int .i64) 1 1 1)))),
  (347, .both (.not (.constructible (.kd (.nm "width_kind") (.nm n!"units::isq::si::metre") (.flt .f64)) (.dur (.flt .f80) 1 1 1))) (.not (.convertible (.kd (.nm "width_kind") (.nm n!"units::isq::si::metre") (.flt .f64)) (.dur (.flt .f80) 1 1 1)))),
  (348, .both (.not (.constructible (.kd (.nm "apple") (.nm n!"units::one") (.int .i32)) (.deducePt (.num (.int .i32) 1)))) (.not (.convertible (.kd (.nm "apple") (.nm n!"units::one") (.int .i32)) (.deducePt (.num (.int .i32) 1))))),
  (349, .both (.not (.constructible (.kd (.nm "apple") (.nm n!"units::one") (.int .i32)) (.deducePt (.make (.alias n!"units::dimensionless" (.nm n!"units::percent") (.int .i32)) (.num (.int .i32) 1))))) (.not (.convertible (.kd (.nm "apple") (.nm n!"units::one") (.int .i32)) (.deducePt (.make (.alias n!"units::dimensionless" (.nm n!"units::percent") (.int .i32)) (.num (.int .i32) 1)))))),
  (350, .both (.not (.constructible (.kd (.nm "apple") (.nm n!"units::one") (.flt .f64)) (.deducePt (.num (.int .i32) 1)))) (.not (.convertible (.kd (.nm "apple") (.nm n!"units::one") (.flt .f64)) (.deducePt (.num (.int .i32) 1))))),
  (351, .both (.not (.constructible (.kd (.nm "apple") (.nm n!"units::one") (.flt .f64)) (.deducePt (.make (.alias n!"units::dimensionless" (.nm n!"units::percent") (.int .i32)) (.num (.int .i32) 1))))) (.not (.convertible (.kd (.nm "apple") (.nm n!"units::one") (.flt .f64)) (.deducePt (.make (.alias n!"units::dimensionless" (.nm n!"units::percent") (.int .i32)) (.num (.int .i32) 1)))))),
  (352, .both (.not (.constructible (.kd (.nm "apple") (.nm n!"units::one") (.flt .f64)) (.deducePt (.num (.flt .f64) 1)))) (.not (.convertible (.kd (.nm "apple") (.nm n!"units::one") (.flt .f64)) (.deducePt (.num (.flt .f64) 1))))),
  (353, .both (.not (.constructible (.kd (.nm "apple") (.nm n!"units::one") (.flt .f64)) (.deducePt (.make (.alias n!"units::dimensionless" (.nm n!"units::percent") (.flt .f64)) (.num (.flt .f64) 1))))) (.not (.convertible (.kd (.nm "apple") (.nm n!"units::one") (.flt .f64)) (.deducePt (.make (.alias n!"units::dimensionless" (.nm n!"units::percent") (.flt .f64)) (.num (.flt .f64) 1)))))),
  (354, .both (.not (.constructible (.kd (.nm "apple") (.nm n!"units::one") (.flt .f64)) (.deducePt (.op .mul (.num (.flt .f64) 1) (.ref n!"units::isq::si::length_references::m"))))) (.not (.convertible (.kd (.nm "apple") (.nm n!"units::one") (.flt .f64)) (.deducePt (.op .mul (.num (.flt .f64) 1) (.ref n!"units::isq::si::length_references::m")))))),
  (355, .both (.not (.constructible (.kd (.nm "apple") (.nm n!"units::one") (.flt .f64)) (.dur (.int .i64) 1 1 1))) (.not (.convertible (.kd (.nm "apple") (.nm n!"units::one") (.flt .f64)) (.dur (.int .i64) 1 1 1)))),
  (356, .both (.not (.constructible (.kd (.nm "apple") (.nm n!"units::one") (.flt .f64)) (.dur (.flt .f80) 1 1 1))) (.not (.convertible (.kd (.nm "apple") (.nm n!"units::one") (.flt .f64)) (.dur (.flt .f80) 1 1 1)))),
  (364, .cmp .eq (.common (.assign (.make (.kd (.nm "width_kind") (.nm n!"units::isq::si::metre") (.int .i32)) (.op .mul (.num (.int .i32) 2) (.ref n!"units::isq::si::length_references::m"))) (.make (.kd (.nm "width_kind") (.nm n!"units::isq::si::metre") (.int .i32)) (.op .mul (.num (.int .i32) 1) (.ref n!"units::isq::si::length_references::m"))))) (.op .mul (.num (.int .i32) 1) (.ref n!"units::isq::si::length_references::m"))),
  (365, .cmp .eq (.common (.assign (.make (.kd (.nm "width_kind") (.nm n!"units::isq::si::metre") (.int .i32)) (.op .mul (.num (.int .i32) 2) (.ref n!"units::isq::si::length_references::m"))) (.make (.kd (.nm "width_kind") (.nm n!"units::isq::si::metre") (.int .i32)) (.op .mul (.num (.int .i32) 1) (.ref n!"units::isq::si::length_references::km"))))) (.op .mul (.num (.int .i32) 1) (.ref n!"units::isq::si::length_references::km"))),
  (366, .not (.convertible (.kd (.nm "width_kind") (.nm n!"units::isq::si::metre") (.int .i32)) (.obj (.kd (.nm "width_kind") (.nm n!"units::isq::si::metre") (.flt .f64)) 1))),
  (367, .not (.convertible (.kd (.nm "width_kind") (.nm n!"units::isq::si::metre") (.int .i32)) (.obj (.kd (.nm "width_kind") (.nm n!"units::isq::si::millimetre") (.int .i32)) 1))),
  (377, .cmp .eq (.pos (.common (stateKind_375_1))) (.op .mul (.num (.int .i32) 1) (.ref n!"units::isq::si::length_references::m"))),
  (378, .cmp .eq (.neg (.common (stateKind_375_1))) (.op .mul (.neg (.num (.int .i32) 1)) (.ref n!"units::isq::si::length_references::m"))),
  (379, .cmp .eq (.common (stateKind_375_2)) (.op .mul (.num (.int .i32) 2) (.ref n!"units::isq::si::length_references::m"))),
  (380, .cmp .eq (.common (stateKind_375_3)) (.op .mul (.num (.int .i32) 1) (.ref n!"units::isq::si::length_references::m"))),
  (381, .cmp .eq (.common (.post .add (stateKind_375_3))) (.op .mul (.num (.int .i32) 1) (.ref n!"units::isq::si::length_references::m"))),
  (381, .cmp .eq (.common (stateKind_375_4)) (.op .mul (.num (.int .i32) 2) (.ref n!"units::isq::si::length_references::m"))),
  (382, .cmp .eq (.common (.post .sub (stateKind_375_4))) (.op .mul (.num (.int .i32) 2) (.ref n!"units::isq::si::length_references::m"))),
  (382, .cmp .eq (.common (stateKind_375_5)) (.op .mul (.num (.int .i32) 1) (.ref n!"units::isq::si::length_references::m"))),
  (383, .cmp .eq (.common (stateKind_375_6)) (.op .mul (.num (.int .i32) 2) (.ref n!"units::isq::si::length_references::m"))),
  (384, .cmp .eq (.common (stateKind_375_7)) (.op .mul (.num (.int .i32) 0) (.ref n!"units::isq::si::length_references::m"))),
  (386, .cmp .eq (.common (stateKind_375_9)) (.op .mul (.num (.int .i32) 9) (.ref n!"units::isq::si::length_references::m"))),
  (387, .cmp .eq (.common (stateKind_375_10)) (.op .mul (.num (.int .i32) 9) (.ref n!"units::isq::si::length_references::m")))]

#guard failures2 [n!"generic/dimensionless.h", n!"isq/si/area.h", n!"isq/si/cgs/length.h", n!"isq/si/fps/length.h", n!"isq/si/frequency.h", n!"isq/si/speed.h", n!"isq/si/time.h"] [] declsKind testKind0 = some []

/-- /repo/test/unit_test/static/quantity_kind_test.cpp. -/
def testKind1 : List (Nat × Check2) := [
  (388, .cmp .eq (.common (stateKind_375_11)) (.op .mul (.num (.int .i32) 9) (.ref n!"units::isq::si::length_references::m"))),
  (389, .cmp .eq (.common (stateKind_375_12)) (.op .mul (.num (.int .i32) 4) (.ref n!"units::isq::si::length_references::m"))),
  (390, .cmp .eq (.common (stateKind_375_13)) (.op .mul (.num (.int .i32) 4) (.ref n!"units::isq::si::length_references::m"))),
  (391, .cmp .eq (.common (stateKind_375_14)) (.op .mul (.num (.int .i32) 4) (.ref n!"units::isq::si::length_references::m"))),
  (392, .cmp .eq (.common (stateKind_375_15)) (.op .mul (.num (.int .i32) 1) (.ref n!"units::isq::si::length_references::m"))),
  (393, .cmp .eq (.common (stateKind_375_16)) (.op .mul (.num (.int .i32) 1) (.ref n!"units::isq::si::length_references::m"))),
  (394, .cmp .eq (.common (stateKind_375_17)) (.op .mul (.num (.int .i32) 1) (.ref n!"units::isq::si::length_references::m"))),
  (395, .cmp .eq (.common (stateKind_375_18)) (.op .mul (.num (.int .i32) 0) (.ref n!"units::isq::si::length_references::m"))),
  (397, .cmp .eq (.common (stateKind_375_20)) (.op .mul (.num (.int .i32) 11) (.ref n!"units::isq::si::length_references::m"))),
  (398, .cmp .eq (.common (stateKind_375_21)) (.op .mul (.num (.int .i32) 11) (.ref n!"units::isq::si::length_references::m"))),
  (399, .cmp .eq (.common (stateKind_375_22)) (.op .mul (.num (.int .i32) 11) (.ref n!"units::isq::si::length_references::m"))),
  (400, .cmp .eq (.common (stateKind_375_23)) (.op .mul (.num (.int .i32) 2) (.ref n!"units::isq::si::length_references::m"))),
  (401, .cmp .eq (.common (stateKind_375_24)) (.op .mul (.num (.int .i32) 2) (.ref n!"units::isq::si::length_references::m"))),
  (402, .cmp .eq (.common (stateKind_375_25)) (.op .mul (.num (.int .i32) 2) (.ref n!"units::isq::si::length_references::m"))),
  (407, .cmp .eq (.assignOp .mod (.op .mul (.make (.rep (.int .u8)) (.num (.int .i32) 255)) (.ref n!"units::isq::si::length_references::m")) (.num (.int .i32) 256)) (.common (.assignOp .mod (.make (.kd (.nm "width_kind") (.nm n!"units::isq::si::metre") (.int .u8)) (.op .mul (.num (.int .i32) 255) (.ref n!"units::isq::si::length_references::m"))) (.num (.int .i32) 256)))),
  (408, .cmp .eq (.assignOp .mod (.op .mul (.make (.rep (.int .u8)) (.num (.int .i32) 255)) (.ref n!"units::isq::si::length_references::m")) (.deduceQty (.num (.int .i32) 256))) (.common (.assignOp .mod (.make (.kd (.nm "width_kind") (.nm n!"units::isq::si::metre") (.int .u8)) (.op .mul (.num (.int .i32) 255) (.ref n!"units::isq::si::length_references::m"))) (.deduceQty (.num (.int .i32) 256))))),
  (415, .cmp .eq (.assignOp .mod (.op .mul (.make (.rep (.int .u8)) (.num (.int .i32) 255)) (.ref n!"units::isq::si::length_references::m")) (.num (.int .i32) 257)) (.common (.assignOp .mod (.make (.kd (.nm "width_kind") (.nm n!"units::isq::si::metre") (.int .u8)) (.op .mul (.num (.int .i32) 255) (.ref n!"units::isq::si::length_references::m"))) (.num (.int .i32) 257)))),
  (416, .cmp .eq (.assignOp .mod (.op .mul (.make (.rep (.int .u8)) (.num (.int .i32) 255)) (.ref n!"units::isq::si::length_references::m")) (.deduceQty (.num (.int .i32) 257))) (.common (.assignOp .mod (.make (.kd (.nm "width_kind") (.nm n!"units::isq::si::metre") (.int .u8)) (.op .mul (.num (.int .i32) 255) (.ref n!"units::isq::si::length_references::m"))) (.deduceQty (.num (.int .i32) 257))))),
  (418, .cmp .eq (.assignOp .mod (.op .mul (.make (.rep (.int .u8)) (.num (.int .i32) 255)) (.ref n!"units::isq::si::length_references::m")) (.op .mul (.num (.int .i32) 257) (.ref n!"units::isq::si::length_references::m"))) (.common (.assignOp .mod (.make (.kd (.nm "width_kind") (.nm n!"units::isq::si::metre") (.int .u8)) (.op .mul (.num (.int .i32) 255) (.ref n!"units::isq::si::length_references::m"))) (.make (.kd (.down "width_kind" (.nm n!"units::dim_one")) (.nm n!"units::one") (.int .u8)) (.num (.int .i32) 257))))),
  (421, .cmp .eq (.assignOp .mod (.op .mul (.make (.rep (.int .u8)) (.num (.int .i32) 255)) (.ref n!"units::isq::si::length_references::m")) (.op .mul (.num (.int .i32) 257) (.ref n!"units::isq::si::length_references::m"))) (.common (.assignOp .mod (.make (.kd (.nm "width_kind") (.nm n!"units::isq::si::metre") (.int .u8)) (.op .mul (.num (.int .i32) 255) (.ref n!"units::isq::si::length_references::m"))) (.make (.kd (.nm "width_kind") (.nm n!"units::isq::si::metre") (.int .u8)) (.op .mul (.num (.int .i32) 257) (.ref n!"units::isq::si::length_references::m")))))),
  (424, .same (.common (.neg (.make (.kd (.nm "width_kind") (.nm n!"units::isq::si::metre") (.int .i16)) (.op .mul (.make (.rep (.int .i16)) (.num (.int .i32) 1)) (.ref n!"units::isq::si::length_references::m"))))) (.op .mul (.make (.rep (.int .i32)) (.neg (.num (.int .i32) 1))) (.ref n!"units::isq::si::length_references::m"))),
  (460, .rejected (.assignOp .add (.obj (.kd (.nm "width_kind") (.nm n!"units::isq::si::metre") (.int .i32)) 1) (.num (.int .i32) 1))),
  (460, .rejected (.assignOp .sub (.obj (.kd (.nm "width_kind") (.nm n!"units::isq::si::metre") (.int .i32)) 1) (.num (.int .i32) 1))),
  (460, .rejected (.assignOp .mul (.obj (.kd (.nm "width_kind") (.nm n!"units::isq::si::metre") (.int .i32)) 1) (.op .mul (.num (.int .i32) 1) (.op .div (.ref n!"units::isq::si::length_references::km") (.ref n!"units::isq::si::length_references::m"))))),
  (460, .rejected (.assignOp .div (.obj (.kd (.nm "width_kind") (.nm n!"units::isq::si::metre") (.int .i32)) 1) (.op .mul (.num (.int .i32) 1) (.op .div (.ref n!"units::isq::si::length_references::km") (.ref n!"units::isq::si::length_references::m"))))),
  (460, .rejected (.assignOp .mod (.obj (.kd (.nm "width_kind") (.nm n!"units::isq::si::metre") (.int .i32)) 1) (.op .mul (.num (.int .i32) 1) (.op .div (.ref n!"units::isq::si::length_references::km") (.ref n!"units::isq::si::length_references::m"))))),
  (460, .rejected (.assignOp .add (.obj (.kd (.nm "width_kind") (.nm n!"units::isq::si::metre") (.int .i32)) 1) (.ref n!"units::isq::si::length_references::m"))),
  (460, .rejected (.assignOp .sub (.obj (.kd (.nm "width_kind") (.nm n!"units::isq::si::metre") (.int .i32)) 1) (.ref n!"units::isq::si::length_references::m"))),
  (460, .rejected (.assignOp .mul (.obj (.kd (.nm "width_kind") (.nm n!"units::isq::si::metre") (.int .i32)) 1) (.ref n!"units::isq::si::length_references::m"))),
  (460, .rejected (.assignOp .div (.obj (.kd (.nm "width_kind") (.nm n!"units::isq::si::metre") (.int .i32)) 1) (.ref n!"units::isq::si::length_references::m"))),
  (460, .rejected (.assignOp .mod (.obj (.kd (.nm "width_kind") (.nm n!"units::isq::si::metre") (.int .i32)) 1) (.ref n!"units::isq::si::length_references::m"))),
  (460, .rejected (.assignOp .mul (.obj (.kd (.nm "width_kind") (.nm n!"units::isq::si::metre") (.int .i32)) 1) (.make (.kd (.down "width_kind" (.nm n!"units::dim_one")) (.scaled (1) (1) (3) (.nm n!"units::one")) (.int .i32)) (.num (.int .i32) 1)))),
  (460, .rejected (.assignOp .div (.obj (.kd (.nm "width_kind") (.nm n!"units::isq::si::metre") (.int .i32)) 1) (.make (.kd (.down "width_kind" (.nm n!"units::dim_one")) (.scaled (1) (1) (3) (.nm n!"units::one")) (.int .i32)) (.num (.int .i32) 1)))),
  (460, .rejected (.assignOp .mod (.obj (.kd (.nm "width_kind") (.nm n!"units::isq::si::metre") (.int .i32)) 1) (.make (.kd (.down "width_kind" (.nm n!"units::dim_one")) (.scaled (1) (1) (3) (.nm n!"units::one")) (.int .i32)) (.num (.int .i32) 1)))),
  (460, .rejected (.assignOp .mod (.obj (.kd (.nm "width_kind") (.nm n!"units::isq::si::metre") (.int .i32)) 1) (.num (.flt .f64) 1))),
  (460, .rejected (.assignOp .mod (.obj (.kd (.nm "width_kind") (.nm n!"units::isq::si::metre") (.int .i32)) 1) (.deduceQty (.num (.flt .f64) 1)))),
  (460, .rejected (.assignOp .mod (.obj (.kd (.nm "width_kind") (.nm n!"units::isq::si::metre") (.int .i32)) 1) (.op .mul (.num (.flt .f64) 1) (.op .div (.obj (.kd (.nm "width_kind") (.nm n!"units::isq::si::metre") (.int .i32)) 1) (.obj (.kd (.nm "width_kind") (.nm n!"units::isq::si::metre") (.int .i32)) 1))))),
  (460, .rejected (.assignOp .mod (.obj (.kd (.nm "width_kind") (.nm n!"units::isq::si::metre") (.int .i32)) 1) (.op .mul (.num (.flt .f64) 1) (.obj (.kd (.nm "width_kind") (.nm n!"units::isq::si::metre") (.int .i32)) 1)))),
  (460, .rejected (.assignOp .mod (.obj (.kd (.nm "width_kind") (.nm n!"units::isq::si::metre") (.int .i32)) 1) (.op .div (.obj (.kd (.nm "height_kind") (.nm n!"units::isq::si::metre") (.int .i32)) 1) (.obj (.kd (.nm "height_kind") (.nm n!"units::isq::si::metre") (.int .i32)) 1)))),
  (460, .rejected (.assignOp .add (.obj (.kd (.nm "width_kind") (.nm n!"units::isq::si::metre") (.int .i32)) 1) (.obj (.alias n!"units::isq::si::length" (.nm n!"units::isq::si::metre") (.int .i32)) 1))),
  (460, .rejected (.assignOp .sub (.obj (.kd (.nm "width_kind") (.nm n!"units::isq::si::metre") (.int .i32)) 1) (.obj (.alias n!"units::isq::si::length" (.nm n!"units::isq::si::metre") (.int .i32)) 1))),
  (460, .rejected (.assignOp .mul (.obj (.kd (.nm "width_kind") (.nm n!"units::isq::si::metre") (.int .i32)) 1) (.obj (.alias n!"units::isq::si::length" (.nm n!"units::isq::si::metre") (.int .i32)) 1))),
  (460, .rejected (.assignOp .div (.obj (.kd (.nm "width_kind") (.nm n!"units::isq::si::metre") (.int .i32)) 1) (.obj (.alias n!"units::isq::si::length" (.nm n!"units::isq::si::metre") (.int .i32)) 1))),
  (460, .rejected (.assignOp .mod (.obj (.kd (.nm "width_kind") (.nm n!"units::isq::si::metre") (.int .i32)) 1) (.obj (.alias n!"units::isq::si::length" (.nm n!"units::isq::si::metre") (.int .i32)) 1))),
  (460, .rejected (.assignOp .add (.obj (.kd (.nm "width_kind") (.nm n!"units::isq::si::metre") (.int .i32)) 1) (.obj (.kd (.nm "height_kind") (.nm n!"units::isq::si::metre") (.int .i32)) 1))),
  (460, .rejected (.assignOp .sub (.obj (.kd (.nm "width_kind") (.nm n!"units::isq::si::metre") (.int .i32)) 1) (.obj (.kd (.nm "height_kind") (.nm n!"units::isq::si::metre") (.int .i32)) 1))),
  (460, .rejected (.assignOp .mul (.obj (.kd (.nm "width_kind") (.nm n!"units::isq::si::metre") (.int .i32)) 1) (.obj (.kd (.nm "height_kind") (.nm n!"units::isq::si::metre") (.int .i32)) 1))),
  (460, .rejected (.assignOp .div (.obj (.kd (.nm "width_kind") (.nm n!"units::isq::si::metre") (.int .i32)) 1) (.obj (.kd (.nm "height_kind") (.nm n!"units::isq::si::metre") (.int .i32)) 1))),
  (460, .rejected (.assignOp .mod (.obj (.kd (.nm "width_kind") (.nm n!"units::isq::si::metre") (.int .i32)) 1) (.obj (.kd (.nm "height_kind") (.nm n!"units::isq::si::metre") (.int .i32)) 1))),
  (460, .rejected (.assignOp .add (.obj (.kd (.nm "width_kind") (.nm n!"units::isq::si::metre") (.int .i32)) 1) (.obj (.kd (.nm "horizontal_area_kind") (.nm n!"units::isq::si::square_metre") (.int .i32)) 1))),
  (460, .rejected (.assignOp .sub (.obj (.kd (.nm "width_kind") (.nm n!"units::isq::si::metre") (.int .i32)) 1) (.obj (.kd (.nm "horizontal_area_kind") (.nm n!"units::isq::si::square_metre") (.int .i32)) 1))),
  (460, .rejected (.assignOp .mul (.obj (.kd (.nm "width_kind") (.nm n!"units::isq::si::metre") (.int .i32)) 1) (.obj (.kd (.nm "horizontal_area_kind") (.nm n!"units::isq::si::square_metre") (.int .i32)) 1))),
  (460, .rejected (.assignOp .div (.obj (.kd (.nm "width_kind") (.nm n!"units::isq::si::metre") (.int .i32)) 1) (.obj (.kd (.nm "horizontal_area_kind") (.nm n!"units::isq::si::square_metre") (.int .i32)) 1))),
  (460, .rejected (.assignOp .mod (.obj (.kd (.nm "width_kind") (.nm n!"units::isq::si::metre") (.int .i32)) 1) (.obj (.kd (.nm "horizontal_area_kind") (.nm n!"units::isq::si::square_metre") (.int .i32)) 1))),
  (460, .rejected (.assignOp .add (.obj (.kd (.nm "width_kind") (.nm n!"units::isq::si::metre") (.int .i32)) 1) (.obj (.pt (.dyn (.nm n!"units::isq::si::dim_length")) (.nm n!"units::isq::si::metre") (.int .i32)) 1))),
  (460, .rejected (.assignOp .sub (.obj (.kd (.nm "width_kind") (.nm n!"units::isq::si::metre") (.int .i32)) 1) (.obj (.pt (.dyn (.nm n!"units::isq::si::dim_length")) (.nm n!"units::isq::si::metre") (.int .i32)) 1))),
  (460, .rejected (.assignOp .mul (.obj (.kd (.nm "width_kind") (.nm n!"units::isq::si::metre") (.int .i32)) 1) (.obj (.pt (.dyn (.nm n!"units::isq::si::dim_length")) (.nm n!"units::isq::si::metre") (.int .i32)) 1))),
  (460, .rejected (.assignOp .div (.obj (.kd (.nm "width_kind") (.nm n!"units::isq::si::metre") (.int .i32)) 1) (.obj (.pt (.dyn (.nm n!"units::isq::si::dim_length")) (.nm n!"units::isq::si::metre") (.int .i32)) 1))),
  (460, .rejected (.assignOp .mod (.obj (.kd (.nm "width_kind") (.nm n!"units::isq::si::metre") (.int .i32)) 1) (.obj (.pt (.dyn (.nm n!"units::isq::si::dim_length")) (.nm n!"units::isq::si::metre") (.int .i32)) 1))),
  (460, .rejected (.assignOp .add (.obj (.kd (.nm "width_kind") (.nm n!"units::isq::si::metre") (.int .i32)) 1) (.obj (.dur (.int .i64) 1 1) 1))),
  (460, .rejected (.assignOp .sub (.obj (.kd (.nm "width_kind") (.nm n!"units::isq::si::metre") (.int .i32)) 1) (.obj (.dur (.int .i64) 1 1) 1))),
  (460, .rejected (.assignOp .mul (.obj (.kd (.nm "width_kind") (.nm n!"units::isq::si::metre") (.int .i32)) 1) (.obj (.dur (.int .i64) 1 1) 1))),
  (460, .rejected (.assignOp .div (.obj (.kd (.nm "width_kind") (.nm n!"units::isq::si::metre") (.int .i32)) 1) (.obj (.dur (.int .i64) 1 1) 1))),
  (460, .rejected (.assignOp .mod (.obj (.kd (.nm "width_kind") (.nm n!"units::isq::si::metre") (.int .i32)) 1) (.obj (.dur (.int .i64) 1 1) 1))),
  (461, .rejected (.assignOp .add (.obj (.kd (.nm "time_kind") (.nm n!"units::isq::si::second") (.int .i32)) 1) (.obj (.dur (.int .i64) 1 1) 1))),
  (461, .rejected (.assignOp .sub (.obj (.kd (.nm "time_kind") (.nm n!"units::isq::si::second") (.int .i32)) 1) (.obj (.dur (.int .i64) 1 1) 1))),
  (461, .rejected (.assignOp .mul (.obj (.kd (.nm "time_kind") (.nm n!"units::isq::si::second") (.int .i32)) 1) (.obj (.dur (.int .i64) 1 1) 1))),
  (461, .rejected (.assignOp .div (.obj (.kd (.nm "time_kind") (.nm n!"units::isq::si::second") (.int .i32)) 1) (.obj (.dur (.int .i64) 1 1) 1))),
  (461, .rejected (.assignOp .mod (.obj (.kd (.nm "time_kind") (.nm n!"units::isq::si::second") (.int .i32)) 1) (.obj (.dur (.int .i64) 1 1) 1))),
  (468, .same (.op .add (.make (.kd (.nm "width_kind") (.nm n!"units::isq::si::metre") (.int .i32)) (.op .mul (.num (.int .i32) 2) (.ref n!"units::isq::si::length_references::m"))) (.make (.kd (.nm "width_kind") (.nm n!"units::isq::si::metre") (.int .i32)) (.op .mul (.num (.int .i32) 3) (.ref n!"units::isq::si::length_references::m")))) (.make (.kd (.nm "width_kind") (.nm n!"units::isq::si::metre") (.int .i32)) (.op .mul (.num (.int .i32) 5) (.ref n!"units::isq::si::length_references::m")))),
  (469, .same (.op .add (.make (.kd (.nm "width_kind") (.nm n!"units::isq::si::metre") (.int .i32)) (.op .mul (.num (.int .i32) 2) (.ref n!"units::isq::si::length_references::m"))) (.make (.kd (.nm "width_kind") (.nm n!"units::isq::si::metre") (.flt .f64)) (.op .mul (.num (.flt .f64) 3) (.ref n!"units::isq::si::length_references::m")))) (.make (.kd (.nm "width_kind") (.nm n!"units::isq::si::metre") (.flt .f64)) (.op .mul (.num (.flt .f64) 5) (.ref n!"units::isq::si::length_references::m")))),
  (470, .same (.op .add (.make (.kd (.nm "width_kind") (.nm n!"units::isq::si::metre") (.flt .f64)) (.op .mul (.num (.flt .f64) 2) (.ref n!"units::isq::si::length_references::m"))) (.make (.kd (.nm "width_kind") (.nm n!"units::isq::si::metre") (.int .i32)) (.op .mul (.num (.int .i32) 3) (.ref n!"units::isq::si::length_references::m")))) (.make (.kd (.nm "width_kind") (.nm n!"units::isq::si::metre") (.flt .f64)) (.op .mul (.num (.flt .f64) 5) (.ref n!"units::isq::si::length_references::m")))),
  (471, .same (.op .add (.make (.kd (.nm "width_kind") (.nm n!"units::isq::si::kilometre") (.int .i32)) (.op .mul (.num (.int .i32) 2) (.ref n!"units::isq::si::length_references::km"))) (.make (.kd (.nm "width_kind") (.nm n!"units::isq::si::metre") (.flt .f64)) (.op .mul (.num (.flt .f64) 3000) (.ref n!"units::isq::si::length_references::m")))) (.make (.kd (.nm "width_kind") (.nm n!"units::isq::si::metre") (.flt .f64)) (.op .mul (.num (.flt .f64) 5000) (.ref n!"units::isq::si::length_references::m")))),
  (472, .same (.op .sub (.make (.kd (.nm "width_kind") (.nm n!"units::isq::si::metre") (.int .i32)) (.op .mul (.num (.int .i32) 2) (.ref n!"units::isq::si::length_references::m"))) (.make (.kd (.nm "width_kind") (.nm n!"units::isq::si::metre") (.int .i32)) (.op .mul (.num (.int .i32) 3) (.ref n!"units::isq::si::length_references::m")))) (.make (.kd (.nm "width_kind") (.nm n!"units::isq::si::metre") (.int .i32)) (.op .mul (.neg (.num (.int .i32) 1)) (.ref n!"units::isq::si::length_references::m")))),
  (473, .same (.op .sub (.make (.kd (.nm "width_kind") (.nm n!"units::isq::si::metre") (.int .i32)) (.op .mul (.num (.int .i32) 2) (.ref n!"units::isq::si::length_references::m"))) (.make (.kd (.nm "width_kind") (.nm n!"units::isq::si::metre") (.flt .f64)) (.op .mul (.num (.flt .f64) 3) (.ref n!"units::isq::si::length_references::m")))) (.make (.kd (.nm "width_kind") (.nm n!"units::isq::si::metre") (.flt .f64)) (.op .mul (.neg (.num (.flt .f64) 1)) (.ref n!"units::isq::si::length_references::m")))),
  (474, .same (.op .sub (.make (.kd (.nm "width_kind") (.nm n!"units::isq::si::metre") (.flt .f64)) (.op .mul (.num (.flt .f64) 2) (.ref n!"units::isq::si::length_references::m"))) (.make (.kd (.nm "width_kind") (.nm n!"units::isq::si::metre") (.int .i32)) (.op .mul (.num (.int .i32) 3) (.ref n!"units::isq::si::length_references::m")))) (.make (.kd (.nm "width_kind") (.nm n!"units::isq::si::metre") (.flt .f64)) (.op .mul (.neg (.num (.flt .f64) 1)) (.ref n!"units::isq::si::length_references::m")))),
  (475, .same (.op .sub (.make (.kd (.nm "width_kind") (.nm n!"units::isq::si::metre") (.flt .f64)) (.op .mul (.num (.flt .f64) 2000) (.ref n!"units::isq::si::length_references::m"))) (.make (.kd (.nm "width_kind") (.nm n!"units::isq::si::kilometre") (.int .i32)) (.op .mul (.num (.int .i32) 3) (.ref n!"units::isq::si::length_references::km")))) (.make (.kd (.nm "width_kind") (.nm n!"units::isq::si::metre") (.flt .f64)) (.op .mul (.neg (.num (.flt .f64) 1000)) (.ref n!"units::isq::si::length_references::m")))),
  (477, .type (.number (.common (.op .add (.make (.kd (.nm "width_kind") (.nm n!"units::isq::si::metre") (.int .u8)) (.op .mul (.num (.int .i32) 1) (.ref n!"units::isq::si::length_references::m"))) (.make (.kd (.nm "width_kind") (.nm n!"units::isq::si::metre") (.int .u8)) (.op .mul (.num (.int .i32) 1) (.ref n!"units::isq::si::length_references::m")))))) (.rep (.int .i32))),
  (479, .type (.number (.common (.op .sub (.make (.kd (.nm "width_kind") (.nm n!"units::isq::si::metre") (.int .u8)) (.op .mul (.num (.int .i32) 1) (.ref n!"units::isq::si::length_references::m"))) (.make (.kd (.nm "width_kind") (.nm n!"units::isq::si::metre") (.int .u8)) (.op .mul (.num (.int .i32) 1) (.ref n!"units::isq::si::length_references::m")))))) (.rep (.int .i32))),
  (481, .cmp .eq (.number (.common (.op .add (.make (.kd (.nm "width_kind") (.nm n!"units::isq::si::metre") (.int .u8)) (.op .mul (.num (.int .i32) 128) (.ref n!"units::isq::si::length_references::m"))) (.make (.kd (.nm "width_kind") (.nm n!"units::isq::si::metre") (.int .u8)) (.op .mul (.num (.int .i32) 128) (.ref n!"units::isq::si::length_references::m")))))) (.op .add (.make (.rep (.int .u8)) (.num (.int .i32) 128)) (.make (.rep (.int .u8)) (.num (.int .i32) 128)))),
  (483, .cmp .eq (.number (.common (.op .sub (.make (.kd (.nm "width_kind") (.nm n!"units::isq::si::metre") (.int .u8)) (.op .mul (.num (.int .i32) 0) (.ref n!"units::isq::si::length_references::m"))) (.make (.kd (.nm "width_kind") (.nm n!"units::isq::si::metre") (.int .u8)) (.op .mul (.num (.int .i32) 1) (.ref n!"units::isq::si::length_references::m")))))) (.op .sub (.make (.rep (.int .u8)) (.num (.int .i32) 0)) (.make (.rep (.int .u8)) (.num (.int .i32) 1)))),
  (486, .not (.not (.rejected (.op .add (.obj (.kd (.nm "width_kind") (.nm n!"units::isq::si::metre") (.flt .f64)) 1) (.obj (.rep (.flt .f64)) 1))))),
  (487, .not (.not (.rejected (.op .add (.obj (.kd (.nm "width_kind") (.nm n!"units::isq::si::metre") (.flt .f64)) 1) (.obj (.alias n!"units::isq::si::length" (.nm n!"units::isq::si::metre") (.flt .f64)) 1))))),
  (488, .not (.not (.rejected (.op .add (.obj (.kd (.nm "width_kind") (.nm n!"units::isq::si::metre") (.flt .f64)) 1) (.obj (.pt (.dyn (.nm n!"units::isq::si::dim_length")) (.nm n!"units::isq::si::metre") (.flt .f64)) 1))))),
  (489, .not (.not (.rejected (.op .add (.obj (.kd (.nm "width_kind") (.nm n!"units::isq::si::metre") (.flt .f64)) 1) (.obj (.kd (.nm "height_kind") (.nm n!"units::isq::si::metre") (.flt .f64)) 1))))),
  (490, .not (.not (.rejected (.op .add (.obj (.kd (.nm "width_kind") (.nm n!"units::isq::si::metre") (.flt .f64)) 1) (.obj (.ref (.nm n!"units::isq::si::dim_length") (.nm n!"units::isq::si::metre")) 1))))),
  (491, .not (.not (.rejected (.op .sub (.obj (.kd (.nm "width_kind") (.nm n!"units::isq::si::metre") (.flt .f64)) 1) (.obj (.rep (.flt .f64)) 1))))),
  (492, .not (.not (.rejected (.op .sub (.obj (.kd (.nm "width_kind") (.nm n!"units::isq::si::metre") (.flt .f64)) 1) (.obj (.alias n!"units::isq::si::length" (.nm n!"units::isq::si::metre") (.flt .f64)) 1))))),
  (493, .not (.not (.rejected (.op .sub (.obj (.kd (.nm "width_kind") (.nm n!"units::isq::si::metre") (.flt .f64)) 1) (.obj (.pt (.dyn (.nm n!"units::isq::si::dim_length")) (.nm n!"units::isq::si::metre") (.flt .f64)) 1))))),
  (494, .not (.not (.rejected (.op .sub (.obj (.kd (.nm "width_kind") (.nm n!"units::isq::si::metre") (.flt .f64)) 1) (.obj (.kd (.nm "height_kind") (.nm n!"units::isq::si::metre") (.flt .f64)) 1))))),
  (495, .not (.not (.rejected (.op .sub (.obj (.kd (.nm "width_kind") (.nm n!"units::isq::si::metre") (.flt .f64)) 1) (.obj (.ref (.nm n!"units::isq::si::dim_length") (.nm n!"units::isq::si::metre")) 1))))),
  (498, .not (.not (.rejected (.op .add (.obj (.kd (.down "width_kind" (.nm n!"units::dim_one")) (.nm n!"units::one") (.flt .f64)) 1) (.obj (.kd (.down "height_kind" (.nm n!"units::dim_one")) (.nm n!"units::one") (.flt .f64)) 1))))),
  (499, .not (.not (.rejected (.op .add (.obj (.kd (.down "width_kind" (.nm n!"units::dim_one")) (.nm n!"units::one") (.flt .f64)) 1) (.obj (.kd (.nm "height_kind") (.nm n!"units::isq::si::metre") (.flt .f64)) 1))))),
  (500, .not (.not (.rejected (.op .add (.obj (.kd (.nm "width_kind") (.nm n!"units::isq::si::metre") (.flt .f64)) 1) (.obj (.kd (.down "height_kind" (.nm n!"units::dim_one")) (.nm n!"units::one") (.flt .f64)) 1))))),
  (501, .not (.not (.rejected (.op .add (.obj (.kd (.down "width_kind" (.nm n!"units::isq::si::dim_time")) (.nm n!"units::isq::si::day") (.flt .f64)) 1) (.obj (.kd (.nm "height_kind") (.nm n!"units::isq::si::metre") (.flt .f64)) 1))))),
  (502, .not (.not (.rejected (.op .add (.obj (.kd (.nm "width_kind") (.nm n!"units::isq::si::metre") (.flt .f64)) 1) (.obj (.kd (.down "height_kind" (.nm n!"units::isq::si::dim_time")) (.nm n!"units::isq::si::day") (.flt .f64)) 1))))),
  (503, .not (.not (.rejected (.op .add (.obj (.kd (.down "width_kind" (.nm n!"units::isq::si::dim_time")) (.nm n!"units::isq::si::day") (.flt .f64)) 1) (.obj (.kd (.down "height_kind" (.nm n!"units::isq::si::dim_time")) (.nm n!"units::isq::si::day") (.flt .f64)) 1))))),
  (504, .not (.not (.rejected (.op .sub (.obj (.kd (.down "width_kind" (.nm n!"units::dim_one")) (.nm n!"units::one") (.flt .f64)) 1) (.obj (.kd (.down "height_kind" (.nm n!"units::dim_one")) (.nm n!"units::one") (.flt .f64)) 1))))),
  (505, .not (.not (.rejected (.op .sub (.obj (.kd (.down "width_kind" (.nm n!"units::dim_one")) (.nm n!"units::one") (.flt .f64)) 1) (.obj (.kd (.nm "height_kind") (.nm n!"units::isq::si::metre") (.flt .f64)) 1))))),
  (506, .not (.not (.rejected (.op .sub (.obj (.kd (.nm "width_kind") (.nm n!"units::isq::si::metre") (.flt .f64)) 1) (.obj (.kd (.down "height_kind" (.nm n!"units::dim_one")) (.nm n!"units::one") (.flt .f64)) 1))))),
  (507, .not (.not (.rejected (.op .sub (.obj (.kd (.down "width_kind" (.nm n!"units::isq::si::dim_time")) (.nm n!"units::isq::si::day") (.flt .f64)) 1) (.obj (.kd (.nm "height_kind") (.nm n!"units::isq::si::metre") (.flt .f64)) 1))))),
  (508, .not (.not (.rejected (.op .sub (.obj (.kd (.nm "width_kind") (.nm n!"units::isq::si::metre") (.flt .f64)) 1) (.obj (.kd (.down "height_kind" (.nm n!"units::isq::si::dim_time")) (.nm n!"units::isq::si::day") (.flt .f64)) 1))))),
  (509, .not (.not (.rejected (.op .sub (.obj (.kd (.down "width_kind" (.nm n!"units::isq::si::dim_time")) (.nm n!"units::isq::si::day") (.flt .f64)) 1) (.obj (.kd (.down "height_kind" (.nm n!"units::isq::si::dim_time")) (.nm n!"units::isq::si::day") (.flt .f64)) 1))))),
  (512, .same (.op .mul (.make (.kd (.nm "width_kind") (.nm n!"units::isq::si::metre") (.int .i32)) (.op .mul (.num (.int .i32) 2) (.ref n!"units::isq::si::length_references::m"))) (.num (.int .i32) 3)) (.make (.kd (.nm "width_kind") (.nm n!"units::isq::si::metre") (.int .i32)) (.op .mul (.num (.int .i32) 6) (.ref n!"units::isq::si::length_references::m")))),
  (513, .same (.op .mul (.make (.kd (.nm "width_kind") (.nm n!"units::isq::si::metre") (.int .i32)) (.op .mul (.num (.int .i32) 2) (.ref n!"units::isq::si::length_references::m"))) (.num (.flt .f64) 3)) (.make (.kd (.nm "width_kind") (.nm n!"units::isq::si::metre") (.flt .f64)) (.op .mul (.num (.flt .f64) 6) (.ref n!"units::isq::si::length_references::m")))),
  (514, .same (.op .mul (.make (.kd (.nm "width_kind") (.nm n!"units::isq::si::metre") (.flt .f64)) (.op .mul (.num (.flt .f64) 2) (.ref n!"units::isq::si::length_references::m"))) (.num (.int .i32) 3)) (.make (.kd (.nm "width_kind") (.nm n!"units::isq::si::metre") (.flt .f64)) (.op .mul (.num (.flt .f64) 6) (.ref n!"units::isq::si::length_references::m")))),
  (515, .same (.op .mul (.num (.int .i32) 2) (.make (.kd (.nm "width_kind") (.nm n!"units::isq::si::metre") (.int .i32)) (.op .mul (.num (.int .i32) 3) (.ref n!"units::isq::si::length_references::m")))) (.make (.kd (.nm "width_kind") (.nm n!"units::isq::si::metre") (.int .i32)) (.op .mul (.num (.int .i32) 6) (.ref n!"units::isq::si::length_references::m")))),
  (516, .same (.op .mul (.num (.int .i32) 2) (.make (.kd (.nm "width_kind") (.nm n!"units::isq::si::metre") (.flt .f64)) (.op .mul (.num (.flt .f64) 3) (.ref n!"units::isq::si::length_references::m")))) (.make (.kd (.nm "width_kind") (.nm n!"units::isq::si::metre") (.flt .f64)) (.op .mul (.num (.flt .f64) 6) (.ref n!"units::isq::si::length_references::m")))),
  (517, .same (.op .mul (.num (.flt .f64) 2) (.make (.kd (.nm "width_kind") (.nm n!"units::isq::si::metre") (.int .i32)) (.op .mul (.num (.int .i32) 3) (.ref n!"units::isq::si::length_references::m")))) (.make (.kd (.nm "width_kind") (.nm n!"units::isq::si::metre") (.flt .f64)) (.op .mul (.num (.flt .f64) 6) (.ref n!"units::isq::si::length_references::m")))),
  (519, .same (.op .mul (.make (.kd (.nm "width_kind") (.nm n!"units::isq::si::metre") (.int .i32)) (.op .mul (.num (.int .i32) 2) (.ref n!"units::isq::si::length_references::m"))) (.deduceQty (.num (.int .i32) 3))) (.make (.kd (.nm "width_kind") (.nm n!"units::isq::si::metre") (.int .i32)) (.op .mul (.num (.int .i32) 6) (.ref n!"units::isq::si::length_references::m")))),
  (520, .same (.op .mul (.make (.kd (.nm "width_kind") (.nm n!"units::isq::si::metre") (.int .i32)) (.op .mul (.num (.int .i32) 2) (.ref n!"units::isq::si::length_references::m"))) (.deduceQty (.num (.flt .f64) 3))) (.make (.kd (.nm "width_kind") (.nm n!"units::isq::si::metre") (.flt .f64)) (.op .mul (.num (.flt .f64) 6) (.ref n!"units::isq::si::length_references::m")))),
  (521, .same (.op .mul (.make (.kd (.nm "width_kind") (.nm n!"units::isq::si::metre") (.flt .f64)) (.op .mul (.num (.flt .f64) 2) (.ref n!"units::isq::si::length_references::m"))) (.deduceQty (.num (.int .i32) 3))) (.make (.kd (.nm "width_kind") (.nm n!"units::isq::si::metre") (.flt .f64)) (.op .mul (.num (.flt .f64) 6) (.ref n!"units::isq::si::length_references::m")))),
  (522, .same (.op .mul (.deduceQty (.num (.int .i32) 2)) (.make (.kd (.nm "width_kind") (.nm n!"units::isq::si::metre") (.int .i32)) (.op .mul (.num (.int .i32) 3) (.ref n!"units::isq::si::length_references::m")))) (.make (.kd (.nm "width_kind") (.nm n!"units::isq::si::metre") (.int .i32)) (.op .mul (.num (.int .i32) 6) (.ref n!"units::isq::si::length_references::m")))),
  (523, .same (.op .mul (.deduceQty (.num (.int .i32) 2)) (.make (.kd (.nm "width_kind") (.nm n!"units::isq::si::metre") (.flt .f64)) (.op .mul (.num (.flt .f64) 3) (.ref n!"units::isq::si::length_references::m")))) (.make (.kd (.nm "width_kind") (.nm n!"units::isq::si::metre") (.flt .f64)) (.op .mul (.num (.flt .f64) 6) (.ref n!"units::isq::si::length_references::m")))),
  (524, .same (.op .mul (.deduceQty (.num (.flt .f64) 2)) (.make (.kd (.nm "width_kind") (.nm n!"units::isq::si::metre") (.int .i32)) (.op .mul (.num (.int .i32) 3) (.ref n!"units::isq::si::length_references::m")))) (.make (.kd (.nm "width_kind") (.nm n!"units::isq::si::metre") (.flt .f64)) (.op .mul (.num (.flt .f64) 6) (.ref n!"units::isq::si::length_references::m")))),
  (526, .same (.op .mul (.make (.kd (.nm "width_kind") (.nm n!"units::isq::si::metre") (.int .i32)) (.op .mul (.num (.int .i32) 2) (.ref n!"units::isq::si::length_references::m"))) (.make (.kd (.down "width_kind" (.nm n!"units::dim_one")) (.nm n!"units::one") (.int .i32)) (.num (.int .i32) 3))) (.make (.kd (.nm "width_kind") (.nm n!"units::isq::si::metre") (.int .i32)) (.op .mul (.num (.int .i32) 6) (.ref n!"units::isq::si::length_references::m")))),
  (528, .same (.op .mul (.make (.kd (.nm "width_kind") (.nm n!"units::isq::si::metre") (.int .i32)) (.op .mul (.num (.int .i32) 2) (.ref n!"units::isq::si::length_references::m"))) (.make (.kd (.down "width_kind" (.nm n!"units::dim_one")) (.nm n!"units::one") (.flt .f64)) (.num (.flt .f64) 3))) (.make (.kd (.nm "width_kind") (.nm n!"units::isq::si::metre") (.flt .f64)) (.op .mul (.num (.flt .f64) 6) (.ref n!"units::isq::si::length_references::m")))),
  (530, .same (.op .mul (.make (.kd (.nm "width_kind") (.nm n!"units::isq::si::metre") (.flt .f64)) (.op .mul (.num (.flt .f64) 2) (.ref n!"units::isq::si::length_references::m"))) (.make (.kd (.down "width_kind" (.nm n!"units::dim_one")) (.nm n!"units::one") (.int .i32)) (.num (.int .i32) 3))) (.make (.kd (.nm "width_kind") (.nm n!"units::isq::si::metre") (.flt .f64)) (.op .mul (.num (.flt .f64) 6) (.ref n!"units::isq::si::length_references::m")))),
  (532, .same (.op .mul (.make (.kd (.down "width_kind" (.nm n!"units::dim_one")) (.nm n!"units::one") (.int .i32)) (.num (.int .i32) 2)) (.make (.kd (.nm "width_kind") (.nm n!"units::isq::si::metre") (.int .i32)) (.op .mul (.num (.int .i32) 3) (.ref n!"units::isq::si::length_references::m")))) (.make (.kd (.nm "width_kind") (.nm n!"units::isq::si::metre") (.int .i32)) (.op .mul (.num (.int .i32) 6) (.ref n!"units::isq::si::length_references::m")))),
  (534, .same (.op .mul (.make (.kd (.down "width_kind" (.nm n!"units::dim_one")) (.nm n!"units::one") (.int .i32)) (.num (.int .i32) 2)) (.make (.kd (.nm "width_kind") (.nm n!"units::isq::si::metre") (.flt .f64)) (.op .mul (.num (.flt .f64) 3) (.ref n!"units::isq::si::length_references::m")))) (.make (.kd (.nm "width_kind") (.nm n!"units::isq::si::metre") (.flt .f64)) (.op .mul (.num (.flt .f64) 6) (.ref n!"units::isq::si::length_references::m")))),
  (536, .same (.op .mul (.make (.kd (.down "width_kind" (.nm n!"units::dim_one")) (.nm n!"units::one") (.flt .f64)) (.num (.flt .f64) 2)) (.make (.kd (.nm "width_kind") (.nm n!"units::isq::si::metre") (.int .i32)) (.op .mul (.num (.int .i32) 3) (.ref n!"units::isq::si::length_references::m")))) (.make (.kd (.nm "width_kind") (.nm n!"units::isq::si::metre") (.flt .f64)) (.op .mul (.num (.flt .f64) 6) (.ref n!"units::isq::si::length_references::m")))),
  (539, .same (.op .mul (.make (.kd (.nm "height_kind") (.nm n!"units::isq::si::metre") (.int .i32)) (.op .mul (.num (.int .i32) 2) (.ref n!"units::isq::si::length_references::m"))) (.op .mul (.num (.int .i32) 3) (.ref n!"units::isq::si::frequency_references::Hz"))) (.make (.kd (.nm "rate_of_climb_kind") (.nm n!"units::isq::si::metre_per_second") (.int .i32)) (.op .mul (.num (.int .i32) 6) (.op .div (.ref n!"units::isq::si::length_references::m") (.ref n!"units::isq::si::time_references::s"))))),
  (540, .same (.op .mul (.make (.kd (.nm "height_kind") (.nm n!"units::isq::si::metre") (.int .i32)) (.op .mul (.num (.int .i32) 2) (.ref n!"units::isq::si::length_references::m"))) (.op .mul (.num (.flt .f64) 3) (.ref n!"units::isq::si::frequency_references::Hz"))) (.make (.kd (.nm "rate_of_climb_kind") (.nm n!"units::isq::si::metre_per_second") (.flt .f64)) (.op .mul (.num (.flt .f64) 6) (.op .div (.ref n!"units::isq::si::length_references::m") (.ref n!"units::isq::si::time_references::s"))))),
  (541, .same (.op .mul (.make (.kd (.nm "height_kind") (.nm n!"units::isq::si::metre") (.flt .f64)) (.op .mul (.num (.flt .f64) 2) (.ref n!"units::isq::si::length_references::m"))) (.op .mul (.num (.int .i32) 3) (.ref n!"units::isq::si::frequency_references::Hz"))) (.make (.kd (.nm "rate_of_climb_kind") (.nm n!"units::isq::si::metre_per_second") (.flt .f64)) (.op .mul (.num (.flt .f64) 6) (.op .div (.ref n!"units::isq::si::length_references::m") (.ref n!"units::isq::si::time_references::s"))))),
  (542, .same (.op .mul (.op .mul (.num (.int .i32) 2) (.ref n!"units::isq::si::frequency_references::Hz")) (.make (.kd (.nm "height_kind") (.nm n!"units::isq::si::metre") (.int .i32)) (.op .mul (.num (.int .i32) 3) (.ref n!"units::isq::si::length_references::m")))) (.make (.kd (.nm "rate_of_climb_kind") (.nm n!"units::isq::si::metre_per_second") (.int .i32)) (.op .mul (.num (.int .i32) 6) (.op .div (.ref n!"units::isq::si::length_references::m") (.ref n!"units::isq::si::time_references::s"))))),
  (543, .same (.op .mul (.op .mul (.num (.int .i32) 2) (.ref n!"units::isq::si::frequency_references::Hz")) (.make (.kd (.nm "height_kind") (.nm n!"units::isq::si::metre") (.flt .f64)) (.op .mul (.num (.flt .f64) 3) (.ref n!"units::isq::si::length_references::m")))) (.make (.kd (.nm "rate_of_climb_kind") (.nm n!"units::isq::si::metre_per_second") (.flt .f64)) (.op .mul (.num (.flt .f64) 6) (.op .div (.ref n!"units::isq::si::length_references::m") (.ref n!"units::isq::si::time_references::s"))))),
  (544, .same (.op .mul (.op .mul (.num (.flt .f64) 2) (.ref n!"units::isq::si::frequency_references::Hz")) (.make (.kd (.nm "height_kind") (.nm n!"units::isq::si::metre") (.int .i32)) (.op .mul (.num (.int .i32) 3) (.ref n!"units::isq::si::length_references::m")))) (.make (.kd (.nm "rate_of_climb_kind") (.nm n!"units::isq::si::metre_per_second") (.flt .f64)) (.op .mul (.num (.flt .f64) 6) (.op .div (.ref n!"units::isq::si::length_references::m") (.ref n!"units::isq::si::time_references::s"))))),
  (546, .same (.op .mul (.make (.kd (.nm "time_kind") (.nm n!"units::isq::si::second") (.int .i32)) (.op .mul (.num (.int .i32) 2) (.ref n!"units::isq::si::time_references::s"))) (.op .mul (.num (.int .i32) 3) (.ref n!"units::isq::si::frequency_references::Hz"))) (.make (.kd (.down "time_kind" (.nm n!"units::dim_one")) (.nm n!"units::one") (.int .i32)) (.num (.int .i32) 6))),
  (548, .same (.op .mul (.op .mul (.num (.int .i32) 3) (.ref n!"units::isq::si::frequency_references::Hz")) (.make (.kd (.nm "time_kind") (.nm n!"units::isq::si::second") (.int .i32)) (.op .mul (.num (.int .i32) 2) (.ref n!"units::isq::si::time_references::s")))) (.make (.kd (.down "time_kind" (.nm n!"units::dim_one")) (.nm n!"units::one") (.int .i32)) (.num (.int .i32) 6))),
  (551, .same (.op .mul (.make (.kd (.nm "apple") (.nm n!"units::one") (.int .i32)) (.num (.int .i32) 2)) (.deduceQty (.num (.int .i32) 2))) (.make (.kd (.nm "apple") (.nm n!"units::one") (.int .i32)) (.num (.int .i32) 4))),
  (552, .same (.op .mul (.deduceQty (.num (.int .i32) 2)) (.make (.kd (.nm "apple") (.nm n!"units::one") (.int .i32)) (.num (.int .i32) 2))) (.make (.kd (.nm "apple") (.nm n!"units::one") (.int .i32)) (.num (.int .i32) 4))),
  (555, .same (.op .mul (.make (.kd (.nm "width_kind") (.nm n!"units::isq::si::metre") (.int .i32)) (.op .mul (.num (.int .i32) 4) (.ref n!"units::isq::si::length_references::m"))) (.op .mul (.num (.int .i32) 1) (.ref n!"units::isq::si::length_references::m"))) (.make (.kd (.nm "horizontal_area_kind") (.nm n!"units::isq::si::square_metre") (.int .i32)) (.op .mul (.num (.int .i32) 4) (.op .mul (.ref n!"units::isq::si::length_references::m") (.ref n!"units::isq::si::length_references::m"))))),
  (556, .same (.op .mul (.make (.kd (.nm "width_kind") (.nm n!"units::isq::si::metre") (.int .i32)) (.op .mul (.num (.int .i32) 2) (.ref n!"units::isq::si::length_references::m"))) (.make (.kd (.nm "width_kind") (.nm n!"units::isq::si::metre") (.int .i32)) (.op .mul (.num (.int .i32) 2) (.ref n!"units::isq::si::length_references::m")))) (.make (.kd (.nm "horizontal_area_kind") (.nm n!"units::isq::si::square_metre") (.int .i32)) (.op .mul (.num (.int .i32) 4) (.op .mul (.ref n!"units::isq::si::length_references::m") (.ref n!"units::isq::si::length_references::m"))))),
  (557, .same (.op .mul (.make (.kd (.nm "width_kind") (.nm n!"units::isq::si::metre") (.int .i32)) (.op .mul (.num (.int .i32) 2) (.ref n!"units::isq::si::length_references::m"))) (.make (.kd (.nm "width_kind") (.nm n!"units::isq::si::metre") (.flt .f64)) (.op .mul (.num (.int .i32) 2) (.ref n!"units::isq::si::length_references::m")))) (.make (.kd (.nm "horizontal_area_kind") (.nm n!"units::isq::si::square_metre") (.flt .f64)) (.op .mul (.num (.int .i32) 4) (.op .mul (.ref n!"units::isq::si::length_references::m") (.ref n!"units::isq::si::length_references::m"))))),
  (558, .same (.op .mul (.make (.kd (.nm "width_kind") (.nm n!"units::isq::si::metre") (.flt .f64)) (.op .mul (.num (.int .i32) 2) (.ref n!"units::isq::si::length_references::m"))) (.make (.kd (.nm "width_kind") (.nm n!"units::isq::si::metre") (.int .i32)) (.op .mul (.num (.int .i32) 2) (.ref n!"units::isq::si::length_references::m")))) (.make (.kd (.nm "horizontal_area_kind") (.nm n!"units::isq::si::square_metre") (.flt .f64)) (.op .mul (.num (.int .i32) 4) (.op .mul (.ref n!"units::isq::si::length_references::m") (.ref n!"units::isq::si::length_references::m"))))),
  (561, .same (.op .mul (.make (.kd (.nm "apple") (.nm n!"units::one") (.int .i32)) (.num (.int .i32) 2)) (.make (.kd (.nm "apple") (.nm n!"units::one") (.int .i32)) (.num (.int .i32) 2))) (.make (.kd (.nm "apple") (.nm n!"units::one") (.int .i32)) (.num (.int .i32) 4))),
  (562, .same (.op .mul (.make (.kd (.nm "apple") (.nm n!"units::one") (.int .i32)) (.num (.int .i32) 2)) (.op .div (.num (.int .i32) 2) (.make (.kd (.nm "apple") (.nm n!"units::one") (.int .i32)) (.num (.int .i32) 1)))) (.make (.kd (.nm "apple") (.nm n!"units::one") (.int .i32)) (.num (.int .i32) 4))),
  (564, .same (.op .mul (.make (.kd (.nm "width_kind") (.nm n!"units::isq::si::kilometre") (.flt .f64)) (.op .mul (.num (.int .i32) 4) (.ref n!"units::isq::si::length_references::m"))) (.op .mul (.num (.int .i32) 1) (.ref n!"units::isq::si::length_references::mm"))) (.make (.kd (.nm "horizontal_area_kind") (.nm n!"units::isq::si::square_metre") (.flt .f64)) (.op .mul (.num (.int .i32) 4) (.op .mul (.ref n!"units::isq::si::length_references::m") (.ref n!"units::isq::si::length_references::mm"))))),
  (565, .same (.op .mul (.make (.kd (.nm "width_kind") (.nm n!"units::isq::si::kilometre") (.flt .f64)) (.op .mul (.num (.int .i32) 2) (.ref n!"units::isq::si::length_references::m"))) (.make (.kd (.nm "width_kind") (.nm n!"units::isq::si::millimetre") (.flt .f64)) (.op .mul (.num (.int .i32) 2) (.ref n!"units::isq::si::length_references::m")))) (.make (.kd (.nm "horizontal_area_kind") (.nm n!"units::isq::si::square_metre") (.flt .f64)) (.op .mul (.num (.int .i32) 4) (.op .mul (.ref n!"units::isq::si::length_references::m") (.ref n!"units::isq::si::length_references::m"))))),
  (566, .same (.op .mul (.make (.kd (.nm "width_kind") (.nm n!"units::isq::si::metre") (.flt .f64)) (.op .mul (.num (.int .i32) 2) (.ref n!"units::isq::si::length_references::m"))) (.op .div (.num (.int .i32) 1) (.make (.kd (.nm "width_kind") (.nm n!"units::isq::si::metre") (.flt .f64)) (.op .mul (.num (.int .i32) 2) (.ref n!"units::isq::si::length_references::m"))))) (.make (.kd (.down "width_kind" (.nm n!"units::dim_one")) (.nm n!"units::one") (.flt .f64)) (.num (.int .i32) 1))),
  (569, .same (.op .div (.make (.kd (.nm "width_kind") (.nm n!"units::isq::si::metre") (.int .i32)) (.op .mul (.num (.int .i32) 2) (.ref n!"units::isq::si::length_references::m"))) (.num (.int .i32) 3)) (.make (.kd (.nm "width_kind") (.nm n!"units::isq::si::metre") (.int .i32)) (.op .mul (.num (.int .i32) 0) (.ref n!"units::isq::si::length_references::m")))),
  (570, .same (.op .div (.make (.kd (.nm "width_kind") (.nm n!"units::isq::si::metre") (.int .i32)) (.op .mul (.num (.int .i32) 2) (.ref n!"units::isq::si::length_references::m"))) (.num (.flt .f64) 3)) (.make (.kd (.nm "width_kind") (.nm n!"units::isq::si::metre") (.flt .f64)) (.op .mul (.op .div (.num (.int .i32) 2) (.num (.flt .f64) 3)) (.ref n!"units::isq::si::length_references::m")))),
  (571, .same (.op .div (.make (.kd (.nm "width_kind") (.nm n!"units::isq::si::metre") (.flt .f64)) (.op .mul (.num (.flt .f64) 2) (.ref n!"units::isq::si::length_references::m"))) (.num (.int .i32) 3)) (.make (.kd (.nm "width_kind") (.nm n!"units::isq::si::metre") (.flt .f64)) (.op .mul (.op .div (.num (.flt .f64) 2) (.num (.int .i32) 3)) (.ref n!"units::isq::si::length_references::m")))),
  (573, .same (.op .div (.make (.kd (.nm "width_kind") (.nm n!"units::isq::si::metre") (.int .i32)) (.op .mul (.num (.int .i32) 2) (.ref n!"units::isq::si::length_references::m"))) (.deduceQty (.num (.int .i32) 3))) (.make (.kd (.nm "width_kind") (.nm n!"units::isq::si::metre") (.int .i32)) (.op .mul (.num (.int .i32) 0) (.ref n!"units::isq::si::length_references::m")))),
  (574, .same (.op .div (.make (.kd (.nm "width_kind") (.nm n!"units::isq::si::metre") (.int .i32)) (.op .mul (.num (.int .i32) 2) (.ref n!"units::isq::si::length_references::m"))) (.deduceQty (.num (.flt .f64) 3))) (.make (.kd (.nm "width_kind") (.nm n!"units::isq::si::metre") (.flt .f64)) (.op .mul (.op .div (.num (.int .i32) 2) (.num (.flt .f64) 3)) (.ref n!"units::isq::si::length_references::m")))),
  (575, .same (.op .div (.make (.kd (.nm "width_kind") (.nm n!"units::isq::si::metre") (.flt .f64)) (.op .mul (.num (.flt .f64) 2) (.ref n!"units::isq::si::length_references::m"))) (.deduceQty (.num (.int .i32) 3))) (.make (.kd (.nm "width_kind") (.nm n!"units::isq::si::metre") (.flt .f64)) (.op .mul (.op .div (.num (.flt .f64) 2) (.num (.int .i32) 3)) (.ref n!"units::isq::si::length_references::m")))),
  (577, .same (.op .div (.make (.kd (.nm "width_kind") (.nm n!"units::isq::si::metre") (.int .i32)) (.op .mul (.num (.int .i32) 2) (.ref n!"units::isq::si::length_references::m"))) (.make (.kd (.down "width_kind" (.nm n!"units::dim_one")) (.nm n!"units::one") (.int .i32)) (.num (.int .i32) 3))) (.make (.kd (.nm "width_kind") (.nm n!"units::isq::si::metre") (.int .i32)) (.op .mul (.num (.int .i32) 0) (.ref n!"units::isq::si::length_references::m")))),
  (579, .same (.op .div (.make (.kd (.nm "width_kind") (.nm n!"units::isq::si::metre") (.int .i32)) (.op .mul (.num (.int .i32) 2) (.ref n!"units::isq::si::length_references::m"))) (.make (.kd (.down "width_kind" (.nm n!"units::dim_one")) (.nm n!"units::one") (.flt .f64)) (.num (.flt .f64) 3))) (.make (.kd (.nm "width_kind") (.nm n!"units::isq::si::metre") (.flt .f64)) (.op .mul (.op .div (.num (.int .i32) 2) (.num (.flt .f64) 3)) (.ref n!"units::isq::si::length_references::m")))),
  (581, .same (.op .div (.make (.kd (.nm "width_kind") (.nm n!"units::isq::si::metre") (.flt .f64)) (.op .mul (.num (.flt .f64) 2) (.ref n!"units::isq::si::length_references::m"))) (.make (.kd (.down "width_kind" (.nm n!"units::dim_one")) (.nm n!"units::one") (.flt .f64)) (.num (.int .i32) 3))) (.make (.kd (.nm "width_kind") (.nm n!"units::isq::si::metre") (.flt .f64)) (.op .mul (.op .div (.num (.flt .f64) 2) (.num (.int .i32) 3)) (.ref n!"units::isq::si::length_references::m")))),
  (584, .same (.op .div (.num (.int .i32) 2) (.make (.kd (.nm "time_kind") (.nm n!"units::isq::si::second") (.int .i32)) (.op .mul (.num (.int .i32) 3) (.ref n!"units::isq::si::time_references::s")))) (.make (.kd (.down "time_kind" (.nm n!"units::isq::si::dim_frequency")) (.nm n!"units::isq::si::hertz") (.int .i32)) (.op .div (.op .div (.num (.int .i32) 2) (.num (.int .i32) 3)) (.op .mul (.num (.int .i32) 1) (.ref n!"units::isq::si::time_references::s")))))]

#guard failures2 [n!"generic/dimensionless.h", n!"isq/si/area.h", n!"isq/si/cgs/length.h", n!"isq/si/fps/length.h", n!"isq/si/frequency.h", n!"isq/si/speed.h", n!"isq/si/time.h"] [] declsKind testKind1 = some []

/-- /repo/test/unit_test/static/quantity_kind_test.cpp. -/
def testKind2 : List (Nat × Check2) := [
  (586, .same (.op .div (.num (.int .i32) 2) (.make (.kd (.nm "time_kind") (.nm n!"units::isq::si::second") (.flt .f64)) (.op .mul (.num (.flt .f64) 3) (.ref n!"units::isq::si::time_references::s")))) (.make (.kd (.down "time_kind" (.nm n!"units::isq::si::dim_frequency")) (.nm n!"units::isq::si::hertz") (.flt .f64)) (.op .div (.op .div (.num (.int .i32) 2) (.num (.flt .f64) 3)) (.op .mul (.num (.int .i32) 1) (.ref n!"units::isq::si::time_references::s"))))),
  (588, .same (.op .div (.num (.flt .f64) 2) (.make (.kd (.nm "time_kind") (.nm n!"units::isq::si::second") (.int .i32)) (.op .mul (.num (.int .i32) 3) (.ref n!"units::isq::si::time_references::s")))) (.make (.kd (.down "time_kind" (.nm n!"units::isq::si::dim_frequency")) (.nm n!"units::isq::si::hertz") (.flt .f64)) (.op .div (.op .div (.num (.int .i32) 2) (.num (.flt .f64) 3)) (.op .mul (.num (.int .i32) 1) (.ref n!"units::isq::si::time_references::s"))))),
  (591, .same (.op .div (.deduceQty (.num (.int .i32) 2)) (.make (.kd (.nm "time_kind") (.nm n!"units::isq::si::second") (.int .i32)) (.op .mul (.num (.int .i32) 3) (.ref n!"units::isq::si::time_references::s")))) (.make (.kd (.down "time_kind" (.nm n!"units::isq::si::dim_frequency")) (.nm n!"units::isq::si::hertz") (.int .i32)) (.op .div (.op .div (.num (.int .i32) 2) (.num (.int .i32) 3)) (.op .mul (.num (.int .i32) 1) (.ref n!"units::isq::si::time_references::s"))))),
  (593, .same (.op .div (.deduceQty (.num (.int .i32) 2)) (.make (.kd (.nm "time_kind") (.nm n!"units::isq::si::second") (.flt .f64)) (.op .mul (.num (.flt .f64) 3) (.ref n!"units::isq::si::time_references::s")))) (.make (.kd (.down "time_kind" (.nm n!"units::isq::si::dim_frequency")) (.nm n!"units::isq::si::hertz") (.flt .f64)) (.op .div (.op .div (.num (.int .i32) 2) (.num (.flt .f64) 3)) (.op .mul (.num (.int .i32) 1) (.ref n!"units::isq::si::time_references::s"))))),
  (595, .same (.op .div (.deduceQty (.num (.flt .f64) 2)) (.make (.kd (.nm "time_kind") (.nm n!"units::isq::si::second") (.int .i32)) (.op .mul (.num (.int .i32) 3) (.ref n!"units::isq::si::time_references::s")))) (.make (.kd (.down "time_kind" (.nm n!"units::isq::si::dim_frequency")) (.nm n!"units::isq::si::hertz") (.flt .f64)) (.op .div (.op .div (.num (.int .i32) 2) (.num (.flt .f64) 3)) (.op .mul (.num (.int .i32) 1) (.ref n!"units::isq::si::time_references::s"))))),
  (598, .same (.op .div (.make (.kd (.down "time_kind" (.nm n!"units::dim_one")) (.nm n!"units::one") (.int .i32)) (.num (.int .i32) 2)) (.make (.kd (.nm "time_kind") (.nm n!"units::isq::si::second") (.int .i32)) (.op .mul (.num (.int .i32) 3) (.ref n!"units::isq::si::time_references::s")))) (.make (.kd (.down "time_kind" (.nm n!"units::isq::si::dim_frequency")) (.nm n!"units::isq::si::hertz") (.int .i32)) (.op .div (.op .div (.num (.int .i32) 2) (.num (.int .i32) 3)) (.op .mul (.num (.int .i32) 1) (.ref n!"units::isq::si::time_references::s"))))),
  (601, .same (.op .div (.make (.kd (.down "time_kind" (.nm n!"units::dim_one")) (.nm n!"units::one") (.int .i32)) (.num (.int .i32) 2)) (.make (.kd (.nm "time_kind") (.nm n!"units::isq::si::second") (.flt .f64)) (.op .mul (.num (.flt .f64) 3) (.ref n!"units::isq::si::time_references::s")))) (.make (.kd (.down "time_kind" (.nm n!"units::isq::si::dim_frequency")) (.nm n!"units::isq::si::hertz") (.flt .f64)) (.op .div (.op .div (.num (.int .i32) 2) (.num (.flt .f64) 3)) (.op .mul (.num (.int .i32) 1) (.ref n!"units::isq::si::time_references::s"))))),
  (604, .same (.op .div (.make (.kd (.down "time_kind" (.nm n!"units::dim_one")) (.nm n!"units::one") (.flt .f64)) (.num (.flt .f64) 2)) (.make (.kd (.nm "time_kind") (.nm n!"units::isq::si::second") (.int .i32)) (.op .mul (.num (.int .i32) 3) (.ref n!"units::isq::si::time_references::s")))) (.make (.kd (.down "time_kind" (.nm n!"units::isq::si::dim_frequency")) (.nm n!"units::isq::si::hertz") (.flt .f64)) (.op .div (.op .div (.num (.int .i32) 2) (.num (.flt .f64) 3)) (.op .mul (.num (.int .i32) 1) (.ref n!"units::isq::si::time_references::s"))))),
  (608, .same (.op .div (.make (.kd (.nm "height_kind") (.nm n!"units::isq::si::metre") (.int .i32)) (.op .mul (.num (.int .i32) 2) (.ref n!"units::isq::si::length_references::m"))) (.op .mul (.num (.int .i32) 3) (.ref n!"units::isq::si::time_references::s"))) (.make (.kd (.nm "rate_of_climb_kind") (.nm n!"units::isq::si::metre_per_second") (.int .i32)) (.op .mul (.num (.int .i32) 0) (.op .div (.ref n!"units::isq::si::length_references::m") (.ref n!"units::isq::si::time_references::s"))))),
  (609, .same (.op .div (.make (.kd (.nm "height_kind") (.nm n!"units::isq::si::metre") (.int .i32)) (.op .mul (.num (.int .i32) 2) (.ref n!"units::isq::si::length_references::m"))) (.op .mul (.num (.flt .f64) 3) (.ref n!"units::isq::si::time_references::s"))) (.make (.kd (.nm "rate_of_climb_kind") (.nm n!"units::isq::si::metre_per_second") (.flt .f64)) (.op .mul (.op .div (.num (.int .i32) 2) (.num (.flt .f64) 3)) (.op .div (.ref n!"units::isq::si::length_references::m") (.ref n!"units::isq::si::time_references::s"))))),
  (610, .same (.op .div (.make (.kd (.nm "height_kind") (.nm n!"units::isq::si::metre") (.flt .f64)) (.op .mul (.num (.flt .f64) 2) (.ref n!"units::isq::si::length_references::m"))) (.op .mul (.num (.int .i32) 3) (.ref n!"units::isq::si::time_references::s"))) (.make (.kd (.nm "rate_of_climb_kind") (.nm n!"units::isq::si::metre_per_second") (.flt .f64)) (.op .mul (.op .div (.num (.flt .f64) 2) (.num (.int .i32) 3)) (.op .div (.ref n!"units::isq::si::length_references::m") (.ref n!"units::isq::si::time_references::s"))))),
  (612, .same (.op .mul (.make (.kd (.nm "width_kind") (.nm n!"units::isq::si::metre") (.int .i32)) (.op .mul (.num (.int .i32) 2) (.ref n!"units::isq::si::length_references::m"))) (.make (.alias n!"units::dimensionless" (.nm n!"units::percent") (.int .i32)) (.num (.int .i32) 3))) (.make (.kd (.nm "width_kind") (.nm n!"units::isq::si::centimetre") (.int .i32)) (.op .mul (.num (.int .i32) 6) (.ref n!"units::isq::si::length_references::cm")))),
  (613, .same (.op .mul (.make (.alias n!"units::dimensionless" (.nm n!"units::percent") (.int .i32)) (.num (.int .i32) 2)) (.make (.kd (.nm "width_kind") (.nm n!"units::isq::si::metre") (.int .i32)) (.op .mul (.num (.int .i32) 3) (.ref n!"units::isq::si::length_references::m")))) (.make (.kd (.nm "width_kind") (.nm n!"units::isq::si::centimetre") (.int .i32)) (.op .mul (.num (.int .i32) 6) (.ref n!"units::isq::si::length_references::cm")))),
  (614, .same (.op .div (.make (.kd (.nm "width_kind") (.nm n!"units::isq::si::metre") (.int .i32)) (.op .mul (.num (.int .i32) 2) (.ref n!"units::isq::si::length_references::m"))) (.make (.alias n!"units::dimensionless" (.nm n!"units::percent") (.flt .f64)) (.num (.int .i32) 3))) (.make (.kd (.nm "width_kind") (.nm n!"units::isq::si::hectometre") (.flt .f64)) (.op .mul (.op .div (.num (.flt .f64) 2) (.num (.int .i32) 3)) (.ref n!"units::isq::si::length_references::hm")))),
  (615, .same (.op .mod (.make (.kd (.nm "width_kind") (.nm n!"units::isq::si::metre") (.int .i32)) (.op .mul (.num (.int .i32) 2) (.ref n!"units::isq::si::length_references::m"))) (.make (.alias n!"units::dimensionless" (.nm n!"units::percent") (.int .i32)) (.num (.int .i32) 3))) (.make (.kd (.nm "width_kind") (.nm n!"units::isq::si::metre") (.int .i32)) (.op .mul (.num (.int .i32) 2) (.ref n!"units::isq::si::length_references::m")))),
  (617, .same (.op .div (.make (.kd (.nm "height_kind") (.nm n!"units::isq::si::metre") (.int .i32)) (.op .mul (.num (.int .i32) 2) (.ref n!"units::isq::si::length_references::m"))) (.op .mul (.num (.int .i32) 3) (.ref n!"units::isq::si::length_references::m"))) (.make (.kd (.down "height_kind" (.nm n!"units::dim_one")) (.nm n!"units::one") (.int .i32)) (.num (.int .i32) 0))),
  (619, .same (.op .div (.make (.kd (.nm "height_kind") (.nm n!"units::isq::si::metre") (.int .i32)) (.op .mul (.num (.int .i32) 2) (.ref n!"units::isq::si::length_references::m"))) (.op .mul (.num (.flt .f64) 3) (.ref n!"units::isq::si::length_references::m"))) (.make (.kd (.down "height_kind" (.nm n!"units::dim_one")) (.nm n!"units::one") (.flt .f64)) (.op .div (.num (.int .i32) 2) (.num (.flt .f64) 3)))),
  (621, .same (.op .div (.make (.kd (.nm "height_kind") (.nm n!"units::isq::si::metre") (.flt .f64)) (.op .mul (.num (.flt .f64) 2) (.ref n!"units::isq::si::length_references::m"))) (.op .mul (.num (.int .i32) 3) (.ref n!"units::isq::si::length_references::m"))) (.make (.kd (.down "height_kind" (.nm n!"units::dim_one")) (.nm n!"units::one") (.flt .f64)) (.op .div (.num (.flt .f64) 2) (.num (.int .i32) 3)))),
  (624, .same (.op .div (.op .mul (.num (.int .i32) 2) (.ref n!"units::isq::si::length_references::m")) (.make (.kd (.nm "height_kind") (.nm n!"units::isq::si::metre") (.int .i32)) (.op .mul (.num (.int .i32) 3) (.ref n!"units::isq::si::length_references::m")))) (.make (.kd (.down "height_kind" (.nm n!"units::dim_one")) (.nm n!"units::one") (.int .i32)) (.num (.int .i32) 0))),
  (626, .same (.op .div (.op .mul (.num (.int .i32) 2) (.ref n!"units::isq::si::length_references::m")) (.make (.kd (.nm "height_kind") (.nm n!"units::isq::si::metre") (.flt .f64)) (.op .mul (.num (.flt .f64) 3) (.ref n!"units::isq::si::length_references::m")))) (.make (.kd (.down "height_kind" (.nm n!"units::dim_one")) (.nm n!"units::one") (.flt .f64)) (.op .div (.num (.int .i32) 2) (.num (.flt .f64) 3)))),
  (628, .same (.op .div (.op .mul (.num (.flt .f64) 2) (.ref n!"units::isq::si::length_references::m")) (.make (.kd (.nm "height_kind") (.nm n!"units::isq::si::metre") (.int .i32)) (.op .mul (.num (.int .i32) 3) (.ref n!"units::isq::si::length_references::m")))) (.make (.kd (.down "height_kind" (.nm n!"units::dim_one")) (.nm n!"units::one") (.flt .f64)) (.op .div (.num (.flt .f64) 2) (.num (.int .i32) 3)))),
  (631, .same (.op .div (.make (.kd (.nm "width_kind") (.nm n!"units::isq::si::metre") (.int .i32)) (.op .mul (.num (.int .i32) 8) (.ref n!"units::isq::si::length_references::m"))) (.make (.kd (.nm "width_kind") (.nm n!"units::isq::si::metre") (.int .i32)) (.op .mul (.num (.int .i32) 2) (.ref n!"units::isq::si::length_references::m")))) (.make (.kd (.down "width_kind" (.nm n!"units::dim_one")) (.nm n!"units::one") (.int .i32)) (.num (.int .i32) 4))),
  (633, .same (.op .div (.make (.kd (.nm "width_kind") (.nm n!"units::isq::si::metre") (.int .i32)) (.op .mul (.num (.int .i32) 8) (.ref n!"units::isq::si::length_references::m"))) (.make (.kd (.nm "width_kind") (.nm n!"units::isq::si::metre") (.flt .f64)) (.op .mul (.num (.int .i32) 2) (.ref n!"units::isq::si::length_references::m")))) (.make (.kd (.down "width_kind" (.nm n!"units::dim_one")) (.nm n!"units::one") (.flt .f64)) (.num (.flt .f64) 4))),
  (635, .same (.op .div (.make (.kd (.nm "width_kind") (.nm n!"units::isq::si::metre") (.flt .f64)) (.op .mul (.num (.int .i32) 8) (.ref n!"units::isq::si::length_references::m"))) (.make (.kd (.nm "width_kind") (.nm n!"units::isq::si::metre") (.int .i32)) (.op .mul (.num (.int .i32) 2) (.ref n!"units::isq::si::length_references::m")))) (.make (.kd (.down "width_kind" (.nm n!"units::dim_one")) (.nm n!"units::one") (.flt .f64)) (.num (.flt .f64) 4))),
  (638, .same (.op .div (.make (.kd (.nm "apple") (.nm n!"units::one") (.int .i32)) (.num (.int .i32) 8)) (.make (.kd (.nm "apple") (.nm n!"units::one") (.int .i32)) (.num (.int .i32) 2))) (.make (.kd (.nm "apple") (.nm n!"units::one") (.int .i32)) (.num (.int .i32) 4))),
  (639, .same (.op .div (.make (.kd (.nm "apple") (.nm n!"units::one") (.int .i32)) (.num (.int .i32) 8)) (.op .div (.num (.int .i32) 2) (.make (.kd (.nm "apple") (.nm n!"units::one") (.int .i32)) (.num (.int .i32) 1)))) (.make (.kd (.nm "apple") (.nm n!"units::one") (.int .i32)) (.num (.int .i32) 4))),
  (641, .same (.op .div (.make (.kd (.nm "horizontal_area_kind") (.nm n!"units::isq::si::square_metre") (.flt .f64)) (.op .mul (.num (.int .i32) 8) (.op .mul (.ref n!"units::isq::si::length_references::m") (.ref n!"units::isq::si::length_references::m")))) (.make (.kd (.nm "width_kind") (.nm n!"units::isq::si::metre") (.flt .f64)) (.op .mul (.num (.int .i32) 2) (.ref n!"units::isq::si::length_references::m")))) (.make (.kd (.nm "width_kind") (.nm n!"units::isq::si::metre") (.flt .f64)) (.op .mul (.num (.int .i32) 4) (.ref n!"units::isq::si::length_references::m")))),
  (642, .same (.op .div (.make (.kd (.nm "horizontal_area_kind") (.nm n!"units::isq::si::square_metre") (.flt .f64)) (.op .mul (.num (.int .i32) 4) (.op .mul (.ref n!"units::isq::si::length_references::m") (.ref n!"units::isq::si::length_references::m")))) (.op .mul (.num (.int .i32) 1) (.ref n!"units::isq::si::length_references::m"))) (.make (.kd (.nm "width_kind") (.nm n!"units::isq::si::metre") (.flt .f64)) (.op .mul (.num (.int .i32) 4) (.ref n!"units::isq::si::length_references::m")))),
  (644, .same (.op .mod (.make (.kd (.nm "width_kind") (.nm n!"units::isq::si::metre") (.int .i32)) (.op .mul (.num (.int .i32) 2) (.ref n!"units::isq::si::length_references::m"))) (.num (.int .i32) 3)) (.make (.kd (.nm "width_kind") (.nm n!"units::isq::si::metre") (.int .i32)) (.op .mul (.num (.int .i32) 2) (.ref n!"units::isq::si::length_references::m")))),
  (645, .same (.op .mod (.make (.kd (.nm "width_kind") (.nm n!"units::isq::si::metre") (.int .i32)) (.op .mul (.num (.int .i32) 3) (.ref n!"units::isq::si::length_references::m"))) (.make (.kd (.nm "width_kind") (.nm n!"units::isq::si::metre") (.int .i32)) (.op .mul (.num (.int .i32) 2) (.ref n!"units::isq::si::length_references::m")))) (.make (.kd (.nm "width_kind") (.nm n!"units::isq::si::metre") (.int .i32)) (.op .mul (.num (.int .i32) 1) (.ref n!"units::isq::si::length_references::m")))),
  (647, .sameType (.number (.common (.op .mod (.make (.kd (.nm "width_kind") (.nm n!"units::isq::si::metre") (.int .u8)) (.op .mul (.num (.int .i32) 1) (.ref n!"units::isq::si::length_references::m"))) (.make (.kd (.nm "width_kind") (.nm n!"units::isq::si::metre") (.int .u8)) (.op .mul (.num (.int .i32) 1) (.ref n!"units::isq::si::length_references::m")))))) (.op .mod (.make (.rep (.int .u8)) (.num (.int .i32) 1)) (.make (.rep (.int .u8)) (.num (.int .i32) 1)))),
  (651, .not (.not (.rejected (.op .mul (.obj (.ref (.nm n!"units::isq::si::dim_length") (.nm n!"units::isq::si::metre")) 1) (.obj (.kd (.nm "width_kind") (.nm n!"units::isq::si::metre") (.flt .f64)) 1))))),
  (652, .not (.not (.rejected (.op .mul (.obj (.kd (.nm "width_kind") (.nm n!"units::isq::si::metre") (.flt .f64)) 1) (.obj (.kd (.nm "height_kind") (.nm n!"units::isq::si::metre") (.flt .f64)) 1))))),
  (653, .not (.not (.rejected (.op .mul (.obj (.kd (.nm "height_kind") (.nm n!"units::isq::si::metre") (.flt .f64)) 1) (.obj (.pt (.dyn (.nm n!"units::isq::si::dim_length")) (.nm n!"units::isq::si::metre") (.flt .f64)) 1))))),
  (654, .not (.not (.rejected (.op .mul (.obj (.pt (.dyn (.nm n!"units::isq::si::dim_length")) (.nm n!"units::isq::si::metre") (.flt .f64)) 1) (.obj (.kd (.nm "height_kind") (.nm n!"units::isq::si::metre") (.flt .f64)) 1))))),
  (656, .not (.not (.rejected (.op .div (.obj (.ref (.nm n!"units::isq::si::dim_length") (.nm n!"units::isq::si::metre")) 1) (.obj (.kd (.nm "width_kind") (.nm n!"units::isq::si::metre") (.flt .f64)) 1))))),
  (657, .not (.not (.rejected (.op .div (.obj (.kd (.nm "width_kind") (.nm n!"units::isq::si::metre") (.flt .f64)) 1) (.obj (.kd (.nm "height_kind") (.nm n!"units::isq::si::metre") (.flt .f64)) 1))))),
  (658, .not (.not (.rejected (.op .div (.obj (.kd (.nm "height_kind") (.nm n!"units::isq::si::metre") (.flt .f64)) 1) (.obj (.pt (.dyn (.nm n!"units::isq::si::dim_length")) (.nm n!"units::isq::si::metre") (.flt .f64)) 1))))),
  (659, .not (.not (.rejected (.op .div (.obj (.pt (.dyn (.nm n!"units::isq::si::dim_length")) (.nm n!"units::isq::si::metre") (.flt .f64)) 1) (.obj (.kd (.nm "height_kind") (.nm n!"units::isq::si::metre") (.flt .f64)) 1))))),
  (661, .not (.not (.rejected (.op .mod (.obj (.kd (.nm "width_kind") (.nm n!"units::isq::si::metre") (.int .i32)) 1) (.obj (.ref (.nm n!"units::isq::si::dim_length") (.nm n!"units::isq::si::metre")) 1))))),
  (662, .not (.not (.rejected (.op .mod (.obj (.kd (.nm "width_kind") (.nm n!"units::isq::si::metre") (.int .i32)) 1) (.obj (.alias n!"units::isq::si::length" (.nm n!"units::isq::si::metre") (.int .i32)) 1))))),
  (663, .not (.not (.rejected (.op .mod (.obj (.kd (.nm "width_kind") (.nm n!"units::isq::si::metre") (.int .i32)) 1) (.obj (.pt (.dyn (.nm n!"units::isq::si::dim_length")) (.nm n!"units::isq::si::metre") (.int .i32)) 1))))),
  (664, .not (.not (.rejected (.op .mod (.obj (.kd (.nm "width_kind") (.nm n!"units::isq::si::metre") (.int .i32)) 1) (.obj (.rep (.flt .f64)) 1))))),
  (665, .not (.not (.rejected (.op .mod (.obj (.kd (.nm "width_kind") (.nm n!"units::isq::si::metre") (.int .i32)) 1) (.obj (.kd (.nm "width_kind") (.nm n!"units::isq::si::metre") (.flt .f64)) 1))))),
  (668, .not (.not (.rejected (.op .mul (.obj (.kd (.down "width_kind" (.nm n!"units::dim_one")) (.nm n!"units::one") (.flt .f64)) 1) (.obj (.kd (.down "height_kind" (.nm n!"units::dim_one")) (.nm n!"units::one") (.flt .f64)) 1))))),
  (669, .not (.not (.rejected (.op .mul (.obj (.kd (.down "width_kind" (.nm n!"units::dim_one")) (.nm n!"units::one") (.flt .f64)) 1) (.obj (.kd (.nm "height_kind") (.nm n!"units::isq::si::metre") (.flt .f64)) 1))))),
  (670, .not (.not (.rejected (.op .mul (.obj (.kd (.nm "width_kind") (.nm n!"units::isq::si::metre") (.flt .f64)) 1) (.obj (.kd (.down "height_kind" (.nm n!"units::dim_one")) (.nm n!"units::one") (.flt .f64)) 1))))),
  (671, .not (.not (.rejected (.op .mul (.obj (.kd (.down "width_kind" (.nm n!"units::isq::si::dim_time")) (.nm n!"units::isq::si::day") (.flt .f64)) 1) (.obj (.kd (.nm "height_kind") (.nm n!"units::isq::si::metre") (.flt .f64)) 1))))),
  (672, .not (.not (.rejected (.op .mul (.obj (.kd (.nm "width_kind") (.nm n!"units::isq::si::metre") (.flt .f64)) 1) (.obj (.kd (.down "height_kind" (.nm n!"units::isq::si::dim_time")) (.nm n!"units::isq::si::day") (.flt .f64)) 1))))),
  (673, .not (.not (.rejected (.op .mul (.obj (.kd (.down "width_kind" (.nm n!"units::isq::si::dim_time")) (.nm n!"units::isq::si::day") (.flt .f64)) 1) (.obj (.kd (.down "height_kind" (.nm n!"units::isq::si::dim_time")) (.nm n!"units::isq::si::day") (.flt .f64)) 1))))),
  (674, .not (.not (.rejected (.op .div (.obj (.kd (.down "width_kind" (.nm n!"units::dim_one")) (.nm n!"units::one") (.flt .f64)) 1) (.obj (.kd (.down "height_kind" (.nm n!"units::dim_one")) (.nm n!"units::one") (.flt .f64)) 1))))),
  (675, .not (.not (.rejected (.op .div (.obj (.kd (.down "width_kind" (.nm n!"units::dim_one")) (.nm n!"units::one") (.flt .f64)) 1) (.obj (.kd (.nm "height_kind") (.nm n!"units::isq::si::metre") (.flt .f64)) 1))))),
  (676, .not (.not (.rejected (.op .div (.obj (.kd (.nm "width_kind") (.nm n!"units::isq::si::metre") (.flt .f64)) 1) (.obj (.kd (.down "height_kind" (.nm n!"units::dim_one")) (.nm n!"units::one") (.flt .f64)) 1))))),
  (677, .not (.not (.rejected (.op .div (.obj (.kd (.down "width_kind" (.nm n!"units::isq::si::dim_time")) (.nm n!"units::isq::si::day") (.flt .f64)) 1) (.obj (.kd (.nm "height_kind") (.nm n!"units::isq::si::metre") (.flt .f64)) 1))))),
  (678, .not (.not (.rejected (.op .div (.obj (.kd (.nm "width_kind") (.nm n!"units::isq::si::metre") (.flt .f64)) 1) (.obj (.kd (.down "height_kind" (.nm n!"units::isq::si::dim_time")) (.nm n!"units::isq::si::day") (.flt .f64)) 1))))),
  (679, .not (.not (.rejected (.op .div (.obj (.kd (.down "width_kind" (.nm n!"units::isq::si::dim_time")) (.nm n!"units::isq::si::day") (.flt .f64)) 1) (.obj (.kd (.down "height_kind" (.nm n!"units::isq::si::dim_time")) (.nm n!"units::isq::si::day") (.flt .f64)) 1))))),
  (680, .not (.not (.rejected (.op .mod (.obj (.kd (.down "width_kind" (.nm n!"units::dim_one")) (.nm n!"units::one") (.flt .f64)) 1) (.obj (.kd (.down "height_kind" (.nm n!"units::dim_one")) (.nm n!"units::one") (.flt .f64)) 1))))),
  (681, .not (.not (.rejected (.op .mod (.obj (.kd (.down "width_kind" (.nm n!"units::dim_one")) (.nm n!"units::one") (.flt .f64)) 1) (.obj (.kd (.nm "height_kind") (.nm n!"units::isq::si::metre") (.flt .f64)) 1))))),
  (682, .not (.not (.rejected (.op .mod (.obj (.kd (.nm "width_kind") (.nm n!"units::isq::si::metre") (.flt .f64)) 1) (.obj (.kd (.down "height_kind" (.nm n!"units::dim_one")) (.nm n!"units::one") (.flt .f64)) 1))))),
  (683, .not (.not (.rejected (.op .mod (.obj (.kd (.down "width_kind" (.nm n!"units::isq::si::dim_time")) (.nm n!"units::isq::si::day") (.flt .f64)) 1) (.obj (.kd (.nm "height_kind") (.nm n!"units::isq::si::metre") (.flt .f64)) 1))))),
  (684, .not (.not (.rejected (.op .mod (.obj (.kd (.nm "width_kind") (.nm n!"units::isq::si::metre") (.flt .f64)) 1) (.obj (.kd (.down "height_kind" (.nm n!"units::isq::si::dim_time")) (.nm n!"units::isq::si::day") (.flt .f64)) 1))))),
  (685, .not (.not (.rejected (.op .mod (.obj (.kd (.down "width_kind" (.nm n!"units::isq::si::dim_time")) (.nm n!"units::isq::si::day") (.flt .f64)) 1) (.obj (.kd (.down "height_kind" (.nm n!"units::isq::si::dim_time")) (.nm n!"units::isq::si::day") (.flt .f64)) 1))))),
  (693, .cmp .eq (.make (.kd (.nm "width_kind") (.nm n!"units::isq::si::metre") (.int .i32)) (.op .mul (.num (.int .i32) 1) (.ref n!"units::isq::si::length_references::m"))) (.make (.kd (.nm "width_kind") (.nm n!"units::isq::si::metre") (.int .i32)) (.op .mul (.num (.int .i32) 1) (.ref n!"units::isq::si::length_references::m")))),
  (694, .cmp .eq (.make (.kd (.nm "width_kind") (.nm n!"units::isq::si::metre") (.int .i32)) (.op .mul (.num (.int .i32) 1) (.ref n!"units::isq::si::length_references::m"))) (.make (.kd (.nm "width_kind") (.nm n!"units::isq::si::metre") (.flt .f64)) (.op .mul (.num (.flt .f64) 1) (.ref n!"units::isq::si::length_references::m")))),
  (695, .cmp .eq (.make (.kd (.nm "width_kind") (.nm n!"units::isq::si::metre") (.int .i32)) (.op .mul (.num (.int .i32) 1) (.ref n!"units::isq::si::length_references::m"))) (.make (.kd (.nm "width_kind") (.nm n!"units::isq::si::millimetre") (.int .i32)) (.op .mul (.num (.int .i32) 1000) (.ref n!"units::isq::si::length_references::mm")))),
  (696, .cmp .eq (.make (.kd (.nm "width_kind") (.nm n!"units::isq::si::metre") (.int .i32)) (.op .mul (.num (.int .i32) 1) (.ref n!"units::isq::si::length_references::m"))) (.make (.kd (.nm "width_kind") (.nm n!"units::isq::si::millimetre") (.flt .f64)) (.op .mul (.num (.flt .f64) 1000) (.ref n!"units::isq::si::length_references::mm")))),
  (697, .cmp .ne (.make (.kd (.nm "width_kind") (.nm n!"units::isq::si::metre") (.int .i32)) (.op .mul (.num (.int .i32) 2) (.ref n!"units::isq::si::length_references::m"))) (.make (.kd (.nm "width_kind") (.nm n!"units::isq::si::metre") (.int .i32)) (.op .mul (.num (.int .i32) 1) (.ref n!"units::isq::si::length_references::m")))),
  (698, .cmp .ne (.make (.kd (.nm "width_kind") (.nm n!"units::isq::si::metre") (.int .i32)) (.op .mul (.num (.int .i32) 2) (.ref n!"units::isq::si::length_references::m"))) (.make (.kd (.nm "width_kind") (.nm n!"units::isq::si::cgs::centimetre") (.flt .f64)) (.op .mul (.num (.flt .f64) 1) (.ref n!"units::isq::si::cgs::length_references::cm")))),
  (699, .eqWith (.obj (.kd (.nm "width_kind") (.nm n!"units::isq::si::metre") (.int .i32)) 1) (.obj (.kd (.nm "width_kind") (.nm n!"units::isq::si::metre") (.flt .f64)) 1)),
  (700, .eqWith (.obj (.kd (.nm "width_kind") (.nm n!"units::isq::si::nanometre") (.int .i32)) 1) (.obj (.kd (.nm "width_kind") (.nm n!"units::isq::si::kilometre") (.int .i32)) 1)),
  (701, .eqWith (.obj (.kd (.nm "width_kind") (.nm n!"units::isq::si::cgs::centimetre") (.int .i32)) 1) (.obj (.kd (.nm "width_kind") (.nm n!"units::isq::si::millimetre") (.flt .f64)) 1)),
  (702, .eqWith (.obj (.kd (.nm "width_kind") (.nm n!"units::isq::si::metre") (.flt .f64)) 1) (.obj (.kd (.nm "width_kind") (.nm n!"units::isq::si::cgs::centimetre") (.flt .f64)) 1)),
  (723, .noCmp .eq (.obj (.kd (.nm "width_kind") (.nm n!"units::isq::si::metre") (.int .i32)) 1) (.num (.int .i32) 1)),
  (723, .noCmp .ne (.obj (.kd (.nm "width_kind") (.nm n!"units::isq::si::metre") (.int .i32)) 1) (.num (.flt .f64) 1)),
  (723, .noCmp .eq (.obj (.kd (.nm "width_kind") (.nm n!"units::isq::si::metre") (.int .i32)) 1) (.op .mul (.num (.int .i32) 1) (.ref n!"units::isq::si::length_references::m"))),
  (723, .noCmp .ne (.obj (.kd (.nm "width_kind") (.nm n!"units::isq::si::metre") (.int .i32)) 1) (.op .mul (.num (.flt .f64) 1) (.ref n!"units::isq::si::cgs::length_references::cm"))),
  (723, .noCmp .eq (.obj (.kd (.nm "width_kind") (.nm n!"units::isq::si::metre") (.int .i32)) 1) (.op .mul (.num (.int .i32) 1) (.ref n!"units::isq::si::length_references::km"))),
  (723, .noCmp .ne (.obj (.kd (.nm "width_kind") (.nm n!"units::isq::si::metre") (.int .i32)) 1) (.ref n!"units::isq::si::length_references::m")),
  (723, .noCmp .eq (.obj (.kd (.nm "width_kind") (.nm n!"units::isq::si::metre") (.int .i32)) 1) (.ref n!"units::isq::si::length_references::km")),
  (723, .noCmp .ne (.obj (.kd (.nm "width_kind") (.nm n!"units::isq::si::metre") (.int .i32)) 1) (.deduceQty (.num (.int .i32) 1))),
  (723, .noCmp .eq (.obj (.kd (.nm "width_kind") (.nm n!"units::isq::si::metre") (.int .i32)) 1) (.make (.alias n!"units::dimensionless" (.nm n!"units::percent") (.flt .f64)) (.num (.flt .f64) 1))),
  (723, .noCmp .ne (.obj (.kd (.nm "width_kind") (.nm n!"units::isq::si::metre") (.int .i32)) 1) (.make (.kd (.nm "height_kind") (.nm n!"units::isq::si::metre") (.int .i32)) (.op .mul (.num (.int .i32) 1) (.ref n!"units::isq::si::length_references::m")))),
  (723, .noCmp .eq (.obj (.kd (.nm "width_kind") (.nm n!"units::isq::si::metre") (.int .i32)) 1) (.make (.kd (.nm "height_kind") (.nm n!"units::isq::si::kilometre") (.flt .f64)) (.op .mul (.num (.flt .f64) 1) (.ref n!"units::isq::si::length_references::km")))),
  (723, .noCmp .ne (.obj (.kd (.nm "width_kind") (.nm n!"units::isq::si::metre") (.int .i32)) 1) (.make (.kd (.nm "horizontal_area_kind") (.nm n!"units::isq::si::square_metre") (.int .i32)) (.op .mul (.num (.int .i32) 1) (.op .mul (.ref n!"units::isq::si::length_references::m") (.ref n!"units::isq::si::length_references::m"))))),
  (723, .noCmp .eq (.obj (.kd (.nm "width_kind") (.nm n!"units::isq::si::metre") (.int .i32)) 1) (.make (.kd (.nm "rate_of_climb_kind") (.nm n!"units::isq::si::kilometre_per_hour") (.flt .f64)) (.op .mul (.num (.flt .f64) 1) (.op .div (.ref n!"units::isq::si::length_references::km") (.ref n!"units::isq::si::time_references::h"))))),
  (723, .noCmp .ne (.obj (.kd (.nm "width_kind") (.nm n!"units::isq::si::metre") (.int .i32)) 1) (.deducePt (.op .mul (.num (.int .i32) 1) (.ref n!"units::isq::si::length_references::m")))),
  (723, .noCmp .eq (.obj (.kd (.nm "width_kind") (.nm n!"units::isq::si::metre") (.int .i32)) 1) (.deducePt (.op .mul (.num (.flt .f64) 1) (.ref n!"units::isq::si::length_references::mm")))),
  (723, .noCmp .ne (.obj (.kd (.nm "width_kind") (.nm n!"units::isq::si::metre") (.int .i32)) 1) (.deducePt (.deduceQty (.num (.int .i32) 1)))),
  (723, .noCmp .eq (.obj (.kd (.nm "width_kind") (.nm n!"units::isq::si::metre") (.int .i32)) 1) (.deducePt (.make (.alias n!"units::dimensionless" (.nm n!"units::percent") (.flt .f64)) (.num (.flt .f64) 1)))),
  (725, .cmp .lt (.make (.kd (.nm "width_kind") (.nm n!"units::isq::si::metre") (.int .i32)) (.op .mul (.num (.int .i32) 1) (.ref n!"units::isq::si::length_references::m"))) (.make (.kd (.nm "width_kind") (.nm n!"units::isq::si::metre") (.int .i32)) (.op .mul (.num (.int .i32) 2) (.ref n!"units::isq::si::length_references::m")))),
  (726, .cmp .le (.make (.kd (.nm "width_kind") (.nm n!"units::isq::si::metre") (.int .i32)) (.op .mul (.num (.int .i32) 1) (.ref n!"units::isq::si::length_references::m"))) (.make (.kd (.nm "width_kind") (.nm n!"units::isq::si::metre") (.flt .f64)) (.op .mul (.num (.flt .f64) 2) (.ref n!"units::isq::si::length_references::m")))),
  (727, .cmp .le (.make (.kd (.nm "width_kind") (.nm n!"units::isq::si::metre") (.int .i32)) (.op .mul (.num (.int .i32) 1) (.ref n!"units::isq::si::length_references::m"))) (.make (.kd (.nm "width_kind") (.nm n!"units::isq::si::kilometre") (.int .i32)) (.op .mul (.num (.int .i32) 1) (.ref n!"units::isq::si::length_references::km")))),
  (728, .cmp .ge (.make (.kd (.nm "width_kind") (.nm n!"units::isq::si::metre") (.int .i32)) (.op .mul (.num (.int .i32) 1) (.ref n!"units::isq::si::length_references::m"))) (.make (.kd (.nm "width_kind") (.nm n!"units::isq::si::millimetre") (.flt .f64)) (.op .mul (.num (.flt .f64) 1000) (.ref n!"units::isq::si::length_references::mm")))),
  (729, .cmp .ge (.make (.kd (.nm "width_kind") (.nm n!"units::isq::si::metre") (.int .i32)) (.op .mul (.num (.int .i32) 2) (.ref n!"units::isq::si::length_references::m"))) (.make (.kd (.nm "width_kind") (.nm n!"units::isq::si::millimetre") (.int .i32)) (.op .mul (.num (.int .i32) 1) (.ref n!"units::isq::si::length_references::mm")))),
  (730, .cmp .gt (.make (.kd (.nm "width_kind") (.nm n!"units::isq::si::metre") (.int .i32)) (.op .mul (.num (.int .i32) 2) (.ref n!"units::isq::si::length_references::m"))) (.make (.kd (.nm "width_kind") (.nm n!"units::isq::si::cgs::centimetre") (.int .i32)) (.op .mul (.num (.int .i32) 1) (.ref n!"units::isq::si::cgs::length_references::cm")))),
  (731, .cmpWith (.obj (.kd (.nm "width_kind") (.nm n!"units::isq::si::metre") (.int .i32)) 1) (.obj (.kd (.nm "width_kind") (.nm n!"units::isq::si::metre") (.flt .f64)) 1)),
  (732, .cmpWith (.obj (.kd (.nm "width_kind") (.nm n!"units::isq::si::nanometre") (.int .i32)) 1) (.obj (.kd (.nm "width_kind") (.nm n!"units::isq::si::kilometre") (.int .i32)) 1)),
  (733, .cmpWith (.obj (.kd (.nm "width_kind") (.nm n!"units::isq::si::cgs::centimetre") (.int .i32)) 1) (.obj (.kd (.nm "width_kind") (.nm n!"units::isq::si::millimetre") (.flt .f64)) 1)),
  (734, .cmpWith (.obj (.kd (.nm "width_kind") (.nm n!"units::isq::si::metre") (.flt .f64)) 1) (.obj (.kd (.nm "width_kind") (.nm n!"units::isq::si::cgs::centimetre") (.flt .f64)) 1)),
  (753, .noCmp .lt (.obj (.kd (.nm "width_kind") (.nm n!"units::isq::si::metre") (.int .i32)) 1) (.num (.int .i32) 1)),
  (753, .noCmp .le (.obj (.kd (.nm "width_kind") (.nm n!"units::isq::si::metre") (.int .i32)) 1) (.num (.flt .f64) 1)),
  (753, .noCmp .ge (.obj (.kd (.nm "width_kind") (.nm n!"units::isq::si::metre") (.int .i32)) 1) (.op .mul (.num (.int .i32) 1) (.ref n!"units::isq::si::length_references::m"))),
  (753, .noCmp .gt (.obj (.kd (.nm "width_kind") (.nm n!"units::isq::si::metre") (.int .i32)) 1) (.op .mul (.num (.flt .f64) 1) (.ref n!"units::isq::si::cgs::length_references::cm"))),
  (753, .noCmp .lt (.obj (.kd (.nm "width_kind") (.nm n!"units::isq::si::metre") (.int .i32)) 1) (.op .mul (.num (.int .i32) 1) (.ref n!"units::isq::si::length_references::km"))),
  (753, .noCmp .lt (.obj (.kd (.nm "width_kind") (.nm n!"units::isq::si::metre") (.int .i32)) 1) (.deduceQty (.num (.int .i32) 1))),
  (753, .noCmp .le (.obj (.kd (.nm "width_kind") (.nm n!"units::isq::si::metre") (.int .i32)) 1) (.make (.alias n!"units::dimensionless" (.nm n!"units::percent") (.flt .f64)) (.num (.flt .f64) 1))),
  (753, .noCmp .ge (.obj (.kd (.nm "width_kind") (.nm n!"units::isq::si::metre") (.int .i32)) 1) (.make (.kd (.nm "height_kind") (.nm n!"units::isq::si::metre") (.int .i32)) (.op .mul (.num (.int .i32) 1) (.ref n!"units::isq::si::length_references::m")))),
  (753, .noCmp .gt (.obj (.kd (.nm "width_kind") (.nm n!"units::isq::si::metre") (.int .i32)) 1) (.make (.kd (.nm "height_kind") (.nm n!"units::isq::si::kilometre") (.flt .f64)) (.op .mul (.num (.flt .f64) 1) (.ref n!"units::isq::si::length_references::km")))),
  (753, .noCmp .lt (.obj (.kd (.nm "width_kind") (.nm n!"units::isq::si::metre") (.int .i32)) 1) (.make (.kd (.nm "horizontal_area_kind") (.nm n!"units::isq::si::square_metre") (.int .i32)) (.op .mul (.num (.int .i32) 1) (.op .mul (.ref n!"units::isq::si::length_references::m") (.ref n!"units::isq::si::length_references::m"))))),
  (753, .noCmp .lt (.obj (.kd (.nm "width_kind") (.nm n!"units::isq::si::metre") (.int .i32)) 1) (.make (.kd (.nm "rate_of_climb_kind") (.nm n!"units::isq::si::kilometre_per_hour") (.flt .f64)) (.op .mul (.num (.flt .f64) 1) (.op .div (.ref n!"units::isq::si::length_references::km") (.ref n!"units::isq::si::time_references::h"))))),
  (753, .noCmp .le (.obj (.kd (.nm "width_kind") (.nm n!"units::isq::si::metre") (.int .i32)) 1) (.deducePt (.op .mul (.num (.int .i32) 1) (.ref n!"units::isq::si::length_references::m")))),
  (753, .noCmp .ge (.obj (.kd (.nm "width_kind") (.nm n!"units::isq::si::metre") (.int .i32)) 1) (.deducePt (.op .mul (.num (.flt .f64) 1) (.ref n!"units::isq::si::length_references::mm")))),
  (753, .noCmp .gt (.obj (.kd (.nm "width_kind") (.nm n!"units::isq::si::metre") (.int .i32)) 1) (.deducePt (.deduceQty (.num (.int .i32) 1)))),
  (753, .noCmp .lt (.obj (.kd (.nm "width_kind") (.nm n!"units::isq::si::metre") (.int .i32)) 1) (.deducePt (.make (.alias n!"units::dimensionless" (.nm n!"units::percent") (.flt .f64)) (.num (.flt .f64) 1)))),
  (761, .same (.cast (.ty (.kd (.nm "width_kind") (.nm n!"units::isq::si::metre") (.int .i32))) (.make (.kd (.nm "width_kind") (.nm n!"units::isq::si::metre") (.int .i32)) (.op .mul (.num (.int .i32) 1) (.ref n!"units::isq::si::length_references::m")))) (.make (.kd (.nm "width_kind") (.nm n!"units::isq::si::metre") (.int .i32)) (.op .mul (.num (.int .i32) 1) (.ref n!"units::isq::si::length_references::m")))),
  (762, .same (.cast (.ty (.kd (.nm "width_kind") (.nm n!"units::isq::si::metre") (.flt .f64))) (.make (.kd (.nm "width_kind") (.nm n!"units::isq::si::metre") (.int .i32)) (.op .mul (.num (.int .i32) 1) (.ref n!"units::isq::si::length_references::m")))) (.make (.kd (.nm "width_kind") (.nm n!"units::isq::si::metre") (.flt .f64)) (.op .mul (.num (.flt .f64) 1) (.ref n!"units::isq::si::length_references::m")))),
  (763, .same (.cast (.ty (.kd (.nm "width_kind") (.nm n!"units::isq::si::kilometre") (.int .i32))) (.make (.kd (.nm "width_kind") (.nm n!"units::isq::si::metre") (.int .i32)) (.op .mul (.num (.int .i32) 999) (.ref n!"units::isq::si::length_references::m")))) (.make (.kd (.nm "width_kind") (.nm n!"units::isq::si::kilometre") (.int .i32)) (.op .mul (.num (.int .i32) 0) (.ref n!"units::isq::si::length_references::km")))),
  (764, .same (.cast (.ty (.kd (.nm "width_kind") (.nm n!"units::isq::si::kilometre") (.int .i32))) (.make (.kd (.nm "width_kind") (.nm n!"units::isq::si::metre") (.int .i32)) (.op .mul (.num (.int .i32) 1000) (.ref n!"units::isq::si::length_references::m")))) (.make (.kd (.nm "width_kind") (.nm n!"units::isq::si::kilometre") (.int .i32)) (.op .mul (.num (.int .i32) 1) (.ref n!"units::isq::si::length_references::km")))),
  (765, .same (.cast (.ty (.kd (.nm "width_kind") (.nm n!"units::isq::si::kilometre") (.flt .f64))) (.make (.kd (.nm "width_kind") (.nm n!"units::isq::si::metre") (.int .i32)) (.op .mul (.num (.int .i32) 999) (.ref n!"units::isq::si::length_references::m")))) (.make (.kd (.nm "width_kind") (.nm n!"units::isq::si::kilometre") (.flt .f64)) (.op .mul (.num (.flt .f64) (999 / 1000)) (.ref n!"units::isq::si::length_references::km")))),
  (766, .same (.cast (.ty (.rep (.flt .f64))) (.make (.kd (.nm "width_kind") (.nm n!"units::isq::si::metre") (.int .i32)) (.op .mul (.num (.int .i32) 1) (.ref n!"units::isq::si::length_references::m")))) (.make (.kd (.nm "width_kind") (.nm n!"units::isq::si::metre") (.flt .f64)) (.op .mul (.num (.flt .f64) 1) (.ref n!"units::isq::si::length_references::m")))),
  (767, .same (.cast (.unit (.nm n!"units::isq::si::metre")) (.make (.kd (.nm "width_kind") (.nm n!"units::isq::si::metre") (.int .i32)) (.op .mul (.num (.int .i32) 1) (.ref n!"units::isq::si::length_references::m")))) (.make (.kd (.nm "width_kind") (.nm n!"units::isq::si::metre") (.int .i32)) (.op .mul (.num (.int .i32) 1) (.ref n!"units::isq::si::length_references::m")))),
  (768, .same (.cast (.unit (.nm n!"units::isq::si::kilometre")) (.make (.kd (.nm "width_kind") (.nm n!"units::isq::si::metre") (.int .i32)) (.op .mul (.num (.int .i32) 999) (.ref n!"units::isq::si::length_references::m")))) (.make (.kd (.nm "width_kind") (.nm n!"units::isq::si::kilometre") (.int .i32)) (.op .mul (.num (.int .i32) 0) (.ref n!"units::isq::si::length_references::km")))),
  (769, .same (.cast (.unit (.nm n!"units::isq::si::kilometre")) (.make (.kd (.nm "width_kind") (.nm n!"units::isq::si::metre") (.int .i32)) (.op .mul (.num (.int .i32) 1000) (.ref n!"units::isq::si::length_references::m")))) (.make (.kd (.nm "width_kind") (.nm n!"units::isq::si::kilometre") (.int .i32)) (.op .mul (.num (.int .i32) 1) (.ref n!"units::isq::si::length_references::km")))),
  (770, .same (.cast (.ty (.kd (.nm "height_kind") (.nm n!"units::isq::si::metre") (.int .i32))) (.make (.kd (.nm "width_kind") (.nm n!"units::isq::si::metre") (.int .i32)) (.op .mul (.num (.int .i32) 1) (.ref n!"units::isq::si::length_references::m")))) (.make (.kd (.nm "height_kind") (.nm n!"units::isq::si::metre") (.int .i32)) (.op .mul (.num (.int .i32) 1) (.ref n!"units::isq::si::length_references::m")))),
  (771, .same (.cast (.ty (.kd (.nm "height_kind") (.nm n!"units::isq::si::metre") (.flt .f64))) (.make (.kd (.nm "width_kind") (.nm n!"units::isq::si::metre") (.int .i32)) (.op .mul (.num (.int .i32) 1) (.ref n!"units::isq::si::length_references::m")))) (.make (.kd (.nm "height_kind") (.nm n!"units::isq::si::metre") (.flt .f64)) (.op .mul (.num (.flt .f64) 1) (.ref n!"units::isq::si::length_references::m")))),
  (772, .same (.cast (.ty (.kd (.nm "height_kind") (.nm n!"units::isq::si::kilometre") (.int .i32))) (.make (.kd (.nm "width_kind") (.nm n!"units::isq::si::metre") (.int .i32)) (.op .mul (.num (.int .i32) 999) (.ref n!"units::isq::si::length_references::m")))) (.make (.kd (.nm "height_kind") (.nm n!"units::isq::si::kilometre") (.int .i32)) (.op .mul (.num (.int .i32) 0) (.ref n!"units::isq::si::length_references::km")))),
  (773, .same (.cast (.ty (.kd (.nm "height_kind") (.nm n!"units::isq::si::kilometre") (.int .i32))) (.make (.kd (.nm "width_kind") (.nm n!"units::isq::si::metre") (.int .i32)) (.op .mul (.num (.int .i32) 1000) (.ref n!"units::isq::si::length_references::m")))) (.make (.kd (.nm "height_kind") (.nm n!"units::isq::si::kilometre") (.int .i32)) (.op .mul (.num (.int .i32) 1) (.ref n!"units::isq::si::length_references::km")))),
  (774, .same (.cast (.ty (.kd (.nm "height_kind") (.nm n!"units::isq::si::kilometre") (.flt .f64))) (.make (.kd (.nm "width_kind") (.nm n!"units::isq::si::metre") (.int .i32)) (.op .mul (.num (.int .i32) 999) (.ref n!"units::isq::si::length_references::m")))) (.make (.kd (.nm "height_kind") (.nm n!"units::isq::si::kilometre") (.flt .f64)) (.op .mul (.num (.flt .f64) (999 / 1000)) (.ref n!"units::isq::si::length_references::km")))),
  (775, .same (.cast (.kind (.nm "height_kind")) (.make (.kd (.nm "width_kind") (.nm n!"units::isq::si::metre") (.int .i32)) (.op .mul (.num (.int .i32) 1) (.ref n!"units::isq::si::length_references::m")))) (.make (.kd (.nm "height_kind") (.nm n!"units::isq::si::metre") (.int .i32)) (.op .mul (.num (.int .i32) 1) (.ref n!"units::isq::si::length_references::m")))),
  (776, .same (.cast (.kindUnit (.nm "height_kind") (.nm n!"units::isq::si::metre")) (.make (.kd (.nm "width_kind") (.nm n!"units::isq::si::metre") (.int .i32)) (.op .mul (.num (.int .i32) 1) (.ref n!"units::isq::si::length_references::m")))) (.make (.kd (.nm "height_kind") (.nm n!"units::isq::si::metre") (.int .i32)) (.op .mul (.num (.int .i32) 1) (.ref n!"units::isq::si::length_references::m")))),
  (777, .same (.cast (.kindUnit (.nm "height_kind") (.nm n!"units::isq::si::kilometre")) (.make (.kd (.nm "width_kind") (.nm n!"units::isq::si::metre") (.int .i32)) (.op .mul (.num (.int .i32) 999) (.ref n!"units::isq::si::length_references::m")))) (.make (.kd (.nm "height_kind") (.nm n!"units::isq::si::kilometre") (.int .i32)) (.op .mul (.num (.int .i32) 0) (.ref n!"units::isq::si::length_references::km")))),
  (778, .same (.cast (.kindUnit (.nm "height_kind") (.nm n!"units::isq::si::kilometre")) (.make (.kd (.nm "width_kind") (.nm n!"units::isq::si::metre") (.int .i32)) (.op .mul (.num (.int .i32) 1000) (.ref n!"units::isq::si::length_references::m")))) (.make (.kd (.nm "height_kind") (.nm n!"units::isq::si::kilometre") (.int .i32)) (.op .mul (.num (.int .i32) 1) (.ref n!"units::isq::si::length_references::km")))),
  (779, .same (.cast (.ty (.kd (.nm "cgs_width_kind") (.nm n!"units::isq::si::cgs::centimetre") (.int .i32))) (.make (.kd (.nm "width_kind") (.nm n!"units::isq::si::centimetre") (.int .i32)) (.op .mul (.num (.int .i32) 1) (.ref n!"units::isq::si::length_references::cm")))) (.make (.kd (.nm "cgs_width_kind") (.nm n!"units::isq::si::cgs::centimetre") (.int .i32)) (.op .mul (.num (.int .i32) 1) (.ref n!"units::isq::si::cgs::length_references::cm")))),
  (780, .same (.cast (.kind (.nm "cgs_width_kind")) (.make (.kd (.nm "width_kind") (.nm n!"units::isq::si::centimetre") (.int .i32)) (.op .mul (.num (.int .i32) 1) (.ref n!"units::isq::si::length_references::cm")))) (.make (.kd (.nm "cgs_width_kind") (.nm n!"units::isq::si::cgs::centimetre") (.int .i32)) (.op .mul (.num (.int .i32) 1) (.ref n!"units::isq::si::cgs::length_references::cm")))),
  (781, .same (.cast (.kindUnit (.nm "cgs_width_kind") (.nm n!"units::isq::si::cgs::centimetre")) (.make (.kd (.nm "width_kind") (.nm n!"units::isq::si::centimetre") (.int .i32)) (.op .mul (.num (.int .i32) 1) (.ref n!"units::isq::si::length_references::cm")))) (.make (.kd (.nm "cgs_width_kind") (.nm n!"units::isq::si::cgs::centimetre") (.int .i32)) (.op .mul (.num (.int .i32) 1) (.ref n!"units::isq::si::cgs::length_references::cm")))),
  (782, .same (.cast (.kind (.nm "cgs_width_kind")) (.make (.kd (.nm "width_kind") (.nm n!"units::isq::si::metre") (.int .i32)) (.op .mul (.num (.int .i32) 1) (.ref n!"units::isq::si::length_references::m")))) (.make (.kd (.nm "cgs_width_kind") (.nm n!"units::isq::si::metre") (.int .i32)) (.op .mul (.num (.int .i32) 1) (.ref n!"units::isq::si::length_references::m")))),
  (783, .same (.cast (.kindUnit (.nm "cgs_width_kind") (.nm n!"units::isq::si::metre")) (.make (.kd (.nm "width_kind") (.nm n!"units::isq::si::metre") (.int .i32)) (.op .mul (.num (.int .i32) 1) (.ref n!"units::isq::si::length_references::m")))) (.make (.kd (.nm "cgs_width_kind") (.nm n!"units::isq::si::metre") (.int .i32)) (.op .mul (.num (.int .i32) 1) (.ref n!"units::isq::si::length_references::m")))),
  (784, .same (.cast (.dim (.nm n!"units::isq::si::cgs::dim_length")) (.make (.kd (.nm "width_kind") (.nm n!"units::isq::si::centimetre") (.int .i32)) (.op .mul (.num (.int .i32) 1) (.ref n!"units::isq::si::length_references::cm")))) (.make (.kd (.nm "width_kind") (.nm n!"units::isq::si::cgs::centimetre") (.int .i32)) (.op .mul (.num (.int .i32) 1) (.ref n!"units::isq::si::cgs::length_references::cm")))),
  (785, .same (.cast (.ty (.alias n!"units::isq::si::length" (.nm n!"units::isq::si::kilometre") (.int .i32))) (.make (.kd (.nm "width_kind") (.nm n!"units::isq::si::metre") (.int .i32)) (.op .mul (.num (.int .i32) 1) (.ref n!"units::isq::si::length_references::m")))) (.make (.kd (.nm "width_kind") (.nm n!"units::isq::si::kilometre") (.int .i32)) (.op .mul (.num (.int .i32) 0) (.ref n!"units::isq::si::length_references::km")))),
  (786, .same (.cast (.ty (.alias n!"units::isq::si::length" (.nm n!"units::isq::si::centimetre") (.int .i32))) (.make (.kd (.nm "width_kind") (.nm n!"units::isq::si::metre") (.int .i32)) (.op .mul (.num (.int .i32) 1) (.ref n!"units::isq::si::length_references::m")))) (.make (.kd (.nm "width_kind") (.nm n!"units::isq::si::centimetre") (.int .i32)) (.op .mul (.num (.int .i32) 100) (.ref n!"units::isq::si::length_references::cm")))),
  (787, .same (.cast (.ty (.alias n!"units::isq::si::length" (.nm n!"units::isq::si::centimetre") (.int .i32))) (.make (.kd (.nm "width_kind") (.nm n!"units::isq::si::metre") (.flt .f64)) (.op .mul (.num (.flt .f64) (1 / 100)) (.ref n!"units::isq::si::length_references::m")))) (.make (.kd (.nm "width_kind") (.nm n!"units::isq::si::centimetre") (.int .i32)) (.op .mul (.num (.int .i32) 1) (.ref n!"units::isq::si::length_references::cm")))),
  (788, .same (.cast (.ty (.alias n!"units::isq::si::length" (.nm n!"units::isq::si::centimetre") (.int .i32))) (.make (.kd (.nm "width_kind") (.nm n!"units::isq::si::cgs::centimetre") (.int .i32)) (.op .mul (.num (.int .i32) 1) (.ref n!"units::isq::si::cgs::length_references::cm")))) (.make (.kd (.nm "width_kind") (.nm n!"units::isq::si::cgs::centimetre") (.int .i32)) (.op .mul (.num (.int .i32) 1) (.ref n!"units::isq::si::cgs::length_references::cm")))),
  (807, .rejected (.cast (.ty (.kd (.nm "apple") (.nm n!"units::one") (.int .i32))) (.make (.kd (.nm "width_kind") (.nm n!"units::isq::si::metre") (.int .i32)) (.op .mul (.num (.int .i32) 1) (.ref n!"units::isq::si::length_references::m"))))),
  (807, .rejected (.cast (.ty (.kd (.nm "horizontal_area_kind") (.nm n!"units::isq::si::square_metre") (.int .i32))) (.make (.kd (.nm "width_kind") (.nm n!"units::isq::si::metre") (.int .i32)) (.op .mul (.num (.int .i32) 1) (.ref n!"units::isq::si::length_references::m"))))),
  (807, .rejected (.cast (.ty (.kd (.nm "rate_of_climb_kind") (.nm n!"units::isq::si::metre_per_second") (.int .i32))) (.make (.kd (.nm "width_kind") (.nm n!"units::isq::si::metre") (.int .i32)) (.op .mul (.num (.int .i32) 1) (.ref n!"units::isq::si::length_references::m"))))),
  (807, .rejected (.cast (.kind (.nm "apple")) (.make (.kd (.nm "width_kind") (.nm n!"units::isq::si::metre") (.int .i32)) (.op .mul (.num (.int .i32) 1) (.ref n!"units::isq::si::length_references::m"))))),
  (807, .rejected (.cast (.kind (.nm "horizontal_area_kind")) (.make (.kd (.nm "width_kind") (.nm n!"units::isq::si::metre") (.int .i32)) (.op .mul (.num (.int .i32) 1) (.ref n!"units::isq::si::length_references::m"))))),
  (807, .rejected (.cast (.kind (.nm "rate_of_climb_kind")) (.make (.kd (.nm "width_kind") (.nm n!"units::isq::si::metre") (.int .i32)) (.op .mul (.num (.int .i32) 1) (.ref n!"units::isq::si::length_references::m"))))),
  (807, .rejected (.cast (.kindUnit (.nm "apple") (.nm n!"units::one")) (.make (.kd (.nm "width_kind") (.nm n!"units::isq::si::metre") (.int .i32)) (.op .mul (.num (.int .i32) 1) (.ref n!"units::isq::si::length_references::m"))))),
  (807, .rejected (.cast (.kindUnit (.nm "horizontal_area_kind") (.nm n!"units::isq::si::square_metre")) (.make (.kd (.nm "width_kind") (.nm n!"units::isq::si::metre") (.int .i32)) (.op .mul (.num (.int .i32) 1) (.ref n!"units::isq::si::length_references::m")))))]

#guard failures2 [n!"generic/dimensionless.h", n!"isq/si/area.h", n!"isq/si/cgs/length.h", n!"isq/si/fps/length.h", n!"isq/si/frequency.h", n!"isq/si/speed.h", n!"isq/si/time.h"] [] declsKind testKind2 = some []

/-- /repo/test/unit_test/static/quantity_kind_test.cpp. -/
def testKind3 : List (Nat × Check2) := [
  (807, .rejected (.cast (.kindUnit (.nm "rate_of_climb_kind") (.nm n!"units::isq::si::metre_per_second")) (.make (.kd (.nm "width_kind") (.nm n!"units::isq::si::metre") (.int .i32)) (.op .mul (.num (.int .i32) 1) (.ref n!"units::isq::si::length_references::m"))))),
  (807, .rejected (.cast (.ty (.alias n!"units::dimensionless" (.nm n!"units::one") (.flt .f64))) (.make (.kd (.nm "width_kind") (.nm n!"units::isq::si::metre") (.int .i32)) (.op .mul (.num (.int .i32) 1) (.ref n!"units::isq::si::length_references::m"))))),
  (807, .rejected (.cast (.unit (.nm n!"units::isq::si::square_metre")) (.make (.kd (.nm "width_kind") (.nm n!"units::isq::si::metre") (.int .i32)) (.op .mul (.num (.int .i32) 1) (.ref n!"units::isq::si::length_references::m"))))),
  (807, .rejected (.cast (.unit (.nm n!"units::isq::si::second")) (.make (.kd (.nm "width_kind") (.nm n!"units::isq::si::metre") (.int .i32)) (.op .mul (.num (.int .i32) 1) (.ref n!"units::isq::si::length_references::m"))))),
  (807, .rejected (.cast (.ty (.pt (.dyn (.nm n!"units::isq::si::dim_length")) (.nm n!"units::isq::si::metre") (.int .i32))) (.make (.kd (.nm "width_kind") (.nm n!"units::isq::si::metre") (.int .i32)) (.op .mul (.num (.int .i32) 1) (.ref n!"units::isq::si::length_references::m"))))),
  (807, .rejected (.cast (.ty (.pt (.dyn (.nm n!"units::dim_one")) (.nm n!"units::one") (.int .i32))) (.make (.kd (.nm "width_kind") (.nm n!"units::isq::si::metre") (.int .i32)) (.op .mul (.num (.int .i32) 1) (.ref n!"units::isq::si::length_references::m")))))]

#guard failures2 [n!"generic/dimensionless.h", n!"isq/si/area.h", n!"isq/si/cgs/length.h", n!"isq/si/fps/length.h", n!"isq/si/frequency.h", n!"isq/si/speed.h", n!"isq/si/time.h"] [] declsKind testKind3 = some []

/-- The kinds and point kinds of /repo/test/unit_test/static/quantity_point_test.cpp. -/
def declsPoint : List Decl' := []

/-- /repo/test/unit_test/static/quantity_point_test.cpp. -/
def testPoint0 : List (Nat × Check2) := [
  (64, .badType (.pt (.dyn (.nm n!"units::isq::si::dim_length")) (.nm n!"units::isq::si::second") (.int .i32))),
  (78, .cmp .eq (.relative (.deducePt (.num (.int .i32) 1))) (.deduceQty (.num (.int .i32) 1))),
  (79, .not (.convertible (.pt (.dyn (.nm n!"units::dim_one")) (.nm n!"units::one") (.int .i32)) (.obj (.rep (.int .i32)) 1))),
  (81, .cmp .eq (.relative (.deducePt (.dur (.int .i64) 1 1 42))) (.op .mul (.num (.int .i32) 42) (.ref n!"units::isq::si::time_references::s"))),
  (82, .cmp .eq (.relative (.deducePt (.time "system_clock" (.dur (.int .i64) 1 1 42)))) (.op .mul (.num (.int .i32) 42) (.ref n!"units::isq::si::time_references::s"))),
  (83, .not (.convertible (.pt (.dyn (.nm n!"units::isq::si::dim_time")) (.nm n!"units::isq::si::second") (.int .i64)) (.obj (.dur (.int .i64) 1 1) 1))),
  (84, .not (.convertible (.pt (.clock "system_clock") (.nm n!"units::isq::si::second") (.int .i64)) (.obj (.dur (.int .i64) 1 1) 1))),
  (85, .not (.convertible (.pt (.dyn (.nm n!"units::isq::si::dim_time")) (.nm n!"units::isq::si::second") (.int .i64)) (.obj (.time "system_clock" (.int .i64) 1 1) 1))),
  (86, .not (.convertible (.pt (.clock "system_clock") (.nm n!"units::isq::si::second") (.int .i64)) (.obj (.time "system_clock" (.int .i64) 1 1) 1))),
  (88, .cmp .eq (.relative (.obj (.pt (.dyn (.nm n!"units::isq::si::dim_length")) (.nm n!"units::isq::si::metre") (.int .i32)) 0)) (.lit n!"units::isq::si::literals::_q_m" true 0)),
  (90, .cmp .eq (.relative (.make (.pt (.dyn (.nm n!"units::isq::si::dim_length")) (.nm n!"units::isq::si::metre") (.int .i32)) (.lit n!"units::isq::si::literals::_q_m" true 1000))) (.lit n!"units::isq::si::literals::_q_m" true 1000)),
  (91, .cmp .eq (.relative (.make (.pt (.dyn (.nm n!"units::isq::si::dim_length")) (.nm n!"units::isq::si::metre") (.int .i32)) (.make (.pt (.dyn (.nm n!"units::isq::si::dim_length")) (.nm n!"units::isq::si::metre") (.int .i32)) (.lit n!"units::isq::si::literals::_q_m" true 1000)))) (.relative (.make (.pt (.dyn (.nm n!"units::isq::si::dim_length")) (.nm n!"units::isq::si::metre") (.int .i32)) (.lit n!"units::isq::si::literals::_q_m" true 1000)))),
  (93, .cmp .eq (.relative (.make (.pt (.dyn (.nm n!"units::isq::si::dim_length")) (.nm n!"units::isq::si::metre") (.int .i32)) (.lit n!"units::isq::si::literals::_q_m" true 1))) (.lit n!"units::isq::si::literals::_q_m" true 1)),
  (94, .not (.constructible (.pt (.dyn (.nm n!"units::isq::si::dim_length")) (.nm n!"units::isq::si::metre") (.int .i32)) (.obj (.rep (.flt .f64)) 1))),
  (95, .cmp .eq (.relative (.make (.pt (.dyn (.nm n!"units::isq::si::dim_length")) (.nm n!"units::isq::si::metre") (.flt .f64)) (.lit n!"units::isq::si::literals::_q_m" false 1))) (.lit n!"units::isq::si::literals::_q_m" false 1)),
  (96, .cmp .eq (.relative (.make (.pt (.dyn (.nm n!"units::isq::si::dim_length")) (.nm n!"units::isq::si::metre") (.flt .f64)) (.lit n!"units::isq::si::literals::_q_m" true 1))) (.lit n!"units::isq::si::literals::_q_m" true 1)),
  (97, .cmp .eq (.relative (.make (.pt (.dyn (.nm n!"units::isq::si::dim_length")) (.nm n!"units::isq::si::metre") (.flt .f80)) (.lit n!"units::isq::si::literals::_q_m" false (157 / 50)))) (.lit n!"units::isq::si::literals::_q_m" false (157 / 50))),
  (99, .cmp .eq (.relative (.make (.pt (.dyn (.nm n!"units::isq::si::dim_length")) (.nm n!"units::isq::si::metre") (.int .i32)) (.make (.pt (.dyn (.nm n!"units::isq::si::dim_length")) (.nm n!"units::isq::si::metre") (.int .i32)) (.lit n!"units::isq::si::literals::_q_m" true 1000)))) (.lit n!"units::isq::si::literals::_q_m" true 1000)),
  (100, .not (.constructible (.pt (.dyn (.nm n!"units::isq::si::dim_length")) (.nm n!"units::isq::si::metre") (.int .i32)) (.obj (.pt (.dyn (.nm n!"units::isq::si::dim_length")) (.nm n!"units::isq::si::metre") (.flt .f64)) 1))),
  (102, .cmp .eq (.relative (.make (.pt (.dyn (.nm n!"units::isq::si::dim_length")) (.nm n!"units::isq::si::metre") (.flt .f64)) (.deducePt (.lit n!"units::isq::si::literals::_q_m" false 1000)))) (.lit n!"units::isq::si::literals::_q_m" false 1000)),
  (103, .cmp .eq (.relative (.make (.pt (.dyn (.nm n!"units::isq::si::dim_length")) (.nm n!"units::isq::si::metre") (.flt .f64)) (.make (.pt (.dyn (.nm n!"units::isq::si::dim_length")) (.nm n!"units::isq::si::metre") (.int .i32)) (.lit n!"units::isq::si::literals::_q_m" true 1000)))) (.lit n!"units::isq::si::literals::_q_m" false 1000)),
  (104, .cmp .eq (.relative (.make (.pt (.dyn (.nm n!"units::isq::si::dim_length")) (.nm n!"units::isq::si::metre") (.int .i32)) (.deducePt (.lit n!"units::isq::si::literals::_q_km" true 1)))) (.lit n!"units::isq::si::literals::_q_m" true 1000)),
  (105, .not (.constructible (.pt (.dyn (.nm n!"units::isq::si::dim_length")) (.nm n!"units::isq::si::metre") (.int .i32)) (.obj (.pt (.dyn (.nm n!"units::isq::si::dim_time")) (.nm n!"units::isq::si::second") (.int .i32)) 1))),
  (107, .not (.constructible (.pt (.dyn (.nm n!"units::isq::si::dim_length")) (.nm n!"units::isq::si::kilometre") (.int .i32)) (.obj (.pt (.dyn (.nm n!"units::isq::si::dim_length")) (.nm n!"units::isq::si::metre") (.int .i32)) 1))),
  (110, .not (.constructible (.pt (.user "sea_level_origin" (.nm n!"units::isq::si::dim_length")) (.nm n!"units::isq::si::kilometre") (.int .i32)) (.obj (.pt (.dyn (.nm n!"units::isq::si::dim_length")) (.nm n!"units::isq::si::metre") (.int .i32)) 1))),
  (113, .not (.constructible (.pt (.dyn (.nm n!"units::isq::si::dim_time")) (.nm n!"units::isq::si::second") (.int .i32)) (.obj (.time "system_clock" (.int .i64) 1 1) 1))),
  (118, .cmp .eq (.relative (.assign (.obj (.pt (.dyn (.nm n!"units::isq::si::dim_length")) (.nm n!"units::isq::si::metre") (.int .i32)) 0) (.make (.pt (.dyn (.nm n!"units::isq::si::dim_length")) (.nm n!"units::isq::si::metre") (.int .i32)) (.lit n!"units::isq::si::literals::_q_m" true 1)))) (.lit n!"units::isq::si::literals::_q_m" true 1)),
  (122, .cmp .eq (.number (.relative (.special (.pt (.dyn (.nm n!"units::isq::si::dim_length")) (.nm n!"units::isq::si::metre") (.int .i32)) .min))) (.limit (.int .i32) false)),
  (123, .cmp .eq (.number (.relative (.special (.pt (.dyn (.nm n!"units::isq::si::dim_length")) (.nm n!"units::isq::si::metre") (.int .i32)) .max))) (.limit (.int .i32) true)),
  (124, .cmp .eq (.number (.relative (.special (.pt (.dyn (.nm n!"units::isq::si::dim_length")) (.nm n!"units::isq::si::metre") (.flt .f64)) .min))) (.limit (.flt .f64) false)),
  (126, .cmp .eq (.number (.relative (.special (.pt (.dyn (.nm n!"units::isq::si::dim_length")) (.nm n!"units::isq::si::metre") (.flt .f64)) .max))) (.limit (.flt .f64) true)),
  (131, .both (.same (.postNew .add (.make (.pt (.dyn (.nm n!"units::isq::si::dim_length")) (.nm n!"units::isq::si::metre") (.int .i32)) (.lit n!"units::isq::si::literals::_q_m" true 1000))) (.make (.pt (.dyn (.nm n!"units::isq::si::dim_length")) (.nm n!"units::isq::si::metre") (.int .i32)) (.lit n!"units::isq::si::literals::_q_m" true 1001))) (.same (.post .add (.make (.pt (.dyn (.nm n!"units::isq::si::dim_length")) (.nm n!"units::isq::si::metre") (.int .i32)) (.lit n!"units::isq::si::literals::_q_m" true 1000))) (.make (.pt (.dyn (.nm n!"units::isq::si::dim_length")) (.nm n!"units::isq::si::metre") (.int .i32)) (.lit n!"units::isq::si::literals::_q_m" true 1000)))),
  (135, .both (.same (.pre .add (.make (.pt (.dyn (.nm n!"units::isq::si::dim_length")) (.nm n!"units::isq::si::metre") (.int .i32)) (.lit n!"units::isq::si::literals::_q_m" true 1000))) (.make (.pt (.dyn (.nm n!"units::isq::si::dim_length")) (.nm n!"units::isq::si::metre") (.int .i32)) (.lit n!"units::isq::si::literals::_q_m" true 1001))) (.same (.pre .add (.make (.pt (.dyn (.nm n!"units::isq::si::dim_length")) (.nm n!"units::isq::si::metre") (.int .i32)) (.lit n!"units::isq::si::literals::_q_m" true 1000))) (.make (.pt (.dyn (.nm n!"units::isq::si::dim_length")) (.nm n!"units::isq::si::metre") (.int .i32)) (.lit n!"units::isq::si::literals::_q_m" true 1001)))),
  (139, .both (.same (.postNew .sub (.make (.pt (.dyn (.nm n!"units::isq::si::dim_length")) (.nm n!"units::isq::si::metre") (.int .i32)) (.lit n!"units::isq::si::literals::_q_m" true 1000))) (.make (.pt (.dyn (.nm n!"units::isq::si::dim_length")) (.nm n!"units::isq::si::metre") (.int .i32)) (.lit n!"units::isq::si::literals::_q_m" true 999))) (.same (.post .sub (.make (.pt (.dyn (.nm n!"units::isq::si::dim_length")) (.nm n!"units::isq::si::metre") (.int .i32)) (.lit n!"units::isq::si::literals::_q_m" true 1000))) (.make (.pt (.dyn (.nm n!"units::isq::si::dim_length")) (.nm n!"units::isq::si::metre") (.int .i32)) (.lit n!"units::isq::si::literals::_q_m" true 1000)))),
  (143, .both (.same (.pre .sub (.make (.pt (.dyn (.nm n!"units::isq::si::dim_length")) (.nm n!"units::isq::si::metre") (.int .i32)) (.lit n!"units::isq::si::literals::_q_m" true 1000))) (.make (.pt (.dyn (.nm n!"units::isq::si::dim_length")) (.nm n!"units::isq::si::metre") (.int .i32)) (.lit n!"units::isq::si::literals::_q_m" true 999))) (.same (.pre .sub (.make (.pt (.dyn (.nm n!"units::isq::si::dim_length")) (.nm n!"units::isq::si::metre") (.int .i32)) (.lit n!"units::isq::si::literals::_q_m" true 1000))) (.make (.pt (.dyn (.nm n!"units::isq::si::dim_length")) (.nm n!"units::isq::si::metre") (.int .i32)) (.lit n!"units::isq::si::literals::_q_m" true 999)))),
  (150, .cmp .eq (.number (.relative (.assignOp .add (.deducePt (.lit n!"units::isq::si::literals::_q_m" true 1)) (.lit n!"units::isq::si::literals::_q_m" true 1)))) (.num (.int .i32) 2)),
  (151, .cmp .eq (.number (.relative (.assignOp .sub (.deducePt (.lit n!"units::isq::si::literals::_q_m" true 2)) (.lit n!"units::isq::si::literals::_q_m" true 1)))) (.num (.int .i32) 1)),
  (155, .type (.op .add (.obj (.pt (.dyn (.nm n!"units::isq::si::dim_length")) (.nm n!"units::isq::si::metre") (.int .i32)) 0) (.obj (.alias n!"units::isq::si::length" (.nm n!"units::isq::si::metre") (.flt .f64)) 0)) (.pt (.dyn (.nm n!"units::isq::si::dim_length")) (.nm n!"units::isq::si::metre") (.flt .f64))),
  (157, .type (.op .add (.obj (.alias n!"units::isq::si::length" (.nm n!"units::isq::si::metre") (.int .i32)) 0) (.obj (.pt (.dyn (.nm n!"units::isq::si::dim_length")) (.nm n!"units::isq::si::metre") (.flt .f64)) 0)) (.pt (.dyn (.nm n!"units::isq::si::dim_length")) (.nm n!"units::isq::si::metre") (.flt .f64))),
  (159, .type (.op .add (.obj (.pt (.dyn (.nm n!"units::isq::si::dim_length")) (.nm n!"units::isq::si::kilometre") (.int .i32)) 0) (.obj (.alias n!"units::isq::si::length" (.nm n!"units::isq::si::metre") (.flt .f64)) 0)) (.pt (.dyn (.nm n!"units::isq::si::dim_length")) (.nm n!"units::isq::si::metre") (.flt .f64))),
  (161, .type (.op .add (.obj (.alias n!"units::isq::si::length" (.nm n!"units::isq::si::kilometre") (.int .i32)) 0) (.obj (.pt (.dyn (.nm n!"units::isq::si::dim_length")) (.nm n!"units::isq::si::metre") (.flt .f64)) 0)) (.pt (.dyn (.nm n!"units::isq::si::dim_length")) (.nm n!"units::isq::si::metre") (.flt .f64))),
  (163, .type (.op .sub (.obj (.pt (.dyn (.nm n!"units::isq::si::dim_length")) (.nm n!"units::isq::si::metre") (.flt .f64)) 0) (.obj (.alias n!"units::isq::si::length" (.nm n!"units::isq::si::metre") (.int .i32)) 0)) (.pt (.dyn (.nm n!"units::isq::si::dim_length")) (.nm n!"units::isq::si::metre") (.flt .f64))),
  (165, .type (.op .sub (.obj (.pt (.dyn (.nm n!"units::isq::si::dim_length")) (.nm n!"units::isq::si::kilometre") (.flt .f64)) 0) (.obj (.alias n!"units::isq::si::length" (.nm n!"units::isq::si::metre") (.int .i32)) 0)) (.pt (.dyn (.nm n!"units::isq::si::dim_length")) (.nm n!"units::isq::si::metre") (.flt .f64))),
  (167, .type (.op .sub (.obj (.pt (.dyn (.nm n!"units::isq::si::dim_length")) (.nm n!"units::isq::si::metre") (.flt .f64)) 0) (.obj (.pt (.dyn (.nm n!"units::isq::si::dim_length")) (.nm n!"units::isq::si::metre") (.int .i32)) 0)) (.alias n!"units::isq::si::length" (.nm n!"units::isq::si::metre") (.flt .f64))),
  (170, .type (.op .sub (.obj (.pt (.dyn (.nm n!"units::isq::si::dim_length")) (.nm n!"units::isq::si::kilometre") (.flt .f64)) 0) (.obj (.pt (.dyn (.nm n!"units::isq::si::dim_length")) (.nm n!"units::isq::si::metre") (.int .i32)) 0)) (.alias n!"units::isq::si::length" (.nm n!"units::isq::si::metre") (.flt .f64))),
  (174, .cmp .eq (.number (.relative (.op .add (.lit n!"units::isq::si::literals::_q_m" true 1) (.make (.pt (.dyn (.nm n!"units::isq::si::dim_length")) (.nm n!"units::isq::si::metre") (.int .i32)) (.lit n!"units::isq::si::literals::_q_m" true 1000))))) (.num (.int .i32) 1001)),
  (175, .cmp .eq (.number (.relative (.op .add (.deducePt (.lit n!"units::isq::si::literals::_q_m" true 1)) (.lit n!"units::isq::si::literals::_q_km" true 1)))) (.num (.int .i32) 1001)),
  (176, .cmp .eq (.number (.relative (.op .sub (.make (.pt (.dyn (.nm n!"units::isq::si::dim_length")) (.nm n!"units::isq::si::metre") (.int .i32)) (.lit n!"units::isq::si::literals::_q_m" true 1000)) (.lit n!"units::isq::si::literals::_q_m" true 1)))) (.num (.int .i32) 999)),
  (177, .cmp .eq (.number (.op .sub (.deducePt (.lit n!"units::isq::si::literals::_q_km" true 1)) (.deducePt (.lit n!"units::isq::si::literals::_q_m" true 1)))) (.num (.int .i32) 999)),
  (184, .rejected (.op .sub (.obj (.pt (.user "sea_level_origin" (.nm n!"units::isq::si::dim_length")) (.nm n!"units::isq::si::metre") (.int .i32)) 1) (.obj (.pt (.dyn (.nm n!"units::isq::si::dim_length")) (.nm n!"units::isq::si::metre") (.int .i32)) 1))),
  (188, .cmp .eq (.op .add (.deducePt (.lit n!"units::isq::si::literals::_q_m" true 2)) (.lit n!"units::isq::si::literals::_q_m" true 1)) (.deducePt (.lit n!"units::isq::si::literals::_q_m" true 3))),
  (189, .not (.cmp .eq (.op .add (.lit n!"units::isq::si::literals::_q_m" true 2) (.deducePt (.lit n!"units::isq::si::literals::_q_m" true 2))) (.deducePt (.lit n!"units::isq::si::literals::_q_m" true 3)))),
  (190, .cmp .ne (.op .add (.deducePt (.lit n!"units::isq::si::literals::_q_m" true 2)) (.lit n!"units::isq::si::literals::_q_m" true 2)) (.deducePt (.lit n!"units::isq::si::literals::_q_m" true 3))),
  (191, .not (.cmp .ne (.op .add (.lit n!"units::isq::si::literals::_q_m" true 2) (.deducePt (.lit n!"units::isq::si::literals::_q_m" true 2))) (.deducePt (.lit n!"units::isq::si::literals::_q_m" true 4)))),
  (192, .cmp .gt (.deducePt (.lit n!"units::isq::si::literals::_q_m" true 2)) (.deducePt (.lit n!"units::isq::si::literals::_q_m" true 1))),
  (193, .not (.cmp .gt (.deducePt (.lit n!"units::isq::si::literals::_q_m" true 1)) (.deducePt (.lit n!"units::isq::si::literals::_q_m" true 1)))),
  (194, .cmp .lt (.deducePt (.lit n!"units::isq::si::literals::_q_m" true 1)) (.deducePt (.lit n!"units::isq::si::literals::_q_m" true 2))),
  (195, .not (.cmp .lt (.deducePt (.lit n!"units::isq::si::literals::_q_m" true 2)) (.deducePt (.lit n!"units::isq::si::literals::_q_m" true 2)))),
  (196, .cmp .ge (.deducePt (.lit n!"units::isq::si::literals::_q_m" true 2)) (.deducePt (.lit n!"units::isq::si::literals::_q_m" true 1))),
  (197, .cmp .ge (.deducePt (.lit n!"units::isq::si::literals::_q_m" true 2)) (.deducePt (.lit n!"units::isq::si::literals::_q_m" true 2))),
  (198, .not (.cmp .ge (.deducePt (.lit n!"units::isq::si::literals::_q_m" true 2)) (.deducePt (.lit n!"units::isq::si::literals::_q_m" true 3)))),
  (199, .cmp .le (.deducePt (.lit n!"units::isq::si::literals::_q_m" true 1)) (.deducePt (.lit n!"units::isq::si::literals::_q_m" true 2))),
  (200, .cmp .le (.deducePt (.lit n!"units::isq::si::literals::_q_m" true 2)) (.deducePt (.lit n!"units::isq::si::literals::_q_m" true 2))),
  (201, .not (.cmp .le (.deducePt (.lit n!"units::isq::si::literals::_q_m" true 3)) (.deducePt (.lit n!"units::isq::si::literals::_q_m" true 2)))),
  (203, .cmp .eq (.deducePt (.lit n!"units::isq::si::literals::_q_m" true 3)) (.deducePt (.lit n!"units::isq::si::literals::_q_m" false 3))),
  (204, .cmp .ne (.deducePt (.lit n!"units::isq::si::literals::_q_m" true 3)) (.deducePt (.lit n!"units::isq::si::literals::_q_m" false (157 / 50)))),
  (205, .cmp .gt (.deducePt (.lit n!"units::isq::si::literals::_q_m" true 2)) (.deducePt (.lit n!"units::isq::si::literals::_q_m" false 1))),
  (206, .cmp .lt (.deducePt (.lit n!"units::isq::si::literals::_q_m" false 1)) (.deducePt (.lit n!"units::isq::si::literals::_q_m" true 2))),
  (207, .cmp .ge (.deducePt (.lit n!"units::isq::si::literals::_q_m" false 2)) (.deducePt (.lit n!"units::isq::si::literals::_q_m" true 1))),
  (208, .cmp .le (.deducePt (.lit n!"units::isq::si::literals::_q_m" true 1)) (.deducePt (.lit n!"units::isq::si::literals::_q_m" false 2))),
  (210, .cmp .eq (.deducePt (.lit n!"units::isq::si::literals::_q_m" true 1000)) (.deducePt (.lit n!"units::isq::si::literals::_q_km" true 1))),
  (211, .cmp .ne (.deducePt (.lit n!"units::isq::si::literals::_q_m" true 1001)) (.deducePt (.lit n!"units::isq::si::literals::_q_km" true 1))),
  (212, .cmp .gt (.deducePt (.lit n!"units::isq::si::literals::_q_m" true 1001)) (.deducePt (.lit n!"units::isq::si::literals::_q_km" true 1))),
  (213, .cmp .lt (.deducePt (.lit n!"units::isq::si::literals::_q_m" true 999)) (.deducePt (.lit n!"units::isq::si::literals::_q_km" true 1))),
  (214, .cmp .ge (.deducePt (.lit n!"units::isq::si::literals::_q_m" true 1000)) (.deducePt (.lit n!"units::isq::si::literals::_q_km" true 1))),
  (215, .cmp .le (.deducePt (.lit n!"units::isq::si::literals::_q_m" true 1000)) (.deducePt (.lit n!"units::isq::si::literals::_q_km" true 1))),
  (223, .noCmp .eq (.obj (.pt (.dyn (.nm n!"units::isq::si::dim_length")) (.nm n!"units::isq::si::metre") (.int .i32)) 1) (.obj (.pt (.user "sea_level_origin" (.nm n!"units::isq::si::dim_length")) (.nm n!"units::isq::si::metre") (.int .i32)) 1)),
  (223, .noCmp .lt (.obj (.pt (.dyn (.nm n!"units::isq::si::dim_length")) (.nm n!"units::isq::si::metre") (.int .i32)) 1) (.obj (.pt (.user "sea_level_origin" (.nm n!"units::isq::si::dim_length")) (.nm n!"units::isq::si::metre") (.int .i32)) 1)),
  (227, .cmp .eq (.op .add (.deducePt (.lit n!"units::isq::si::literals::_q_l" true 2)) (.lit n!"units::isq::si::literals::_q_ml" true 2)) (.deducePt (.lit n!"units::isq::si::literals::_q_ml" true 2002))),
  (228, .cmp .eq (.op .add (.lit n!"units::isq::si::literals::_q_l" true 2) (.deducePt (.lit n!"units::isq::si::literals::_q_ml" true 2))) (.deducePt (.lit n!"units::isq::si::literals::_q_cm3" true 2002))),
  (229, .cmp .eq (.op .add (.deducePt (.lit n!"units::isq::si::literals::_q_l" true 2)) (.lit n!"units::isq::si::literals::_q_cm3" true 2)) (.deducePt (.lit n!"units::isq::si::literals::_q_ml" true 2002))),
  (230, .cmp .eq (.op .add (.lit n!"units::isq::si::literals::_q_dm3" true 2) (.deducePt (.lit n!"units::isq::si::literals::_q_cm3" true 2))) (.deducePt (.lit n!"units::isq::si::literals::_q_ml" true 2002))),
  (234, .isCls (.pt (.dyn (.nm n!"units::isq::si::dim_length")) (.nm n!"units::isq::si::millimetre") (.int .i32)) .pt),
  (252, .eqWith (.deducePt (.lit n!"units::isq::si::literals::_q_m" true 1)) (.deducePt (.lit n!"units::isq::si::literals::_q_m" true 1))),
  (253, .eqWith (.deducePt (.lit n!"units::isq::si::literals::_q_m" true 1)) (.deducePt (.lit n!"units::isq::si::literals::_q_km" true 1))),
  (254, .cmp .eq (.deducePt (.lit n!"units::isq::si::literals::_q_m" true 0)) (.deducePt (.lit n!"units::isq::si::uscs::literals::_q_ft_us" true 0))),
  (255, .eqWith (.deducePt (.lit n!"units::isq::si::literals::_q_m" true 1)) (.deducePt (.lit n!"units::isq::si::uscs::literals::_q_ft_us" true 1))),
  (259, .cmp .eq (.number (.relative (.cast (.ty (.pt (.dyn (.nm n!"units::isq::si::dim_length")) (.nm n!"units::isq::si::metre") (.int .i32))) (.deducePt (.lit n!"units::isq::si::literals::_q_km" true 2))))) (.num (.int .i32) 2000)),
  (261, .cmp .eq (.number (.relative (.cast (.ty (.pt (.dyn (.nm n!"units::isq::si::dim_length")) (.nm n!"units::isq::si::kilometre") (.int .i32))) (.deducePt (.lit n!"units::isq::si::literals::_q_m" true 2000))))) (.num (.int .i32) 2)),
  (263, .cmp .eq (.number (.relative (.cast (.ty (.pt (.dyn (.nm n!"units::isq::si::dim_length")) (.nm n!"units::isq::si::metre") (.int .i32))) (.deducePt (.lit n!"units::isq::si::literals::_q_m" false (123 / 100)))))) (.num (.int .i32) 1)),
  (265, .cmp .eq (.number (.relative (.cast (.ty (.alias n!"units::isq::si::length" (.nm n!"units::isq::si::metre") (.int .i32))) (.deducePt (.lit n!"units::isq::si::literals::_q_km" true 2))))) (.num (.int .i32) 2000)),
  (266, .cmp .eq (.number (.relative (.cast (.ty (.alias n!"units::isq::si::length" (.nm n!"units::isq::si::kilometre") (.int .i32))) (.deducePt (.lit n!"units::isq::si::literals::_q_m" true 2000))))) (.num (.int .i32) 2)),
  (267, .cmp .eq (.number (.relative (.cast (.ty (.alias n!"units::isq::si::length" (.nm n!"units::isq::si::metre") (.int .i32))) (.deducePt (.lit n!"units::isq::si::literals::_q_m" false (123 / 100)))))) (.num (.int .i32) 1)),
  (268, .cmp .eq (.number (.relative (.cast (.unit (.nm n!"units::isq::si::metre")) (.deducePt (.lit n!"units::isq::si::literals::_q_km" true 2))))) (.num (.int .i32) 2000)),
  (269, .cmp .eq (.number (.relative (.cast (.unit (.nm n!"units::isq::si::kilometre")) (.deducePt (.lit n!"units::isq::si::literals::_q_m" true 2000))))) (.num (.int .i32) 2)),
  (270, .cmp .eq (.number (.relative (.cast (.ty (.rep (.int .i32))) (.deducePt (.lit n!"units::isq::si::literals::_q_m" false (123 / 100)))))) (.num (.int .i32) 1)),
  (271, .cmp .eq (.number (.relative (.cast (.dimUnit (.nm n!"units::isq::si::dim_speed") (.nm n!"units::isq::si::kilometre_per_hour")) (.deducePt (.op .div (.lit n!"units::isq::si::literals::_q_m" false 2000) (.lit n!"units::isq::si::literals::_q_s" false 3600)))))) (.num (.int .i32) 2)),
  (278, .rejected (.cast (.ty (.pt (.dyn (.nm n!"units::isq::si::dim_time")) (.nm n!"units::isq::si::second") (.int .i32))) (.deducePt (.op .mul (.obj (.rep (.int .i32)) 1) (.ref n!"units::isq::si::length_references::m"))))),
  (278, .rejected (.cast (.ty (.pt (.dyn (.nm n!"units::isq::si::dim_length")) (.nm n!"units::isq::si::metre") (.int .i32))) (.make (.pt (.user "sea_level_origin" (.nm n!"units::isq::si::dim_length")) (.nm n!"units::isq::si::metre") (.int .i32)) (.op .mul (.obj (.rep (.int .i32)) 1) (.ref n!"units::isq::si::length_references::m"))))),
  (282, .cmp .eq (.deducePt (.lit n!"units::isq::si::literals::_q_h" true 1)) (.deducePt (.lit n!"units::isq::si::literals::_q_s" true 3600))),
  (290, .noCmp .eq (.deducePt (.lit n!"units::isq::si::literals::_q_s" true 1)) (.deducePt (.make (.alias n!"units::isq::si::length" (.nm n!"units::isq::si::metre") (.int .i32)) (.num (.int .i32) 1)))),
  (294, .cmp .ne (.deducePt (.lit n!"units::isq::si::literals::_q_km" true 1)) (.deducePt (.lit n!"units::isq::si::literals::_q_m" true 1))),
  (295, .cmp .eq (.deducePt (.lit n!"units::isq::si::literals::_q_km" true 1)) (.deducePt (.lit n!"units::isq::si::literals::_q_m" true 1000))),
  (296, .cmp .eq (.op .add (.deducePt (.lit n!"units::isq::si::literals::_q_km" true 1)) (.lit n!"units::isq::si::literals::_q_m" true 1)) (.deducePt (.lit n!"units::isq::si::literals::_q_m" true 1001))),
  (297, .cmp .eq (.op .add (.lit n!"units::isq::si::literals::_q_km" true 1) (.deducePt (.lit n!"units::isq::si::literals::_q_m" true 1))) (.deducePt (.lit n!"units::isq::si::literals::_q_m" true 1001)))]

#guard failures2 [n!"generic/dimensionless.h", n!"isq/si/length.h", n!"isq/si/speed.h", n!"isq/si/uscs/length.h", n!"isq/si/volume.h", n!"isq/si/time.h"] [] declsPoint testPoint0 = some []

/-- The kinds and point kinds of /repo/test/unit_test/static/quantity_point_kind_test.cpp. -/
def declsPointKind : List Decl' := [.kind "width_kind" (.nm n!"units::isq::si::dim_length"),
  .kind "height_kind" (.nm n!"units::isq::si::dim_length"),
  .pkind "abscissa_kind" "abscissa_kind" "width_kind" (none),
  .pkind "ordinate_kind" "ordinate_kind" "height_kind" (none),
  .kind "distance_kind" (.nm n!"units::isq::si::dim_length"),
  .kind "cgs_width_kind" (.nm n!"units::isq::si::cgs::dim_length"),
  .kind "cgs_height_kind" (.nm n!"units::isq::si::cgs::dim_length"),
  .derived "rate_of_climb_kind" "height_kind" (.nm n!"units::isq::si::dim_speed"),
  .pkind "altitude_kind" "altitude_kind" "cgs_height_kind" (none),
  .pkind "sea_level_altitude_kind" "sea_level_altitude_kind" "height_kind" (some (.user "sea_level_origin" (.nm n!"units::isq::si::dim_length"))),
  .pkind "screen_si_width_kind" "screen_si_width_kind" "width_kind" (some (.user "screen_origin" (.nm n!"units::isq::si::dim_length"))),
  .pkind "screen_si_cgs_width_kind" "screen_si_cgs_width_kind" "cgs_width_kind" (some (.user "screen_origin" (.nm n!"units::isq::si::cgs::dim_length"))),
  .kind "apple" (.nm n!"units::dim_one"),
  .kind "orange" (.nm n!"units::dim_one"),
  .pkind "nth_apple_kind" "nth_apple_kind" "apple" (none),
  .pkind "nth_orange_kind" "nth_orange_kind" "orange" (none),
  .kind "time_kind" (.nm n!"units::isq::si::dim_time"),
  .pkind "time_point_kind" "time_point_kind" "time_kind" (none),
  .pkind "sys_time_point_kind" "time_point_kind" "time_kind" (some (.clock "system_clock"))]

/-- A state of the variable of a test of /repo/test/unit_test/static/quantity_point_kind_test.cpp (line 444). -/
def statePointKind_444_1 : Y := .make (.kd (.nm "width_kind") (.nm n!"units::isq::si::metre") (.int .i32)) (.op .mul (.num (.int .i32) 1) (.ref n!"units::isq::si::length_references::m"))

/-- A state of the variable of a test of /repo/test/unit_test/static/quantity_point_kind_test.cpp (line 444). -/
def statePointKind_444_2 : Y := .deducePk (statePointKind_444_1)

/-- A state of the variable of a test of /repo/test/unit_test/static/quantity_point_kind_test.cpp (line 444). -/
def statePointKind_444_3 : Y := .pre .add (statePointKind_444_2)

/-- A state of the variable of a test of /repo/test/unit_test/static/quantity_point_kind_test.cpp (line 444). -/
def statePointKind_444_4 : Y := .pre .sub (statePointKind_444_3)

/-- A state of the variable of a test of /repo/test/unit_test/static/quantity_point_kind_test.cpp (line 444). -/
def statePointKind_444_5 : Y := .postNew .add (statePointKind_444_4)

/-- A state of the variable of a test of /repo/test/unit_test/static/quantity_point_kind_test.cpp (line 444). -/
def statePointKind_444_6 : Y := .postNew .sub (statePointKind_444_5)

/-- A state of the variable of a test of /repo/test/unit_test/static/quantity_point_kind_test.cpp (line 444). -/
def statePointKind_444_7 : Y := .assignOp .add (statePointKind_444_6) (statePointKind_444_1)

/-- A state of the variable of a test of /repo/test/unit_test/static/quantity_point_kind_test.cpp (line 444). -/
def statePointKind_444_8 : Y := .assignOp .sub (statePointKind_444_7) (statePointKind_444_1)

/-- /repo/test/unit_test/static/quantity_point_kind_test.cpp. -/
def testPointKind0 : List (Nat × Check2) := [
  (109, .isCls (.pk "abscissa_kind" (.nm n!"units::isq::si::metre") (.flt .f64)) .pk),
  (110, .isCls (.pk "nth_apple_kind" (.nm n!"units::one") (.flt .f64)) .pk),
  (111, .not (.isCls (.rep (.flt .f64)) .pk)),
  (112, .not (.isCls (.alias n!"units::isq::si::length" (.nm n!"units::isq::si::metre") (.flt .f64)) .pk)),
  (113, .not (.isCls (.pt (.dyn (.nm n!"units::isq::si::dim_length")) (.nm n!"units::isq::si::metre") (.flt .f64)) .pk)),
  (114, .not (.isCls (.kd (.nm "width_kind") (.nm n!"units::isq::si::metre") (.flt .f64)) .pk)),
  (116, .pkindOf (.pk "abscissa_kind" (.nm n!"units::isq::si::metre") (.flt .f64)) "abscissa_kind"),
  (117, .not (.pkindOf (.pk "abscissa_kind" (.nm n!"units::isq::si::metre") (.flt .f64)) "ordinate_kind")),
  (119, .not (.pkindOf (.alias n!"units::isq::si::length" (.nm n!"units::isq::si::metre") (.flt .f64)) "abscissa_kind")),
  (121, .not (.pkindOf (.kd (.nm "width_kind") (.nm n!"units::isq::si::metre") (.flt .f64)) "abscissa_kind")),
  (124, .not (.pkindOf (.pk "abscissa_kind" (.nm n!"units::isq::si::metre") (.flt .f64)) "sea_level_altitude_kind")),
  (125, .not (.pkindOf (.pk "altitude_kind" (.nm n!"units::isq::si::metre") (.flt .f64)) "sea_level_altitude_kind")),
  (150, .badType (.pk "abscissa_kind" (.nm n!"units::isq::si::second") (.int .i32))),
  (172, .eqWith (.obj (.pk "abscissa_kind" (.nm n!"units::isq::si::metre") (.flt .f64)) 1) (.obj (.pk "abscissa_kind" (.nm n!"units::isq::si::metre") (.flt .f64)) 1)),
  (173, .cmpWith (.obj (.pk "abscissa_kind" (.nm n!"units::isq::si::metre") (.flt .f64)) 1) (.obj (.pk "abscissa_kind" (.nm n!"units::isq::si::metre") (.flt .f64)) 1)),
  (176, .cmpWith (.obj (.pk "abscissa_kind" (.nm n!"units::isq::si::metre") (.flt .f64)) 1) (.obj (.pk "abscissa_kind" (.nm n!"units::isq::si::metre") (.flt .f64)) 1)),
  (199, .same (.relative (.obj (.pk "abscissa_kind" (.nm n!"units::isq::si::metre") (.flt .f64)) 0)) (.obj (.kd (.nm "width_kind") (.nm n!"units::isq::si::metre") (.flt .f64)) 0)),
  (206, .cmp .eq (.common (.relative (.special (.pk "abscissa_kind" (.nm n!"units::isq::si::metre") (.int .u32)) .min))) (.op .mul (.num (.int .i32) 0) (.ref n!"units::isq::si::length_references::m"))),
  (207, .cmp .eq (.common (.relative (.special (.pk "abscissa_kind" (.nm n!"units::isq::si::metre") (.int .u32)) .max))) (.op .mul (.limit (.int .u32) true) (.ref n!"units::isq::si::length_references::m"))),
  (208, .cmp .eq (.number (.common (.relative (.special (.pk "abscissa_kind" (.nm n!"units::isq::si::metre") (.flt .f64)) .min)))) (.limit (.flt .f64) false)),
  (209, .cmp .eq (.number (.common (.relative (.special (.pk "abscissa_kind" (.nm n!"units::isq::si::metre") (.flt .f64)) .max)))) (.limit (.flt .f64) true)),
  (228, .cmp .eq (.common (.relative (.obj (.pk "abscissa_kind" (.nm n!"units::isq::si::metre") (.flt .f64)) 0))) (.op .mul (.num (.int .i32) 0) (.ref n!"units::isq::si::length_references::m"))),
  (235, .same (.deducePk (.make (.kd (.nm "width_kind") (.nm n!"units::isq::si::metre") (.int .i32)) (.op .mul (.num (.int .i32) 0) (.ref n!"units::isq::si::length_references::m")))) (.obj (.pk "abscissa_kind" (.nm n!"units::isq::si::metre") (.int .i32)) 0)),
  (236, .same (.deducePk (.make (.pk "abscissa_kind" (.nm n!"units::isq::si::metre") (.int .i32)) (.op .mul (.num (.int .i32) 0) (.ref n!"units::isq::si::length_references::m")))) (.obj (.pk "abscissa_kind" (.nm n!"units::isq::si::metre") (.int .i32)) 0)),
  (243, .cmp .eq (.common (.relative (.makeOnly (.pk "nth_apple_kind" (.nm n!"units::one") (.flt .f64)) (.num (.flt .f64) 1)))) (.num (.int .i32) 1)),
  (244, .cmp .eq (.common (.relative (.makeOnly (.pk "nth_apple_kind" (.nm n!"units::one") (.flt .f64)) (.num (.flt .f32) 1)))) (.num (.int .i32) 1)),
  (245, .cmp .eq (.common (.relative (.makeOnly (.pk "nth_apple_kind" (.nm n!"units::one") (.flt .f64)) (.num (.int .i32) 1)))) (.num (.int .i32) 1)),
  (246, .cmp .eq (.common (.relative (.makeOnly (.pk "nth_apple_kind" (.nm n!"units::one") (.flt .f64)) (.make (.rep (.int .i16)) (.num (.int .i32) 1))))) (.num (.int .i32) 1)),
  (247, .cmp .eq (.common (.relative (.makeOnly (.pk "nth_apple_kind" (.nm n!"units::one") (.int .i16)) (.num (.int .i32) 1)))) (.num (.int .i32) 1)),
  (248, .cmp .eq (.common (.relative (.makeOnly (.pk "nth_apple_kind" (.nm n!"units::one") (.int .i32)) (.num (.int .i32) 1)))) (.num (.int .i32) 1)),
  (249, .cmp .eq (.number (.common (.relative (.makeOnly (.pk "nth_apple_kind" (.nm n!"units::percent") (.int .i32)) (.num (.int .u64) 1))))) (.num (.int .i32) 1)),
  (250, .cmp .eq (.number (.common (.relative (.makeOnly (.pk "nth_apple_kind" (.nm n!"units::percent") (.flt .f64)) (.num (.int .i32) 1))))) (.num (.int .i32) 1)),
  (251, .both (.not (.constructible (.pk "nth_apple_kind" (.nm n!"units::percent") (.int .i32)) (.num (.flt .f64) 1))) (.not (.convertible (.pk "nth_apple_kind" (.nm n!"units::percent") (.int .i32)) (.num (.flt .f64) 1)))),
  (252, .both (.not (.constructible (.pk "nth_apple_kind" (.nm n!"units::one") (.int .i32)) (.num (.flt .f64) 1))) (.not (.convertible (.pk "nth_apple_kind" (.nm n!"units::one") (.int .i32)) (.num (.flt .f64) 1)))),
  (253, .both (.not (.constructible (.pk "abscissa_kind" (.nm n!"units::isq::si::metre") (.flt .f64)) (.num (.flt .f64) 1))) (.not (.convertible (.pk "abscissa_kind" (.nm n!"units::isq::si::metre") (.flt .f64)) (.num (.flt .f64) 1)))),
  (254, .both (.not (.constructible (.pk "abscissa_kind" (.nm n!"units::isq::si::metre") (.flt .f64)) (.num (.flt .f32) 1))) (.not (.convertible (.pk "abscissa_kind" (.nm n!"units::isq::si::metre") (.flt .f64)) (.num (.flt .f32) 1)))),
  (255, .both (.not (.constructible (.pk "abscissa_kind" (.nm n!"units::isq::si::metre") (.flt .f64)) (.num (.int .i32) 1))) (.not (.convertible (.pk "abscissa_kind" (.nm n!"units::isq::si::metre") (.flt .f64)) (.num (.int .i32) 1)))),
  (256, .both (.not (.constructible (.pk "abscissa_kind" (.nm n!"units::isq::si::metre") (.flt .f64)) (.make (.rep (.int .i16)) (.num (.int .i32) 1)))) (.not (.convertible (.pk "abscissa_kind" (.nm n!"units::isq::si::metre") (.flt .f64)) (.make (.rep (.int .i16)) (.num (.int .i32) 1))))),
  (257, .both (.not (.constructible (.pk "abscissa_kind" (.nm n!"units::isq::si::metre") (.int .i16)) (.num (.int .i32) 1))) (.not (.convertible (.pk "abscissa_kind" (.nm n!"units::isq::si::metre") (.int .i16)) (.num (.int .i32) 1)))),
  (265, .cmp .eq (.common (.relative (.makeOnly (.pk "abscissa_kind" (.nm n!"units::isq::si::metre") (.int .i16)) (.op .mul (.num (.int .i32) 1) (.ref n!"units::isq::si::length_references::m"))))) (.op .mul (.num (.int .i32) 1) (.ref n!"units::isq::si::length_references::m"))),
  (266, .cmp .eq (.common (.relative (.makeOnly (.pk "abscissa_kind" (.nm n!"units::isq::si::metre") (.int .i32)) (.op .mul (.num (.int .i32) 1) (.ref n!"units::isq::si::length_references::m"))))) (.op .mul (.num (.int .i32) 1) (.ref n!"units::isq::si::length_references::m"))),
  (267, .cmp .eq (.common (.relative (.makeOnly (.pk "abscissa_kind" (.nm n!"units::isq::si::metre") (.int .i32)) (.op .mul (.num (.int .i32) 1) (.ref n!"units::isq::si::length_references::km"))))) (.op .mul (.num (.int .i32) 1) (.ref n!"units::isq::si::length_references::km"))),
  (268, .cmp .eq (.common (.relative (.makeOnly (.pk "abscissa_kind" (.nm n!"units::isq::si::metre") (.int .i32)) (.op .mul (.num (.int .u64) 1) (.ref n!"units::isq::si::length_references::m"))))) (.op .mul (.num (.int .i32) 1) (.ref n!"units::isq::si::length_references::m"))),
  (270, .cmp .eq (.common (.relative (.makeOnly (.pk "abscissa_kind" (.nm n!"units::isq::si::metre") (.flt .f64)) (.op .mul (.num (.int .i32) 1) (.ref n!"units::isq::si::length_references::m"))))) (.op .mul (.num (.int .i32) 1) (.ref n!"units::isq::si::length_references::m"))),
  (271, .cmp .eq (.common (.relative (.makeOnly (.pk "abscissa_kind" (.nm n!"units::isq::si::metre") (.flt .f64)) (.op .mul (.num (.flt .f64) 1) (.ref n!"units::isq::si::length_references::km"))))) (.op .mul (.num (.int .i32) 1) (.ref n!"units::isq::si::length_references::km"))),
  (272, .cmp .eq (.common (.relative (.makeOnly (.pk "abscissa_kind" (.nm n!"units::isq::si::metre") (.flt .f64)) (.op .mul (.num (.int .i32) 1) (.ref n!"units::isq::si::cgs::length_references::cm"))))) (.op .mul (.num (.int .i32) 1) (.ref n!"units::isq::si::length_references::cm"))),
  (273, .cmp .eq (.common (.relative (.makeOnly (.pk "abscissa_kind" (.nm n!"units::isq::si::metre") (.flt .f64)) (.op .mul (.num (.flt .f64) 1) (.ref n!"units::isq::si::cgs::length_references::cm"))))) (.op .mul (.num (.int .i32) 1) (.ref n!"units::isq::si::length_references::cm"))),
  (274, .both (.not (.constructible (.pk "abscissa_kind" (.nm n!"units::isq::si::metre") (.int .i32)) (.op .mul (.num (.int .i32) 1) (.ref n!"units::isq::si::length_references::mm")))) (.not (.convertible (.pk "abscissa_kind" (.nm n!"units::isq::si::metre") (.int .i32)) (.op .mul (.num (.int .i32) 1) (.ref n!"units::isq::si::length_references::mm"))))),
  (275, .both (.not (.constructible (.pk "abscissa_kind" (.nm n!"units::isq::si::metre") (.int .i32)) (.op .mul (.num (.flt .f64) 1) (.ref n!"units::isq::si::length_references::m")))) (.not (.convertible (.pk "abscissa_kind" (.nm n!"units::isq::si::metre") (.int .i32)) (.op .mul (.num (.flt .f64) 1) (.ref n!"units::isq::si::length_references::m"))))),
  (276, .both (.not (.constructible (.pk "abscissa_kind" (.nm n!"units::isq::si::metre") (.int .i32)) (.op .mul (.num (.flt .f64) 1) (.ref n!"units::isq::si::length_references::km")))) (.not (.convertible (.pk "abscissa_kind" (.nm n!"units::isq::si::metre") (.int .i32)) (.op .mul (.num (.flt .f64) 1) (.ref n!"units::isq::si::length_references::km"))))),
  (277, .both (.not (.constructible (.pk "abscissa_kind" (.nm n!"units::isq::si::metre") (.int .i32)) (.op .mul (.num (.int .i32) 1) (.ref n!"units::isq::si::cgs::length_references::cm")))) (.not (.convertible (.pk "abscissa_kind" (.nm n!"units::isq::si::metre") (.int .i32)) (.op .mul (.num (.int .i32) 1) (.ref n!"units::isq::si::cgs::length_references::cm"))))),
  (278, .both (.not (.constructible (.pk "abscissa_kind" (.nm n!"units::isq::si::metre") (.int .i32)) (.deduceQty (.num (.int .i32) 1)))) (.not (.convertible (.pk "abscissa_kind" (.nm n!"units::isq::si::metre") (.int .i32)) (.deduceQty (.num (.int .i32) 1))))),
  (279, .both (.not (.constructible (.pk "abscissa_kind" (.nm n!"units::isq::si::metre") (.int .i32)) (.op .mul (.num (.int .i32) 1) (.ref n!"units::isq::si::time_references::s")))) (.not (.convertible (.pk "abscissa_kind" (.nm n!"units::isq::si::metre") (.int .i32)) (.op .mul (.num (.int .i32) 1) (.ref n!"units::isq::si::time_references::s"))))),
  (280, .both (.not (.constructible (.pk "abscissa_kind" (.nm n!"units::isq::si::metre") (.int .i32)) (.dur (.int .i64) 1 1 1))) (.not (.convertible (.pk "abscissa_kind" (.nm n!"units::isq::si::metre") (.int .i32)) (.dur (.int .i64) 1 1 1)))),
  (282, .cmp .eq (.common (.relative (.makeOnly (.pk "nth_apple_kind" (.nm n!"units::one") (.int .i32)) (.deduceQty (.num (.int .i32) 1))))) (.num (.int .i32) 1)),
  (283, .cmp .eq (.common (.relative (.makeOnly (.pk "nth_apple_kind" (.nm n!"units::one") (.flt .f64)) (.make (.alias n!"units::dimensionless" (.nm n!"units::percent") (.flt .f64)) (.num (.int .i32) 1))))) (.num (.flt .f64) (1 / 100))),
  (284, .cmp .eq (.common (.relative (.makeOnly (.pk "nth_apple_kind" (.nm n!"units::one") (.flt .f64)) (.make (.alias n!"units::dimensionless" (.nm n!"units::percent") (.flt .f64)) (.num (.int .i32) 1))))) (.num (.flt .f64) (1 / 100))),
  (285, .cmp .eq (.number (.common (.relative (.makeOnly (.pk "nth_apple_kind" (.nm n!"units::percent") (.flt .f64)) (.make (.alias n!"units::dimensionless" (.nm n!"units::percent") (.flt .f64)) (.num (.int .i32) 1)))))) (.num (.int .i32) 1)),
  (286, .cmp .eq (.number (.common (.relative (.makeOnly (.pk "nth_apple_kind" (.nm n!"units::percent") (.flt .f64)) (.deduceQty (.num (.int .i32) 1)))))) (.num (.int .i32) 100)),
  (287, .both (.not (.constructible (.pk "nth_apple_kind" (.nm n!"units::percent") (.int .i32)) (.deduceQty (.num (.flt .f64) 1)))) (.not (.convertible (.pk "nth_apple_kind" (.nm n!"units::percent") (.int .i32)) (.deduceQty (.num (.flt .f64) 1))))),
  (288, .both (.not (.constructible (.pk "nth_apple_kind" (.nm n!"units::percent") (.int .i32)) (.make (.alias n!"units::dimensionless" (.nm n!"units::percent") (.flt .f64)) (.num (.int .i32) 1)))) (.not (.convertible (.pk "nth_apple_kind" (.nm n!"units::percent") (.int .i32)) (.make (.alias n!"units::dimensionless" (.nm n!"units::percent") (.flt .f64)) (.num (.int .i32) 1))))),
  (289, .both (.not (.constructible (.pk "nth_apple_kind" (.nm n!"units::one") (.int .i32)) (.deduceQty (.num (.flt .f64) 1)))) (.not (.convertible (.pk "nth_apple_kind" (.nm n!"units::one") (.int .i32)) (.deduceQty (.num (.flt .f64) 1))))),
  (290, .both (.not (.constructible (.pk "nth_apple_kind" (.nm n!"units::one") (.int .i32)) (.make (.alias n!"units::dimensionless" (.nm n!"units::percent") (.flt .f64)) (.num (.int .i32) 1)))) (.not (.convertible (.pk "nth_apple_kind" (.nm n!"units::one") (.int .i32)) (.make (.alias n!"units::dimensionless" (.nm n!"units::percent") (.flt .f64)) (.num (.int .i32) 1))))),
  (291, .both (.not (.constructible (.pk "nth_apple_kind" (.nm n!"units::one") (.int .i32)) (.op .mul (.num (.int .i32) 1) (.ref n!"units::isq::si::length_references::m")))) (.not (.convertible (.pk "nth_apple_kind" (.nm n!"units::one") (.int .i32)) (.op .mul (.num (.int .i32) 1) (.ref n!"units::isq::si::length_references::m"))))),
  (292, .both (.not (.constructible (.pk "nth_apple_kind" (.nm n!"units::one") (.int .i32)) (.op .mul (.num (.int .i32) 1) (.ref n!"units::isq::si::time_references::s")))) (.not (.convertible (.pk "nth_apple_kind" (.nm n!"units::one") (.int .i32)) (.op .mul (.num (.int .i32) 1) (.ref n!"units::isq::si::time_references::s"))))),
  (293, .both (.not (.constructible (.pk "nth_apple_kind" (.nm n!"units::one") (.int .i32)) (.dur (.int .i64) 1 1 1))) (.not (.convertible (.pk "nth_apple_kind" (.nm n!"units::one") (.int .i32)) (.dur (.int .i64) 1 1 1)))),
  (301, .cmp .eq (.common (.relative (.makeOnly (.pk "abscissa_kind" (.nm n!"units::isq::si::metre") (.int .i16)) (.op .mul (.num (.int .i32) 1) (.ref n!"units::isq::si::length_references::m"))))) (.op .mul (.num (.int .i32) 1) (.ref n!"units::isq::si::length_references::m"))),
  (302, .cmp .eq (.common (.relative (.makeOnly (.pk "abscissa_kind" (.nm n!"units::isq::si::metre") (.int .i32)) (.deducePt (.op .mul (.make (.rep (.int .i16)) (.num (.int .i32) 1)) (.ref n!"units::isq::si::length_references::m")))))) (.op .mul (.num (.int .i32) 1) (.ref n!"units::isq::si::length_references::m"))),
  (303, .cmp .eq (.common (.relative (.makeOnly (.pk "abscissa_kind" (.nm n!"units::isq::si::metre") (.int .i32)) (.deducePt (.op .mul (.num (.int .i32) 1) (.ref n!"units::isq::si::length_references::m")))))) (.op .mul (.num (.int .i32) 1) (.ref n!"units::isq::si::length_references::m"))),
  (304, .cmp .eq (.common (.relative (.makeOnly (.pk "abscissa_kind" (.nm n!"units::isq::si::metre") (.int .i32)) (.deducePt (.op .mul (.num (.int .i32) 1) (.ref n!"units::isq::si::length_references::km")))))) (.op .mul (.num (.int .i32) 1) (.ref n!"units::isq::si::length_references::km"))),
  (305, .cmp .eq (.common (.relative (.makeOnly (.pk "abscissa_kind" (.nm n!"units::isq::si::metre") (.flt .f64)) (.deducePt (.op .mul (.num (.int .i32) 1) (.ref n!"units::isq::si::length_references::m")))))) (.op .mul (.num (.int .i32) 1) (.ref n!"units::isq::si::length_references::m"))),
  (306, .cmp .eq (.common (.relative (.makeOnly (.pk "abscissa_kind" (.nm n!"units::isq::si::metre") (.flt .f64)) (.deducePt (.op .mul (.num (.int .i32) 1) (.ref n!"units::isq::si::length_references::km")))))) (.op .mul (.num (.int .i32) 1) (.ref n!"units::isq::si::length_references::km"))),
  (307, .cmp .eq (.common (.relative (.makeOnly (.pk "abscissa_kind" (.nm n!"units::isq::si::metre") (.flt .f64)) (.deducePt (.op .mul (.num (.flt .f64) 1) (.ref n!"units::isq::si::length_references::m")))))) (.op .mul (.num (.int .i32) 1) (.ref n!"units::isq::si::length_references::m"))),
  (308, .cmp .eq (.common (.relative (.makeOnly (.pk "abscissa_kind" (.nm n!"units::isq::si::metre") (.flt .f64)) (.deducePt (.op .mul (.num (.flt .f64) 1) (.ref n!"units::isq::si::length_references::mm")))))) (.op .mul (.num (.int .i32) 1) (.ref n!"units::isq::si::length_references::mm"))),
  (309, .both (.not (.constructible (.pk "abscissa_kind" (.nm n!"units::isq::si::metre") (.int .i32)) (.deducePt (.op .mul (.num (.int .i32) 1) (.ref n!"units::isq::si::length_references::mm"))))) (.not (.convertible (.pk "abscissa_kind" (.nm n!"units::isq::si::metre") (.int .i32)) (.deducePt (.op .mul (.num (.int .i32) 1) (.ref n!"units::isq::si::length_references::mm")))))),
  (310, .both (.not (.constructible (.pk "abscissa_kind" (.nm n!"units::isq::si::metre") (.int .i32)) (.deducePt (.op .mul (.num (.flt .f64) 1) (.ref n!"units::isq::si::length_references::m"))))) (.not (.convertible (.pk "abscissa_kind" (.nm n!"units::isq::si::metre") (.int .i32)) (.deducePt (.op .mul (.num (.flt .f64) 1) (.ref n!"units::isq::si::length_references::m")))))),
  (311, .both (.not (.constructible (.pk "abscissa_kind" (.nm n!"units::isq::si::metre") (.int .i32)) (.deducePt (.op .mul (.num (.flt .f64) 1) (.ref n!"units::isq::si::length_references::km"))))) (.not (.convertible (.pk "abscissa_kind" (.nm n!"units::isq::si::metre") (.int .i32)) (.deducePt (.op .mul (.num (.flt .f64) 1) (.ref n!"units::isq::si::length_references::km")))))),
  (312, .both (.not (.constructible (.pk "abscissa_kind" (.nm n!"units::isq::si::metre") (.flt .f64)) (.deducePt (.op .mul (.num (.flt .f64) 1) (.op .mul (.ref n!"units::isq::si::length_references::m") (.ref n!"units::isq::si::length_references::m")))))) (.not (.convertible (.pk "abscissa_kind" (.nm n!"units::isq::si::metre") (.flt .f64)) (.deducePt (.op .mul (.num (.flt .f64) 1) (.op .mul (.ref n!"units::isq::si::length_references::m") (.ref n!"units::isq::si::length_references::m"))))))),
  (313, .both (.not (.constructible (.pk "abscissa_kind" (.nm n!"units::isq::si::metre") (.flt .f64)) (.deducePt (.op .mul (.num (.flt .f64) 1) (.ref n!"units::isq::si::time_references::s"))))) (.not (.convertible (.pk "abscissa_kind" (.nm n!"units::isq::si::metre") (.flt .f64)) (.deducePt (.op .mul (.num (.flt .f64) 1) (.ref n!"units::isq::si::time_references::s")))))),
  (315, .cmp .eq (.common (.relative (.makeOnly (.pk "screen_si_width_kind" (.nm n!"units::isq::si::metre") (.flt .f64)) (.make (.pt (.user "screen_origin" (.nm n!"units::isq::si::dim_length")) (.nm n!"units::isq::si::metre") (.flt .f64)) (.op .mul (.num (.int .i32) 1) (.ref n!"units::isq::si::length_references::m")))))) (.op .mul (.num (.int .i32) 1) (.ref n!"units::isq::si::length_references::m"))),
  (318, .cmp .eq (.common (.relative (.makeOnly (.pk "screen_si_width_kind" (.nm n!"units::isq::si::metre") (.flt .f64)) (.make (.pt (.user "screen_origin" (.nm n!"units::isq::si::cgs::dim_length")) (.nm n!"units::isq::si::metre") (.flt .f64)) (.op .mul (.num (.int .i32) 1) (.ref n!"units::isq::si::length_references::m")))))) (.op .mul (.num (.int .i32) 1) (.ref n!"units::isq::si::length_references::m"))),
  (321, .both (.not (.constructible (.pk "sea_level_altitude_kind" (.nm n!"units::isq::si::metre") (.flt .f64)) (.deducePt (.op .mul (.num (.flt .f64) 1) (.ref n!"units::isq::si::length_references::m"))))) (.not (.convertible (.pk "sea_level_altitude_kind" (.nm n!"units::isq::si::metre") (.flt .f64)) (.deducePt (.op .mul (.num (.flt .f64) 1) (.ref n!"units::isq::si::length_references::m")))))),
  (324, .cmp .eq (.common (.relative (.makeOnly (.pk "nth_apple_kind" (.nm n!"units::one") (.int .i16)) (.deducePt (.num (.int .i32) 1))))) (.num (.int .i32) 1)),
  (325, .cmp .eq (.common (.relative (.makeOnly (.pk "nth_apple_kind" (.nm n!"units::one") (.int .i32)) (.deducePt (.num (.int .i32) 1))))) (.num (.int .i32) 1)),
  (326, .cmp .eq (.common (.relative (.makeOnly (.pk "nth_apple_kind" (.nm n!"units::one") (.flt .f64)) (.deducePt (.num (.int .i32) 1))))) (.num (.int .i32) 1)),
  (327, .cmp .eq (.common (.relative (.makeOnly (.pk "nth_apple_kind" (.nm n!"units::one") (.flt .f64)) (.deducePt (.make (.alias n!"units::dimensionless" (.nm n!"units::percent") (.int .i32)) (.num (.int .i32) 1)))))) (.num (.flt .f64) (1 / 100))),
  (328, .cmp .eq (.common (.relative (.makeOnly (.pk "nth_apple_kind" (.nm n!"units::one") (.flt .f64)) (.deducePt (.num (.flt .f64) 1))))) (.num (.int .i32) 1)),
  (329, .cmp .eq (.common (.relative (.makeOnly (.pk "nth_apple_kind" (.nm n!"units::one") (.flt .f64)) (.deducePt (.make (.alias n!"units::dimensionless" (.nm n!"units::percent") (.flt .f64)) (.num (.flt .f64) 1)))))) (.num (.flt .f64) (1 / 100))),
  (330, .cmp .eq (.number (.common (.relative (.makeOnly (.pk "nth_apple_kind" (.nm n!"units::percent") (.int .i32)) (.deducePt (.num (.int .i32) 1)))))) (.num (.int .i32) 100)),
  (331, .cmp .eq (.number (.common (.relative (.makeOnly (.pk "nth_apple_kind" (.nm n!"units::percent") (.flt .f64)) (.deducePt (.make (.alias n!"units::dimensionless" (.nm n!"units::percent") (.flt .f64)) (.num (.int .i32) 1))))))) (.num (.int .i32) 1)),
  (332, .both (.not (.constructible (.pk "nth_apple_kind" (.nm n!"units::percent") (.int .i32)) (.deducePt (.num (.flt .f64) 1)))) (.not (.convertible (.pk "nth_apple_kind" (.nm n!"units::percent") (.int .i32)) (.deducePt (.num (.flt .f64) 1))))),
  (333, .both (.not (.constructible (.pk "nth_apple_kind" (.nm n!"units::percent") (.int .i32)) (.deducePt (.make (.alias n!"units::dimensionless" (.nm n!"units::percent") (.flt .f64)) (.num (.int .i32) 1))))) (.not (.convertible (.pk "nth_apple_kind" (.nm n!"units::percent") (.int .i32)) (.deducePt (.make (.alias n!"units::dimensionless" (.nm n!"units::percent") (.flt .f64)) (.num (.int .i32) 1)))))),
  (334, .both (.not (.constructible (.pk "nth_apple_kind" (.nm n!"units::one") (.int .i32)) (.deducePt (.num (.flt .f64) 1)))) (.not (.convertible (.pk "nth_apple_kind" (.nm n!"units::one") (.int .i32)) (.deducePt (.num (.flt .f64) 1))))),
  (335, .both (.not (.constructible (.pk "nth_apple_kind" (.nm n!"units::one") (.int .i32)) (.deducePt (.make (.alias n!"units::dimensionless" (.nm n!"units::percent") (.int .i32)) (.num (.int .i32) 1))))) (.not (.convertible (.pk "nth_apple_kind" (.nm n!"units::one") (.int .i32)) (.deducePt (.make (.alias n!"units::dimensionless" (.nm n!"units::percent") (.int .i32)) (.num (.int .i32) 1)))))),
  (336, .both (.not (.constructible (.pk "nth_apple_kind" (.nm n!"units::one") (.int .i32)) (.deducePt (.make (.alias n!"units::dimensionless" (.nm n!"units::percent") (.flt .f64)) (.num (.int .i32) 1))))) (.not (.convertible (.pk "nth_apple_kind" (.nm n!"units::one") (.int .i32)) (.deducePt (.make (.alias n!"units::dimensionless" (.nm n!"units::percent") (.flt .f64)) (.num (.int .i32) 1)))))),
  (337, .both (.not (.constructible (.pk "nth_apple_kind" (.nm n!"units::one") (.flt .f64)) (.deducePt (.op .mul (.num (.flt .f64) 1) (.ref n!"units::isq::si::time_references::s"))))) (.not (.convertible (.pk "nth_apple_kind" (.nm n!"units::one") (.flt .f64)) (.deducePt (.op .mul (.num (.flt .f64) 1) (.ref n!"units::isq::si::time_references::s")))))),
  (340, .cmp .eq (.common (.relative (.makeOnly (.pk "sys_time_point_kind" (.nm n!"units::isq::si::second") (.int .i32)) (.time "system_clock" (.dur (.int .i64) 1 1 42))))) (.op .mul (.num (.int .i32) 42) (.ref n!"units::isq::si::time_references::s"))),
  (343, .both (.not (.constructible (.pk "time_point_kind" (.nm n!"units::isq::si::second") (.int .i32)) (.time "system_clock" (.dur (.int .i64) 1 1 42)))) (.not (.convertible (.pk "time_point_kind" (.nm n!"units::isq::si::second") (.int .i32)) (.time "system_clock" (.dur (.int .i64) 1 1 42))))),
  (352, .cmp .eq (.common (.relative (.makeOnly (.pk "abscissa_kind" (.nm n!"units::isq::si::metre") (.int .i32)) (.make (.kd (.nm "width_kind") (.nm n!"units::isq::si::metre") (.int .i32)) (.op .mul (.num (.int .i32) 1) (.ref n!"units::isq::si::length_references::m")))))) (.op .mul (.num (.int .i32) 1) (.ref n!"units::isq::si::length_references::m"))),
  (353, .cmp .eq (.common (.relative (.makeOnly (.pk "abscissa_kind" (.nm n!"units::isq::si::metre") (.int .i32)) (.make (.kd (.nm "width_kind") (.nm n!"units::isq::si::kilometre") (.int .u64)) (.op .mul (.num (.int .u64) 1) (.ref n!"units::isq::si::length_references::km")))))) (.op .mul (.num (.int .i32) 1) (.ref n!"units::isq::si::length_references::km"))),
  (354, .cmp .eq (.common (.relative (.makeOnly (.pk "abscissa_kind" (.nm n!"units::isq::si::centimetre") (.int .i32)) (.make (.kd (.nm "width_kind") (.nm n!"units::isq::si::cgs::centimetre") (.int .i32)) (.op .mul (.num (.int .i32) 1) (.ref n!"units::isq::si::cgs::length_references::cm")))))) (.op .mul (.num (.int .i32) 1) (.ref n!"units::isq::si::length_references::cm"))),
  (355, .cmp .eq (.common (.relative (.makeOnly (.pk "abscissa_kind" (.nm n!"units::isq::si::fps::foot") (.flt .f64)) (.make (.kd (.nm "width_kind") (.nm n!"units::isq::si::cgs::centimetre") (.int .i32)) (.op .mul (.num (.int .i32) 1) (.ref n!"units::isq::si::cgs::length_references::cm")))))) (.op .mul (.num (.int .i32) 1) (.ref n!"units::isq::si::length_references::cm"))),
  (356, .cmp .eq (.common (.relative (.makeOnly (.pk "abscissa_kind" (.nm n!"units::isq::si::metre") (.flt .f64)) (.make (.kd (.nm "width_kind") (.nm n!"units::isq::si::metre") (.int .i32)) (.op .mul (.num (.int .i32) 1) (.ref n!"units::isq::si::length_references::m")))))) (.op .mul (.num (.int .i32) 1) (.ref n!"units::isq::si::length_references::m"))),
  (357, .cmp .eq (.common (.relative (.makeOnly (.pk "abscissa_kind" (.nm n!"units::isq::si::metre") (.flt .f64)) (.make (.kd (.nm "width_kind") (.nm n!"units::isq::si::millimetre") (.flt .f64)) (.op .mul (.num (.flt .f64) 1) (.ref n!"units::isq::si::length_references::mm")))))) (.op .mul (.num (.int .i32) 1) (.ref n!"units::isq::si::length_references::mm"))),
  (358, .cmp .eq (.common (.relative (.makeOnly (.pk "abscissa_kind" (.nm n!"units::isq::si::metre") (.flt .f64)) (.make (.kd (.nm "width_kind") (.nm n!"units::isq::si::kilometre") (.int .u64)) (.op .mul (.num (.int .u64) 1) (.ref n!"units::isq::si::length_references::km")))))) (.op .mul (.num (.int .i32) 1) (.ref n!"units::isq::si::length_references::km"))),
  (359, .both (.not (.constructible (.pk "abscissa_kind" (.nm n!"units::isq::si::metre") (.int .i32)) (.make (.kd (.nm "width_kind") (.nm n!"units::isq::si::metre") (.flt .f64)) (.op .mul (.num (.flt .f64) 1) (.ref n!"units::isq::si::length_references::m"))))) (.not (.convertible (.pk "abscissa_kind" (.nm n!"units::isq::si::metre") (.int .i32)) (.make (.kd (.nm "width_kind") (.nm n!"units::isq::si::metre") (.flt .f64)) (.op .mul (.num (.flt .f64) 1) (.ref n!"units::isq::si::length_references::m")))))),
  (360, .both (.not (.constructible (.pk "abscissa_kind" (.nm n!"units::isq::si::metre") (.int .i32)) (.make (.kd (.nm "width_kind") (.nm n!"units::isq::si::millimetre") (.int .i32)) (.op .mul (.num (.int .i32) 1) (.ref n!"units::isq::si::length_references::mm"))))) (.not (.convertible (.pk "abscissa_kind" (.nm n!"units::isq::si::metre") (.int .i32)) (.make (.kd (.nm "width_kind") (.nm n!"units::isq::si::millimetre") (.int .i32)) (.op .mul (.num (.int .i32) 1) (.ref n!"units::isq::si::length_references::mm")))))),
  (361, .both (.not (.constructible (.pk "abscissa_kind" (.nm n!"units::isq::si::metre") (.int .i32)) (.make (.kd (.nm "height_kind") (.nm n!"units::isq::si::metre") (.int .i32)) (.op .mul (.num (.int .i32) 1) (.ref n!"units::isq::si::length_references::m"))))) (.not (.convertible (.pk "abscissa_kind" (.nm n!"units::isq::si::metre") (.int .i32)) (.make (.kd (.nm "height_kind") (.nm n!"units::isq::si::metre") (.int .i32)) (.op .mul (.num (.int .i32) 1) (.ref n!"units::isq::si::length_references::m")))))),
  (366, .cmp .eq (.common (.relative (.makeOnly (.pk "nth_apple_kind" (.nm n!"units::one") (.int .i32)) (.make (.kd (.nm "apple") (.nm n!"units::one") (.int .i32)) (.num (.int .i32) 1))))) (.num (.int .i32) 1)),
  (367, .cmp .eq (.common (.relative (.makeOnly (.pk "nth_apple_kind" (.nm n!"units::one") (.flt .f64)) (.make (.kd (.nm "apple") (.nm n!"units::percent") (.flt .f64)) (.make (.alias n!"units::dimensionless" (.nm n!"units::percent") (.flt .f64)) (.num (.int .i32) 1)))))) (.num (.flt .f64) (1 / 100))),
  (368, .cmp .eq (.number (.common (.relative (.makeOnly (.pk "nth_apple_kind" (.nm n!"units::percent") (.int .i32)) (.make (.kd (.nm "apple") (.nm n!"units::one") (.int .i32)) (.num (.int .i32) 1)))))) (.num (.int .i32) 100)),
  (369, .cmp .eq (.number (.common (.relative (.makeOnly (.pk "nth_apple_kind" (.nm n!"units::percent") (.flt .f64)) (.make (.kd (.nm "apple") (.nm n!"units::percent") (.flt .f64)) (.make (.alias n!"units::dimensionless" (.nm n!"units::percent") (.flt .f64)) (.num (.int .i32) 1))))))) (.num (.int .i32) 1)),
  (370, .both (.not (.constructible (.pk "nth_apple_kind" (.nm n!"units::percent") (.int .i32)) (.make (.kd (.nm "apple") (.nm n!"units::one") (.flt .f64)) (.num (.flt .f64) 1)))) (.not (.convertible (.pk "nth_apple_kind" (.nm n!"units::percent") (.int .i32)) (.make (.kd (.nm "apple") (.nm n!"units::one") (.flt .f64)) (.num (.flt .f64) 1))))),
  (371, .both (.not (.constructible (.pk "nth_apple_kind" (.nm n!"units::percent") (.int .i32)) (.make (.kd (.nm "apple") (.nm n!"units::percent") (.flt .f64)) (.make (.alias n!"units::dimensionless" (.nm n!"units::percent") (.flt .f64)) (.num (.int .i32) 1))))) (.not (.convertible (.pk "nth_apple_kind" (.nm n!"units::percent") (.int .i32)) (.make (.kd (.nm "apple") (.nm n!"units::percent") (.flt .f64)) (.make (.alias n!"units::dimensionless" (.nm n!"units::percent") (.flt .f64)) (.num (.int .i32) 1)))))),
  (372, .both (.not (.constructible (.pk "nth_apple_kind" (.nm n!"units::one") (.int .i32)) (.make (.kd (.nm "apple") (.nm n!"units::one") (.flt .f64)) (.num (.flt .f64) 1)))) (.not (.convertible (.pk "nth_apple_kind" (.nm n!"units::one") (.int .i32)) (.make (.kd (.nm "apple") (.nm n!"units::one") (.flt .f64)) (.num (.flt .f64) 1))))),
  (373, .both (.not (.constructible (.pk "nth_apple_kind" (.nm n!"units::one") (.int .i32)) (.make (.kd (.nm "apple") (.nm n!"units::percent") (.flt .f64)) (.make (.alias n!"units::dimensionless" (.nm n!"units::percent") (.flt .f64)) (.num (.int .i32) 1))))) (.not (.convertible (.pk "nth_apple_kind" (.nm n!"units::one") (.int .i32)) (.make (.kd (.nm "apple") (.nm n!"units::percent") (.flt .f64)) (.make (.alias n!"units::dimensionless" (.nm n!"units::percent") (.flt .f64)) (.num (.int .i32) 1)))))),
  (374, .both (.not (.constructible (.pk "nth_apple_kind" (.nm n!"units::one") (.int .i32)) (.make (.kd (.nm "orange") (.nm n!"units::one") (.int .i32)) (.num (.int .i32) 1)))) (.not (.convertible (.pk "nth_apple_kind" (.nm n!"units::one") (.int .i32)) (.make (.kd (.nm "orange") (.nm n!"units::one") (.int .i32)) (.num (.int .i32) 1))))),
  (383, .cmp .eq (.common (.relative (.makeBoth (.pk "abscissa_kind" (.nm n!"units::isq::si::metre") (.int .i32)) (.make (.pk "abscissa_kind" (.nm n!"units::isq::si::metre") (.int .i32)) (.op .mul (.num (.int .i32) 1) (.ref n!"units::isq::si::length_references::m")))))) (.op .mul (.num (.int .i32) 1) (.ref n!"units::isq::si::length_references::m"))),
  (384, .cmp .eq (.common (.relative (.makeBoth (.pk "abscissa_kind" (.nm n!"units::isq::si::metre") (.int .i32)) (.make (.pk "abscissa_kind" (.nm n!"units::isq::si::kilometre") (.int .u64)) (.op .mul (.num (.int .u64) 1) (.ref n!"units::isq::si::length_references::km")))))) (.op .mul (.num (.int .i32) 1) (.ref n!"units::isq::si::length_references::km"))),
  (385, .cmp .eq (.common (.relative (.makeBoth (.pk "abscissa_kind" (.nm n!"units::isq::si::metre") (.flt .f64)) (.make (.pk "abscissa_kind" (.nm n!"units::isq::si::metre") (.int .u64)) (.op .mul (.num (.int .u64) 1) (.ref n!"units::isq::si::length_references::m")))))) (.op .mul (.num (.int .i32) 1) (.ref n!"units::isq::si::length_references::m"))),
  (386, .cmp .eq (.common (.relative (.makeBoth (.pk "abscissa_kind" (.nm n!"units::isq::si::metre") (.flt .f64)) (.make (.pk "abscissa_kind" (.nm n!"units::isq::si::cgs::centimetre") (.int .i32)) (.op .mul (.num (.int .i32) 1) (.ref n!"units::isq::si::cgs::length_references::cm")))))) (.op .mul (.num (.int .i32) 1) (.ref n!"units::isq::si::length_references::cm"))),
  (387, .cmp .eq (.common (.relative (.makeBoth (.pk "abscissa_kind" (.nm n!"units::isq::si::fps::foot") (.flt .f64)) (.make (.pk "abscissa_kind" (.nm n!"units::isq::si::cgs::centimetre") (.int .i32)) (.op .mul (.num (.int .i32) 1) (.ref n!"units::isq::si::cgs::length_references::cm")))))) (.op .mul (.num (.int .i32) 1) (.ref n!"units::isq::si::length_references::cm"))),
  (388, .both (.not (.constructible (.pk "abscissa_kind" (.nm n!"units::isq::si::metre") (.int .i32)) (.make (.pk "abscissa_kind" (.nm n!"units::isq::si::metre") (.flt .f64)) (.op .mul (.num (.flt .f64) 1) (.ref n!"units::isq::si::length_references::m"))))) (.not (.convertible (.pk "abscissa_kind" (.nm n!"units::isq::si::metre") (.int .i32)) (.make (.pk "abscissa_kind" (.nm n!"units::isq::si::metre") (.flt .f64)) (.op .mul (.num (.flt .f64) 1) (.ref n!"units::isq::si::length_references::m")))))),
  (389, .both (.not (.constructible (.pk "abscissa_kind" (.nm n!"units::isq::si::kilometre") (.int .i32)) (.make (.pk "abscissa_kind" (.nm n!"units::isq::si::metre") (.int .i32)) (.op .mul (.num (.int .i32) 1) (.ref n!"units::isq::si::length_references::m"))))) (.not (.convertible (.pk "abscissa_kind" (.nm n!"units::isq::si::kilometre") (.int .i32)) (.make (.pk "abscissa_kind" (.nm n!"units::isq::si::metre") (.int .i32)) (.op .mul (.num (.int .i32) 1) (.ref n!"units::isq::si::length_references::m")))))),
  (390, .both (.not (.constructible (.pk "abscissa_kind" (.nm n!"units::isq::si::metre") (.int .i32)) (.make (.pk "ordinate_kind" (.nm n!"units::isq::si::metre") (.int .i32)) (.op .mul (.num (.int .i32) 1) (.ref n!"units::isq::si::length_references::m"))))) (.not (.convertible (.pk "abscissa_kind" (.nm n!"units::isq::si::metre") (.int .i32)) (.make (.pk "ordinate_kind" (.nm n!"units::isq::si::metre") (.int .i32)) (.op .mul (.num (.int .i32) 1) (.ref n!"units::isq::si::length_references::m")))))),
  (391, .both (.not (.constructible (.pk "abscissa_kind" (.nm n!"units::isq::si::metre") (.int .i32)) (.make (.pk "time_point_kind" (.nm n!"units::isq::si::second") (.int .i32)) (.op .mul (.num (.int .i32) 1) (.ref n!"units::isq::si::time_references::s"))))) (.not (.convertible (.pk "abscissa_kind" (.nm n!"units::isq::si::metre") (.int .i32)) (.make (.pk "time_point_kind" (.nm n!"units::isq::si::second") (.int .i32)) (.op .mul (.num (.int .i32) 1) (.ref n!"units::isq::si::time_references::s")))))),
  (393, .cmp .eq (.common (.relative (.makeBoth (.pk "nth_apple_kind" (.nm n!"units::one") (.int .i32)) (.make (.pk "nth_apple_kind" (.nm n!"units::one") (.int .i32)) (.num (.int .i32) 1))))) (.num (.int .i32) 1)),
  (394, .cmp .eq (.common (.relative (.makeBoth (.pk "nth_apple_kind" (.nm n!"units::one") (.flt .f64)) (.make (.pk "nth_apple_kind" (.nm n!"units::percent") (.flt .f64)) (.make (.alias n!"units::dimensionless" (.nm n!"units::percent") (.flt .f64)) (.num (.int .i32) 1)))))) (.num (.flt .f64) (1 / 100))),
  (395, .cmp .eq (.number (.common (.relative (.makeBoth (.pk "nth_apple_kind" (.nm n!"units::percent") (.int .i32)) (.make (.pk "nth_apple_kind" (.nm n!"units::one") (.int .i32)) (.num (.int .i32) 1)))))) (.num (.int .i32) 100)),
  (396, .cmp .eq (.number (.common (.relative (.makeBoth (.pk "nth_apple_kind" (.nm n!"units::percent") (.flt .f64)) (.make (.pk "nth_apple_kind" (.nm n!"units::percent") (.flt .f64)) (.make (.alias n!"units::dimensionless" (.nm n!"units::percent") (.flt .f64)) (.num (.int .i32) 1))))))) (.num (.int .i32) 1)),
  (397, .both (.not (.constructible (.pk "nth_apple_kind" (.nm n!"units::percent") (.int .i32)) (.make (.pk "nth_apple_kind" (.nm n!"units::one") (.flt .f64)) (.num (.flt .f64) 1)))) (.not (.convertible (.pk "nth_apple_kind" (.nm n!"units::percent") (.int .i32)) (.make (.pk "nth_apple_kind" (.nm n!"units::one") (.flt .f64)) (.num (.flt .f64) 1))))),
  (398, .both (.not (.constructible (.pk "nth_apple_kind" (.nm n!"units::percent") (.int .i32)) (.make (.pk "nth_apple_kind" (.nm n!"units::percent") (.flt .f64)) (.make (.alias n!"units::dimensionless" (.nm n!"units::percent") (.flt .f64)) (.num (.int .i32) 1))))) (.not (.convertible (.pk "nth_apple_kind" (.nm n!"units::percent") (.int .i32)) (.make (.pk "nth_apple_kind" (.nm n!"units::percent") (.flt .f64)) (.make (.alias n!"units::dimensionless" (.nm n!"units::percent") (.flt .f64)) (.num (.int .i32) 1)))))),
  (399, .both (.not (.constructible (.pk "nth_apple_kind" (.nm n!"units::one") (.int .i32)) (.make (.pk "nth_apple_kind" (.nm n!"units::one") (.flt .f64)) (.num (.flt .f64) 1)))) (.not (.convertible (.pk "nth_apple_kind" (.nm n!"units::one") (.int .i32)) (.make (.pk "nth_apple_kind" (.nm n!"units::one") (.flt .f64)) (.num (.flt .f64) 1))))),
  (400, .both (.not (.constructible (.pk "nth_apple_kind" (.nm n!"units::one") (.int .i32)) (.make (.pk "nth_apple_kind" (.nm n!"units::percent") (.int .i32)) (.make (.alias n!"units::dimensionless" (.nm n!"units::percent") (.int .i32)) (.num (.int .i32) 1))))) (.not (.convertible (.pk "nth_apple_kind" (.nm n!"units::one") (.int .i32)) (.make (.pk "nth_apple_kind" (.nm n!"units::percent") (.int .i32)) (.make (.alias n!"units::dimensionless" (.nm n!"units::percent") (.int .i32)) (.num (.int .i32) 1)))))),
  (401, .both (.not (.constructible (.pk "nth_apple_kind" (.nm n!"units::one") (.int .i32)) (.make (.pk "nth_orange_kind" (.nm n!"units::one") (.int .i32)) (.num (.int .i32) 1)))) (.not (.convertible (.pk "nth_apple_kind" (.nm n!"units::one") (.int .i32)) (.make (.pk "nth_orange_kind" (.nm n!"units::one") (.int .i32)) (.num (.int .i32) 1))))),
  (402, .both (.not (.constructible (.pk "nth_apple_kind" (.nm n!"units::one") (.int .i32)) (.make (.pk "abscissa_kind" (.nm n!"units::isq::si::metre") (.int .i32)) (.op .mul (.num (.int .i32) 1) (.ref n!"units::isq::si::length_references::m"))))) (.not (.convertible (.pk "nth_apple_kind" (.nm n!"units::one") (.int .i32)) (.make (.pk "abscissa_kind" (.nm n!"units::isq::si::metre") (.int .i32)) (.op .mul (.num (.int .i32) 1) (.ref n!"units::isq::si::length_references::m")))))),
  (405, .both (.not (.constructible (.pk "sys_time_point_kind" (.nm n!"units::isq::si::second") (.int .i32)) (.obj (.pk "time_point_kind" (.nm n!"units::isq::si::second") (.int .i32)) 0))) (.not (.convertible (.pk "sys_time_point_kind" (.nm n!"units::isq::si::second") (.int .i32)) (.obj (.pk "time_point_kind" (.nm n!"units::isq::si::second") (.int .i32)) 0)))),
  (408, .both (.not (.constructible (.pk "time_point_kind" (.nm n!"units::isq::si::second") (.int .i32)) (.obj (.pk "sys_time_point_kind" (.nm n!"units::isq::si::second") (.int .i32)) 0))) (.not (.convertible (.pk "time_point_kind" (.nm n!"units::isq::si::second") (.int .i32)) (.obj (.pk "sys_time_point_kind" (.nm n!"units::isq::si::second") (.int .i32)) 0)))),
  (411, .both (.not (.constructible (.pk "screen_si_width_kind" (.nm n!"units::isq::si::metre") (.flt .f64)) (.make (.pk "screen_si_cgs_width_kind" (.nm n!"units::isq::si::metre") (.flt .f64)) (.op .mul (.num (.int .i32) 1) (.ref n!"units::isq::si::length_references::m"))))) (.not (.convertible (.pk "screen_si_width_kind" (.nm n!"units::isq::si::metre") (.flt .f64)) (.make (.pk "screen_si_cgs_width_kind" (.nm n!"units::isq::si::metre") (.flt .f64)) (.op .mul (.num (.int .i32) 1) (.ref n!"units::isq::si::length_references::m")))))),
  (419, .not (.convertible (.rep (.int .i32)) (.obj (.pk "abscissa_kind" (.nm n!"units::isq::si::metre") (.int .i32)) 1))),
  (420, .not (.convertible (.alias n!"units::dimensionless" (.nm n!"units::one") (.int .i32)) (.obj (.pk "abscissa_kind" (.nm n!"units::isq::si::metre") (.int .i32)) 1))),
  (421, .not (.convertible (.alias n!"units::isq::si::length" (.nm n!"units::isq::si::metre") (.int .i32)) (.obj (.pk "abscissa_kind" (.nm n!"units::isq::si::metre") (.int .i32)) 1))),
  (422, .not (.convertible (.kd (.nm "width_kind") (.nm n!"units::isq::si::metre") (.int .i32)) (.obj (.pk "abscissa_kind" (.nm n!"units::isq::si::metre") (.int .i32)) 1))),
  (423, .not (.convertible (.kd (.nm "height_kind") (.nm n!"units::isq::si::metre") (.int .i32)) (.obj (.pk "abscissa_kind" (.nm n!"units::isq::si::metre") (.int .i32)) 1))),
  (424, .not (.convertible (.pt (.dyn (.nm n!"units::isq::si::dim_length")) (.nm n!"units::isq::si::metre") (.int .i32)) (.obj (.pk "abscissa_kind" (.nm n!"units::isq::si::metre") (.int .i32)) 1))),
  (432, .cmp .eq (.common (.relative (.assign (.make (.pk "abscissa_kind" (.nm n!"units::isq::si::metre") (.int .i32)) (.op .mul (.num (.int .i32) 2) (.ref n!"units::isq::si::length_references::m"))) (.make (.pk "abscissa_kind" (.nm n!"units::isq::si::metre") (.int .i32)) (.op .mul (.num (.int .i32) 1) (.ref n!"units::isq::si::length_references::m")))))) (.op .mul (.num (.int .i32) 1) (.ref n!"units::isq::si::length_references::m"))),
  (433, .cmp .eq (.common (.relative (.assign (.make (.pk "abscissa_kind" (.nm n!"units::isq::si::metre") (.int .i32)) (.op .mul (.num (.int .i32) 2) (.ref n!"units::isq::si::length_references::m"))) (.make (.pk "abscissa_kind" (.nm n!"units::isq::si::kilometre") (.int .i32)) (.op .mul (.num (.int .i32) 1) (.ref n!"units::isq::si::length_references::km")))))) (.op .mul (.num (.int .i32) 1) (.ref n!"units::isq::si::length_references::km"))),
  (434, .not (.convertible (.pk "abscissa_kind" (.nm n!"units::isq::si::metre") (.int .i32)) (.obj (.pk "abscissa_kind" (.nm n!"units::isq::si::metre") (.flt .f64)) 1))),
  (435, .not (.convertible (.pk "abscissa_kind" (.nm n!"units::isq::si::metre") (.int .i32)) (.obj (.pk "abscissa_kind" (.nm n!"units::isq::si::millimetre") (.int .i32)) 1))),
  (447, .cmp .eq (.common (.relative (statePointKind_444_3))) (.op .mul (.num (.int .i32) 2) (.ref n!"units::isq::si::length_references::m")))]

#guard failures2 [n!"generic/dimensionless.h", n!"isq/si/area.h", n!"isq/si/cgs/length.h", n!"isq/si/fps/length.h", n!"isq/si/speed.h", n!"isq/si/time.h"] ["screen_origin"] declsPointKind testPointKind0 = some []

/-- /repo/test/unit_test/static/quantity_point_kind_test.cpp. -/
def testPointKind1 : List (Nat × Check2) := [
  (448, .cmp .eq (.common (.relative (statePointKind_444_4))) (.op .mul (.num (.int .i32) 1) (.ref n!"units::isq::si::length_references::m"))),
  (449, .cmp .eq (.common (.relative (.post .add (statePointKind_444_4)))) (.op .mul (.num (.int .i32) 1) (.ref n!"units::isq::si::length_references::m"))),
  (449, .cmp .eq (.common (.relative (statePointKind_444_5))) (.op .mul (.num (.int .i32) 2) (.ref n!"units::isq::si::length_references::m"))),
  (450, .cmp .eq (.common (.relative (.post .sub (statePointKind_444_5)))) (.op .mul (.num (.int .i32) 2) (.ref n!"units::isq::si::length_references::m"))),
  (450, .cmp .eq (.common (.relative (statePointKind_444_6))) (.op .mul (.num (.int .i32) 1) (.ref n!"units::isq::si::length_references::m"))),
  (451, .cmp .eq (.common (.relative (statePointKind_444_7))) (.op .mul (.num (.int .i32) 2) (.ref n!"units::isq::si::length_references::m"))),
  (452, .cmp .eq (.common (.relative (statePointKind_444_8))) (.op .mul (.num (.int .i32) 1) (.ref n!"units::isq::si::length_references::m"))),
  (472, .rejected (.assignOp .add (.obj (.pk "abscissa_kind" (.nm n!"units::isq::si::metre") (.int .i32)) 1) (.num (.int .i32) 1))),
  (472, .rejected (.assignOp .sub (.obj (.pk "abscissa_kind" (.nm n!"units::isq::si::metre") (.int .i32)) 1) (.num (.int .i32) 1))),
  (472, .rejected (.assignOp .add (.obj (.pk "abscissa_kind" (.nm n!"units::isq::si::metre") (.int .i32)) 1) (.obj (.alias n!"units::isq::si::length" (.nm n!"units::isq::si::metre") (.int .i32)) 1))),
  (472, .rejected (.assignOp .sub (.obj (.pk "abscissa_kind" (.nm n!"units::isq::si::metre") (.int .i32)) 1) (.obj (.alias n!"units::isq::si::length" (.nm n!"units::isq::si::metre") (.int .i32)) 1))),
  (472, .rejected (.assignOp .add (.obj (.pk "abscissa_kind" (.nm n!"units::isq::si::metre") (.int .i32)) 1) (.obj (.kd (.nm "height_kind") (.nm n!"units::isq::si::metre") (.int .i32)) 1))),
  (472, .rejected (.assignOp .sub (.obj (.pk "abscissa_kind" (.nm n!"units::isq::si::metre") (.int .i32)) 1) (.obj (.kd (.nm "height_kind") (.nm n!"units::isq::si::metre") (.int .i32)) 1))),
  (472, .rejected (.assignOp .add (.obj (.pk "abscissa_kind" (.nm n!"units::isq::si::metre") (.int .i32)) 1) (.obj (.kd (.nm "rate_of_climb_kind") (.nm n!"units::isq::si::metre_per_second") (.int .i32)) 1))),
  (472, .rejected (.assignOp .sub (.obj (.pk "abscissa_kind" (.nm n!"units::isq::si::metre") (.int .i32)) 1) (.obj (.kd (.nm "rate_of_climb_kind") (.nm n!"units::isq::si::metre_per_second") (.int .i32)) 1))),
  (472, .rejected (.assignOp .add (.obj (.pk "abscissa_kind" (.nm n!"units::isq::si::metre") (.int .i32)) 1) (.obj (.pt (.dyn (.nm n!"units::isq::si::dim_length")) (.nm n!"units::isq::si::metre") (.int .i32)) 1))),
  (472, .rejected (.assignOp .sub (.obj (.pk "abscissa_kind" (.nm n!"units::isq::si::metre") (.int .i32)) 1) (.obj (.pt (.dyn (.nm n!"units::isq::si::dim_length")) (.nm n!"units::isq::si::metre") (.int .i32)) 1))),
  (472, .rejected (.assignOp .add (.obj (.pk "abscissa_kind" (.nm n!"units::isq::si::metre") (.int .i32)) 1) (.obj (.dur (.int .i64) 1 1) 1))),
  (472, .rejected (.assignOp .sub (.obj (.pk "abscissa_kind" (.nm n!"units::isq::si::metre") (.int .i32)) 1) (.obj (.dur (.int .i64) 1 1) 1))),
  (473, .rejected (.assignOp .add (.obj (.pk "time_point_kind" (.nm n!"units::isq::si::second") (.int .i32)) 1) (.obj (.dur (.int .i64) 1 1) 1))),
  (473, .rejected (.assignOp .sub (.obj (.pk "time_point_kind" (.nm n!"units::isq::si::second") (.int .i32)) 1) (.obj (.dur (.int .i64) 1 1) 1))),
  (484, .same (.op .add (.make (.pk "abscissa_kind" (.nm n!"units::isq::si::metre") (.int .i32)) (.op .mul (.num (.int .i32) 2) (.ref n!"units::isq::si::length_references::m"))) (.make (.kd (.nm "width_kind") (.nm n!"units::isq::si::metre") (.int .i32)) (.op .mul (.num (.int .i32) 3) (.ref n!"units::isq::si::length_references::m")))) (.make (.pk "abscissa_kind" (.nm n!"units::isq::si::metre") (.int .i32)) (.op .mul (.num (.int .i32) 5) (.ref n!"units::isq::si::length_references::m")))),
  (485, .same (.op .add (.make (.pk "abscissa_kind" (.nm n!"units::isq::si::metre") (.int .i32)) (.op .mul (.num (.int .i32) 2) (.ref n!"units::isq::si::length_references::m"))) (.make (.kd (.nm "width_kind") (.nm n!"units::isq::si::metre") (.flt .f64)) (.op .mul (.num (.flt .f64) 3) (.ref n!"units::isq::si::length_references::m")))) (.make (.pk "abscissa_kind" (.nm n!"units::isq::si::metre") (.flt .f64)) (.op .mul (.num (.flt .f64) 5) (.ref n!"units::isq::si::length_references::m")))),
  (486, .same (.op .add (.make (.pk "abscissa_kind" (.nm n!"units::isq::si::metre") (.flt .f64)) (.op .mul (.num (.flt .f64) 2) (.ref n!"units::isq::si::length_references::m"))) (.make (.kd (.nm "width_kind") (.nm n!"units::isq::si::metre") (.int .i32)) (.op .mul (.num (.int .i32) 3) (.ref n!"units::isq::si::length_references::m")))) (.make (.pk "abscissa_kind" (.nm n!"units::isq::si::metre") (.flt .f64)) (.op .mul (.num (.flt .f64) 5) (.ref n!"units::isq::si::length_references::m")))),
  (487, .same (.op .add (.make (.pk "abscissa_kind" (.nm n!"units::isq::si::kilometre") (.int .i32)) (.op .mul (.num (.int .i32) 2) (.ref n!"units::isq::si::length_references::km"))) (.make (.kd (.nm "width_kind") (.nm n!"units::isq::si::metre") (.flt .f64)) (.op .mul (.num (.flt .f64) 3000) (.ref n!"units::isq::si::length_references::m")))) (.make (.pk "abscissa_kind" (.nm n!"units::isq::si::metre") (.flt .f64)) (.op .mul (.num (.flt .f64) 5000) (.ref n!"units::isq::si::length_references::m")))),
  (488, .same (.op .add (.make (.pk "abscissa_kind" (.nm n!"units::isq::si::metre") (.flt .f64)) (.op .mul (.num (.flt .f64) 2000) (.ref n!"units::isq::si::length_references::m"))) (.make (.kd (.nm "width_kind") (.nm n!"units::isq::si::kilometre") (.int .i32)) (.op .mul (.num (.int .i32) 3) (.ref n!"units::isq::si::length_references::km")))) (.make (.pk "abscissa_kind" (.nm n!"units::isq::si::metre") (.flt .f64)) (.op .mul (.num (.flt .f64) 5000) (.ref n!"units::isq::si::length_references::m")))),
  (489, .same (.op .add (.make (.kd (.nm "width_kind") (.nm n!"units::isq::si::metre") (.int .i32)) (.op .mul (.num (.int .i32) 2) (.ref n!"units::isq::si::length_references::m"))) (.make (.pk "abscissa_kind" (.nm n!"units::isq::si::metre") (.int .i32)) (.op .mul (.num (.int .i32) 3) (.ref n!"units::isq::si::length_references::m")))) (.make (.pk "abscissa_kind" (.nm n!"units::isq::si::metre") (.int .i32)) (.op .mul (.num (.int .i32) 5) (.ref n!"units::isq::si::length_references::m")))),
  (490, .same (.op .add (.make (.kd (.nm "width_kind") (.nm n!"units::isq::si::metre") (.int .i32)) (.op .mul (.num (.int .i32) 2) (.ref n!"units::isq::si::length_references::m"))) (.make (.pk "abscissa_kind" (.nm n!"units::isq::si::metre") (.flt .f64)) (.op .mul (.num (.flt .f64) 3) (.ref n!"units::isq::si::length_references::m")))) (.make (.pk "abscissa_kind" (.nm n!"units::isq::si::metre") (.flt .f64)) (.op .mul (.num (.flt .f64) 5) (.ref n!"units::isq::si::length_references::m")))),
  (491, .same (.op .add (.make (.kd (.nm "width_kind") (.nm n!"units::isq::si::metre") (.flt .f64)) (.op .mul (.num (.flt .f64) 2) (.ref n!"units::isq::si::length_references::m"))) (.make (.pk "abscissa_kind" (.nm n!"units::isq::si::metre") (.int .i32)) (.op .mul (.num (.int .i32) 3) (.ref n!"units::isq::si::length_references::m")))) (.make (.pk "abscissa_kind" (.nm n!"units::isq::si::metre") (.flt .f64)) (.op .mul (.num (.flt .f64) 5) (.ref n!"units::isq::si::length_references::m")))),
  (492, .same (.op .add (.make (.kd (.nm "width_kind") (.nm n!"units::isq::si::kilometre") (.int .i32)) (.op .mul (.num (.int .i32) 2) (.ref n!"units::isq::si::length_references::km"))) (.make (.pk "abscissa_kind" (.nm n!"units::isq::si::metre") (.flt .f64)) (.op .mul (.num (.flt .f64) 3000) (.ref n!"units::isq::si::length_references::m")))) (.make (.pk "abscissa_kind" (.nm n!"units::isq::si::metre") (.flt .f64)) (.op .mul (.num (.flt .f64) 5000) (.ref n!"units::isq::si::length_references::m")))),
  (493, .same (.op .add (.make (.kd (.nm "width_kind") (.nm n!"units::isq::si::metre") (.flt .f64)) (.op .mul (.num (.flt .f64) 2000) (.ref n!"units::isq::si::length_references::m"))) (.make (.pk "abscissa_kind" (.nm n!"units::isq::si::kilometre") (.int .i32)) (.op .mul (.num (.int .i32) 3) (.ref n!"units::isq::si::length_references::km")))) (.make (.pk "abscissa_kind" (.nm n!"units::isq::si::metre") (.flt .f64)) (.op .mul (.num (.flt .f64) 5000) (.ref n!"units::isq::si::length_references::m")))),
  (494, .not (.not (.rejected (.op .add (.obj (.pk "abscissa_kind" (.nm n!"units::isq::si::metre") (.flt .f64)) 1) (.obj (.rep (.flt .f64)) 1))))),
  (495, .not (.not (.rejected (.op .add (.obj (.pk "abscissa_kind" (.nm n!"units::isq::si::metre") (.flt .f64)) 1) (.obj (.alias n!"units::isq::si::length" (.nm n!"units::isq::si::metre") (.flt .f64)) 1))))),
  (496, .not (.not (.rejected (.op .add (.obj (.pk "abscissa_kind" (.nm n!"units::isq::si::metre") (.flt .f64)) 1) (.obj (.pt (.dyn (.nm n!"units::isq::si::dim_length")) (.nm n!"units::isq::si::metre") (.flt .f64)) 1))))),
  (497, .not (.not (.rejected (.op .add (.obj (.pk "abscissa_kind" (.nm n!"units::isq::si::metre") (.flt .f64)) 1) (.obj (.kd (.nm "height_kind") (.nm n!"units::isq::si::metre") (.flt .f64)) 1))))),
  (498, .not (.not (.rejected (.op .add (.obj (.pk "abscissa_kind" (.nm n!"units::isq::si::metre") (.flt .f64)) 1) (.obj (.pk "abscissa_kind" (.nm n!"units::isq::si::metre") (.flt .f64)) 1))))),
  (499, .not (.not (.rejected (.op .add (.obj (.pk "abscissa_kind" (.nm n!"units::isq::si::metre") (.flt .f64)) 1) (.obj (.pk "abscissa_kind" (.nm n!"units::isq::si::kilometre") (.flt .f64)) 1))))),
  (500, .not (.not (.rejected (.op .add (.obj (.pk "abscissa_kind" (.nm n!"units::isq::si::kilometre") (.flt .f64)) 1) (.obj (.pk "abscissa_kind" (.nm n!"units::isq::si::metre") (.flt .f64)) 1))))),
  (501, .not (.not (.rejected (.op .add (.obj (.kd (.nm "height_kind") (.nm n!"units::isq::si::metre") (.flt .f64)) 1) (.obj (.pk "abscissa_kind" (.nm n!"units::isq::si::metre") (.flt .f64)) 1))))),
  (502, .not (.not (.rejected (.op .add (.obj (.pt (.dyn (.nm n!"units::isq::si::dim_length")) (.nm n!"units::isq::si::metre") (.flt .f64)) 1) (.obj (.pk "abscissa_kind" (.nm n!"units::isq::si::metre") (.flt .f64)) 1))))),
  (503, .not (.not (.rejected (.op .add (.obj (.alias n!"units::isq::si::length" (.nm n!"units::isq::si::metre") (.flt .f64)) 1) (.obj (.pk "abscissa_kind" (.nm n!"units::isq::si::metre") (.flt .f64)) 1))))),
  (504, .not (.not (.rejected (.op .add (.obj (.rep (.flt .f64)) 1) (.obj (.pk "abscissa_kind" (.nm n!"units::isq::si::metre") (.flt .f64)) 1))))),
  (506, .same (.op .sub (.make (.pk "abscissa_kind" (.nm n!"units::isq::si::metre") (.int .i32)) (.op .mul (.num (.int .i32) 2) (.ref n!"units::isq::si::length_references::m"))) (.make (.kd (.nm "width_kind") (.nm n!"units::isq::si::metre") (.int .i32)) (.op .mul (.num (.int .i32) 3) (.ref n!"units::isq::si::length_references::m")))) (.make (.pk "abscissa_kind" (.nm n!"units::isq::si::metre") (.int .i32)) (.op .mul (.neg (.num (.int .i32) 1)) (.ref n!"units::isq::si::length_references::m")))),
  (507, .same (.op .sub (.make (.pk "abscissa_kind" (.nm n!"units::isq::si::metre") (.int .i32)) (.op .mul (.num (.int .i32) 2) (.ref n!"units::isq::si::length_references::m"))) (.make (.kd (.nm "width_kind") (.nm n!"units::isq::si::metre") (.flt .f64)) (.op .mul (.num (.flt .f64) 3) (.ref n!"units::isq::si::length_references::m")))) (.make (.pk "abscissa_kind" (.nm n!"units::isq::si::metre") (.flt .f64)) (.op .mul (.neg (.num (.flt .f64) 1)) (.ref n!"units::isq::si::length_references::m")))),
  (508, .same (.op .sub (.make (.pk "abscissa_kind" (.nm n!"units::isq::si::metre") (.flt .f64)) (.op .mul (.num (.flt .f64) 2) (.ref n!"units::isq::si::length_references::m"))) (.make (.kd (.nm "width_kind") (.nm n!"units::isq::si::metre") (.int .i32)) (.op .mul (.num (.int .i32) 3) (.ref n!"units::isq::si::length_references::m")))) (.make (.pk "abscissa_kind" (.nm n!"units::isq::si::metre") (.flt .f64)) (.op .mul (.neg (.num (.flt .f64) 1)) (.ref n!"units::isq::si::length_references::m")))),
  (509, .same (.op .sub (.make (.pk "abscissa_kind" (.nm n!"units::isq::si::kilometre") (.int .i32)) (.op .mul (.num (.int .i32) 2) (.ref n!"units::isq::si::length_references::km"))) (.make (.kd (.nm "width_kind") (.nm n!"units::isq::si::metre") (.flt .f64)) (.op .mul (.num (.flt .f64) 3000) (.ref n!"units::isq::si::length_references::m")))) (.make (.pk "abscissa_kind" (.nm n!"units::isq::si::metre") (.flt .f64)) (.op .mul (.neg (.num (.flt .f64) 1000)) (.ref n!"units::isq::si::length_references::m")))),
  (510, .same (.op .sub (.make (.pk "abscissa_kind" (.nm n!"units::isq::si::metre") (.flt .f64)) (.op .mul (.num (.flt .f64) 2000) (.ref n!"units::isq::si::length_references::m"))) (.make (.kd (.nm "width_kind") (.nm n!"units::isq::si::kilometre") (.int .i32)) (.op .mul (.num (.int .i32) 3) (.ref n!"units::isq::si::length_references::km")))) (.make (.pk "abscissa_kind" (.nm n!"units::isq::si::metre") (.flt .f64)) (.op .mul (.neg (.num (.flt .f64) 1000)) (.ref n!"units::isq::si::length_references::m")))),
  (511, .same (.op .sub (.make (.pk "abscissa_kind" (.nm n!"units::isq::si::metre") (.int .i32)) (.op .mul (.num (.int .i32) 2) (.ref n!"units::isq::si::length_references::m"))) (.make (.pk "abscissa_kind" (.nm n!"units::isq::si::metre") (.int .i32)) (.op .mul (.num (.int .i32) 3) (.ref n!"units::isq::si::length_references::m")))) (.make (.kd (.nm "width_kind") (.nm n!"units::isq::si::metre") (.int .i32)) (.op .mul (.neg (.num (.int .i32) 1)) (.ref n!"units::isq::si::length_references::m")))),
  (512, .same (.op .sub (.make (.pk "abscissa_kind" (.nm n!"units::isq::si::metre") (.int .i32)) (.op .mul (.num (.int .i32) 2) (.ref n!"units::isq::si::length_references::m"))) (.make (.pk "abscissa_kind" (.nm n!"units::isq::si::metre") (.flt .f64)) (.op .mul (.num (.flt .f64) 3) (.ref n!"units::isq::si::length_references::m")))) (.make (.kd (.nm "width_kind") (.nm n!"units::isq::si::metre") (.flt .f64)) (.op .mul (.neg (.num (.flt .f64) 1)) (.ref n!"units::isq::si::length_references::m")))),
  (513, .same (.op .sub (.make (.pk "abscissa_kind" (.nm n!"units::isq::si::metre") (.flt .f64)) (.op .mul (.num (.flt .f64) 2) (.ref n!"units::isq::si::length_references::m"))) (.make (.pk "abscissa_kind" (.nm n!"units::isq::si::metre") (.int .i32)) (.op .mul (.num (.int .i32) 3) (.ref n!"units::isq::si::length_references::m")))) (.make (.kd (.nm "width_kind") (.nm n!"units::isq::si::metre") (.flt .f64)) (.op .mul (.neg (.num (.flt .f64) 1)) (.ref n!"units::isq::si::length_references::m")))),
  (514, .same (.op .sub (.make (.pk "abscissa_kind" (.nm n!"units::isq::si::kilometre") (.int .i32)) (.op .mul (.num (.int .i32) 2) (.ref n!"units::isq::si::length_references::km"))) (.make (.pk "abscissa_kind" (.nm n!"units::isq::si::metre") (.flt .f64)) (.op .mul (.num (.flt .f64) 3000) (.ref n!"units::isq::si::length_references::m")))) (.make (.kd (.nm "width_kind") (.nm n!"units::isq::si::metre") (.flt .f64)) (.op .mul (.neg (.num (.flt .f64) 1000)) (.ref n!"units::isq::si::length_references::m")))),
  (515, .same (.op .sub (.make (.pk "abscissa_kind" (.nm n!"units::isq::si::metre") (.flt .f64)) (.op .mul (.num (.flt .f64) 2000) (.ref n!"units::isq::si::length_references::m"))) (.make (.pk "abscissa_kind" (.nm n!"units::isq::si::kilometre") (.int .i32)) (.op .mul (.num (.int .i32) 3) (.ref n!"units::isq::si::length_references::km")))) (.make (.kd (.nm "width_kind") (.nm n!"units::isq::si::metre") (.flt .f64)) (.op .mul (.neg (.num (.flt .f64) 1000)) (.ref n!"units::isq::si::length_references::m")))),
  (516, .not (.not (.rejected (.op .sub (.obj (.pk "abscissa_kind" (.nm n!"units::isq::si::metre") (.flt .f64)) 1) (.obj (.rep (.flt .f64)) 1))))),
  (517, .not (.not (.rejected (.op .sub (.obj (.pk "abscissa_kind" (.nm n!"units::isq::si::metre") (.flt .f64)) 1) (.obj (.alias n!"units::isq::si::length" (.nm n!"units::isq::si::metre") (.flt .f64)) 1))))),
  (518, .not (.not (.rejected (.op .sub (.obj (.pk "abscissa_kind" (.nm n!"units::isq::si::metre") (.flt .f64)) 1) (.obj (.pt (.dyn (.nm n!"units::isq::si::dim_length")) (.nm n!"units::isq::si::metre") (.flt .f64)) 1))))),
  (519, .not (.not (.rejected (.op .sub (.obj (.pk "abscissa_kind" (.nm n!"units::isq::si::metre") (.flt .f64)) 1) (.obj (.kd (.nm "height_kind") (.nm n!"units::isq::si::metre") (.flt .f64)) 1))))),
  (520, .not (.not (.rejected (.op .sub (.obj (.pk "abscissa_kind" (.nm n!"units::isq::si::metre") (.flt .f64)) 1) (.obj (.pk "ordinate_kind" (.nm n!"units::isq::si::metre") (.flt .f64)) 1))))),
  (521, .not (.not (.rejected (.op .sub (.obj (.pk "ordinate_kind" (.nm n!"units::isq::si::metre") (.flt .f64)) 1) (.obj (.pk "abscissa_kind" (.nm n!"units::isq::si::metre") (.flt .f64)) 1))))),
  (522, .not (.not (.rejected (.op .sub (.obj (.kd (.nm "height_kind") (.nm n!"units::isq::si::metre") (.flt .f64)) 1) (.obj (.pk "abscissa_kind" (.nm n!"units::isq::si::metre") (.flt .f64)) 1))))),
  (523, .not (.not (.rejected (.op .sub (.obj (.pt (.dyn (.nm n!"units::isq::si::dim_length")) (.nm n!"units::isq::si::metre") (.flt .f64)) 1) (.obj (.pk "abscissa_kind" (.nm n!"units::isq::si::metre") (.flt .f64)) 1))))),
  (524, .not (.not (.rejected (.op .sub (.obj (.alias n!"units::isq::si::length" (.nm n!"units::isq::si::metre") (.flt .f64)) 1) (.obj (.pk "abscissa_kind" (.nm n!"units::isq::si::metre") (.flt .f64)) 1))))),
  (525, .not (.not (.rejected (.op .sub (.obj (.rep (.flt .f64)) 1) (.obj (.pk "abscissa_kind" (.nm n!"units::isq::si::metre") (.flt .f64)) 1))))),
  (526, .not (.not (.rejected (.op .sub (.obj (.pk "screen_si_width_kind" (.nm n!"units::isq::si::metre") (.flt .f64)) 1) (.obj (.pk "screen_si_cgs_width_kind" (.nm n!"units::isq::si::metre") (.flt .f64)) 1))))),
  (535, .cmp .eq (.make (.pk "abscissa_kind" (.nm n!"units::isq::si::metre") (.int .i32)) (.op .mul (.num (.int .i32) 1) (.ref n!"units::isq::si::length_references::m"))) (.make (.pk "abscissa_kind" (.nm n!"units::isq::si::metre") (.int .i32)) (.op .mul (.num (.int .i32) 1) (.ref n!"units::isq::si::length_references::m")))),
  (536, .cmp .eq (.make (.pk "abscissa_kind" (.nm n!"units::isq::si::metre") (.int .i32)) (.op .mul (.num (.int .i32) 1) (.ref n!"units::isq::si::length_references::m"))) (.make (.pk "abscissa_kind" (.nm n!"units::isq::si::metre") (.flt .f64)) (.op .mul (.num (.flt .f64) 1) (.ref n!"units::isq::si::length_references::m")))),
  (537, .cmp .eq (.make (.pk "abscissa_kind" (.nm n!"units::isq::si::metre") (.int .i32)) (.op .mul (.num (.int .i32) 1) (.ref n!"units::isq::si::length_references::m"))) (.make (.pk "abscissa_kind" (.nm n!"units::isq::si::millimetre") (.int .i32)) (.op .mul (.num (.int .i32) 1000) (.ref n!"units::isq::si::length_references::mm")))),
  (538, .cmp .eq (.make (.pk "abscissa_kind" (.nm n!"units::isq::si::metre") (.int .i32)) (.op .mul (.num (.int .i32) 1) (.ref n!"units::isq::si::length_references::m"))) (.make (.pk "abscissa_kind" (.nm n!"units::isq::si::millimetre") (.flt .f64)) (.op .mul (.num (.flt .f64) 1000) (.ref n!"units::isq::si::length_references::mm")))),
  (539, .cmp .ne (.make (.pk "abscissa_kind" (.nm n!"units::isq::si::metre") (.int .i32)) (.op .mul (.num (.int .i32) 2) (.ref n!"units::isq::si::length_references::m"))) (.make (.pk "abscissa_kind" (.nm n!"units::isq::si::metre") (.int .i32)) (.op .mul (.num (.int .i32) 1) (.ref n!"units::isq::si::length_references::m")))),
  (540, .cmp .ne (.make (.pk "abscissa_kind" (.nm n!"units::isq::si::metre") (.int .i32)) (.op .mul (.num (.int .i32) 2) (.ref n!"units::isq::si::length_references::m"))) (.make (.pk "abscissa_kind" (.nm n!"units::isq::si::cgs::centimetre") (.flt .f64)) (.op .mul (.num (.flt .f64) 1) (.ref n!"units::isq::si::cgs::length_references::cm")))),
  (541, .eqWith (.obj (.pk "abscissa_kind" (.nm n!"units::isq::si::metre") (.int .i32)) 1) (.obj (.pk "abscissa_kind" (.nm n!"units::isq::si::metre") (.flt .f64)) 1)),
  (542, .eqWith (.obj (.pk "abscissa_kind" (.nm n!"units::isq::si::nanometre") (.int .i32)) 1) (.obj (.pk "abscissa_kind" (.nm n!"units::isq::si::kilometre") (.int .i32)) 1)),
  (543, .eqWith (.obj (.pk "abscissa_kind" (.nm n!"units::isq::si::cgs::centimetre") (.int .i32)) 1) (.obj (.pk "abscissa_kind" (.nm n!"units::isq::si::millimetre") (.flt .f64)) 1)),
  (544, .eqWith (.obj (.pk "abscissa_kind" (.nm n!"units::isq::si::metre") (.flt .f64)) 1) (.obj (.pk "abscissa_kind" (.nm n!"units::isq::si::cgs::centimetre") (.flt .f64)) 1)),
  (568, .noCmp .eq (.obj (.pk "abscissa_kind" (.nm n!"units::isq::si::metre") (.int .i32)) 1) (.num (.int .i32) 1)),
  (568, .noCmp .ne (.obj (.pk "abscissa_kind" (.nm n!"units::isq::si::metre") (.int .i32)) 1) (.num (.flt .f64) 1)),
  (568, .noCmp .eq (.obj (.pk "abscissa_kind" (.nm n!"units::isq::si::metre") (.int .i32)) 1) (.op .mul (.num (.int .i32) 1) (.ref n!"units::isq::si::length_references::m"))),
  (568, .noCmp .ne (.obj (.pk "abscissa_kind" (.nm n!"units::isq::si::metre") (.int .i32)) 1) (.op .mul (.num (.flt .f64) 1) (.ref n!"units::isq::si::cgs::length_references::cm"))),
  (568, .noCmp .eq (.obj (.pk "abscissa_kind" (.nm n!"units::isq::si::metre") (.int .i32)) 1) (.op .mul (.num (.int .i32) 1) (.ref n!"units::isq::si::length_references::km"))),
  (568, .noCmp .ne (.obj (.pk "abscissa_kind" (.nm n!"units::isq::si::metre") (.int .i32)) 1) (.deduceQty (.num (.int .i32) 1))),
  (568, .noCmp .eq (.obj (.pk "abscissa_kind" (.nm n!"units::isq::si::metre") (.int .i32)) 1) (.make (.alias n!"units::dimensionless" (.nm n!"units::percent") (.flt .f64)) (.num (.flt .f64) 1))),
  (568, .noCmp .ne (.obj (.pk "abscissa_kind" (.nm n!"units::isq::si::metre") (.int .i32)) 1) (.make (.kd (.nm "width_kind") (.nm n!"units::isq::si::metre") (.int .i32)) (.op .mul (.num (.int .i32) 1) (.ref n!"units::isq::si::length_references::m")))),
  (568, .noCmp .eq (.obj (.pk "abscissa_kind" (.nm n!"units::isq::si::metre") (.int .i32)) 1) (.make (.kd (.nm "width_kind") (.nm n!"units::isq::si::kilometre") (.flt .f64)) (.op .mul (.num (.flt .f64) 1) (.ref n!"units::isq::si::length_references::km")))),
  (568, .noCmp .ne (.obj (.pk "abscissa_kind" (.nm n!"units::isq::si::metre") (.int .i32)) 1) (.make (.kd (.nm "height_kind") (.nm n!"units::isq::si::metre") (.int .i32)) (.op .mul (.num (.int .i32) 1) (.ref n!"units::isq::si::length_references::m")))),
  (568, .noCmp .eq (.obj (.pk "abscissa_kind" (.nm n!"units::isq::si::metre") (.int .i32)) 1) (.make (.kd (.nm "height_kind") (.nm n!"units::isq::si::kilometre") (.flt .f64)) (.op .mul (.num (.flt .f64) 1) (.ref n!"units::isq::si::length_references::km")))),
  (568, .noCmp .eq (.obj (.pk "abscissa_kind" (.nm n!"units::isq::si::metre") (.int .i32)) 1) (.make (.kd (.nm "rate_of_climb_kind") (.nm n!"units::isq::si::kilometre_per_hour") (.flt .f64)) (.op .mul (.num (.flt .f64) 1) (.op .div (.ref n!"units::isq::si::length_references::km") (.ref n!"units::isq::si::time_references::h"))))),
  (568, .noCmp .ne (.obj (.pk "abscissa_kind" (.nm n!"units::isq::si::metre") (.int .i32)) 1) (.deducePt (.op .mul (.num (.int .i32) 1) (.ref n!"units::isq::si::length_references::m")))),
  (568, .noCmp .eq (.obj (.pk "abscissa_kind" (.nm n!"units::isq::si::metre") (.int .i32)) 1) (.deducePt (.op .mul (.num (.flt .f64) 1) (.ref n!"units::isq::si::length_references::mm")))),
  (568, .noCmp .ne (.obj (.pk "abscissa_kind" (.nm n!"units::isq::si::metre") (.int .i32)) 1) (.deducePt (.deduceQty (.num (.int .i32) 1)))),
  (568, .noCmp .eq (.obj (.pk "abscissa_kind" (.nm n!"units::isq::si::metre") (.int .i32)) 1) (.deducePt (.make (.alias n!"units::dimensionless" (.nm n!"units::percent") (.flt .f64)) (.num (.flt .f64) 1)))),
  (568, .noCmp .ne (.obj (.pk "abscissa_kind" (.nm n!"units::isq::si::metre") (.int .i32)) 1) (.deducePk (.make (.kd (.nm "cgs_width_kind") (.nm n!"units::isq::si::metre") (.int .i32)) (.op .mul (.num (.int .i32) 1) (.ref n!"units::isq::si::length_references::m"))))),
  (568, .noCmp .eq (.obj (.pk "abscissa_kind" (.nm n!"units::isq::si::metre") (.int .i32)) 1) (.make (.pk "ordinate_kind" (.nm n!"units::isq::si::metre") (.int .i32)) (.op .mul (.num (.int .i32) 1) (.ref n!"units::isq::si::length_references::m")))),
  (568, .noCmp .ne (.obj (.pk "screen_si_width_kind" (.nm n!"units::isq::si::metre") (.int .i32)) 0) (.obj (.pk "screen_si_cgs_width_kind" (.nm n!"units::isq::si::metre") (.int .i32)) 0)),
  (571, .cmp .lt (.make (.pk "abscissa_kind" (.nm n!"units::isq::si::metre") (.int .i32)) (.op .mul (.num (.int .i32) 1) (.ref n!"units::isq::si::length_references::m"))) (.make (.pk "abscissa_kind" (.nm n!"units::isq::si::metre") (.int .i32)) (.op .mul (.num (.int .i32) 2) (.ref n!"units::isq::si::length_references::m")))),
  (572, .cmp .le (.make (.pk "abscissa_kind" (.nm n!"units::isq::si::metre") (.int .i32)) (.op .mul (.num (.int .i32) 1) (.ref n!"units::isq::si::length_references::m"))) (.make (.pk "abscissa_kind" (.nm n!"units::isq::si::metre") (.flt .f64)) (.op .mul (.num (.flt .f64) 2) (.ref n!"units::isq::si::length_references::m")))),
  (573, .cmp .le (.make (.pk "abscissa_kind" (.nm n!"units::isq::si::metre") (.int .i32)) (.op .mul (.num (.int .i32) 1) (.ref n!"units::isq::si::length_references::m"))) (.make (.pk "abscissa_kind" (.nm n!"units::isq::si::kilometre") (.int .i32)) (.op .mul (.num (.int .i32) 1) (.ref n!"units::isq::si::length_references::km")))),
  (574, .cmp .ge (.make (.pk "abscissa_kind" (.nm n!"units::isq::si::metre") (.int .i32)) (.op .mul (.num (.int .i32) 1) (.ref n!"units::isq::si::length_references::m"))) (.make (.pk "abscissa_kind" (.nm n!"units::isq::si::millimetre") (.flt .f64)) (.op .mul (.num (.flt .f64) 1000) (.ref n!"units::isq::si::length_references::mm")))),
  (575, .cmp .ge (.make (.pk "abscissa_kind" (.nm n!"units::isq::si::metre") (.int .i32)) (.op .mul (.num (.int .i32) 2) (.ref n!"units::isq::si::length_references::m"))) (.make (.pk "abscissa_kind" (.nm n!"units::isq::si::millimetre") (.int .i32)) (.op .mul (.num (.int .i32) 1) (.ref n!"units::isq::si::length_references::mm")))),
  (576, .cmp .gt (.make (.pk "abscissa_kind" (.nm n!"units::isq::si::metre") (.int .i32)) (.op .mul (.num (.int .i32) 2) (.ref n!"units::isq::si::length_references::m"))) (.make (.pk "abscissa_kind" (.nm n!"units::isq::si::cgs::centimetre") (.int .i32)) (.op .mul (.num (.int .i32) 1) (.ref n!"units::isq::si::cgs::length_references::cm")))),
  (577, .cmpWith (.obj (.pk "abscissa_kind" (.nm n!"units::isq::si::metre") (.int .i32)) 1) (.obj (.pk "abscissa_kind" (.nm n!"units::isq::si::metre") (.flt .f64)) 1)),
  (578, .cmpWith (.obj (.pk "abscissa_kind" (.nm n!"units::isq::si::nanometre") (.int .i32)) 1) (.obj (.pk "abscissa_kind" (.nm n!"units::isq::si::kilometre") (.int .i32)) 1)),
  (579, .cmpWith (.obj (.pk "abscissa_kind" (.nm n!"units::isq::si::cgs::centimetre") (.int .i32)) 1) (.obj (.pk "abscissa_kind" (.nm n!"units::isq::si::millimetre") (.flt .f64)) 1)),
  (580, .cmpWith (.obj (.pk "abscissa_kind" (.nm n!"units::isq::si::metre") (.flt .f64)) 1) (.obj (.pk "abscissa_kind" (.nm n!"units::isq::si::cgs::centimetre") (.flt .f64)) 1)),
  (604, .noCmp .lt (.obj (.pk "abscissa_kind" (.nm n!"units::isq::si::metre") (.int .i32)) 1) (.num (.int .i32) 1)),
  (604, .noCmp .le (.obj (.pk "abscissa_kind" (.nm n!"units::isq::si::metre") (.int .i32)) 1) (.num (.flt .f64) 1)),
  (604, .noCmp .ge (.obj (.pk "abscissa_kind" (.nm n!"units::isq::si::metre") (.int .i32)) 1) (.op .mul (.num (.int .i32) 1) (.ref n!"units::isq::si::length_references::m"))),
  (604, .noCmp .gt (.obj (.pk "abscissa_kind" (.nm n!"units::isq::si::metre") (.int .i32)) 1) (.op .mul (.num (.flt .f64) 1) (.ref n!"units::isq::si::cgs::length_references::cm"))),
  (604, .noCmp .lt (.obj (.pk "abscissa_kind" (.nm n!"units::isq::si::metre") (.int .i32)) 1) (.op .mul (.num (.int .i32) 1) (.ref n!"units::isq::si::length_references::km"))),
  (604, .noCmp .lt (.obj (.pk "abscissa_kind" (.nm n!"units::isq::si::metre") (.int .i32)) 1) (.deduceQty (.num (.int .i32) 1))),
  (604, .noCmp .le (.obj (.pk "abscissa_kind" (.nm n!"units::isq::si::metre") (.int .i32)) 1) (.make (.alias n!"units::dimensionless" (.nm n!"units::percent") (.flt .f64)) (.num (.flt .f64) 1))),
  (604, .noCmp .ge (.obj (.pk "abscissa_kind" (.nm n!"units::isq::si::metre") (.int .i32)) 1) (.make (.kd (.nm "width_kind") (.nm n!"units::isq::si::metre") (.int .i32)) (.op .mul (.num (.int .i32) 1) (.ref n!"units::isq::si::length_references::m")))),
  (604, .noCmp .gt (.obj (.pk "abscissa_kind" (.nm n!"units::isq::si::metre") (.int .i32)) 1) (.make (.kd (.nm "width_kind") (.nm n!"units::isq::si::kilometre") (.flt .f64)) (.op .mul (.num (.flt .f64) 1) (.ref n!"units::isq::si::length_references::km")))),
  (604, .noCmp .lt (.obj (.pk "abscissa_kind" (.nm n!"units::isq::si::metre") (.int .i32)) 1) (.make (.kd (.nm "height_kind") (.nm n!"units::isq::si::metre") (.int .i32)) (.op .mul (.num (.int .i32) 1) (.ref n!"units::isq::si::length_references::m")))),
  (604, .noCmp .lt (.obj (.pk "abscissa_kind" (.nm n!"units::isq::si::metre") (.int .i32)) 1) (.make (.kd (.nm "height_kind") (.nm n!"units::isq::si::kilometre") (.flt .f64)) (.op .mul (.num (.flt .f64) 1) (.ref n!"units::isq::si::length_references::km")))),
  (604, .noCmp .le (.obj (.pk "abscissa_kind" (.nm n!"units::isq::si::metre") (.int .i32)) 1) (.make (.kd (.nm "rate_of_climb_kind") (.nm n!"units::isq::si::kilometre_per_hour") (.flt .f64)) (.op .mul (.num (.flt .f64) 1) (.op .div (.ref n!"units::isq::si::length_references::km") (.ref n!"units::isq::si::time_references::h"))))),
  (604, .noCmp .ge (.obj (.pk "abscissa_kind" (.nm n!"units::isq::si::metre") (.int .i32)) 1) (.deducePt (.op .mul (.num (.int .i32) 1) (.ref n!"units::isq::si::length_references::m")))),
  (604, .noCmp .gt (.obj (.pk "abscissa_kind" (.nm n!"units::isq::si::metre") (.int .i32)) 1) (.deducePt (.op .mul (.num (.flt .f64) 1) (.ref n!"units::isq::si::length_references::mm")))),
  (604, .noCmp .lt (.obj (.pk "abscissa_kind" (.nm n!"units::isq::si::metre") (.int .i32)) 1) (.deducePt (.deduceQty (.num (.int .i32) 1)))),
  (604, .noCmp .lt (.obj (.pk "abscissa_kind" (.nm n!"units::isq::si::metre") (.int .i32)) 1) (.deducePt (.make (.alias n!"units::dimensionless" (.nm n!"units::percent") (.flt .f64)) (.num (.flt .f64) 1)))),
  (604, .noCmp .le (.obj (.pk "abscissa_kind" (.nm n!"units::isq::si::metre") (.int .i32)) 1) (.deducePk (.make (.kd (.nm "cgs_width_kind") (.nm n!"units::isq::si::metre") (.int .i32)) (.op .mul (.num (.int .i32) 1) (.ref n!"units::isq::si::length_references::m"))))),
  (604, .noCmp .ge (.obj (.pk "abscissa_kind" (.nm n!"units::isq::si::metre") (.int .i32)) 1) (.make (.pk "ordinate_kind" (.nm n!"units::isq::si::metre") (.int .i32)) (.op .mul (.num (.int .i32) 1) (.ref n!"units::isq::si::length_references::m")))),
  (604, .noCmp .gt (.obj (.pk "screen_si_width_kind" (.nm n!"units::isq::si::metre") (.int .i32)) 0) (.obj (.pk "screen_si_cgs_width_kind" (.nm n!"units::isq::si::metre") (.int .i32)) 0)),
  (612, .same (.cast (.ty (.pk "abscissa_kind" (.nm n!"units::isq::si::metre") (.int .i32))) (.make (.pk "abscissa_kind" (.nm n!"units::isq::si::metre") (.int .i32)) (.op .mul (.num (.int .i32) 1) (.ref n!"units::isq::si::length_references::m")))) (.make (.pk "abscissa_kind" (.nm n!"units::isq::si::metre") (.int .i32)) (.op .mul (.num (.int .i32) 1) (.ref n!"units::isq::si::length_references::m")))),
  (613, .same (.cast (.ty (.pk "abscissa_kind" (.nm n!"units::isq::si::metre") (.flt .f64))) (.make (.pk "abscissa_kind" (.nm n!"units::isq::si::metre") (.int .i32)) (.op .mul (.num (.int .i32) 1) (.ref n!"units::isq::si::length_references::m")))) (.make (.pk "abscissa_kind" (.nm n!"units::isq::si::metre") (.flt .f64)) (.op .mul (.num (.flt .f64) 1) (.ref n!"units::isq::si::length_references::m")))),
  (614, .same (.cast (.ty (.pk "abscissa_kind" (.nm n!"units::isq::si::kilometre") (.int .i32))) (.make (.pk "abscissa_kind" (.nm n!"units::isq::si::metre") (.int .i32)) (.op .mul (.num (.int .i32) 999) (.ref n!"units::isq::si::length_references::m")))) (.make (.pk "abscissa_kind" (.nm n!"units::isq::si::kilometre") (.int .i32)) (.op .mul (.num (.int .i32) 0) (.ref n!"units::isq::si::length_references::km")))),
  (615, .same (.cast (.ty (.pk "abscissa_kind" (.nm n!"units::isq::si::kilometre") (.int .i32))) (.make (.pk "abscissa_kind" (.nm n!"units::isq::si::metre") (.int .i32)) (.op .mul (.num (.int .i32) 1000) (.ref n!"units::isq::si::length_references::m")))) (.make (.pk "abscissa_kind" (.nm n!"units::isq::si::kilometre") (.int .i32)) (.op .mul (.num (.int .i32) 1) (.ref n!"units::isq::si::length_references::km")))),
  (616, .same (.cast (.ty (.pk "abscissa_kind" (.nm n!"units::isq::si::kilometre") (.flt .f64))) (.make (.pk "abscissa_kind" (.nm n!"units::isq::si::metre") (.int .i32)) (.op .mul (.num (.int .i32) 999) (.ref n!"units::isq::si::length_references::m")))) (.make (.pk "abscissa_kind" (.nm n!"units::isq::si::kilometre") (.flt .f64)) (.op .mul (.num (.flt .f64) (999 / 1000)) (.ref n!"units::isq::si::length_references::km")))),
  (617, .same (.cast (.ty (.kd (.nm "width_kind") (.nm n!"units::isq::si::metre") (.int .i32))) (.make (.pk "abscissa_kind" (.nm n!"units::isq::si::metre") (.int .i32)) (.op .mul (.num (.int .i32) 1) (.ref n!"units::isq::si::length_references::m")))) (.make (.pk "abscissa_kind" (.nm n!"units::isq::si::metre") (.int .i32)) (.op .mul (.num (.int .i32) 1) (.ref n!"units::isq::si::length_references::m")))),
  (618, .same (.cast (.ty (.kd (.nm "width_kind") (.nm n!"units::isq::si::metre") (.flt .f64))) (.make (.pk "abscissa_kind" (.nm n!"units::isq::si::metre") (.int .i32)) (.op .mul (.num (.int .i32) 1) (.ref n!"units::isq::si::length_references::m")))) (.make (.pk "abscissa_kind" (.nm n!"units::isq::si::metre") (.flt .f64)) (.op .mul (.num (.flt .f64) 1) (.ref n!"units::isq::si::length_references::m")))),
  (619, .same (.cast (.ty (.kd (.nm "width_kind") (.nm n!"units::isq::si::kilometre") (.int .i32))) (.make (.pk "abscissa_kind" (.nm n!"units::isq::si::metre") (.int .i32)) (.op .mul (.num (.int .i32) 999) (.ref n!"units::isq::si::length_references::m")))) (.make (.pk "abscissa_kind" (.nm n!"units::isq::si::kilometre") (.int .i32)) (.op .mul (.num (.int .i32) 0) (.ref n!"units::isq::si::length_references::km")))),
  (620, .same (.cast (.ty (.kd (.nm "width_kind") (.nm n!"units::isq::si::kilometre") (.int .i32))) (.make (.pk "abscissa_kind" (.nm n!"units::isq::si::metre") (.int .i32)) (.op .mul (.num (.int .i32) 1000) (.ref n!"units::isq::si::length_references::m")))) (.make (.pk "abscissa_kind" (.nm n!"units::isq::si::kilometre") (.int .i32)) (.op .mul (.num (.int .i32) 1) (.ref n!"units::isq::si::length_references::km")))),
  (621, .same (.cast (.ty (.kd (.nm "width_kind") (.nm n!"units::isq::si::kilometre") (.flt .f64))) (.make (.pk "abscissa_kind" (.nm n!"units::isq::si::metre") (.int .i32)) (.op .mul (.num (.int .i32) 999) (.ref n!"units::isq::si::length_references::m")))) (.make (.pk "abscissa_kind" (.nm n!"units::isq::si::kilometre") (.flt .f64)) (.op .mul (.num (.flt .f64) (999 / 1000)) (.ref n!"units::isq::si::length_references::km")))),
  (622, .same (.cast (.ty (.rep (.flt .f64))) (.make (.pk "abscissa_kind" (.nm n!"units::isq::si::metre") (.int .i32)) (.op .mul (.num (.int .i32) 1) (.ref n!"units::isq::si::length_references::m")))) (.make (.pk "abscissa_kind" (.nm n!"units::isq::si::metre") (.flt .f64)) (.op .mul (.num (.flt .f64) 1) (.ref n!"units::isq::si::length_references::m")))),
  (623, .same (.cast (.unit (.nm n!"units::isq::si::metre")) (.make (.pk "abscissa_kind" (.nm n!"units::isq::si::metre") (.int .i32)) (.op .mul (.num (.int .i32) 1) (.ref n!"units::isq::si::length_references::m")))) (.make (.pk "abscissa_kind" (.nm n!"units::isq::si::metre") (.int .i32)) (.op .mul (.num (.int .i32) 1) (.ref n!"units::isq::si::length_references::m")))),
  (624, .same (.cast (.unit (.nm n!"units::isq::si::kilometre")) (.make (.pk "abscissa_kind" (.nm n!"units::isq::si::metre") (.int .i32)) (.op .mul (.num (.int .i32) 999) (.ref n!"units::isq::si::length_references::m")))) (.make (.pk "abscissa_kind" (.nm n!"units::isq::si::kilometre") (.int .i32)) (.op .mul (.num (.int .i32) 0) (.ref n!"units::isq::si::length_references::km")))),
  (625, .same (.cast (.unit (.nm n!"units::isq::si::kilometre")) (.make (.pk "abscissa_kind" (.nm n!"units::isq::si::metre") (.int .i32)) (.op .mul (.num (.int .i32) 1000) (.ref n!"units::isq::si::length_references::m")))) (.make (.pk "abscissa_kind" (.nm n!"units::isq::si::kilometre") (.int .i32)) (.op .mul (.num (.int .i32) 1) (.ref n!"units::isq::si::length_references::km")))),
  (626, .same (.cast (.ty (.pk "ordinate_kind" (.nm n!"units::isq::si::metre") (.int .i32))) (.make (.pk "abscissa_kind" (.nm n!"units::isq::si::metre") (.int .i32)) (.op .mul (.num (.int .i32) 1) (.ref n!"units::isq::si::length_references::m")))) (.make (.pk "ordinate_kind" (.nm n!"units::isq::si::metre") (.int .i32)) (.op .mul (.num (.int .i32) 1) (.ref n!"units::isq::si::length_references::m")))),
  (627, .same (.cast (.ty (.pk "ordinate_kind" (.nm n!"units::isq::si::metre") (.flt .f64))) (.make (.pk "abscissa_kind" (.nm n!"units::isq::si::metre") (.int .i32)) (.op .mul (.num (.int .i32) 1) (.ref n!"units::isq::si::length_references::m")))) (.make (.pk "ordinate_kind" (.nm n!"units::isq::si::metre") (.flt .f64)) (.op .mul (.num (.flt .f64) 1) (.ref n!"units::isq::si::length_references::m")))),
  (628, .same (.cast (.ty (.pk "ordinate_kind" (.nm n!"units::isq::si::kilometre") (.int .i32))) (.make (.pk "abscissa_kind" (.nm n!"units::isq::si::metre") (.int .i32)) (.op .mul (.num (.int .i32) 999) (.ref n!"units::isq::si::length_references::m")))) (.make (.pk "ordinate_kind" (.nm n!"units::isq::si::kilometre") (.int .i32)) (.op .mul (.num (.int .i32) 0) (.ref n!"units::isq::si::length_references::km")))),
  (629, .same (.cast (.ty (.pk "ordinate_kind" (.nm n!"units::isq::si::kilometre") (.int .i32))) (.make (.pk "abscissa_kind" (.nm n!"units::isq::si::metre") (.int .i32)) (.op .mul (.num (.int .i32) 1000) (.ref n!"units::isq::si::length_references::m")))) (.make (.pk "ordinate_kind" (.nm n!"units::isq::si::kilometre") (.int .i32)) (.op .mul (.num (.int .i32) 1) (.ref n!"units::isq::si::length_references::km")))),
  (630, .same (.cast (.ty (.pk "ordinate_kind" (.nm n!"units::isq::si::kilometre") (.flt .f64))) (.make (.pk "abscissa_kind" (.nm n!"units::isq::si::metre") (.int .i32)) (.op .mul (.num (.int .i32) 999) (.ref n!"units::isq::si::length_references::m")))) (.make (.pk "ordinate_kind" (.nm n!"units::isq::si::kilometre") (.flt .f64)) (.op .mul (.num (.flt .f64) (999 / 1000)) (.ref n!"units::isq::si::length_references::km")))),
  (631, .same (.cast (.ty (.kd (.nm "height_kind") (.nm n!"units::isq::si::metre") (.int .i32))) (.make (.pk "abscissa_kind" (.nm n!"units::isq::si::metre") (.int .i32)) (.op .mul (.num (.int .i32) 1) (.ref n!"units::isq::si::length_references::m")))) (.make (.pk "ordinate_kind" (.nm n!"units::isq::si::metre") (.int .i32)) (.op .mul (.num (.int .i32) 1) (.ref n!"units::isq::si::length_references::m")))),
  (632, .same (.cast (.ty (.kd (.nm "height_kind") (.nm n!"units::isq::si::metre") (.flt .f64))) (.make (.pk "abscissa_kind" (.nm n!"units::isq::si::metre") (.int .i32)) (.op .mul (.num (.int .i32) 1) (.ref n!"units::isq::si::length_references::m")))) (.make (.pk "ordinate_kind" (.nm n!"units::isq::si::metre") (.flt .f64)) (.op .mul (.num (.flt .f64) 1) (.ref n!"units::isq::si::length_references::m")))),
  (633, .same (.cast (.ty (.kd (.nm "height_kind") (.nm n!"units::isq::si::kilometre") (.int .i32))) (.make (.pk "abscissa_kind" (.nm n!"units::isq::si::metre") (.int .i32)) (.op .mul (.num (.int .i32) 999) (.ref n!"units::isq::si::length_references::m")))) (.make (.pk "ordinate_kind" (.nm n!"units::isq::si::kilometre") (.int .i32)) (.op .mul (.num (.int .i32) 0) (.ref n!"units::isq::si::length_references::km")))),
  (634, .same (.cast (.ty (.kd (.nm "height_kind") (.nm n!"units::isq::si::kilometre") (.int .i32))) (.make (.pk "abscissa_kind" (.nm n!"units::isq::si::metre") (.int .i32)) (.op .mul (.num (.int .i32) 1000) (.ref n!"units::isq::si::length_references::m")))) (.make (.pk "ordinate_kind" (.nm n!"units::isq::si::kilometre") (.int .i32)) (.op .mul (.num (.int .i32) 1) (.ref n!"units::isq::si::length_references::km")))),
  (635, .same (.cast (.ty (.kd (.nm "height_kind") (.nm n!"units::isq::si::kilometre") (.flt .f64))) (.make (.pk "abscissa_kind" (.nm n!"units::isq::si::metre") (.int .i32)) (.op .mul (.num (.int .i32) 999) (.ref n!"units::isq::si::length_references::m")))) (.make (.pk "ordinate_kind" (.nm n!"units::isq::si::kilometre") (.flt .f64)) (.op .mul (.num (.flt .f64) (999 / 1000)) (.ref n!"units::isq::si::length_references::km")))),
  (636, .same (.cast (.kind (.nm "height_kind")) (.make (.pk "abscissa_kind" (.nm n!"units::isq::si::metre") (.int .i32)) (.op .mul (.num (.int .i32) 1) (.ref n!"units::isq::si::length_references::m")))) (.make (.pk "ordinate_kind" (.nm n!"units::isq::si::metre") (.int .i32)) (.op .mul (.num (.int .i32) 1) (.ref n!"units::isq::si::length_references::m")))),
  (637, .same (.cast (.pkindUnit "ordinate_kind" (.nm n!"units::isq::si::metre")) (.make (.pk "abscissa_kind" (.nm n!"units::isq::si::metre") (.int .i32)) (.op .mul (.num (.int .i32) 1) (.ref n!"units::isq::si::length_references::m")))) (.make (.pk "ordinate_kind" (.nm n!"units::isq::si::metre") (.int .i32)) (.op .mul (.num (.int .i32) 1) (.ref n!"units::isq::si::length_references::m")))),
  (638, .same (.cast (.pkindUnit "ordinate_kind" (.nm n!"units::isq::si::kilometre")) (.make (.pk "abscissa_kind" (.nm n!"units::isq::si::metre") (.int .i32)) (.op .mul (.num (.int .i32) 999) (.ref n!"units::isq::si::length_references::m")))) (.make (.pk "ordinate_kind" (.nm n!"units::isq::si::kilometre") (.int .i32)) (.op .mul (.num (.int .i32) 0) (.ref n!"units::isq::si::length_references::km")))),
  (639, .same (.cast (.pkindUnit "ordinate_kind" (.nm n!"units::isq::si::kilometre")) (.make (.pk "abscissa_kind" (.nm n!"units::isq::si::metre") (.int .i32)) (.op .mul (.num (.int .i32) 1000) (.ref n!"units::isq::si::length_references::m")))) (.make (.pk "ordinate_kind" (.nm n!"units::isq::si::kilometre") (.int .i32)) (.op .mul (.num (.int .i32) 1) (.ref n!"units::isq::si::length_references::km")))),
  (640, .same (.cast (.ty (.kd (.nm "cgs_width_kind") (.nm n!"units::isq::si::cgs::centimetre") (.int .i32))) (.make (.pk "abscissa_kind" (.nm n!"units::isq::si::centimetre") (.int .i32)) (.op .mul (.num (.int .i32) 1) (.ref n!"units::isq::si::length_references::cm")))) (.deducePk (.make (.kd (.nm "cgs_width_kind") (.nm n!"units::isq::si::cgs::centimetre") (.int .i32)) (.op .mul (.num (.int .i32) 1) (.ref n!"units::isq::si::cgs::length_references::cm")))))]

#guard failures2 [n!"generic/dimensionless.h", n!"isq/si/area.h", n!"isq/si/cgs/length.h", n!"isq/si/fps/length.h", n!"isq/si/speed.h", n!"isq/si/time.h"] ["screen_origin"] declsPointKind testPointKind1 = some []

/-- /repo/test/unit_test/static/quantity_point_kind_test.cpp. -/
def testPointKind2 : List (Nat × Check2) := [
  (641, .same (.cast (.kind (.nm "cgs_width_kind")) (.make (.pk "abscissa_kind" (.nm n!"units::isq::si::centimetre") (.int .i32)) (.op .mul (.num (.int .i32) 1) (.ref n!"units::isq::si::length_references::cm")))) (.deducePk (.make (.kd (.nm "cgs_width_kind") (.nm n!"units::isq::si::cgs::centimetre") (.int .i32)) (.op .mul (.num (.int .i32) 1) (.ref n!"units::isq::si::cgs::length_references::cm"))))),
  (642, .same (.cast (.pkind "altitude_kind") (.make (.pk "abscissa_kind" (.nm n!"units::isq::si::centimetre") (.int .i32)) (.op .mul (.num (.int .i32) 1) (.ref n!"units::isq::si::length_references::cm")))) (.make (.pk "altitude_kind" (.nm n!"units::isq::si::cgs::centimetre") (.int .i32)) (.op .mul (.num (.int .i32) 1) (.ref n!"units::isq::si::cgs::length_references::cm")))),
  (643, .same (.cast (.pkindUnit "altitude_kind" (.nm n!"units::isq::si::cgs::centimetre")) (.make (.pk "abscissa_kind" (.nm n!"units::isq::si::centimetre") (.int .i32)) (.op .mul (.num (.int .i32) 1) (.ref n!"units::isq::si::length_references::cm")))) (.make (.pk "altitude_kind" (.nm n!"units::isq::si::cgs::centimetre") (.int .i32)) (.op .mul (.num (.int .i32) 1) (.ref n!"units::isq::si::cgs::length_references::cm")))),
  (644, .same (.cast (.kind (.nm "cgs_width_kind")) (.make (.pk "abscissa_kind" (.nm n!"units::isq::si::metre") (.int .i32)) (.op .mul (.num (.int .i32) 1) (.ref n!"units::isq::si::length_references::m")))) (.deducePk (.make (.kd (.nm "cgs_width_kind") (.nm n!"units::isq::si::metre") (.int .i32)) (.op .mul (.num (.int .i32) 1) (.ref n!"units::isq::si::length_references::m"))))),
  (645, .same (.cast (.pkind "altitude_kind") (.make (.pk "abscissa_kind" (.nm n!"units::isq::si::metre") (.int .i32)) (.op .mul (.num (.int .i32) 1) (.ref n!"units::isq::si::length_references::m")))) (.make (.pk "altitude_kind" (.nm n!"units::isq::si::metre") (.int .i32)) (.op .mul (.num (.int .i32) 1) (.ref n!"units::isq::si::length_references::m")))),
  (646, .same (.cast (.pkindUnit "altitude_kind" (.nm n!"units::isq::si::metre")) (.make (.pk "abscissa_kind" (.nm n!"units::isq::si::metre") (.int .i32)) (.op .mul (.num (.int .i32) 1) (.ref n!"units::isq::si::length_references::m")))) (.make (.pk "altitude_kind" (.nm n!"units::isq::si::metre") (.int .i32)) (.op .mul (.num (.int .i32) 1) (.ref n!"units::isq::si::length_references::m")))),
  (647, .same (.cast (.dim (.nm n!"units::isq::si::cgs::dim_length")) (.make (.pk "abscissa_kind" (.nm n!"units::isq::si::centimetre") (.int .i32)) (.op .mul (.num (.int .i32) 1) (.ref n!"units::isq::si::length_references::cm")))) (.make (.pk "abscissa_kind" (.nm n!"units::isq::si::cgs::centimetre") (.int .i32)) (.op .mul (.num (.int .i32) 1) (.ref n!"units::isq::si::cgs::length_references::cm")))),
  (648, .same (.cast (.ty (.alias n!"units::isq::si::length" (.nm n!"units::isq::si::kilometre") (.int .i32))) (.make (.pk "abscissa_kind" (.nm n!"units::isq::si::metre") (.int .i32)) (.op .mul (.num (.int .i32) 1) (.ref n!"units::isq::si::length_references::m")))) (.make (.pk "abscissa_kind" (.nm n!"units::isq::si::kilometre") (.int .i32)) (.op .mul (.num (.int .i32) 0) (.ref n!"units::isq::si::length_references::km")))),
  (649, .same (.cast (.ty (.alias n!"units::isq::si::length" (.nm n!"units::isq::si::centimetre") (.int .i32))) (.make (.pk "abscissa_kind" (.nm n!"units::isq::si::metre") (.int .i32)) (.op .mul (.num (.int .i32) 1) (.ref n!"units::isq::si::length_references::m")))) (.make (.pk "abscissa_kind" (.nm n!"units::isq::si::centimetre") (.int .i32)) (.op .mul (.num (.int .i32) 100) (.ref n!"units::isq::si::length_references::cm")))),
  (650, .same (.cast (.ty (.alias n!"units::isq::si::length" (.nm n!"units::isq::si::centimetre") (.int .i32))) (.make (.pk "abscissa_kind" (.nm n!"units::isq::si::metre") (.flt .f64)) (.op .mul (.num (.flt .f64) (1 / 100)) (.ref n!"units::isq::si::length_references::m")))) (.make (.pk "abscissa_kind" (.nm n!"units::isq::si::centimetre") (.int .i32)) (.op .mul (.num (.int .i32) 1) (.ref n!"units::isq::si::length_references::cm")))),
  (651, .same (.cast (.ty (.alias n!"units::isq::si::length" (.nm n!"units::isq::si::centimetre") (.int .i32))) (.make (.pk "abscissa_kind" (.nm n!"units::isq::si::cgs::centimetre") (.int .i32)) (.op .mul (.num (.int .i32) 1) (.ref n!"units::isq::si::cgs::length_references::cm")))) (.make (.pk "abscissa_kind" (.nm n!"units::isq::si::cgs::centimetre") (.int .i32)) (.op .mul (.num (.int .i32) 1) (.ref n!"units::isq::si::cgs::length_references::cm")))),
  (652, .same (.cast (.ty (.pk "screen_si_cgs_width_kind" (.nm n!"units::isq::si::metre") (.int .i32))) (.make (.pk "screen_si_width_kind" (.nm n!"units::isq::si::metre") (.int .i32)) (.op .mul (.num (.int .i32) 1) (.ref n!"units::isq::si::length_references::m")))) (.make (.pk "screen_si_cgs_width_kind" (.nm n!"units::isq::si::metre") (.int .i32)) (.op .mul (.num (.int .i32) 1) (.ref n!"units::isq::si::length_references::m")))),
  (674, .rejected (.cast (.ty (.kd (.nm "apple") (.nm n!"units::one") (.int .i32))) (.make (.pk "abscissa_kind" (.nm n!"units::isq::si::metre") (.int .i32)) (.op .mul (.obj (.rep (.int .i32)) 1) (.ref n!"units::isq::si::length_references::m"))))),
  (674, .rejected (.cast (.ty (.kd (.nm "rate_of_climb_kind") (.nm n!"units::isq::si::metre_per_second") (.int .i32))) (.make (.pk "abscissa_kind" (.nm n!"units::isq::si::metre") (.int .i32)) (.op .mul (.obj (.rep (.int .i32)) 1) (.ref n!"units::isq::si::length_references::m"))))),
  (674, .rejected (.cast (.kind (.nm "apple")) (.make (.pk "abscissa_kind" (.nm n!"units::isq::si::metre") (.int .i32)) (.op .mul (.obj (.rep (.int .i32)) 1) (.ref n!"units::isq::si::length_references::m"))))),
  (674, .rejected (.cast (.kind (.nm "rate_of_climb_kind")) (.make (.pk "abscissa_kind" (.nm n!"units::isq::si::metre") (.int .i32)) (.op .mul (.obj (.rep (.int .i32)) 1) (.ref n!"units::isq::si::length_references::m"))))),
  (674, .rejected (.cast (.kindUnit (.nm "apple") (.nm n!"units::one")) (.make (.pk "abscissa_kind" (.nm n!"units::isq::si::metre") (.int .i32)) (.op .mul (.obj (.rep (.int .i32)) 1) (.ref n!"units::isq::si::length_references::m"))))),
  (674, .rejected (.cast (.kindUnit (.nm "width_kind") (.nm n!"units::isq::si::metre")) (.make (.pk "abscissa_kind" (.nm n!"units::isq::si::metre") (.int .i32)) (.op .mul (.obj (.rep (.int .i32)) 1) (.ref n!"units::isq::si::length_references::m"))))),
  (674, .rejected (.cast (.kindUnit (.nm "width_kind") (.nm n!"units::isq::si::kilometre")) (.make (.pk "abscissa_kind" (.nm n!"units::isq::si::metre") (.int .i32)) (.op .mul (.obj (.rep (.int .i32)) 1) (.ref n!"units::isq::si::length_references::m"))))),
  (674, .rejected (.cast (.kindUnit (.nm "height_kind") (.nm n!"units::isq::si::metre")) (.make (.pk "abscissa_kind" (.nm n!"units::isq::si::metre") (.int .i32)) (.op .mul (.obj (.rep (.int .i32)) 1) (.ref n!"units::isq::si::length_references::m"))))),
  (674, .rejected (.cast (.kindUnit (.nm "height_kind") (.nm n!"units::isq::si::kilometre")) (.make (.pk "abscissa_kind" (.nm n!"units::isq::si::metre") (.int .i32)) (.op .mul (.obj (.rep (.int .i32)) 1) (.ref n!"units::isq::si::length_references::m"))))),
  (674, .rejected (.cast (.kindUnit (.nm "cgs_width_kind") (.nm n!"units::isq::si::cgs::centimetre")) (.make (.pk "abscissa_kind" (.nm n!"units::isq::si::metre") (.int .i32)) (.op .mul (.obj (.rep (.int .i32)) 1) (.ref n!"units::isq::si::length_references::m"))))),
  (674, .rejected (.cast (.kindUnit (.nm "rate_of_climb_kind") (.nm n!"units::isq::si::metre_per_second")) (.make (.pk "abscissa_kind" (.nm n!"units::isq::si::metre") (.int .i32)) (.op .mul (.obj (.rep (.int .i32)) 1) (.ref n!"units::isq::si::length_references::m"))))),
  (674, .rejected (.cast (.ty (.alias n!"units::dimensionless" (.nm n!"units::one") (.flt .f64))) (.make (.pk "abscissa_kind" (.nm n!"units::isq::si::metre") (.int .i32)) (.op .mul (.obj (.rep (.int .i32)) 1) (.ref n!"units::isq::si::length_references::m"))))),
  (674, .rejected (.cast (.unit (.nm n!"units::isq::si::square_metre")) (.make (.pk "abscissa_kind" (.nm n!"units::isq::si::metre") (.int .i32)) (.op .mul (.obj (.rep (.int .i32)) 1) (.ref n!"units::isq::si::length_references::m"))))),
  (674, .rejected (.cast (.unit (.nm n!"units::isq::si::second")) (.make (.pk "abscissa_kind" (.nm n!"units::isq::si::metre") (.int .i32)) (.op .mul (.obj (.rep (.int .i32)) 1) (.ref n!"units::isq::si::length_references::m"))))),
  (674, .rejected (.cast (.ty (.pt (.dyn (.nm n!"units::isq::si::dim_length")) (.nm n!"units::isq::si::metre") (.int .i32))) (.make (.pk "abscissa_kind" (.nm n!"units::isq::si::metre") (.int .i32)) (.op .mul (.obj (.rep (.int .i32)) 1) (.ref n!"units::isq::si::length_references::m"))))),
  (674, .rejected (.cast (.ty (.pt (.dyn (.nm n!"units::dim_one")) (.nm n!"units::one") (.int .i32))) (.make (.pk "abscissa_kind" (.nm n!"units::isq::si::metre") (.int .i32)) (.op .mul (.obj (.rep (.int .i32)) 1) (.ref n!"units::isq::si::length_references::m"))))),
  (674, .rejected (.cast (.ty (.pt (.dyn (.nm n!"units::isq::si::dim_length")) (.nm n!"units::isq::si::metre") (.int .i32))) (.make (.pk "screen_si_width_kind" (.nm n!"units::isq::si::metre") (.int .i32)) (.op .mul (.obj (.rep (.int .i32)) 1) (.ref n!"units::isq::si::length_references::m")))))]

#guard failures2 [n!"generic/dimensionless.h", n!"isq/si/area.h", n!"isq/si/cgs/length.h", n!"isq/si/fps/length.h", n!"isq/si/speed.h", n!"isq/si/time.h"] ["screen_origin"] declsPointKind testPointKind2 = some []

/-- The kinds and point kinds of /repo/test/unit_test/static/chrono_test.cpp. -/
def declsChrono : List Decl' := []

/-- /repo/test/unit_test/static/chrono_test.cpp. -/
def testChrono0 : List (Nat × Check2) := [
  (45, .constructible (.alias n!"units::isq::si::time" (.nm n!"units::isq::si::second") (.int .i64)) (.obj (.dur (.int .i64) 1 1) 1)),
  (46, .not (.convertible (.alias n!"units::isq::si::time" (.nm n!"units::isq::si::second") (.int .i64)) (.obj (.dur (.int .i64) 1 1) 1))),
  (47, .constructible (.alias n!"units::isq::si::time" (.nm n!"units::isq::si::hour") (.int .i64)) (.obj (.dur (.int .i64) 3600 1) 1)),
  (48, .not (.convertible (.alias n!"units::isq::si::time" (.nm n!"units::isq::si::hour") (.int .i64)) (.obj (.dur (.int .i64) 3600 1) 1))),
  (49, .constructible (.alias n!"units::isq::si::time" (.nm n!"units::isq::si::second") (.int .i64)) (.obj (.dur (.int .i64) 3600 1) 1)),
  (50, .not (.convertible (.alias n!"units::isq::si::time" (.nm n!"units::isq::si::second") (.int .i64)) (.obj (.dur (.int .i64) 3600 1) 1))),
  (51, .not (.constructible (.alias n!"units::isq::si::time" (.nm n!"units::isq::si::hour") (.int .i64)) (.obj (.dur (.int .i64) 1 1) 1))),
  (52, .not (.convertible (.alias n!"units::isq::si::time" (.nm n!"units::isq::si::hour") (.int .i64)) (.obj (.dur (.int .i64) 1 1) 1))),
  (53, .constructible (.pt (.clock "system_clock") (.nm n!"units::isq::si::second") (.int .i64)) (.obj (.time "system_clock" (.int .i64) 1 1) 1)),
  (54, .not (.constructible (.pt (.clock "steady_clock") (.nm n!"units::isq::si::second") (.int .i64)) (.obj (.time "system_clock" (.int .i64) 1 1) 1))),
  (55, .not (.convertible (.pt (.clock "system_clock") (.nm n!"units::isq::si::second") (.int .i64)) (.obj (.time "system_clock" (.int .i64) 1 1) 1))),
  (56, .constructible (.pt (.clock "system_clock") (.nm n!"units::isq::si::day") (.int .i64)) (.obj (.time "system_clock" (.int .i64) 86400 1) 1)),
  (57, .not (.constructible (.pt (.clock "steady_clock") (.nm n!"units::isq::si::day") (.int .i64)) (.obj (.time "system_clock" (.int .i64) 86400 1) 1))),
  (58, .not (.convertible (.pt (.clock "system_clock") (.nm n!"units::isq::si::day") (.int .i64)) (.obj (.time "system_clock" (.int .i64) 86400 1) 1))),
  (59, .constructible (.pt (.clock "system_clock") (.nm n!"units::isq::si::second") (.int .i64)) (.obj (.time "system_clock" (.int .i64) 86400 1) 1)),
  (60, .not (.constructible (.pt (.clock "steady_clock") (.nm n!"units::isq::si::second") (.int .i64)) (.obj (.time "system_clock" (.int .i64) 86400 1) 1))),
  (61, .not (.convertible (.pt (.clock "system_clock") (.nm n!"units::isq::si::second") (.int .i64)) (.obj (.time "system_clock" (.int .i64) 86400 1) 1))),
  (62, .not (.constructible (.pt (.clock "system_clock") (.nm n!"units::isq::si::day") (.int .i64)) (.obj (.time "system_clock" (.int .i64) 1 1) 1))),
  (63, .not (.convertible (.pt (.clock "system_clock") (.nm n!"units::isq::si::day") (.int .i64)) (.obj (.time "system_clock" (.int .i64) 1 1) 1))),
  (66, .constructible (.alias n!"units::isq::si::time" (.nm n!"units::isq::si::second") (.flt .f64)) (.obj (.dur (.int .i64) 1 1) 1)),
  (67, .not (.convertible (.alias n!"units::isq::si::time" (.nm n!"units::isq::si::second") (.flt .f64)) (.obj (.dur (.int .i64) 1 1) 1))),
  (68, .constructible (.alias n!"units::isq::si::time" (.nm n!"units::isq::si::second") (.flt .f64)) (.obj (.dur (.int .i64) 3600 1) 1)),
  (69, .not (.convertible (.alias n!"units::isq::si::time" (.nm n!"units::isq::si::second") (.flt .f64)) (.obj (.dur (.int .i64) 3600 1) 1))),
  (70, .constructible (.alias n!"units::isq::si::time" (.nm n!"units::isq::si::hour") (.flt .f64)) (.obj (.dur (.int .i64) 1 1) 1)),
  (71, .not (.convertible (.alias n!"units::isq::si::time" (.nm n!"units::isq::si::hour") (.flt .f64)) (.obj (.dur (.int .i64) 1 1) 1))),
  (72, .constructible (.pt (.clock "system_clock") (.nm n!"units::isq::si::second") (.flt .f64)) (.obj (.time "system_clock" (.int .i64) 1 1) 1)),
  (73, .not (.convertible (.pt (.clock "system_clock") (.nm n!"units::isq::si::second") (.flt .f64)) (.obj (.time "system_clock" (.int .i64) 1 1) 1))),
  (74, .constructible (.pt (.clock "system_clock") (.nm n!"units::isq::si::second") (.flt .f64)) (.obj (.time "system_clock" (.int .i64) 86400 1) 1)),
  (75, .not (.convertible (.pt (.clock "system_clock") (.nm n!"units::isq::si::second") (.flt .f64)) (.obj (.time "system_clock" (.int .i64) 86400 1) 1))),
  (76, .constructible (.pt (.clock "system_clock") (.nm n!"units::isq::si::day") (.flt .f64)) (.obj (.time "system_clock" (.int .i64) 1 1) 1)),
  (77, .not (.convertible (.pt (.clock "system_clock") (.nm n!"units::isq::si::day") (.flt .f64)) (.obj (.time "system_clock" (.int .i64) 1 1) 1))),
  (81, .type (.deduceQty (.dur (.int .i64) 1 1 1)) (.alias n!"units::isq::si::time" (.nm n!"units::isq::si::second") (.int .i64))),
  (82, .type (.deduceQty (.dur (.int .i64) 3600 1 1)) (.alias n!"units::isq::si::time" (.nm n!"units::isq::si::hour") (.int .i64))),
  (83, .type (.deducePt (.time "system_clock" (.dur (.int .i64) 1 1 1))) (.pt (.clock "system_clock") (.nm n!"units::isq::si::second") (.int .i64))),
  (84, .type (.deducePt (.time "system_clock" (.dur (.int .i64) 86400 1 1))) (.pt (.clock "system_clock") (.nm n!"units::isq::si::day") (.int .i64))),
  (87, .cmp .eq (.op .add (.deduceQty (.dur (.int .i64) 1 1 1)) (.lit n!"units::isq::si::literals::_q_s" true 1)) (.lit n!"units::isq::si::literals::_q_s" true 2)),
  (88, .cmp .eq (.op .add (.deduceQty (.dur (.int .i64) 1 1 1)) (.lit n!"units::isq::si::literals::_q_min" true 1)) (.lit n!"units::isq::si::literals::_q_s" true 61)),
  (89, .cmp .eq (.op .div (.lit n!"units::isq::si::literals::_q_m" true 10) (.deduceQty (.dur (.int .i64) 1 1 2))) (.lit n!"units::isq::si::literals::_q_m_per_s" true 5)),
  (90, .cmp .eq (.op .add (.deducePt (.time "system_clock" (.dur (.int .i64) 1 1 1))) (.lit n!"units::isq::si::literals::_q_s" true 1)) (.make (.pt (.clock "system_clock") (.nm n!"units::isq::si::second") (.flt .f64)) (.lit n!"units::isq::si::literals::_q_s" true 2))),
  (91, .cmp .eq (.op .add (.deducePt (.time "system_clock" (.dur (.int .i64) 1 1 1))) (.lit n!"units::isq::si::literals::_q_min" true 1)) (.make (.pt (.clock "system_clock") (.nm n!"units::isq::si::second") (.flt .f64)) (.lit n!"units::isq::si::literals::_q_s" true 61)))]

#guard failures2 [n!"generic/dimensionless.h", n!"isq/si/length.h", n!"isq/si/speed.h", n!"isq/si/time.h"] [] declsChrono testChrono0 = some []

/-- The kinds and point kinds of /repo/test/unit_test/static/math_test.cpp. -/
def declsMath : List Decl' := []

/-- /repo/test/unit_test/static/math_test.cpp. -/
def testMath0 : List (Nat × Check2) := [
  (38, .type (.pow 0 1 (.lit n!"units::isq::si::literals::_q_m" true 2)) (.rep (.int .i64))),
  (39, .sameType (.pow 1 1 (.lit n!"units::isq::si::literals::_q_m" true 2)) (.lit n!"units::isq::si::literals::_q_m" true 2)),
  (40, .sameType (.pow 2 1 (.lit n!"units::isq::si::literals::_q_m" true 2)) (.lit n!"units::isq::si::literals::_q_m2" true 4)),
  (41, .sameType (.pow 2 1 (.lit n!"units::isq::si::literals::_q_km" true 2)) (.lit n!"units::isq::si::literals::_q_km2" true 4)),
  (42, .sameType (.pow 2 1 (.lit n!"units::isq::si::international::literals::_q_ft" true 2)) (.lit n!"units::isq::si::international::literals::_q_ft2" true 4)),
  (43, .sameType (.sqrt (.lit n!"units::isq::si::literals::_q_m2" true 4)) (.lit n!"units::isq::si::literals::_q_m" true 2)),
  (44, .sameType (.sqrt (.lit n!"units::isq::si::literals::_q_km2" true 4)) (.lit n!"units::isq::si::literals::_q_km" true 2)),
  (45, .sameType (.sqrt (.lit n!"units::isq::si::international::literals::_q_ft2" true 4)) (.lit n!"units::isq::si::international::literals::_q_ft" true 2)),
  (46, .sameType (.cbrt (.lit n!"units::isq::si::literals::_q_m3" true 8)) (.lit n!"units::isq::si::literals::_q_m" true 2)),
  (47, .sameType (.cbrt (.lit n!"units::isq::si::literals::_q_km3" true 8)) (.lit n!"units::isq::si::literals::_q_km" true 2)),
  (48, .sameType (.cbrt (.lit n!"units::isq::si::international::literals::_q_ft3" true 8)) (.lit n!"units::isq::si::international::literals::_q_ft" true 2)),
  (49, .sameType (.pow 1 4 (.op .mul (.lit n!"units::isq::si::literals::_q_m2" true 4) (.lit n!"units::isq::si::literals::_q_m2" true 4))) (.lit n!"units::isq::si::literals::_q_m" true 2)),
  (50, .sameType (.pow 1 4 (.op .mul (.lit n!"units::isq::si::literals::_q_km2" true 4) (.lit n!"units::isq::si::literals::_q_km2" true 4))) (.lit n!"units::isq::si::literals::_q_km" true 2)),
  (51, .sameType (.pow 1 4 (.op .mul (.lit n!"units::isq::si::international::literals::_q_ft2" true 4) (.lit n!"units::isq::si::international::literals::_q_ft2" true 4))) (.lit n!"units::isq::si::international::literals::_q_ft" true 2)),
  (54, .sameType (.pow 1 4 (.lit n!"units::isq::si::literals::_q_m2" true 4)) (.sqrt (.lit n!"units::isq::si::literals::_q_m" true 2))),
  (55, .sameType (.pow 1 4 (.lit n!"units::isq::si::literals::_q_km2" true 4)) (.sqrt (.lit n!"units::isq::si::literals::_q_km" true 2))),
  (56, .sameType (.pow 1 4 (.lit n!"units::isq::si::international::literals::_q_ft2" true 4)) (.sqrt (.lit n!"units::isq::si::international::literals::_q_ft" true 2)))]

#guard failures2 [n!"generic/dimensionless.h", n!"isq/si/length.h", n!"isq/si/area.h", n!"isq/si/volume.h", n!"isq/si/international/length.h", n!"isq/si/international/area.h", n!"isq/si/international/volume.h"] [] declsMath testMath0 = some []

end Verif.Conformance
