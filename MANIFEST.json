{
 "claims": [
  {
   "property": "C01",
   "status": "proved",
   "theorems": [
    "Verif.C01_construction_exact",
    "Verif.C01_construction_acceptance",
    "Verif.C01_construction_idempotent"
   ],
   "note": "construction exact, normal form, acceptance characterised up to INTMAX_MIN and exponents within 40 of the limits"
  },
  {
   "property": "C02",
   "status": "partial",
   "theorems": [
    "Verif.C02_equality_not_canonical",
    "Verif.C02_equality_same_exponent_partial",
    "Verif.C02_equality_coprime_to_ten_partial"
   ],
   "note": "the unchanged code violates the claim (5e-1 vs 1/2, C02_equality_not_canonical); proved for equal exponents and for parts coprime to ten"
  },
  {
   "property": "C03",
   "status": "proved",
   "theorems": [
    "Verif.C03_mul_exact",
    "Verif.C03_div_exact",
    "Verif.C03_inverse_exact",
    "Verif.C03_mul_comm",
    "Verif.C03_mul_one",
    "Verif.C03_div_self",
    "Verif.C03_mul_accepts",
    "Verif.C03_mul_assoc_representation_fails",
    "Verif.C03_mul_assoc_value"
   ],
   "note": "also shows that associativity holds for values but not representations"
  },
  {
   "property": "C04",
   "status": "proved",
   "theorems": [
    "Verif.C04_guard_exact"
   ],
   "note": ""
  },
  {
   "property": "C05",
   "status": "proved",
   "theorems": [
    "Verif.C05_isIntegral_exact"
   ],
   "note": ""
  },
  {
   "property": "C06",
   "status": "proved",
   "theorems": [
    "Verif.C06_mulmod_exact",
    "Verif.C06_modpow_exact",
    "Verif.C06_gcdpow_exact"
   ],
   "note": "modpow(a,0,1) returns the unreduced residue 1; stated in the theorem"
  },
  {
   "property": "C07",
   "status": "proved",
   "theorems": [
    "Verif.C07_common_exact",
    "Verif.C07_common_symmetric",
    "Verif.C07_common_accepts",
    "Verif.C07_common_acceptance_asymmetric"
   ],
   "note": "acceptance at the border depends on operand order (C07_common_acceptance_asymmetric)"
  },
  {
   "property": "C08",
   "status": "proved",
   "theorems": [
    "Verif.C08_pow_exact"
   ],
   "note": ""
  },
  {
   "property": "C09",
   "status": "partial",
   "theorems": [
    "Verif.C09_compile_exact_partial",
    "Verif.C09_compile_sqrt_of_25",
    "Verif.C09_sqrt_of_25",
    "Verif.C09_root_exact_partial",
    "Verif.C09_root_exact_aligned_partial",
    "Verif.C09_pow_rational_partial"
   ],
   "note": "the unchanged code violates the claim (sqrt of 5/2*10 is 7, C09_sqrt_of_25); proved when alignment leaves coprime parts; for the compile-time estimate with IEEE doubles the estimate hypothesis is discharged (C09_compile_exact_partial)"
  },
  {
   "property": "C10",
   "status": "partial",
   "theorems": [
    "Verif.C10_compile_perfect_power_exact",
    "Verif.C10_compile_perfect_power",
    "Verif.C10_compile_floor_partial",
    "Verif.C10_compile_underestimate",
    "Verif.C10_compile_near_partial",
    "Verif.C10_runtime_perfect_power",
    "Verif.C10_runtime_floor_partial",
    "Verif.C10_iroot_floor_partial",
    "Verif.C10_iroot_overflow",
    "Verif.C10_iroot_underestimate",
    "Verif.C10_iroot_perfect_power_partial"
   ],
   "note": "the unchanged code violates the claim (overflow at the top of the range; estimate one too low on non-powers); proved for good estimates without overflow and for all perfect powers; the compile-time estimate is analysed with IEEE rounding: exact on perfect powers, floor for N*v <= 3e12, floor or one less everywhere, with concrete wrong results (C10_compile_underestimate)"
  },
  {
   "property": "C11",
   "status": "proved",
   "theorems": [
    "Verif.C11_sort_permutation",
    "Verif.C11_sort_ordered",
    "Verif.C11_sort_canonical",
    "Verif.C11_merge_ordered"
   ],
   "note": "any strict weak order, any length"
  },
  {
   "property": "C12",
   "status": "proved",
   "theorems": [
    "Verif.C12_split",
    "Verif.C12_split_half",
    "Verif.C12_push",
    "Verif.C12_join"
   ],
   "note": ""
  },
  {
   "property": "C13",
   "status": "partial",
   "theorems": [
    "Verif.C13_exponents_sum_partial",
    "Verif.C13_base_recipe_sum",
    "Verif.C13_canonical_partial",
    "Verif.C13_recipe_independent_partial",
    "Verif.C13_nested_power_of_ten_lost",
    "Verif.C13_single_exponent_kept"
   ],
   "note": "the unchanged code violates the claim where a nested exponent product is a multiple of ten (C13_nested_power_of_ten_lost) and for single unnormalised exponents (C13_single_exponent_kept); proved without restriction for the sums of recipes of base dimensions, and for exact nested recipes over separated base dimensions"
  },
  {
   "property": "C14",
   "status": "partial",
   "theorems": [
    "Verif.C14_multiply_exponents",
    "Verif.C14_divide_exponents",
    "Verif.C14_results_normal_partial",
    "Verif.C14_multiply_comm_partial",
    "Verif.C14_multiply_assoc_partial",
    "Verif.C14_divide_self_partial",
    "Verif.C14_one_neutral_partial",
    "Verif.C14_alias_of_base_not_neutral"
   ],
   "note": "exponents of products and quotients proved without restriction; commutativity, associativity, self-division and neutrality for dimensions in normal form whose base dimensions differ in symbol (else C16_order_dependent); dimensions that alias a base dimension are not neutral (C14_alias_of_base_not_neutral)"
  },
  {
   "property": "C15",
   "status": "partial",
   "theorems": [
    "Verif.C15_pow_exponents_partial",
    "Verif.C15_pow_base",
    "Verif.C15_pow_succ_partial",
    "Verif.C15_pow_root_partial",
    "Verif.C15_pow_ten_lost",
    "Verif.C15_pow_fraction_not_reduced"
   ],
   "note": "the unchanged code violates the claim for exponents reaching a multiple of ten (C15_pow_ten_lost); proved otherwise, and without restriction for base dimensions"
  },
  {
   "property": "C16",
   "status": "partial",
   "theorems": [
    "Verif.C16_exponents",
    "Verif.C16_order_dependent"
   ],
   "note": "exponents proved; order independence is violated by the unchanged code (C16_order_dependent)"
  },
  {
   "property": "C17",
   "status": "partial",
   "theorems": [
    "Verif.C17_reflexive",
    "Verif.C17_symmetric",
    "Verif.C17_transitive",
    "Verif.C17_same_exponents",
    "Verif.C17_complete",
    "Verif.C17_units_not_transitive"
   ],
   "note": "reflexivity and symmetry proved for dimensions and quantities; transitivity proved for dimensions; the unchanged code violates transitivity for units of unrelated dimensions, with a witness"
  },
  {
   "property": "C18",
   "status": "proved",
   "theorems": [
    "Verif.C18_downcast_on",
    "Verif.C18_duplicates_rejected",
    "Verif.C18_other_definitions_irrelevant",
    "Verif.C18_downcast_automatic",
    "Verif.C18_downcast_off"
   ],
   "note": ""
  },
  {
   "property": "C19",
   "status": "proved",
   "theorems": [
    "Verif.C19_chain_size",
    "Verif.C19_prefix_family"
   ],
   "note": ""
  },
  {
   "property": "C20",
   "status": "partial",
   "theorems": [
    "Verif.C20_derived_unit_size_partial",
    "Verif.C20_prefixed_base_unit_power_wrong",
    "Verif.C20_fraction_ignored"
   ],
   "note": "the unchanged code violates the claim where the unit of a component dimension has a ratio other than one; proved otherwise"
  },
  {
   "property": "C21",
   "status": "partial",
   "theorems": [
    "Verif.C21_prefixed_units_partial",
    "Verif.C21_hectolitre_wrong"
   ],
   "note": "proved for all units, prefixes and pairs of names of the shipped headers except the hectolitre, for which the unchanged code violates the claim (C21_hectolitre_wrong)"
  },
  {
   "property": "C22",
   "status": "partial",
   "theorems": [
    "Verif.C22_implicit_conversion_exact_partial",
    "Verif.C22_implicit_conversion_float_partial",
    "Verif.C22_narrowing_wraps",
    "Verif.C22_unknown_dimensions_wrong"
   ],
   "note": "exact for integral and exact floating types when the dimensions agree on unit sizes; the unchanged code violates the claim for narrowing integral conversions (C22_narrowing_wraps) and for unknown dimensions of two systems (C22_unknown_dimensions_wrong)"
  },
  {
   "property": "C23",
   "status": "partial",
   "theorems": [
    "Verif.C23_truncates_once_partial",
    "Verif.C23_truncates_once_float_partial"
   ],
   "note": "proved where the dimensions agree on unit sizes (Coherent); unsigned intermediate results must not wrap; C91 says what a cast gives when they wrap"
  },
  {
   "property": "C24",
   "status": "partial",
   "theorems": [
    "Verif.C24_finer_and_back_partial",
    "Verif.C24_coarser_and_back_partial"
   ],
   "note": "proved under the same conditions as C23"
  },
  {
   "property": "C25",
   "status": "partial",
   "theorems": [
    "Verif.C25_add_exact_partial",
    "Verif.C25_sub_exact_partial",
    "Verif.C25_add_comm_partial",
    "Verif.C25_add_assoc_partial"
   ],
   "note": "exactness, commutativity and associativity proved where the dimensions agree on unit sizes and nothing overflows; C91 has the sums of unsigned types without the condition of overflow"
  },
  {
   "property": "C26",
   "status": "partial",
   "theorems": [
    "Verif.C26_compare_partial",
    "Verif.C26_eq_partial",
    "Verif.C26_total_order_partial",
    "Verif.C26_order_exists",
    "Verif.C26_mixed_sign",
    "Verif.C26_mixed_sign_equality_wrong",
    "Verif.C26_unknown_dimensions_wrong"
   ],
   "note": "proved where the dimensions agree on unit sizes; the unchanged code violates the claim for unknown dimensions of two systems (C26_unknown_dimensions_wrong); between signed and unsigned integral types there is no order (C26_mixed_sign), but equality is accepted and wrong (C26_mixed_sign_equality_wrong); C91 says what comparisons answer when the conversion to the common type wraps around"
  },
  {
   "property": "C27",
   "status": "proved",
   "theorems": [
    "Verif.C27_product_exact",
    "Verif.C27_quotient_exact"
   ],
   "note": "physically exact for all accepted operands; unsigned results must not wrap"
  },
  {
   "property": "C28",
   "status": "partial",
   "theorems": [
    "Verif.C28_reciprocal_partial",
    "Verif.C28_times_back_partial",
    "Verif.C28_unit_ratio_ignored"
   ],
   "note": "the unchanged code ignores the ratio of the dimension's unit (C28_unit_ratio_ignored); proved where that ratio is one"
  },
  {
   "property": "C29",
   "status": "partial",
   "theorems": [
    "Verif.C29_remainder_smaller_partial",
    "Verif.C29_units_not_converted",
    "Verif.C29_percent_not_converted",
    "Verif.C29_quotient_remainder_partial"
   ],
   "note": "proved for the same unit; the unchanged code violates the bound when the units differ (C29_units_not_converted, C29_percent_not_converted)"
  },
  {
   "property": "C30",
   "status": "partial",
   "theorems": [
    "Verif.C30_add_sub_exact_partial",
    "Verif.C30_agrees_with_binary_partial",
    "Verif.C30_mod_exact_partial",
    "Verif.C30_remainder_disagrees",
    "Verif.C30_number_agrees",
    "Verif.C30_number_exact",
    "Verif.C30_dimensionless",
    "Verif.C30_increment",
    "Verif.C30_negate"
   ],
   "note": "proved; the unchanged code violates the claim for % of quantities in different units (C30_remainder_disagrees)"
  },
  {
   "property": "C31",
   "status": "partial",
   "theorems": [
    "Verif.C31_operands_convert_partial",
    "Verif.C31_common_unit_exact_partial",
    "Verif.C31_common_unit_symmetric_partial",
    "Verif.C31_coherent_ratio_ignored"
   ],
   "note": "proved where the dimensions agree on unit sizes; the unchanged code ignores coherent ratios otherwise, with a witness"
  },
  {
   "property": "C32",
   "status": "partial",
   "theorems": [
    "Verif.C32_values_compose_partial",
    "Verif.C32_cast_ratio_is_size_quotient_partial",
    "Verif.C32_base_dimensions",
    "Verif.C32_conversions_compose_partial",
    "Verif.C32_unknown_dimensions_wrong"
   ],
   "note": "proved where the dimensions agree on unit sizes; the unchanged code violates the claim for unknown dimensions of two systems"
  },
  {
   "property": "C33",
   "status": "partial",
   "theorems": [
    "Verif.C33_error_bounded_partial",
    "Verif.C33_relative_error_partial",
    "Verif.C33_truncated_once_partial",
    "Verif.C33_exact_partial"
   ],
   "note": "standard rounding model, without overflow and underflow (C69 has them); the sizes of the dimensions must agree (Coherent)"
  },
  {
   "property": "C34",
   "status": "partial",
   "theorems": [
    "Verif.C34_pow_zero",
    "Verif.C34_pow_rational_partial",
    "Verif.C34_pow_exact_partial",
    "Verif.C34_sqrt_exact_partial",
    "Verif.C34_cbrt_exact_partial",
    "Verif.C34_sqrt_of_square_partial",
    "Verif.C34_pow_ignores_unit"
   ],
   "note": "exact <cmath> assumed; the unchanged code ignores the ratio of the coherent unit, so powers and roots of kilograms are wrong (C34_pow_ignores_unit)"
  },
  {
   "property": "C35",
   "status": "partial",
   "theorems": [
    "Verif.C35_abs_exact",
    "Verif.C35_abs_wraps",
    "Verif.C35_abs_unsigned_rejected",
    "Verif.C35_exp_exact",
    "Verif.C35_exp_rejected",
    "Verif.C35_epsilon"
   ],
   "note": "proved where the absolute value is representable; abs of -128 in a signed byte is -128 (C35_abs_wraps); exp with exact floating point"
  },
  {
   "property": "C36",
   "status": "partial",
   "theorems": [
    "Verif.C36_implicit_number",
    "Verif.C36_sum_exact",
    "Verif.C36_sum_left_exact",
    "Verif.C36_comparison_exact_partial",
    "Verif.C36_comparison_narrows",
    "Verif.C36_remainder_partial",
    "Verif.C36_remainder_narrows"
   ],
   "note": "proved; comparison converts the number to the representation of the quantity first, which narrows (C36_comparison_narrows); so does the remainder with a number on the left (C36_remainder_narrows)"
  },
  {
   "property": "C37",
   "status": "partial",
   "theorems": [
    "Verif.C37_translate_partial",
    "Verif.C37_add_sub_partial",
    "Verif.C37_sub_add_partial",
    "Verif.C37_assoc_partial",
    "Verif.C37_compare_partial",
    "Verif.C37_order_translation_partial",
    "Verif.C37_convert_partial",
    "Verif.C37_origins_checked",
    "Verif.C37_equivalent_origins",
    "Verif.C37_assign_partial",
    "Verif.C37_increment"
   ],
   "note": "proved where the dimensions agree on unit sizes and the types hold the results; accepted only for equivalent origins (C37_origins_checked)"
  },
  {
   "property": "C38",
   "status": "partial",
   "theorems": [
    "Verif.C38_quantity_cast_spec_partial",
    "Verif.C38_position_partial",
    "Verif.C38_origin_partial",
    "Verif.C38_static_origin_lost"
   ],
   "note": "the position is that of quantity_cast; the unchanged code turns every static origin into a dynamic one (C38_static_origin_lost)"
  },
  {
   "property": "C39",
   "status": "partial",
   "theorems": [
    "Verif.C39_add_sub_partial",
    "Verif.C39_add_sub_same_dimension",
    "Verif.C39_unrelated_rejected",
    "Verif.C39_products",
    "Verif.C39_product_amount",
    "Verif.C39_scaling",
    "Verif.C39_remainder",
    "Verif.C39_compare_partial",
    "Verif.C39_convert_partial",
    "Verif.C39_assign_partial",
    "Verif.C39_assign_underlying"
   ],
   "note": "sums proved exact where the dimensions agree on unit sizes and the types hold the results; products, scaling, remainders and assignments equal those of the underlying quantities"
  },
  {
   "property": "C40",
   "status": "partial",
   "theorems": [
    "Verif.C40_translate_partial",
    "Verif.C40_add_sub_partial",
    "Verif.C40_static_origin_rejected",
    "Verif.C40_mixing_rejected",
    "Verif.C40_compare_partial",
    "Verif.C40_sub_add_partial",
    "Verif.C40_assoc_partial",
    "Verif.C40_order_translation_partial",
    "Verif.C40_convert_partial",
    "Verif.C40_assign_partial"
   ],
   "note": "proved for dynamic origins; with any other origin the unchanged code rejects (p + q) - p (C40_static_origin_rejected)"
  },
  {
   "property": "C41",
   "status": "partial",
   "theorems": [
    "Verif.C41_kind_cast_partial",
    "Verif.C41_point_kind_cast_partial",
    "Verif.C41_point_origin_partial",
    "Verif.C41_static_origin_lost"
   ],
   "note": "proved; the unchanged code loses static origins of point kinds in casts to units, representations and kinds (C41_static_origin_lost)"
  },
  {
   "property": "C42",
   "status": "proved",
   "theorems": [
    "Verif.C42_number_times_reference",
    "Verif.C42_product",
    "Verif.C42_quotient",
    "Verif.C42_mul_div_cancel",
    "Verif.C42_quantities",
    "Verif.C42_comm_partial",
    "Verif.C42_equal_references"
   ],
   "note": "products commute as types for dimensions in normal form (C42_comm_partial is an extra)"
  },
  {
   "property": "C43",
   "status": "proved",
   "theorems": [
    "Verif.C43_duration",
    "Verif.C43_duration_convert",
    "Verif.C43_time_point",
    "Verif.C43_time_point_convert"
   ],
   "note": "every positive period is accepted; conversions to a given type are exact when the type holds the amount"
  },
  {
   "property": "C44",
   "status": "partial",
   "theorems": [
    "Verif.C44_exponent_partial",
    "Verif.C44_sign_of_root_lost",
    "Verif.C44_symbol_partial"
   ],
   "note": "proved for integral exponents, and for all exponents when at most one is negative, for single exponents and whole symbols; the unchanged code drops the sign of roots otherwise (C44_sign_of_root_lost)"
  },
  {
   "property": "C45",
   "status": "partial",
   "theorems": [
    "Verif.C45_superscript",
    "Verif.C45_regular_partial",
    "Verif.C45_regular_negative",
    "Verif.C45_least_rejected"
   ],
   "note": "superscripts and non-negative numbers proved; the unchanged code prints negative numbers with superscript digits in the standard text (C45_regular_negative) and rejects the least integer"
  },
  {
   "property": "C46",
   "status": "proved",
   "theorems": [
    "Verif.C46_ratio_text",
    "Verif.C46_unit_text"
   ],
   "note": "for all positive ratios with a printable power of ten, and for whole unit texts"
  },
  {
   "property": "C47",
   "status": "partial",
   "theorems": [
    "Verif.C47_prefix",
    "Verif.C47_shipped_prefixes",
    "Verif.C47_decimal_prefix",
    "Verif.C47_binary_prefix_missed",
    "Verif.C47_unit"
   ],
   "note": "proved for equal ratios, and by value for powers of ten; a binary ratio in another normal form is not recognised by the unchanged code (C47_binary_prefix_missed)"
  },
  {
   "property": "C48",
   "status": "proved",
   "theorems": [
    "Verif.C48_concat",
    "Verif.C48_eq",
    "Verif.C48_concat_assoc",
    "Verif.C48_compare",
    "Verif.C48_total_order",
    "Verif.C48_symbol_text",
    "Verif.C48_symbol_compare"
   ],
   "note": "fixed strings and symbol texts, all lengths and characters"
  },
  {
   "property": "C49",
   "status": "partial",
   "theorems": [
    "Verif.C49_accepted_exactly",
    "Verif.C49_parse_total",
    "Verif.C49_format_total",
    "Verif.C49_documented_accepted_partial",
    "Verif.C49_field_boundary_ignored",
    "Verif.C49_grammar_accepted_partial",
    "Verif.C49_outside_accepted",
    "Verif.C49_unfinished_rejected",
    "Verif.C49_integral_precision_rejected",
    "Verif.C49_type_rejected"
   ],
   "note": "exactly which texts are accepted is proved (C49_accepted_exactly), and that everything else ends with an exception; every specification of the documented grammar is accepted unless an argument name contains q; the unchanged code also accepts texts outside the grammar (C49_outside_accepted) and texts that span several fields (C49_field_boundary_ignored)"
  },
  {
   "property": "C50",
   "status": "partial",
   "theorems": [
    "Verif.C50_output_accepted",
    "Verif.C50_output_partial",
    "Verif.C50_modifiers_shared",
    "Verif.C50_number_spec"
   ],
   "note": "the output of every accepted text is proved (C50_output_accepted); it is the one asked for when all %Q share one modifier and all %q share one flag; otherwise the unchanged code uses the last modifier for all (C50_modifiers_shared); fmt itself is a parameter"
  },
  {
   "property": "C51",
   "status": "partial",
   "theorems": [
    "Verif.C51_no_width",
    "Verif.C51_width_partial",
    "Verif.C51_precision_ignored"
   ],
   "note": "proved without a width; with a width when the number has the same text in a new stream, since the unchanged code ignores precision, flags and locale of the stream (C51_precision_ignored)"
  },
  {
   "property": "C52",
   "status": "partial",
   "theorems": [
    "Verif.C52_draws",
    "Verif.C52_constructed",
    "Verif.C52_params",
    "Verif.C52_limits",
    "Verif.C52_intervals",
    "Verif.C52_intervals_other_unit",
    "Verif.C52_weights",
    "Verif.C52_pwc_weights_partial",
    "Verif.C52_pwc_weights_wrong",
    "Verif.C52_pwc_empty"
   ],
   "note": "proved for all sixteen classes with numeric parameters, engines, states and numbers of draws; the unchanged code violates the claim for piecewise_constant_distribution from a list and a non-affine function (C52_pwc_weights_wrong), for an empty list (C52_pwc_empty), and takes the numbers of intervals in another unit (C52_intervals_other_unit)"
  },
  {
   "property": "C53",
   "status": "proved",
   "theorems": [
    "Verif.C53_cmp_equal",
    "Verif.C53_cmp_less",
    "Verif.C53_cmp_others",
    "Verif.C53_in_range"
   ],
   "note": "std::cmp_equal/cmp_less and their derived comparisons and in_range, as written in bits/hacks for standard libraries without them: they decide the mathematical comparison of the two values for every pair of integer types."
  },
  {
   "property": "C54",
   "status": "proved",
   "theorems": [
    "Verif.C54_log_exact",
    "Verif.C54_log_double",
    "Verif.C54_exp_exact",
    "Verif.C54_exp_12_64",
    "Verif.C54_exp_wraps",
    "Verif.C54_exp_order_66",
    "Verif.C54_pow_all",
    "Verif.C54_pow_exact",
    "Verif.C54_pow_double"
   ],
   "note": "log: every positive argument, exact arithmetic and IEEE double rounding; exp: every argument, order up to 20, exact, and order 12/factor 64 with double rounding; pow: exact for all arguments as the composition, and a closed bound for |a log v| <= 22, exact and double. Orders from 21 on have wrong coefficients and from 66 on divide by zero (C54_exp_wraps, C54_exp_order_66)."
  },
  {
   "property": "C55",
   "status": "proved",
   "theorems": [
    "Verif.C55_zero_one",
    "Verif.C55_min_max",
    "Verif.C55_min_max_floating",
    "Verif.C55_unary_plus"
   ],
   "note": "min and max are the least and the greatest value of the representation, also for the binary floating-point formats"
  },
  {
   "property": "C56",
   "status": "partial",
   "theorems": [
    "Verif.C56_unnamed_unit_text_partial",
    "Verif.C56_energy_density_wrong"
   ],
   "note": "proved when dimensions with unnamed units occur with exponent one in recipes; otherwise the unchanged code prints a wrong symbol (C56_energy_density_wrong)"
  },
  {
   "property": "C57",
   "status": "partial",
   "theorems": [
    "Verif.C57_units_mean_their_names_partial",
    "Verif.C57_exact_units",
    "Verif.C57_misdefined_units"
   ],
   "note": "proved for all shipped units and dimensions; the unchanged code violates the claim for the seven units in `misdefined` (C57_misdefined_units, with the factor), eight units in `rounded` are off by less than 2e-8 relative"
  },
  {
   "property": "C58",
   "status": "proved",
   "theorems": [
    "Verif.C58_dimensions_are_isq"
   ],
   "note": "all shipped dimensions"
  },
  {
   "property": "C59",
   "status": "partial",
   "theorems": [
    "Verif.C59_headers_self_contained_partial",
    "Verif.C59_momentum_rejected",
    "Verif.C59_radioactivity_rejected"
   ],
   "note": "proved for all headers except isq/dimensions/momentum.h; the unchanged code violates the claim for it, isq/si/momentum.h (C59_momentum_rejected) and isq/si/radioactivity.h (C59_radioactivity_rejected)"
  },
  {
   "property": "C60",
   "status": "partial",
   "theorems": [
    "Verif.C60_unit_downcasts_partial",
    "Verif.C60_dimension_downcasts_partial",
    "Verif.C60_unit_twins",
    "Verif.C60_dimension_twins",
    "Verif.C60_no_header_has_unit_twins",
    "Verif.C60_no_header_has_dimension_twins"
   ],
   "note": "the only collisions are the listed twins, which do collide (C60_unit_twins, C60_dimension_twins), and no shipped header includes both members of a pair"
  },
  {
   "property": "C61",
   "status": "proved",
   "theorems": [
    "Verif.C61_tags_agree"
   ],
   "note": "all literals, references and aliases of every shipped header"
  },
  {
   "property": "C62",
   "status": "proved",
   "theorems": [
    "Verif.C62_prefixes"
   ],
   "note": "all shipped prefixes, value and both symbols"
  },
  {
   "property": "C63",
   "status": "partial",
   "theorems": [
    "Verif.C63_constants_partial",
    "Verif.C63_reduced_planck_constant_wrong"
   ],
   "note": "proved for all constants but the reduced Planck constant, which is wrong by the factor 10^15 in the unchanged code (C63_reduced_planck_constant_wrong)"
  },
  {
   "property": "C64",
   "status": "partial",
   "theorems": [
    "Verif.C64_conversion_factors_partial",
    "Verif.C64_rejected_conversions"
   ],
   "note": "proved for all pairs for which the ratio is computed and units not listed in C57; the computation fails for some pairs (C64_rejected_conversions)"
  },
  {
   "property": "C65",
   "status": "partial",
   "theorems": [
    "Verif.C65_conversion_partial",
    "Verif.C65_cast_partial",
    "Verif.C65_compare_partial",
    "Verif.C65_sum_partial",
    "Verif.C65_cgs_and_fps_areas"
   ],
   "note": "proved for all shipped units but those listed in C57, for results that fit; sums and comparisons of CGS with FPS areas are left out, for which the unchanged code picks a wrong common unit and rejects the sum (C65_cgs_and_fps_areas)"
  },
  {
   "property": "C66",
   "status": "partial",
   "theorems": [
    "Verif.C66_namespaces_separated",
    "Verif.C66_arithmetic_partial",
    "Verif.C66_mass_and_storage_capacity"
   ],
   "note": "proved for dimensions of one namespace (whose base dimensions have distinct symbols) and powers that lose no power of ten; the unchanged code violates the claim for mass and storage capacity, which share the symbol M (C66_mass_and_storage_capacity)"
  },
  {
   "property": "C67",
   "status": "partial",
   "theorems": [
    "Verif.C67_reflexive",
    "Verif.C67_symmetric",
    "Verif.C67_symmetric_points_and_kinds",
    "Verif.C67_same_amount_partial",
    "Verif.C67_same_size_is_equivalent_partial",
    "Verif.C67_points_and_kinds_partial",
    "Verif.C67_units",
    "Verif.C67_shipped_same_amount_partial",
    "Verif.C67_shipped_partial",
    "Verif.C67_metre_and_centimetre",
    "Verif.C67_two_miles"
   ],
   "note": "proved for dimensions whose coherent units have the same size (all shipped dimensions of one namespace) and in the other direction for one dimension but for the two miles; the unchanged code reports metres (SI) and centimetres (CGS) equivalent, and the two shipped miles not equivalent"
  },
  {
   "property": "C68",
   "status": "partial",
   "theorems": [
    "Verif.C68_static",
    "Verif.C68_written_out_partial",
    "Verif.C68_width_rejected",
    "Verif.C68_precision_rejected",
    "Verif.C68_argument_wins",
    "Verif.C68_name_with_q",
    "Verif.C68_earlier_unchecked"
   ],
   "note": "proved for arguments that can be used and precisions that are not partly written; the unchanged code lets a precision from an argument win over one written later (C68_argument_wins), cannot use arguments for precisions whose name contains q (C68_name_with_q) and does not check earlier precisions (C68_earlier_unchecked)"
  },
  {
   "property": "C69",
   "status": "partial",
   "theorems": [
    "Verif.C69_monotone_partial",
    "Verif.C69_number_partial",
    "Verif.C69_special_partial",
    "Verif.C69_truncated_partial",
    "Verif.C69_amounts_partial",
    "Verif.C69_shipped_double_partial",
    "Verif.C69_float_range_wrong"
   ],
   "note": "proved where the conversion factor is computed within the range of the type: decimal exponents up to 18 for float, 288 for double, 4912 for long double, hence for every conversion between shipped units in double; the unchanged code violates the claim for float conversions with larger factors (C69_float_range_wrong)"
  },
  {
   "property": "C70",
   "status": "partial",
   "theorems": [
    "Verif.C70_sum_partial",
    "Verif.C70_separated_partial",
    "Verif.C70_consistent_partial",
    "Verif.C70_nan",
    "Verif.C70_eq_agrees",
    "Verif.C70_shipped_sum_partial",
    "Verif.C70_shipped_compare_partial",
    "Verif.C70_zero_unequal",
    "Verif.C70_not_transitive"
   ],
   "note": "proved where the dimensions agree on unit sizes and the conversion factors to the common unit are computed within the range of the type (for double: for all shipped units); the unchanged code violates the claim for float with larger factors (C70_zero_unequal), and equality is not transitive across integral and floating point representations (C70_not_transitive)"
  },
  {
   "property": "C71",
   "status": "partial",
   "theorems": [
    "Verif.C71_symmetric",
    "Verif.C71_exactly",
    "Verif.C71_one_dimension",
    "Verif.C71_floating_rejected",
    "Verif.C71_two_systems_rejected",
    "Verif.C71_kinds_exactly"
   ],
   "note": "exactly which pairs of types are comparable is proved; the unchanged code violates the claim for floating point representations in two systems (C71_two_systems_rejected)"
  },
  {
   "property": "C72",
   "status": "partial",
   "theorems": [
    "Verif.C72_concept_means_isq",
    "Verif.C72_one_quantity",
    "Verif.C72_unnamed_exactly",
    "Verif.C72_unnamed_force_never"
   ],
   "note": "the exponents are proved for every dimension that satisfies a concept; the unchanged code violates the converse for unnamed dimensions without downcasting, which satisfy the concepts of exactly nine of the derived quantities (C72_unnamed_exactly, C72_unnamed_force_never)"
  },
  {
   "property": "C73",
   "status": "partial",
   "theorems": [
    "Verif.C73_implicit_is_explicit",
    "Verif.C73_implicit_within",
    "Verif.C73_within_implicit",
    "Verif.C73_accepted",
    "Verif.C73_amount_partial",
    "Verif.C73_number",
    "Verif.C73_from_quantity",
    "Verif.C73_round_trip",
    "Verif.C73_special",
    "Verif.C73_unary_plus_differs"
   ],
   "note": "proved; the amount under the side conditions of C22 (Coherent, CastGuard; exact floating arithmetic).  Unary plus of a kind does not promote the representation, unlike that of the quantity and unlike unary minus (C73_unary_plus_differs)"
  },
  {
   "property": "C74",
   "status": "partial",
   "theorems": [
    "Verif.C74_unit_partial",
    "Verif.C74_unit_accepts",
    "Verif.C74_symbol_partial",
    "Verif.C74_symbol_size_partial",
    "Verif.C74_unknown",
    "Verif.C74_wrong_texts",
    "Verif.C74_double_prefix",
    "Verif.C74_wrong_symbols",
    "Verif.C74_natural_area",
    "Verif.C74_same_symbol",
    "Verif.C74_product",
    "Verif.C74_number"
   ],
   "note": "proved for all ratios and exponents, except that the unchanged code violates the claim for three dimensions (C74_wrong_texts), for two units (C74_wrong_symbols), for units that get two prefixes in five dimensions whose coherent unit has a prefix (C74_double_prefix) and for powers of the units of natural units (C74_natural_area); two units of different size share a symbol (C74_same_symbol)"
  },
  {
   "property": "C75",
   "status": "partial",
   "theorems": [
    "Verif.C75_product",
    "Verif.C75_quotient",
    "Verif.C75_scale",
    "Verif.C75_commutative",
    "Verif.C75_reciprocal_partial",
    "Verif.C75_nearest",
    "Verif.C75_not_associative",
    "Verif.C75_sqrt_partial",
    "Verif.C75_sqrt_int_partial",
    "Verif.C75_sqrt_rounds_up",
    "Verif.C75_special",
    "Verif.C75_sqrt_special",
    "Verif.C75_assign",
    "Verif.C75_assign_int",
    "Verif.C75_assign_sum_partial",
    "Verif.C75_increment",
    "Verif.C75_increment_absorbed",
    "Verif.C75_negate",
    "Verif.C75_abs",
    "Verif.C75_integral"
   ],
   "note": "proved; the reciprocal and the root under the conditions of C27 and C34 on coherent units, `+=` and `-=` under those of C70.  Integral roots are proved below 2^52; the unchanged code violates the claim for larger integers, where the root rounded to double exceeds the true one (C75_sqrt_rounds_up); `++` leaves a double of 2^53 unchanged (C75_increment_absorbed)"
  },
  {
   "property": "C76",
   "status": "partial",
   "theorems": [
    "Verif.C76_representation",
    "Verif.C76_arithmetic",
    "Verif.C76_class",
    "Verif.C76_documented_class",
    "Verif.C76_class_and_numbers",
    "Verif.C76_vector_partial",
    "Verif.C76_vector_types",
    "Verif.C76_gap",
    "Verif.C76_vector_narrow",
    "Verif.C76_linear",
    "Verif.C76_amount"
   ],
   "note": "proved; vectors whose products keep the type of the elements need elements of 64 bits or floating point (C76_vector_narrow), and negative 32 bit elements do not fit an unsigned common type.  The unchanged code violates the promise of the documentation for vectors that are multiplied only by numbers of the type of their elements (C76_gap), and the class given in the documentation is no representation (C76_documented_class)"
  },
  {
   "property": "C77",
   "status": "partial",
   "theorems": [
    "Verif.C77_sum_partial",
    "Verif.C77_difference_partial",
    "Verif.C77_equality_partial",
    "Verif.C77_order_partial",
    "Verif.C77_product",
    "Verif.C77_quotient",
    "Verif.C77_scale",
    "Verif.C77_assign_partial",
    "Verif.C77_arithmetic",
    "Verif.C77_class",
    "Verif.C77_reciprocal_partial",
    "Verif.C77_remainder_partial",
    "Verif.C77_remainder_number",
    "Verif.C77_steps",
    "Verif.C77_steps_arithmetic",
    "Verif.C77_needs"
   ],
   "note": "proved; what the operators mean is proved for units that are related as in C25 (the code takes the wrong scale for unknown dimensions of two systems, C26_unknown_dimensions_wrong), `v / q` for coherent units of reciprocal ratios as in C28, and `%` for units of one size as in C29"
  },
  {
   "property": "C78",
   "status": "partial",
   "theorems": [
    "Verif.C78_first_order",
    "Verif.C78_laws",
    "Verif.C78_same_object",
    "Verif.C78_bounds",
    "Verif.C78_representation",
    "Verif.C78_cast",
    "Verif.C78_cast_value",
    "Verif.C78_operators",
    "Verif.C78_zero",
    "Verif.C78_zero_cast",
    "Verif.C78_cast_uncertainty_partial",
    "Verif.C78_nan_unequal",
    "Verif.C78_order",
    "Verif.C78_zero_witness"
   ],
   "note": "propagation is proved over the real numbers and for values other than zero (the derivation divides by the values); for doubles the conversion of units is proved within rounding errors under range conditions.  The unchanged code violates the claim for the value zero: products, quotients and conversions of units of 0 ± e have NaN as uncertainty (C78_zero, C78_zero_cast, C78_zero_witness).  Rounding bounds for the operators on measurements are C99"
  },
  {
   "property": "C79",
   "status": "partial",
   "theorems": [
    "Verif.C79_update_partial",
    "Verif.C79_gain_partial",
    "Verif.C79_covariance_partial",
    "Verif.C79_noise_partial",
    "Verif.C79_optimal_partial",
    "Verif.C79_filter_bounds_partial",
    "Verif.C79_filter_partial",
    "Verif.C79_average_partial",
    "Verif.C79_update2_partial",
    "Verif.C79_extrapolate2_partial",
    "Verif.C79_track_partial",
    "Verif.C79_track_uniform_partial",
    "Verif.C79_update3_partial",
    "Verif.C79_extrapolate3_partial",
    "Verif.C79_integral_interval"
   ],
   "note": "proved with exact floating point operations for the state, for related dimensions as in C26 and, in the extrapolation of three variables, coherent units as in C34.  The unchanged code violates the claim for the update of three variables with an interval of integers, whose half square is truncated (C79_integral_interval)"
  },
  {
   "property": "C80",
   "status": "partial",
   "theorems": [
    "Verif.C80_flat_partial",
    "Verif.C80_safe_partial",
    "Verif.C80_endless",
    "Verif.C80_overshoot",
    "Verif.C80_descends",
    "Verif.C80_waypoints",
    "Verif.C80_glide_partial",
    "Verif.C80_circle_partial",
    "Verif.C80_underground"
   ],
   "note": "proved with exact arithmetic (the rounding of doubles is not modelled here) and, for the whole estimate, on flat ground.  The unchanged code violates the claim elsewhere: on sloping ground the altitude after a glide is the height for safety above the ground where the glide began, which may be under the ground (C80_glide_partial, C80_underground); with a cloud base not above the height for safety the loop never ends (C80_endless); a tow that passes the finish in the first glide makes the program read a leg past the end (C80_overshoot); a tow that suffices makes the glider circle down in negative time (C80_descends); a task of fewer than two waypoints is undefined (C80_waypoints)"
  },
  {
   "property": "C81",
   "status": "partial",
   "theorems": [
    "Verif.C81_angle",
    "Verif.C81_formulas",
    "Verif.C81_metric",
    "Verif.C81_zero",
    "Verif.C81_meridian",
    "Verif.C81_equator",
    "Verif.C81_antipode",
    "Verif.C81_symmetric",
    "Verif.C81_nan",
    "Verif.C81_print_partial",
    "Verif.C81_zero_sign",
    "Verif.C81_literal"
   ],
   "note": "the geometry is proved over the real numbers, not with the rounding of doubles.  In doubles the distance from a place on latitude 8 to itself is NaN (C81_nan), for any sine and cosine accurate to 0.55 units in the last place; symmetry in doubles is proved for the law of cosines, the formula doubles use.  The claim on printing fails at zero, which is printed as S-0 and W-0 (C81_zero_sign)"
  },
  {
   "property": "C82",
   "status": "partial",
   "theorems": [
    "Verif.C82_derived",
    "Verif.C82_member",
    "Verif.C82_kind",
    "Verif.C82_derived_kind",
    "Verif.C82_kind_argument",
    "Verif.C82_base_kind",
    "Verif.C82_point_kind",
    "Verif.C82_redeclared",
    "Verif.C82_unit",
    "Verif.C82_alias",
    "Verif.C82_dimension",
    "Verif.C82_origin_partial",
    "Verif.C82_const_origin",
    "Verif.C82_rebind",
    "Verif.C82_rebind_own",
    "Verif.C82_prefix",
    "Verif.C82_exclusive_partial",
    "Verif.C82_two_bases"
   ],
   "note": "proved for all hierarchies a program can declare.  That point_origin<D> is no origin fails for const point_origin<D>, which satisfies the concept (C82_const_origin).  With two bases a class can be a unit and a dimension, and a class with two units as bases is no unit (C82_two_bases)"
  },
  {
   "property": "C83",
   "status": "partial",
   "theorems": [
    "Verif.C83_construction",
    "Verif.C83_amount",
    "Verif.C83_deduction",
    "Verif.C83_accepts",
    "Verif.C83_like_useless",
    "Verif.C83_documented_point",
    "Verif.C83_point_partial",
    "Verif.C83_point_position",
    "Verif.C83_point_deduction",
    "Verif.C83_concepts",
    "Verif.C83_chrono"
   ],
   "note": "proved for quantities.  For points it fails: the concept asks for a member dimension that the documentation replaces by origin, so that a point type with the documented traits is not point-like and no point can be constructed from it (C83_documented_point); proved for those that have it besides.  The concept QuantityLike is satisfied by types from which nothing can be constructed (C83_like_useless).  Members are modelled as dimensions, units and arithmetic types"
  },
  {
   "property": "C84",
   "status": "partial",
   "theorems": [
    "Verif.C84_box",
    "Verif.C84_box_overfull",
    "Verif.C84_box_density",
    "Verif.C84_energy_si",
    "Verif.C84_energy_natural",
    "Verif.C84_capacitor_printed",
    "Verif.C84_capacitor_voltage",
    "Verif.C84_capacitor_rows",
    "Verif.C84_avg_double",
    "Verif.C84_avg_double_miles",
    "Verif.C84_avg_int",
    "Verif.C84_avg_int_deduced",
    "Verif.C84_avg_int_miles",
    "Verif.C84_avg_int_narrowed",
    "Verif.C84_conversion_factor",
    "Verif.C84_conversion_factor_int"
   ],
   "note": "proved with exact floating point arithmetic and exact squares and roots (Libm.Squares).  The function with int narrows its arguments without a word: from 2147484 km on the printed speed is wrong (C84_avg_int_narrowed).  Nothing keeps the box from being overfull (C84_box_overfull).  The text printed is not part of this property"
  },
  {
   "property": "C85",
   "status": "partial",
   "theorems": [
    "Verif.C85_points",
    "Verif.C85_points_none",
    "Verif.C85_points_order",
    "Verif.C85_points_comparable",
    "Verif.C85_kinds",
    "Verif.C85_unknown_left_rejected",
    "Verif.C85_point_kinds",
    "Verif.C85_kinds_none",
    "Verif.C85_convertible"
   ],
   "note": "proved for dimensions that agree on unit sizes.  Violated by the unchanged code: with a kind of unknown dimension first and a dimension with its own coherent unit second, naming the common type and the sum are errors, in the other order not (C85_unknown_left_rejected).  The common type depends on the order exactly for two known dimensions (C85_points_order)"
  },
  {
   "property": "C86",
   "status": "partial",
   "theorems": [
    "Verif.C86_array",
    "Verif.C86_array_unterminated",
    "Verif.C86_terminated",
    "Verif.C86_access",
    "Verif.C86_iteration_constant",
    "Verif.C86_stream_partial",
    "Verif.C86_stream_cut",
    "Verif.C86_char",
    "Verif.C86_char_empty",
    "Verif.C86_equal_char_partial",
    "Verif.C86_empty_equals_char",
    "Verif.C86_equal_array",
    "Verif.C86_operand",
    "Verif.C86_plus",
    "Verif.C86_pair",
    "Verif.C86_wide_char",
    "Verif.C86_wide_char_changed"
   ],
   "note": "violated by the unchanged code: an array without terminator loses its last character (C86_array_unterminated), output stops at a zero (C86_stream_cut), an empty string made of a character is printed beyond its end (C86_char_empty), the empty string equals every character (C86_empty_equals_char), only constant strings can be iterated over (C86_iteration_constant), and a wide character added to a symbol text is cut to eight bits (C86_wide_char_changed).  The rest is proved for all strings and operands"
  },
  {
   "property": "C87",
   "status": "partial",
   "theorems": [
    "Verif.C87_cast_partial",
    "Verif.C87_sum_partial",
    "Verif.C87_scale",
    "Verif.C87_product",
    "Verif.C87_dot",
    "Verif.C87_equal_partial",
    "Verif.C87_assign_partial",
    "Verif.C87_fits"
   ],
   "note": "proved for vectors that are not empty and whose elements the common element type holds, which floating point elements always do.  Violated without that: a vector is converted to the common type of its elements before it is scaled, a number is not, so minus one hundred centimetres become different numbers of metres in an unsigned type (C87_fits)"
  },
  {
   "property": "C88",
   "status": "partial",
   "theorems": [
    "Verif.C88_translate_partial",
    "Verif.C88_difference_partial",
    "Verif.C88_add_sub_partial",
    "Verif.C88_add_sub_loses",
    "Verif.C88_separated_partial",
    "Verif.C88_nan",
    "Verif.C88_near_exact",
    "Verif.C88_order_kept",
    "Verif.C88_order_may_be_lost",
    "Verif.C88_convert_partial",
    "Verif.C88_increment",
    "Verif.C88_increment_lost",
    "Verif.C88_assign",
    "Verif.C88_kind_sum",
    "Verif.C88_kind_products",
    "Verif.C88_kind_scaling",
    "Verif.C88_kind_compare",
    "Verif.C88_integers"
   ],
   "note": "bounds between different units need ratios with exponents in the range of the type and `Related` dimensions, as C69, C70.  (p + q) - p == q, strict order after a translation and ++p are lost when the sum is rounded (C88_add_sub_loses, C88_order_may_be_lost, C88_increment_lost)"
  },
  {
   "property": "C89",
   "status": "partial",
   "theorems": [
    "Verif.C89_pow_partial",
    "Verif.C89_pow_rational_partial",
    "Verif.C89_pow_zero",
    "Verif.C89_pow_int_partial",
    "Verif.C89_pow_negative_int",
    "Verif.C89_pow_int_loses",
    "Verif.C89_third_power_of_cube",
    "Verif.C89_first_power_undefined",
    "Verif.C89_cbrt_partial",
    "Verif.C89_cbrt_int_partial",
    "Verif.C89_exp_partial"
   ],
   "note": "`<cmath>` is a parameter with a stated accuracy (`libm_exists`: a correctly rounded one satisfies it).  Integers lose powers above 2^53 (C89_pow_int_loses), negative powers are zero (C89_pow_negative_int), pow<1, 3> of 8^k is 2^k - 1 (C89_third_power_of_cube), pow<1> of the largest 64-bit number is undefined (C89_first_power_undefined); coherent units and roots of ratios as C34; results that are neither too large nor too small"
  },
  {
   "property": "C90",
   "status": "proved",
   "theorems": [
    "Verif.C90_gain",
    "Verif.C90_covariance",
    "Verif.C90_update",
    "Verif.C90_filter",
    "Verif.C90_collapse",
    "Verif.C90_frozen",
    "Verif.C90_average",
    "Verif.C90_zero_variances",
    "Verif.C90_overshoot"
   ],
   "note": "States of one variable with representation double whose unit is kept by products with numbers (`Steady`, satisfied by named units such as metres and square metres); measurements of the unit of the state.  The estimate can leave the range of state and measurement by rounding (C90_overshoot)"
  },
  {
   "property": "C91",
   "status": "partial",
   "theorems": [
    "Verif.C91_cast",
    "Verif.C91_cast_wraps_though_fits",
    "Verif.C91_sum_partial",
    "Verif.C91_add_comm_partial",
    "Verif.C91_add_assoc_partial",
    "Verif.C91_add_sub_partial",
    "Verif.C91_mixed_not_associative",
    "Verif.C91_equal_partial",
    "Verif.C91_order_partial",
    "Verif.C91_comparisons_wrap"
   ],
   "note": "The cast is proved for dimensions that agree on unit sizes and a divisor below 2^64; sums and comparisons for `Related` types and, in `std::uint64_t`, for ratios with the denominator one (`WholeRatio`): the normal form of a ratio is not canonical (C02), and with a denominator such as that of 50/2 the product wraps around before the division.  Across different unsigned types addition is not associative (C91_mixed_not_associative)."
  },
  {
   "property": "C92",
   "status": "partial",
   "theorems": [
    "Verif.C92_units",
    "Verif.C92_custom_rejected",
    "Verif.C92_custom_conversion",
    "Verif.C92_custom_ratios",
    "Verif.C92_custom_areas",
    "Verif.C92_unknown_dimension",
    "Verif.C92_unknown_dimension_int",
    "Verif.C92_unknown_dimension_versions",
    "Verif.C92_angle",
    "Verif.C92_hello",
    "Verif.C92_response",
    "Verif.C92_response_int",
    "Verif.C92_ship_metric",
    "Verif.C92_ship_imperial",
    "Verif.C92_knots",
    "Verif.C92_power"
   ],
   "note": "Proved with exact floating point arithmetic.  The unchanged programs violate the agreement of the versions (C92_unknown_dimension_versions, C92_response_int), and the knots of the ships are those of the library (C92_knots)."
  },
  {
   "property": "C93",
   "status": "partial",
   "theorems": [
    "Verif.C93_expression",
    "Verif.C93_agree",
    "Verif.C93_unknown_dimension",
    "Verif.C93_hello",
    "Verif.C93_avg_speed",
    "Verif.C93_truncated_wrong",
    "Verif.C93_cancellation_wrong",
    "Verif.C93_overflow_wrong"
   ],
   "note": "The bound is proved for all expressions under the stated conditions, whose necessity is shown by C93_cancellation_wrong and C93_overflow_wrong.  Violated by the unchanged code: the truncation after a conversion can lose a whole unit (C93_truncated_wrong).  Not covered: parts with integer arithmetic, zero amounts, number / quantity and %."
  },
  {
   "property": "C94",
   "status": "proved",
   "theorems": [
    "Verif.C94_expression",
    "Verif.C94_sign",
    "Verif.C94_state_update",
    "Verif.C94_extrapolation",
    "Verif.C94_track",
    "Verif.C94_overflow_wrong"
   ],
   "note": "C94_overflow_wrong shows that the bounds on the numbers are needed.  Divisors must be expressions covered by C93, parts with integer arithmetic, number / quantity and % are not covered."
  },
  {
   "property": "C95",
   "status": "partial",
   "theorems": [
    "Verif.C95_state_update",
    "Verif.C95_extrapolation",
    "Verif.C95_extrapolation_rounded",
    "Verif.C95_requirements",
    "Verif.C95_integral_interval_wrong",
    "Verif.C95_track"
   ],
   "note": "Proved for intervals in double.  Violated by the unchanged code for integral intervals, whose halved square is truncated (C95_integral_interval_wrong, as C79_integral_interval).  The loop is proved for gains with k1 + k2 + k3 ≤ 2 and k2 + 2 k3 ≤ 1 and a correctly rounded std::pow (C95_track)"
  },
  {
   "property": "C96",
   "status": "proved",
   "theorems": [
    "Verif.C96_total_energy",
    "Verif.C96_natural",
    "Verif.C96_si",
    "Verif.C96_square_spec",
    "Verif.C96_squares_wrong"
   ],
   "note": "The condition of moderate sizes is necessary: the squares overflow and underflow long before the energy (C96_squares_wrong)"
  },
  {
   "property": "C97",
   "status": "proved",
   "theorems": [
    "Verif.C97_printed",
    "Verif.C97_voltage",
    "Verif.C97_rows",
    "Verif.C97_negative_wrong"
   ],
   "note": "The bound on t / (R C) keeps the exponential within the range of the type; negative voltages are always printed in picovolts (C97_negative_wrong)"
  },
  {
   "property": "C98",
   "status": "proved",
   "theorems": [
    "Verif.C98_box",
    "Verif.C98_density",
    "Verif.C98_full_wrong"
   ],
   "note": "A full box may be found to have a volume and a time left (C98_full_wrong), within the stated errors"
  },
  {
   "property": "C99",
   "status": "proved",
   "theorems": [
    "Verif.C99_products",
    "Verif.C99_numbers",
    "Verif.C99_sums",
    "Verif.C99_program",
    "Verif.C99_plain_hypot",
    "Verif.C99_range_wrong"
   ],
   "note": "Outside the range the relative uncertainty may overflow, and the uncertainty becomes infinite (C99_range_wrong); values of zero are the finding of C78"
  },
  {
   "property": "C100",
   "status": "proved",
   "theorems": [
    "Verif.C100_dot",
    "Verif.C100_dot_nonneg",
    "Verif.C100_dot_comm",
    "Verif.C100_lengths",
    "Verif.C100_add",
    "Verif.C100_scale",
    "Verif.C100_matrix_vector",
    "Verif.C100_vector_matrix",
    "Verif.C100_number",
    "Verif.C100_program",
    "Verif.C100_add_kilometres",
    "Verif.C100_cancellation_wrong"
   ],
   "note": "The error is not relative to the result where terms cancel, and the order of the elements matters (C100_cancellation_wrong). The library of vectors is modelled by what the program needs of it; a library that sums in another order is not covered"
  },
  {
   "property": "C101",
   "status": "proved",
   "theorems": [
    "Verif.C101_fixed",
    "Verif.C101_deduced",
    "Verif.C101_deduced_error",
    "Verif.C101_conversion_factor",
    "Verif.C101_cgs",
    "Verif.C101_int",
    "Verif.C101_agree_wrong",
    "Verif.C101_inverse_wrong"
   ],
   "note": "The functions do not agree on the 220 km in two hours of the program: with metres and seconds the speed is above 110 km/h by 2^-46 (C101_agree_wrong). The conversion factors of the two directions are not inverse to each other (C101_inverse_wrong). The functions that compute with int are C84; the cast to another dimension that the program needs for centimetres in the function for the SI is not part of this property"
  },
  {
   "property": "C102",
   "status": "proved",
   "theorems": [
    "Verif.C102_response",
    "Verif.C102_hello",
    "Verif.C102_whole_wrong"
   ],
   "note": "The truncation can be one too small for a speed that is a whole number of metres per second: 3125 miles in 11 hours are 127 m/s, and the program gives 126 (C102_whole_wrong). The metre of the version of the response with references is an int (C92)"
  },
  {
   "property": "C103",
   "status": "proved",
   "theorems": [
    "Verif.C103_ship_metric",
    "Verif.C103_ship_imperial",
    "Verif.C103_column_wrong"
   ],
   "note": "The metric column does not always show what was given: the 800 kg of the shells of the first ship are printed as 800 + 2^-43 kg (C103_column_wrong). The knot and the power of the first ship are the findings of C92; the output is modelled up to the three quantities of a line, not their text"
  },
  {
   "property": "C104",
   "status": "proved",
   "theorems": [
    "Verif.C104_unknown_dimension",
    "Verif.C104_distance_wrong",
    "Verif.C104_angle",
    "Verif.C104_custom_conversion",
    "Verif.C104_custom_areas"
   ],
   "note": "The distance covered in the time the speed was measured with need not be the given one: for one metre in 49 s it is 1 - 2^-53 m (C104_distance_wrong). The versions of the program with integers are C92"
  },
  {
   "property": "C105",
   "status": "proved",
   "theorems": [
    "Verif.C105_convert",
    "Verif.C105_add",
    "Verif.C105_dot",
    "Verif.C105_scale",
    "Verif.C105_number",
    "Verif.C105_dot_error",
    "Verif.C105_matrix_vector",
    "Verif.C105_vector_matrix",
    "Verif.C105_matrix_add",
    "Verif.C105_matrix_scale"
   ],
   "note": "Empty vectors are excluded: a vector of no quantities has no product and converts to anything. The library of vectors is modelled as in C100"
  }
 ]
}
