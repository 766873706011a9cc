{
 "C01": {
  "status": "proved",
  "note": "construction exact, normal form, acceptance characterised up to INTMAX_MIN and exponents within 40 of the limits"
 },
 "C02": {
  "status": "partial",
  "note": "the unchanged code violates the claim (5e-1 vs 1/2, C02_equality_not_canonical); proved for equal exponents and for parts coprime to ten"
 },
 "C03": {
  "status": "proved",
  "note": "also shows that associativity holds for values but not representations"
 },
 "C04": {
  "status": "proved",
  "note": ""
 },
 "C05": {
  "status": "proved",
  "note": ""
 },
 "C06": {
  "status": "proved",
  "note": "modpow(a,0,1) returns the unreduced residue 1; stated in the theorem"
 },
 "C07": {
  "status": "proved",
  "note": "acceptance at the border depends on operand order (C07_common_acceptance_asymmetric)"
 },
 "C08": {
  "status": "proved",
  "note": ""
 },
 "C09": {
  "status": "partial",
  "note": "the unchanged code violates the claim (sqrt of 5/2*10 is 7, C09_sqrt_of_25); proved when alignment leaves coprime parts; for the compile-time estimate with IEEE doubles the estimate hypothesis is discharged (C09_compile_exact_partial)"
 },
 "C10": {
  "status": "partial",
  "note": "the unchanged code violates the claim (overflow at the top of the range; estimate one too low on non-powers); proved for good estimates without overflow and for all perfect powers; the compile-time estimate is analysed with IEEE rounding: exact on perfect powers, floor for N*v <= 3e12, floor or one less everywhere, with concrete wrong results (C10_compile_underestimate)"
 },
 "C11": {
  "status": "proved",
  "note": "any strict weak order, any length"
 },
 "C12": {
  "status": "proved",
  "note": ""
 },
 "C13": {
  "status": "partial",
  "note": "the unchanged code violates the claim where a nested exponent product is a multiple of ten (C13_nested_power_of_ten_lost) and for single unnormalised exponents (C13_single_exponent_kept); proved without restriction for the sums of recipes of base dimensions, and for exact nested recipes over separated base dimensions"
 },
 "C14": {
  "status": "partial",
  "note": "exponents of products and quotients proved without restriction; commutativity, associativity, self-division and neutrality for dimensions in normal form whose base dimensions differ in symbol (else C16_order_dependent); dimensions that alias a base dimension are not neutral (C14_alias_of_base_not_neutral)"
 },
 "C15": {
  "status": "partial",
  "note": "the unchanged code violates the claim for exponents reaching a multiple of ten (C15_pow_ten_lost); proved otherwise, and without restriction for base dimensions"
 },
 "C16": {
  "status": "partial",
  "note": "exponents proved; order independence is violated by the unchanged code (C16_order_dependent)"
 },
 "C18": {
  "status": "proved",
  "note": ""
 },
 "C19": {
  "status": "proved",
  "note": ""
 },
 "C17": {
  "status": "partial",
  "note": "reflexivity and symmetry proved for dimensions and quantities; transitivity proved for dimensions; the unchanged code violates transitivity for units of unrelated dimensions, with a witness"
 },
 "C20": {
  "status": "partial",
  "note": "the unchanged code violates the claim where the unit of a component dimension has a ratio other than one; proved otherwise"
 },
 "C22": {
  "status": "partial",
  "note": "exact for integral and exact floating types when the dimensions agree on unit sizes; the unchanged code violates the claim for narrowing integral conversions (C22_narrowing_wraps) and for unknown dimensions of two systems (C22_unknown_dimensions_wrong)"
 },
 "C23": {
  "status": "partial",
  "note": "proved where the dimensions agree on unit sizes (Coherent); unsigned intermediate results must not wrap; C91 says what a cast gives when they wrap"
 },
 "C24": {
  "status": "partial",
  "note": "proved under the same conditions as C23"
 },
 "C25": {
  "status": "partial",
  "note": "exactness, commutativity and associativity proved where the dimensions agree on unit sizes and nothing overflows; C91 has the sums of unsigned types without the condition of overflow"
 },
 "C26": {
  "status": "partial",
  "note": "proved where the dimensions agree on unit sizes; the unchanged code violates the claim for unknown dimensions of two systems (C26_unknown_dimensions_wrong); between signed and unsigned integral types there is no order (C26_mixed_sign), but equality is accepted and wrong (C26_mixed_sign_equality_wrong); C91 says what comparisons answer when the conversion to the common type wraps around"
 },
 "C27": {
  "status": "proved",
  "note": "physically exact for all accepted operands; unsigned results must not wrap"
 },
 "C28": {
  "status": "partial",
  "note": "the unchanged code ignores the ratio of the dimension's unit (C28_unit_ratio_ignored); proved where that ratio is one"
 },
 "C29": {
  "status": "partial",
  "note": "proved for the same unit; the unchanged code violates the bound when the units differ (C29_units_not_converted, C29_percent_not_converted)"
 },
 "C30": {
  "status": "partial",
  "note": "proved; the unchanged code violates the claim for % of quantities in different units (C30_remainder_disagrees)"
 },
 "C31": {
  "status": "partial",
  "note": "proved where the dimensions agree on unit sizes; the unchanged code ignores coherent ratios otherwise, with a witness"
 },
 "C32": {
  "status": "partial",
  "note": "proved where the dimensions agree on unit sizes; the unchanged code violates the claim for unknown dimensions of two systems"
 },
 "C33": {
  "status": "partial",
  "note": "standard rounding model, without overflow and underflow (C69 has them); the sizes of the dimensions must agree (Coherent)"
 },
 "C34": {
  "status": "partial",
  "note": "exact <cmath> assumed; the unchanged code ignores the ratio of the coherent unit, so powers and roots of kilograms are wrong (C34_pow_ignores_unit)"
 },
 "C35": {
  "status": "partial",
  "note": "proved where the absolute value is representable; abs of -128 in a signed byte is -128 (C35_abs_wraps); exp with exact floating point"
 },
 "C36": {
  "status": "partial",
  "note": "proved; comparison converts the number to the representation of the quantity first, which narrows (C36_comparison_narrows); so does the remainder with a number on the left (C36_remainder_narrows)"
 },
 "C37": {
  "status": "partial",
  "note": "proved where the dimensions agree on unit sizes and the types hold the results; accepted only for equivalent origins (C37_origins_checked)"
 },
 "C38": {
  "status": "partial",
  "note": "the position is that of quantity_cast; the unchanged code turns every static origin into a dynamic one (C38_static_origin_lost)"
 },
 "C39": {
  "status": "partial",
  "note": "sums proved exact where the dimensions agree on unit sizes and the types hold the results; products, scaling, remainders and assignments equal those of the underlying quantities"
 },
 "C40": {
  "status": "partial",
  "note": "proved for dynamic origins; with any other origin the unchanged code rejects (p + q) - p (C40_static_origin_rejected)"
 },
 "C41": {
  "status": "partial",
  "note": "proved; the unchanged code loses static origins of point kinds in casts to units, representations and kinds (C41_static_origin_lost)"
 },
 "C42": {
  "status": "proved",
  "note": "products commute as types for dimensions in normal form (C42_comm_partial is an extra)"
 },
 "C43": {
  "status": "proved",
  "note": "every positive period is accepted; conversions to a given type are exact when the type holds the amount"
 },
 "C55": {
  "status": "proved",
  "note": "min and max are the least and the greatest value of the representation, also for the binary floating-point formats"
 },
 "C44": {
  "status": "partial",
  "note": "proved for integral exponents, and for all exponents when at most one is negative, for single exponents and whole symbols; the unchanged code drops the sign of roots otherwise (C44_sign_of_root_lost)"
 },
 "C45": {
  "status": "partial",
  "note": "superscripts and non-negative numbers proved; the unchanged code prints negative numbers with superscript digits in the standard text (C45_regular_negative) and rejects the least integer"
 },
 "C46": {
  "status": "proved",
  "note": "for all positive ratios with a printable power of ten, and for whole unit texts"
 },
 "C47": {
  "status": "partial",
  "note": "proved for equal ratios, and by value for powers of ten; a binary ratio in another normal form is not recognised by the unchanged code (C47_binary_prefix_missed)"
 },
 "C48": {
  "status": "proved",
  "note": "fixed strings and symbol texts, all lengths and characters"
 },
 "C56": {
  "status": "partial",
  "note": "proved when dimensions with unnamed units occur with exponent one in recipes; otherwise the unchanged code prints a wrong symbol (C56_energy_density_wrong)"
 },
 "C49": {
  "status": "partial",
  "note": "exactly which texts are accepted is proved (C49_accepted_exactly), and that everything else ends with an exception; every specification of the documented grammar is accepted unless an argument name contains q; the unchanged code also accepts texts outside the grammar (C49_outside_accepted) and texts that span several fields (C49_field_boundary_ignored)"
 },
 "C50": {
  "status": "partial",
  "note": "the output of every accepted text is proved (C50_output_accepted); it is the one asked for when all %Q share one modifier and all %q share one flag; otherwise the unchanged code uses the last modifier for all (C50_modifiers_shared); fmt itself is a parameter"
 },
 "C51": {
  "status": "partial",
  "note": "proved without a width; with a width when the number has the same text in a new stream, since the unchanged code ignores precision, flags and locale of the stream (C51_precision_ignored)"
 },
 "C53": {
  "status": "proved",
  "note": "std::cmp_equal/cmp_less and their derived comparisons and in_range, as written in bits/hacks for standard libraries without them: they decide the mathematical comparison of the two values for every pair of integer types."
 },
 "C54": {
  "status": "proved",
  "note": "log: every positive argument, exact arithmetic and IEEE double rounding; exp: every argument, order up to 20, exact, and order 12/factor 64 with double rounding; pow: exact for all arguments as the composition, and a closed bound for |a log v| <= 22, exact and double. Orders from 21 on have wrong coefficients and from 66 on divide by zero (C54_exp_wraps, C54_exp_order_66)."
 },
 "C52": {
  "status": "partial",
  "note": "proved for all sixteen classes with numeric parameters, engines, states and numbers of draws; the unchanged code violates the claim for piecewise_constant_distribution from a list and a non-affine function (C52_pwc_weights_wrong), for an empty list (C52_pwc_empty), and takes the numbers of intervals in another unit (C52_intervals_other_unit)"
 },
 "C21": {
  "status": "partial",
  "note": "proved for all units, prefixes and pairs of names of the shipped headers except the hectolitre, for which the unchanged code violates the claim (C21_hectolitre_wrong)"
 },
 "C57": {
  "status": "partial",
  "note": "proved for all shipped units and dimensions; the unchanged code violates the claim for the seven units in `misdefined` (C57_misdefined_units, with the factor), eight units in `rounded` are off by less than 2e-8 relative"
 },
 "C58": {
  "status": "proved",
  "note": "all shipped dimensions"
 },
 "C59": {
  "status": "partial",
  "note": "proved for all headers except isq/dimensions/momentum.h; the unchanged code violates the claim for it, isq/si/momentum.h (C59_momentum_rejected) and isq/si/radioactivity.h (C59_radioactivity_rejected)"
 },
 "C60": {
  "status": "partial",
  "note": "the only collisions are the listed twins, which do collide (C60_unit_twins, C60_dimension_twins), and no shipped header includes both members of a pair"
 },
 "C61": {
  "status": "proved",
  "note": "all literals, references and aliases of every shipped header"
 },
 "C62": {
  "status": "proved",
  "note": "all shipped prefixes, value and both symbols"
 },
 "C63": {
  "status": "partial",
  "note": "proved for all constants but the reduced Planck constant, which is wrong by the factor 10^15 in the unchanged code (C63_reduced_planck_constant_wrong)"
 },
 "C64": {
  "status": "partial",
  "note": "proved for all pairs for which the ratio is computed and units not listed in C57; the computation fails for some pairs (C64_rejected_conversions)"
 },
 "C65": {
  "status": "partial",
  "note": "proved for all shipped units but those listed in C57, for results that fit; sums and comparisons of CGS with FPS areas are left out, for which the unchanged code picks a wrong common unit and rejects the sum (C65_cgs_and_fps_areas)"
 },
 "C66": {
  "status": "partial",
  "note": "proved for dimensions of one namespace (whose base dimensions have distinct symbols) and powers that lose no power of ten; the unchanged code violates the claim for mass and storage capacity, which share the symbol M (C66_mass_and_storage_capacity)"
 },
 "C67": {
  "status": "partial",
  "note": "proved for dimensions whose coherent units have the same size (all shipped dimensions of one namespace) and in the other direction for one dimension but for the two miles; the unchanged code reports metres (SI) and centimetres (CGS) equivalent, and the two shipped miles not equivalent"
 },
 "C68": {
  "status": "partial",
  "note": "proved for arguments that can be used and precisions that are not partly written; the unchanged code lets a precision from an argument win over one written later (C68_argument_wins), cannot use arguments for precisions whose name contains q (C68_name_with_q) and does not check earlier precisions (C68_earlier_unchecked)"
 },
 "C69": {
  "status": "partial",
  "note": "proved where the conversion factor is computed within the range of the type: decimal exponents up to 18 for float, 288 for double, 4912 for long double, hence for every conversion between shipped units in double; the unchanged code violates the claim for float conversions with larger factors (C69_float_range_wrong)"
 },
 "C70": {
  "status": "partial",
  "note": "proved where the dimensions agree on unit sizes and the conversion factors to the common unit are computed within the range of the type (for double: for all shipped units); the unchanged code violates the claim for float with larger factors (C70_zero_unequal), and equality is not transitive across integral and floating point representations (C70_not_transitive)"
 },
 "C71": {
  "status": "partial",
  "note": "exactly which pairs of types are comparable is proved; the unchanged code violates the claim for floating point representations in two systems (C71_two_systems_rejected)"
 },
 "C72": {
  "status": "partial",
  "note": "the exponents are proved for every dimension that satisfies a concept; the unchanged code violates the converse for unnamed dimensions without downcasting, which satisfy the concepts of exactly nine of the derived quantities (C72_unnamed_exactly, C72_unnamed_force_never)"
 },
 "C73": {
  "status": "partial",
  "note": "proved; the amount under the side conditions of C22 (Coherent, CastGuard; exact floating arithmetic).  Unary plus of a kind does not promote the representation, unlike that of the quantity and unlike unary minus (C73_unary_plus_differs)"
 },
 "C74": {
  "status": "partial",
  "note": "proved for all ratios and exponents, except that the unchanged code violates the claim for three dimensions (C74_wrong_texts), for two units (C74_wrong_symbols), for units that get two prefixes in five dimensions whose coherent unit has a prefix (C74_double_prefix) and for powers of the units of natural units (C74_natural_area); two units of different size share a symbol (C74_same_symbol)"
 },
 "C75": {
  "status": "partial",
  "note": "proved; the reciprocal and the root under the conditions of C27 and C34 on coherent units, `+=` and `-=` under those of C70.  Integral roots are proved below 2^52; the unchanged code violates the claim for larger integers, where the root rounded to double exceeds the true one (C75_sqrt_rounds_up); `++` leaves a double of 2^53 unchanged (C75_increment_absorbed)"
 },
 "C76": {
  "status": "partial",
  "note": "proved; vectors whose products keep the type of the elements need elements of 64 bits or floating point (C76_vector_narrow), and negative 32 bit elements do not fit an unsigned common type.  The unchanged code violates the promise of the documentation for vectors that are multiplied only by numbers of the type of their elements (C76_gap), and the class given in the documentation is no representation (C76_documented_class)"
 },
 "C77": {
  "status": "partial",
  "note": "proved; what the operators mean is proved for units that are related as in C25 (the code takes the wrong scale for unknown dimensions of two systems, C26_unknown_dimensions_wrong), `v / q` for coherent units of reciprocal ratios as in C28, and `%` for units of one size as in C29"
 },
 "C78": {
  "status": "partial",
  "note": "propagation is proved over the real numbers and for values other than zero (the derivation divides by the values); for doubles the conversion of units is proved within rounding errors under range conditions.  The unchanged code violates the claim for the value zero: products, quotients and conversions of units of 0 ± e have NaN as uncertainty (C78_zero, C78_zero_cast, C78_zero_witness).  Rounding bounds for the operators on measurements are C99"
 },
 "C79": {
  "status": "partial",
  "note": "proved with exact floating point operations for the state, for related dimensions as in C26 and, in the extrapolation of three variables, coherent units as in C34.  The unchanged code violates the claim for the update of three variables with an interval of integers, whose half square is truncated (C79_integral_interval)"
 },
 "C80": {
  "status": "partial",
  "note": "proved with exact arithmetic (the rounding of doubles is not modelled here) and, for the whole estimate, on flat ground.  The unchanged code violates the claim elsewhere: on sloping ground the altitude after a glide is the height for safety above the ground where the glide began, which may be under the ground (C80_glide_partial, C80_underground); with a cloud base not above the height for safety the loop never ends (C80_endless); a tow that passes the finish in the first glide makes the program read a leg past the end (C80_overshoot); a tow that suffices makes the glider circle down in negative time (C80_descends); a task of fewer than two waypoints is undefined (C80_waypoints)"
 },
 "C81": {
  "status": "partial",
  "note": "the geometry is proved over the real numbers, not with the rounding of doubles.  In doubles the distance from a place on latitude 8 to itself is NaN (C81_nan), for any sine and cosine accurate to 0.55 units in the last place; symmetry in doubles is proved for the law of cosines, the formula doubles use.  The claim on printing fails at zero, which is printed as S-0 and W-0 (C81_zero_sign)"
 },
 "C82": {
  "status": "partial",
  "note": "proved for all hierarchies a program can declare.  That point_origin<D> is no origin fails for const point_origin<D>, which satisfies the concept (C82_const_origin).  With two bases a class can be a unit and a dimension, and a class with two units as bases is no unit (C82_two_bases)"
 },
 "C83": {
  "status": "partial",
  "note": "proved for quantities.  For points it fails: the concept asks for a member dimension that the documentation replaces by origin, so that a point type with the documented traits is not point-like and no point can be constructed from it (C83_documented_point); proved for those that have it besides.  The concept QuantityLike is satisfied by types from which nothing can be constructed (C83_like_useless).  Members are modelled as dimensions, units and arithmetic types"
 },
 "C84": {
  "status": "partial",
  "note": "proved with exact floating point arithmetic and exact squares and roots (Libm.Squares).  The function with int narrows its arguments without a word: from 2147484 km on the printed speed is wrong (C84_avg_int_narrowed).  Nothing keeps the box from being overfull (C84_box_overfull).  The text printed is not part of this property"
 },
 "C85": {
  "status": "partial",
  "note": "proved for dimensions that agree on unit sizes.  Violated by the unchanged code: with a kind of unknown dimension first and a dimension with its own coherent unit second, naming the common type and the sum are errors, in the other order not (C85_unknown_left_rejected).  The common type depends on the order exactly for two known dimensions (C85_points_order)"
 },
 "C86": {
  "status": "partial",
  "note": "violated by the unchanged code: an array without terminator loses its last character (C86_array_unterminated), output stops at a zero (C86_stream_cut), an empty string made of a character is printed beyond its end (C86_char_empty), the empty string equals every character (C86_empty_equals_char), only constant strings can be iterated over (C86_iteration_constant), and a wide character added to a symbol text is cut to eight bits (C86_wide_char_changed).  The rest is proved for all strings and operands"
 },
 "C87": {
  "status": "partial",
  "note": "proved for vectors that are not empty and whose elements the common element type holds, which floating point elements always do.  Violated without that: a vector is converted to the common type of its elements before it is scaled, a number is not, so minus one hundred centimetres become different numbers of metres in an unsigned type (C87_fits)"
 },
 "C88": {
  "status": "partial",
  "note": "bounds between different units need ratios with exponents in the range of the type and `Related` dimensions, as C69, C70.  (p + q) - p == q, strict order after a translation and ++p are lost when the sum is rounded (C88_add_sub_loses, C88_order_may_be_lost, C88_increment_lost)"
 },
 "C89": {
  "status": "partial",
  "note": "`<cmath>` is a parameter with a stated accuracy (`libm_exists`: a correctly rounded one satisfies it).  Integers lose powers above 2^53 (C89_pow_int_loses), negative powers are zero (C89_pow_negative_int), pow<1, 3> of 8^k is 2^k - 1 (C89_third_power_of_cube), pow<1> of the largest 64-bit number is undefined (C89_first_power_undefined); coherent units and roots of ratios as C34; results that are neither too large nor too small"
 },
 "C90": {
  "status": "proved",
  "note": "States of one variable with representation double whose unit is kept by products with numbers (`Steady`, satisfied by named units such as metres and square metres); measurements of the unit of the state.  The estimate can leave the range of state and measurement by rounding (C90_overshoot)"
 },
 "C91": {
  "status": "partial",
  "note": "The cast is proved for dimensions that agree on unit sizes and a divisor below 2^64; sums and comparisons for `Related` types and, in `std::uint64_t`, for ratios with the denominator one (`WholeRatio`): the normal form of a ratio is not canonical (C02), and with a denominator such as that of 50/2 the product wraps around before the division.  Across different unsigned types addition is not associative (C91_mixed_not_associative)."
 },
 "C92": {
  "status": "partial",
  "note": "Proved with exact floating point arithmetic.  The unchanged programs violate the agreement of the versions (C92_unknown_dimension_versions, C92_response_int), and the knots of the ships are those of the library (C92_knots)."
 },
 "C93": {
  "status": "partial",
  "note": "The bound is proved for all expressions under the stated conditions, whose necessity is shown by C93_cancellation_wrong and C93_overflow_wrong.  Violated by the unchanged code: the truncation after a conversion can lose a whole unit (C93_truncated_wrong).  Not covered: parts with integer arithmetic, zero amounts, number / quantity and %."
 },
 "C94": {
  "status": "proved",
  "note": "C94_overflow_wrong shows that the bounds on the numbers are needed.  Divisors must be expressions covered by C93, parts with integer arithmetic, number / quantity and % are not covered."
 },
 "C95": {
  "status": "partial",
  "note": "Proved for intervals in double.  Violated by the unchanged code for integral intervals, whose halved square is truncated (C95_integral_interval_wrong, as C79_integral_interval).  The loop is proved for gains with k1 + k2 + k3 ≤ 2 and k2 + 2 k3 ≤ 1 and a correctly rounded std::pow (C95_track)"
 },
 "C96": {
  "status": "proved",
  "note": "The condition of moderate sizes is necessary: the squares overflow and underflow long before the energy (C96_squares_wrong)"
 },
 "C97": {
  "status": "proved",
  "note": "The bound on t / (R C) keeps the exponential within the range of the type; negative voltages are always printed in picovolts (C97_negative_wrong)"
 },
 "C98": {
  "status": "proved",
  "note": "A full box may be found to have a volume and a time left (C98_full_wrong), within the stated errors"
 },
 "C99": {
  "status": "proved",
  "note": "Outside the range the relative uncertainty may overflow, and the uncertainty becomes infinite (C99_range_wrong); values of zero are the finding of C78"
 },
 "C100": {
  "status": "proved",
  "note": "The error is not relative to the result where terms cancel, and the order of the elements matters (C100_cancellation_wrong). The library of vectors is modelled by what the program needs of it; a library that sums in another order is not covered"
 },
 "C101": {
  "status": "proved",
  "note": "The functions do not agree on the 220 km in two hours of the program: with metres and seconds the speed is above 110 km/h by 2^-46 (C101_agree_wrong). The conversion factors of the two directions are not inverse to each other (C101_inverse_wrong). The functions that compute with int are C84; the cast to another dimension that the program needs for centimetres in the function for the SI is not part of this property"
 },
 "C102": {
  "status": "proved",
  "note": "The truncation can be one too small for a speed that is a whole number of metres per second: 3125 miles in 11 hours are 127 m/s, and the program gives 126 (C102_whole_wrong). The metre of the version of the response with references is an int (C92)"
 },
 "C103": {
  "status": "proved",
  "note": "The metric column does not always show what was given: the 800 kg of the shells of the first ship are printed as 800 + 2^-43 kg (C103_column_wrong). The knot and the power of the first ship are the findings of C92; the output is modelled up to the three quantities of a line, not their text"
 },
 "C104": {
  "status": "proved",
  "note": "The distance covered in the time the speed was measured with need not be the given one: for one metre in 49 s it is 1 - 2^-53 m (C104_distance_wrong). The versions of the program with integers are C92"
 },
 "C105": {
  "status": "proved",
  "note": "Empty vectors are excluded: a vector of no quantities has no product and converts to anything. The library of vectors is modelled as in C100"
 }
}