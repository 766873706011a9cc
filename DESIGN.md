# Formal model of mpusz/units

## What is here

* `properties.jsonl` – the properties, in terms of the public API.
* `lean/Verif/*.lean` – the model (one file per layer of the library) and, in
  `lean/Verif/Props/*.lean`, the property theorems.  Model files contain
  definitions and helper lemmas; every definition cites the file and lines it models.
* `MANIFEST.json` – property → theorems.
* `seeded/LOG.jsonl` – the record of mutation experiments on the model.
* `tools/` – `manifest.py` writes `MANIFEST.json`; `gen_systems.py` transcribes the declarations of
  `src/systems` into `SystemsData.lean`; `gen_tables.txt` (a Lean script) writes `SystemsTable.lean`; `gen_conformance.py` translates static tests of the
  project into `Conformance*.lean`.

## Modelling decisions

1. **Errors are outcomes.**  `Except UB α` (file `Cpp.lean`) is the result of everything
   that can execute undefined behaviour, fail a `gsl_Expects`/`assert`, or overflow.
   Almost all of this code runs at compile time, where each of those is a hard compile
   error ("rejected"); at run time they are undefined behaviour.  A theorem of the form
   "`f x = .ok y → …`" speaks about every accepted input; where acceptance itself is part
   of the claim it is characterised by an iff.  `assert` is modelled as active.
2. **Integers.**  `std::intmax_t` is an `Int` whose every arithmetic result is range checked
   against 64 bits; `std::uint64_t` is a `Nat` with explicit `% 2^64`.
   Representation types of quantities are `(width, signedness)` pairs.
3. **Types are values.**  C++ types (dimensions, units, type lists) are Lean data; class
   template specialisations are functions on them; constraints (`requires`) are
   decidable predicates or `Option`al results.
4. **Floating point** is a rational with an arbitrary rounding function satisfying the
   standard model, without overflow, NaN, infinities and denormals.  For `quantity_cast`, sums, comparisons, products, quotients and square roots there is a second model (`Ieee*.lean`) on
   the binary formats of x86-64 with all of these and with rounding to nearest; payloads of NaNs and exception flags are left out.
5. **The C++ front end is trusted**: overload resolution, CTAD, template instantiation order
   and friend injection (used by downcasting) are modelled by their documented effect.

## Trusted base

* The Lean 4.33.0 kernel and the statements of the Mathlib definitions used (ℚ, ℝ, ℤ, lists, finite sets, `Real.log`, `Real.exp`, `Real.rpow`).
* The axioms `propext`, `Classical.choice` and `Quot.sound`, nothing else.  No axiom is declared, no proof contains `sorry`, and neither `native_decide` nor
  `bv_decide` is used.  `decide +kernel` is used for closed statements only, where the kernel evaluates the whole finite table.
* The faithfulness of the transcription from C++ (cited file and line at every definition).  Nothing in `/repo` is executed.
* `tools/gen_systems.py`, which transcribes the declarations of `src/systems` (and the few units in `src/core/include/units/generic`) into
  `SystemsData.lean`; its output is plain data that can be compared with the headers by eye.  `gen_tables.txt` is *not* trusted: `checkLoad_everything` proves that the tables are what the model of the compiler computes.
* `Standards.lean`, the specification for C57–C65: what the names of units, prefixes, quantities and constants mean according to the SI Brochure, IEC 80000-13, the international yard and
  pound agreement, IAU resolutions, etc.

### What is modelled

| Part of the code | Files |
| --- | --- |
| `ratio.h`, `bits/ratio_maths.h`, `bits/pow.h`, `bits/root.h`, `bits/constexpr_math.h` | `Ratio`, `RatioMaths`, `CommonRatio`, `Root`, `ConstexprMath` |
| `bits/basic_concepts.h` (up to `PointKind`), `bits/external/type_traits.h` (`is_derived_from_specialization_of`), `kind.h`, `point_origin.h`, the class declarations of `unit.h`, `prefix.h`, `base_dimension.h`, `derived_dimension.h` | `Classes` |
| `customization_points.h` (traits), `QuantityLike` and `QuantityPointLike` of `bits/basic_concepts.h` | `External` |
| `example/literals/{box_example,total_energy,capacitor_time_curve,avg_speed}.cpp`, `example/conversion_factor.cpp` | `Programs`, `ProgramsLemmas` |
| `bits/common_quantity.h` (points and kinds), `bits/quantity_of.h` (points and kinds) | `CommonType` |
| `bits/external/fixed_string.h`, `bits/external/fixed_string_io.h`, `symbol_text.h` (rest) | `StringOps` |
| `bits/external/type_list.h`, `bits/external/downcasting.h`, `bits/external/hacks.h` (integer comparisons) | `TypeList`, `Downcast`, `Hacks` |
| `unit.h`, `prefix.h`, `base_dimension.h`, `exponent.h`, `derived_dimension.h`, `bits/dim_*.h`, `bits/dimension_op.h`, `bits/derived_unit.h`, `bits/base_units_ratio.h`, `bits/equivalent.h` | `Unit`, `Dim`, `Equivalent`, `EquivType`, `Size` |
| `quantity.h`, `quantity_cast.h`, `bits/common_quantity.h`, `math.h`, `customization_points.h` (values) | `Num`, `Quantity`, `Math`, `Ieee` (`quantity_cast` on IEEE formats), `IeeeArith` (sums and comparisons), `IeeeOps` (products, quotients, roots), `Representation` (the concepts for representations, `quantity_cast` for any representation) |
| `quantity_point.h`, `point_origin.h`, `quantity_kind.h`, `quantity_point_kind.h`, `kind.h` | `Point`, `Kind` |
| `reference.h`, `chrono.h` | `Reference` |
| `bits/external/fixed_string.h`, `symbol_text.h`, `bits/unit_text.h`, `bits/to_string.h`, `bits/prefix…` | `FixedString`, `Text` |
| `format.h`, `quantity_io.h` | `Format`, `FormatDyn` (references to arguments) |
| `random.h` | `Random` |
| `example/custom_systems.cpp`, `example/hello_units.cpp`, `example/{references,literals,aliases}/{foot_pound_second,unknown_dimension,experimental_angle,clcpp_response}.cpp` (not printing; of `clcpp_response.cpp` the conversions of the metre) | `Demos` |
| nested expressions over `src/core/include/units/quantity.h` and `quantity_cast.h` with IEEE numbers; `example/aliases/unknown_dimension.cpp`, `example/hello_units.cpp` and `example/literals/avg_speed.cpp` in `double` | `IeeeExpr` |
| `example/kalman_filter/kalman.h:100-117,127-142` and the loops of `kalman_filter-example_2.cpp` and `kalman_filter-example_4.cpp` with IEEE numbers | `IeeeTrack`, `IeeeTrack3` |
| `example/references/total_energy.cpp` in `double` | `IeeeEnergy` |
| `example/references/capacitor_time_curve.cpp` in `double` | `IeeeCapacitor` |
| `example/references/box_example.cpp` in `double` | `IeeeBox` |
| `example`, `example/measurement.cpp:127-143` | `IeeeMeasurement` |
| `example/measurement.cpp` (the class template) | `Measurement` |
| `example/references/linear_algebra.cpp` (what it needs of the vectors) | `LinearAlgebra` |
| the vectors and matrices of quantities in `example/references/linear_algebra.cpp:72-185`, in doubles (division by a scalar is commented out there) | `IeeeLinear` |
| `fixed_double_si_avg_speed`, `si_avg_speed`, `avg_speed`, `print_result`, `example/references/avg_speed.cpp:45-70`, and `conversion_factor`, `example/conversion_factor.cpp:30-39`, in floating point | `IeeeSpeed` |
| The casts of `meter`, `example/references/clcpp_response.cpp:88-111`, and the speeds of `example/hello_units.cpp:34-56`, in floating point | `IeeeHello` |
| `Ship`, `fmt_line`, `print_details`, `example/references/foot_pound_second.cpp:44-96`, in floating point | `IeeeShip` |
| `example/aliases/unknown_dimension.cpp:32-48`, `example/references/experimental_angle.cpp:43-46`, `example/custom_systems.cpp:66-97`, in floating point | `IeeeDemos` |
| `example/references/linear_algebra.cpp:208-330`, in floating point | `IeeeQtyVec` |
| `quantity_point.h`, `quantity_kind.h` with IEEE numbers | `IeeePoint` |
| `math.h` (`pow`, `cbrt`, `exp`) with IEEE numbers and an inexact `<cmath>` | `IeeeMath` |
| `example/kalman_filter/kalman.h` for one variable and the loops of the examples with IEEE numbers | `IeeeKalman` |
| `example/kalman_filter/kalman.h` (not the formatters), the loops of `kalman_filter-example_*.cpp` | `Kalman` |
| `example/glide_computer/glide_computer.cpp`, `include/glide_computer.h` (not names, printing) | `Glide` |
| `example/glide_computer/geographic.cpp`, `include/geographic.h` | `Geographic` |
| all headers of `src/systems` | `Systems*`, `Standards` |

### What is not modelled

* The C++ front end: overload resolution, template argument deduction and the order of instantiation are represented by their effect on the cases in which the library
  uses them.
* Floating point: overflow, NaN, infinities and denormals outside `quantity_cast`, the operators of quantities, points and kinds, square roots, powers and exponentials (C69, C70, C75, C88, C89 have them; C33 uses the standard model, C54 gives error bounds for IEEE double rounding without range limits).
* The formatting library itself (a parameter of `Format.lean`; its functions for parsing alignment, width, precision and argument references are transcribed from fmt 7.1.3, which is not in the repository), wide characters.
* `experimental` headers, examples other than those named in the table above (`measurement.cpp`, the Kalman filters, the glide computer, the box, energy, capacitor, speed and conversion factor programs, the programs of `Demos`, linear algebra), the library of vectors and matrices that `linear_algebra.cpp` includes, `bits/external/text_tools.h` beyond what the texts of units need.
* Simplifications are stated at the definitions.

## Is the model faithful?

Two checks, besides review against the cited lines:

* **Replay of the project's tests.**  `tools/gen_conformance.py` translates static assertions of `/repo/test/unit_test/static` into terms of the
  small expression language of `Conformance.lean` (literals, references, constructors, operators, casts, comparisons, symbols), which is evaluated
  by the functions of the model in the translation unit that includes the headers of the test.  `ConformanceSystems.lean`: all assertions of the
  tests of the systems of units (`si`, `cgs`, `fps`, `us`, `si_cgs`, `si_fps`, `iec80000`) and 9 of 12 of `references_test` hold in the model.
  `tools/gen_conformance_core.py` does the same for the tests of the class templates with the larger language of `ConformanceCore.lean`
  (construction, deduction, implicit conversion, assignment, increments, points, kinds, point kinds, `std::chrono`, concepts of the tests that require an
  expression to be ill-formed, convertibility, comparability).  `ConformanceTemplates.lean`: 1412 checks from 1180 of the 1298 assertions of
  `quantity_test`, `quantity_kind_test`, `quantity_point_test`, `quantity_point_kind_test`, `chrono_test` and `math_test`.  Not translated: triviality, `noexcept`,
  `sizeof`, member types, a reading of an uninitialised object, an inherited class, and class templates with arguments in the wrong order.  Each check fails
  when it is negated.
  `tools/gen_conformance_text.py` translates the tests of text output (`fmt_test`, `fmt_units_test`) and `math_test` of test/unit_test/runtime:
  `ConformanceFormat.lean` replays 376 of their 403 checks in the language of `ConformanceText.lean` (`fmt::format` with any number of replacement
  fields, stream insertion with manipulators, exceptions).  What {fmt} and the standard library print for a number is reimplemented there as far as the tests need it.  Not
  translated: NaN and infinities, hexadecimal floating point, locales, a unit declared inside a test, `epsilon`, random roots.
  `tools/gen_conformance_rep.py` translates `custom_rep_test_min_expl` and `custom_rep_test_min_impl` (all assertions but those about unary `+`, `++`, `--` and
  output): `ConformanceRep.lean` replays them with the operators of `RepOps.lean`.
  They are evaluated by Lean's interpreter during the build (`#guard`).  These are tests of the model, not properties or theorems, and no property
  theorem depends on them.
* **Mutation.**  `seeded/LOG.jsonl`.

## Findings about the unchanged code

Each is witnessed by a theorem (in parentheses where the name is not obvious).

 1. The normal form of `ratio` is not canonical: 5·10⁻¹ and 1/2 are different ratios (C02); so two units of the same size may be different types (`fps::mile` and `international::mile`).
 2. `sqrt(ratio(5, 2, 1))` is 7 (C09).
 3. The run-time and compile-time `iroot` overflow near the top of the range and may be one too low (C10).
 4. `exponent_multiply` drops the power of ten of the product: `pow<10>` of a derived dimension has exponent 1 (C13, C15).
 5. `base_dimension_less` compares the unit symbol of `D1` with itself; the order of exponents depends on the order of operands (C16).
 6. `dimension_pow` does not reduce fractions of base dimensions (C15).
 7. Conversions between unknown dimensions of two systems use the factor one (C22, C26, C32).
 8. `Value / quantity` ignores the ratio of the dimension's unit: 1 / (1 kg) is wrong by 1000² (C28).
 9. `%` does not convert units, `%=` does (C29, C30).
10. Implicit conversions may narrow the representation (C22); comparison with a number and the remainder of a number narrow the number (C36); `abs` of the least value (C35).
11. `equivalent` on quantities is not transitive (C17).
12. The last specialisation of `common_quantity` omits the coherent ratio (C31).
13. `derived_ratio` ignores the ratio of the component dimension's unit (C20): the shipped `fps::cubic_yard` is wrong (C57).
14. `exp_ratio` supports denominators 1 and 2 only, and its square root is lossy (C20, C32).
15. Texts: the sign of roots is lost (C44); negative regular numbers use superscript digits (C45); named units of powers of unnamed dimensions lose the outer exponent (C56); a binary prefix in another normal form is missed (C47).
16. Format: `%Zq` and text after the type are accepted (C49); modifiers are shared between all `%Q`/`%q` (C50); with a width, the stream's precision, flags and locale are ignored (C51).
17. `quantity_point_cast` makes every origin dynamic (C38), also for point kinds (C41), and point kinds with static origins reject (p + q) − p (C40).
18. `quantity_kind_cast` to a dimension keeps the kind's dimension (C41).
19. Acceptance of `common_ratio` depends on the order of operands (C07); `modpow(a, 0, 1)` is 1 (C06).
20. `pow`, `sqrt`, `cbrt` ignore the coherent ratio: powers of kilograms are wrong (C34).
21. `operator±` with a plain value only checks that the unit is `one` (C36).
22. `constexpr_exp` has wrong coefficients for orders from 21 and divides by zero from 66 (C54).
23. `random.h`: weights of `piecewise_constant_distribution(list, f)` are wrong, an empty list is undefined behaviour, the list constructor takes numbers in any unit (C52).
24. Shipped units: `si::hectolitre` (1/100), `fps::nautical_mile` (2000 yards), `fps::nautical_mile_per_hour`, `fps::knot`, `fps::pound_force_per_inch_sq` and `fps::kilopound_force_per_inch_sq` (20736 times too small), `fps::cubic_yard` (C21, C57).
25. Rounded: the pound-force family (relative 1.4·10⁻⁸) and the dalton (C57).
26. `si2019::reduced_planck_constant` is 10¹⁵ times too large (C63).
27. `isq/si/radioactivity.h` does not compile without `UNITS_NO_ALIASES`; `isq/dimensions/momentum.h` and `isq/si/momentum.h` are not self-contained (C59).
28. Downcast collisions between `international` and `fps` lengths, radioactivity and frequency, energy density and pressure; no shipped header includes both (C60).
29. `quantity_ratio` fails for `fps::foot_pound_force`, `foot_pound_force_per_second` and `horse_power`, so they cannot be converted to SI units; so do conversions between parsecs and US survey units (C64).
30. The symbol of one unit of the fps system is `lbf ft2`; base dimension symbols `M` and `A` are used twice.
31. `common_quantity` ignores the ratio of the coherent unit when the references differ: square centimetres (`cgs`) plus square feet (`fps`) with integral representations do not compile, and the other order gives a unit sixteen times finer than needed (C65).
32. Because of the shared symbol `M`, mass × storage capacity ÷ storage capacity is not equivalent to mass, and mass × storage capacity is not equivalent to storage capacity × mass (C66).
33. `equivalent` compares units by their ratio to the coherent unit of their own dimension, so `si::length<metre>` and `cgs::length<centimetre>` (and 244 more ordered pairs of shipped types with different units) are reported equivalent (C67).
34. Conversely `international::mile` and `fps::mile` have the same size, but ratios with different powers of ten, so types using them are not reported equivalent (C67; a consequence of C02).
35. Format: a precision taken from an argument wins over a precision written later, although otherwise the last modifier wins; `%.{q}Q` is an error because the `q` of the name is taken for the end of the conversion; of several precisions taken from arguments only the last is checked (C68).
36. Format: the end of a conversion is searched for in the rest of the whole format string, so that a field with a lone `%` swallows text and fields that follow it: `{:%} and {:%Q}` prints one number (C49).
37. `quantity_cast` in `float` computes the conversion factor in `float`: for ratios beyond about 10^±38 it is 0, infinite or a NaN although source and result are representable.  `float` yoctometres become 0 yottametres, and 0 yottametres become NaN yoctometres (`C69_float_range_wrong`, C69).
38. In `float`, 0 yottametres and 0 yoctometres are neither equal nor ordered: the conversion of the first to the common unit gives a NaN (`C70_zero_unequal`, C70).
39. `==` is accepted between signed and unsigned representations and converts the signed number: -1 m equals 4294967295 m of `unsigned` (`C26_mixed_sign_equality_wrong`, C26).  The order is refused.
40. `==` is not transitive across integral and floating point representations (`C70_not_transitive`, C70).
41. Points, kinds and points of kinds with floating point numbers in two systems (SI metres and CGS centimetres) can be subtracted but not compared, not even for equality, while quantities can, and the same points with integers can (`C71_two_systems_rejected`, C71).  The common type takes the dimension of the first argument, so it is not the same in both orders.
42. Without downcasting (`UNITS_DOWNCAST_MODE` 0) an unnamed dimension satisfies the concepts of only nine derived quantities: the class template must take base dimensions only, and in the order of their symbols.  kg·m/s² is not a `Force`, kg/m³ is not a `Density` (mass comes first in the template), no unnamed dimension is an `Energy`, `Power`, `Pressure` … (`C72_unnamed_exactly`, `C72_unnamed_force_never`, C72).  Two assertions about this are commented out in test/unit_test/static/dimensions_concepts_test.cpp:75-83.
43. `+` of a quantity kind keeps its representation, while `+` of the quantity and `-` of the kind promote it (C73).
44. Texts that mean something else (C74): `J ⋅ m³` for joule per cubic metre and `pdl ⋅ ft²` for poundal per square foot (the outer exponent is lost, see 15), `ω` (ASCII `w`) for radian per second, `lbf ft2` for pound-force per square foot (see 30).
45. A unit in a dimension whose coherent unit has a prefix may get a second prefix: 10⁴ m is printed as `Mcm` in `cgs::dim_length`, 10¹² eV as `kGeV` in natural units (C74).
46. The unit of length in natural units has the symbol `GeV⁻¹`, and its square is printed as `GeV⁻¹²` (C74).
47. The two nautical miles, of different sizes, have the same symbol `mi(naut)` (C74).
48. `sqrt` of an integral quantity goes through `double` and may exceed the integral square root: the root of 2⁵² + 2²⁷ = (2²⁶ + 1)² − 1 is given as 2²⁶ + 1 (C75); of a negative integral quantity it is undefined, as the NaN is converted to an integer.
49. A vector of doubles that can be multiplied only by doubles meets `Representation` and the constraints of `quantity_cast`, which the documentation says suffices to convert between units; but every conversion is a hard error, since `cast_traits` asks for products with `std::intmax_t` where the concept asks for products with the common type of `value_type` and `std::intmax_t` (C76).
50. The class `my_rep` in the documentation of custom representations has no common type with `std::intmax_t` (its constructor is explicit) and so is no `Representation`; the test with the same class specialises `std::common_type` (C76).
51. Vectors of small integers are not widened by `quantity_cast`, unlike numbers: 300000 yd in a vector of 32 bit integers that keeps the type of its elements become −155176 m, where the number becomes 274320 m (C76).
52. `measurement` of the example divides by the values: the product of 0 ± e with anything, its quotients and every conversion of units (even metres to kilometres) have NaN as uncertainty, and the result is unequal to itself (`C78_zero`, `C78_zero_cast`, C78).
53. `x * x` and `x - x` of one measurement treat the operands as independent: the uncertainty of x² is √2 |x| σ instead of 2 |x| σ, and that of x − x is √2 σ (`C78_same_object`, C78).
54. `++q` of a quantity with a double of at least 2⁵³ (16777216 for `float`) leaves it unchanged (`C75_increment_absorbed`, C75); a consequence of rounding.
55. `state_update` for three variables in `kalman.h` computes `interval * interval / 2`, which truncates when the interval is an integer: 5 s give 12 s² instead of 12.5 s², and 1 s gives 0 s² and an infinite acceleration; `state_extrapolation` halves after the multiplication and is not affected (`C79_integral_interval`, C79).  The shipped example with three variables uses `double`.
56. The glide computer sets the altitude after a glide to the height for safety above the ground at the place where the glide began (`terrain_level_alt(t, pos)` with the old position, `glide_computer.cpp:116`), and `glide_distance` follows the straight line to the finish instead of the ground of the leg: on sloping ground, as in the shipped task, the glider is not at that height, and may be below the ground (`C80_glide_partial`, `C80_underground`, C80).
57. `estimate` does not end when the cloud base is not above the height for safety (`C80_endless`), reads `legs[size]` when the first glide passes the finish (`C80_overshoot`), and lets a glider that needs no height circle down in negative time, since the loop is a `do … while` (`C80_descends`, C80).
58. A `task` of fewer than two waypoints calls `back()` on an empty vector (`C80_waypoints`, C80).  Also, by reading: a copied `task` keeps pointers to the waypoints of the original (`leg::begin_`, not modelled).
59. `spherical_distance` in doubles, with the law of cosines, does not limit the argument of `acos` to 1: the distance from a place on latitude 8 (also 12 and 82, not proved) to itself is NaN, as is the length of a leg between equal waypoints (`C81_nan`, C81).
60. Coordinates of value 0 are printed `S-0` and `W-0` (`C81_zero_sign`, C81).  Also, by reading: the members of `std::numeric_limits<latitude>` and `<longitude>` are private, since the specialisations are declared `class`, and nothing checks the range of a coordinate; `acos` is used without a using declaration.
61. `const point_origin<D>` satisfies the concept `PointOrigin`, which excludes `point_origin<D>` by `std::same_as` without removing qualifiers (`C82_const_origin`, C82).
62. A class that derives from a unit and a dimension satisfies both concepts; one that derives from two units is no unit, although the documentation of `Unit` says that the concept is satisfied by all types derived from a scaled unit (`C82_two_bases`, C82).
63. `QuantityPointLike` asks for a member `dimension` of `quantity_point_like_traits`, while the documentation (customization_points.h, interoperability.rst) and all uses have `origin` instead: types with the documented traits are rejected.  Time points are accepted only because chrono.h specializes `detail::is_quantity_point_like` by hand (`C83_documented_point`, `C83_chrono`, C83).
64. `QuantityLike` accepts a unit of another dimension and a `number` that would have to be narrowed; nothing can be constructed from such a type (`C83_like_useless`, C83).
65. `fixed_int_si_avg_speed` of the example takes literals in `std::int64_t` kilometres as `int` metres; the converting constructor checks only the ratio, so that 4294968 km become 704 m and the speed 0 (`C84_avg_int_narrowed`, C84).
66. `std::common_type` of two equivalent kinds, and their sum, is a hard error if the first kind has an unknown dimension and the second one a dimension with a coherent unit of its own, since the unit of the result belongs to the second dimension and the kind to the first; in the other order, and for quantities and points in both orders, it is accepted (`C85_unknown_left_rejected`, C85).  With downcasting switched off every product has an unknown dimension.
67. `begin()` and `end()` of a string that is not `const` do not compile: they return `CharT*` from `data()`, which only has a `const` overload (`C86_iteration_constant`, C86).
68. The empty string equals every character: `basic_fixed_string("") == 'x'` converts the character to a string of size zero, which overwrites the terminator and compares no character; printing such a string reads beyond its array (`C86_empty_equals_char`, `C86_char_empty`, C86).
69. Output of a string stops at its first zero, though comparison and concatenation see what follows; an array without a terminator loses its last character (`C86_stream_cut`, `C86_array_unterminated`, C86).
70. Adding a character to a symbol text of a wider character type goes through `char`: `u'Ł'` becomes `A` in both versions without a diagnostic (`C86_wide_char_changed`, C86).
71. The conversion of a quantity of vectors can differ from that of its elements: `quantity_cast` scales a number in at least `intmax_t`, but converts a vector to the common type of the elements first.  From a vector of `int` with −100 cm to a vector of `unsigned` in metres gives 42949671, the quantity of −100 cm alone gives 4294967295, which is −1 (`C87_fits`, C87).
72. `pow<1, 3>(q)` of an integral quantity is not `cbrt(q)`: the exponent is the `double` below one third, so that with a correctly rounded `std::pow` the power of 8^k is 2^k − 1 for every k from 2 to 20: 64 km³ give 3 km (`C89_third_power_of_cube`, C89).
73. `pow<2>(q)` of an integral quantity is not `q * q`: the number goes through `double`, so that no odd power above 2^53 is ever returned, whatever `std::pow` computes; `pow<1>` of the largest 64-bit number is undefined behaviour, as the rounded number does not fit; negative powers of integers are zero (`C89_pow_int_loses`, `C89_first_power_undefined`, `C89_pow_negative_int`, C89).
74. The Kalman filter of the examples ignores all measurements after the first one if the initial variance is 2^56 times the measurement variance or more and there is no process noise: `1 - k` is exactly zero, so is the variance and then the gain, for ever (`C90_collapse`, `C90_frozen`, C90).
75. An estimate can lie outside the range of the state and the measurement: a state of 1, a measurement of −3·2^−54 and the gain 1 give −2^−52, as `s + k (m - s)` is rounded three times (`C90_overshoot`, C90).
76. Comparisons convert to the common representation without promotion, so the conversion to the common unit can wrap around: in `std::uint8_t`, 1 km equals 232 m and is less than 233 m; in `std::int8_t`, 1 km is less than 0 m; in `std::uint64_t`, 18446744073709552 km are less than 1000 m (`C91_comparisons_wrap`, C91).
77. A cast between `std::uint64_t` representations can be wrong although the result fits: 3689348814741911 m become 26 inches instead of 145249953336295708, because the product is reduced modulo 2^64 before the division; with a divisor that is a multiple of 2^64 it divides by zero (`C91_cast_wraps_though_fits`, C91).
78. `clcpp_response.cpp` in the version with references declares `constexpr auto meter = 1 * m`, an `int`: it prints 0 for nine of the eighteen conversions and 1410065408 ångström for a metre (10^10 modulo 2^32); the versions with literals and aliases use `double` (`C92_response_int`, C92).
79. `unknown_dimension.cpp` prints 360 m with references and literals, and 369 m with aliases (`C92_unknown_dimension_versions`, C92): `123 * m`, `123_q_m` and `m<>(123)` differ in representation, and integer quotients are truncated.
80. `foot_pound_second.cpp` gives the power of the first ship as 110.45 kW instead of MW (148 hp are printed, `C92_power`), and prints 33 knots as 60.35 km/h instead of 61.12 because of finding 24 (`C92_knots`, C92).
81. `hello_units.cpp` with 3125 miles in 11 hours: the speed is exactly 127 m/s, the conversion gives 126.99999999999999 m/s and `quantity_cast<int>` 126 m/s (`C93_truncated_wrong`, C93).
82. `total_energy` squares before it adds: with a momentum of 2^600 GeV and no mass the energy is infinite, with 2^-600 GeV it is zero, although both energies are numbers of the type (`C96_squares_wrong`, C96).
83. The choice of the unit in the capacitor program compares without an absolute value: -5 V is printed as -5000000000000 pV (`C97_negative_wrong`, C97).
84. The box of the box program with 100 kg of water is full, and the program finds less than 100 %, 2^-56 m³ of spare volume and a time left of 25/2^49 s (`C98_full_wrong`, C98): the level is computed from a quotient of weights and is below the height.
85. The uncertainty of a product is computed from relative uncertainties: for 2^-600 ± 2^600 the quotient overflows, and multiplication by one makes the uncertainty infinite (`C99_range_wrong`, C99).
86. Sums of products of quantities lose everything where terms cancel, and depend on the order of the elements: (2^53, 1, -2^53) m times (1, 1, 1) m is 0 m² instead of 1 m² (`C100_cancellation_wrong`, C100).
87. The average speed of the program for 220 km in two hours is 110 km/h with the functions that keep the units, and 110 + 2^-46 km/h with the one that takes metres and seconds (`C101_agree_wrong`, C101).
88. The conversion factors between miles per hour and kilometres per hour, as `double`, do not multiply to one (`C101_inverse_wrong`, C101).
89. As `int`, a speed that is a whole number of metres per second comes out one too small: 3125 miles in 11 hours are 127 m/s, and `example/hello_units.cpp` gives 126 (`C102_whole_wrong`, C102).
90. The metric column of `example/references/foot_pound_second.cpp` does not show what was given: the shells of `800 * kg` are printed with 800 + 2^-43 kg (`C103_column_wrong`, C103).
91. In `example/aliases/unknown_dimension.cpp`, the distance covered in the time the speed was measured with need not be the given one: for one metre in 49 s it is 1 - 2^-53 m (`C104_distance_wrong`, C104).

## Per property: what is modelled and how it is proved

* **C01** Ratio construction preserves the value and normalises (*proved*) — `Ratio.lean, RatioLemmas.lean`: constructor as normalisation over checked 64-bit integers; value in ℚ, coprimality, no factor ten; the loops are recursions on |num|.  Result: construction exact, normal form, acceptance characterised up to INTMAX_MIN and exponents within 40 of the limits.  Theorems: `C01_construction_exact`, `C01_construction_acceptance`, `C01_construction_idempotent`.
* **C02** Ratio equality decides equality of value (*partial*) — `Ratio.lean`: counterexample plus the two classes of ratios where equality is canonical.  Result: the unchanged code violates the claim (5e-1 vs 1/2, C02_equality_not_canonical); proved for equal exponents and for parts coprime to ten.  Theorems: `C02_equality_not_canonical`, `C02_equality_same_exponent_partial`, `C02_equality_coprime_to_ten_partial`.
* **C03** Ratio multiplication, division and inversion are exact or rejected (*proved*) — `Ratio.lean, RatioLemmas.lean`: functional model in the error monad, homomorphism to ℚ.  Result: also shows that associativity holds for values but not representations.  Theorems: `C03_mul_exact`, `C03_div_exact`, `C03_inverse_exact`, `C03_mul_comm`, `C03_mul_one`, `C03_div_self`, `C03_mul_accepts`, `C03_mul_assoc_representation_fails`, `C03_mul_assoc_value`.
* **C04** Overflow-checked multiplication accepts exactly the representable products (*proved*) — `RatioMaths.lean`: exact characterisation (iff) of acceptance.    Theorems: `C04_guard_exact`.
* **C05** Integrality test is exact for arbitrarily large exponents (*proved*) — `RatioMaths.lean`: is_integral ⇔ den ∣ num·10^exp, from exactness of mulmod/modpow under wrap-around.    Theorems: `C05_isIntegral_exact`.
* **C06** Modular helper arithmetic never produces a wrong residue (*proved*) — `RatioMaths.lean`: loop invariants modulo m in ℕ with explicit 2^64 wrap-around.  Result: modpow(a,0,1) returns the unreduced residue 1; stated in the theorem.  Theorems: `C06_mulmod_exact`, `C06_modpow_exact`, `C06_gcdpow_exact`.
* **C07** The common unit of two units divides both and is the coarsest such unit (*proved*) — `CommonRatio.lean`: gcd of fractions; “divides” stated through integers in ℚ.  Result: acceptance at the border depends on operand order (C07_common_acceptance_asymmetric).  Theorems: `C07_common_exact`, `C07_common_symmetric`, `C07_common_accepts`, `C07_common_acceptance_asymmetric`.
* **C08** Ratio powers are exact (*proved*) — `Root.lean`: pow_impl by strong induction on N.    Theorems: `C08_pow_exact`.
* **C09** Ratio roots are exact for ratios that have an exact root (*partial*) — `Root.lean, LogApprox.lean, ExpApprox.lean, Rounding.lean`: the floating estimate is an arbitrary function; for the compile-time estimate the hypothesis is discharged with IEEE rounding.  Result: the unchanged code violates the claim (sqrt of 5/2*10 is 7, C09_sqrt_of_25); proved when alignment leaves coprime parts; for the compile-time estimate with IEEE doubles the estimate hypothesis is discharged (C09_compile_exact_partial).  Theorems: `C09_compile_exact_partial`, `C09_compile_sqrt_of_25`, `C09_sqrt_of_25`, `C09_root_exact_partial`, `C09_root_exact_aligned_partial`, `C09_pow_rational_partial`.
* **C10** Integer root returns the floor of the real root (*partial*) — `Root.lean, LogApprox.lean, ExpApprox.lean, Rounding.lean`: correction step around an arbitrary estimate; counterexamples.  Result: the unchanged code violates the claim (overflow at the top of the range; estimate one too low on non-powers); proved for good estimates without overflow and for all perfect powers; the compile-time estimate is analysed with IEEE rounding: exact on perfect powers, floor for N*v <= 3e12, floor or one less everywhere, with concrete wrong results (C10_compile_underestimate).  Theorems: `C10_compile_perfect_power_exact`, `C10_compile_perfect_power`, `C10_compile_floor_partial`, `C10_compile_underestimate`, `C10_compile_near_partial`, `C10_runtime_perfect_power`, `C10_runtime_floor_partial`, `C10_iroot_floor_partial`, `C10_iroot_overflow`, `C10_iroot_underestimate`, `C10_iroot_perfect_power_partial`.
* **C11** Type list sort is a permutation and is sorted (*proved*) — `TypeList.lean`: merge sort as written; permutation and sortedness for every strict weak order.  Result: any strict weak order, any length.  Theorems: `C11_sort_permutation`, `C11_sort_ordered`, `C11_sort_canonical`, `C11_merge_ordered`.
* **C12** Type list split, push and join are correct (*proved*) — `TypeList.lean`: List.take / List.drop characterisation.    Theorems: `C12_split`, `C12_split_half`, `C12_push`, `C12_join`.
* **C13** A derived dimension is determined by its exponents, not by how the recipe is written (*partial*) — `Dim.lean, DimLemmas.lean`: unpack → sort → consolidate; exponent function to ℚ; uniqueness of normal forms.  Result: the unchanged code violates the claim where a nested exponent product is a multiple of ten (C13_nested_power_of_ten_lost) and for single unnormalised exponents (C13_single_exponent_kept); proved without restriction for the sums of recipes of base dimensions, and for exact nested recipes over separated base dimensions.  Theorems: `C13_exponents_sum_partial`, `C13_base_recipe_sum`, `C13_canonical_partial`, `C13_recipe_independent_partial`, `C13_nested_power_of_ten_lost`, `C13_single_exponent_kept`.
* **C14** Multiplication and division of dimensions add and subtract exponents (*partial*) — `Dim.lean, DimLemmas.lean`: the exponent function is additive; group laws on normal forms.  Result: exponents of products and quotients proved without restriction; commutativity, associativity, self-division and neutrality for dimensions in normal form whose base dimensions differ in symbol (else C16_order_dependent); dimensions that alias a base dimension are not neutral (C14_alias_of_base_not_neutral).  Theorems: `C14_multiply_exponents`, `C14_divide_exponents`, `C14_results_normal_partial`, `C14_multiply_comm_partial`, `C14_multiply_assoc_partial`, `C14_divide_self_partial`, `C14_one_neutral_partial`, `C14_alias_of_base_not_neutral`.
* **C15** Raising a quantity to a power multiplies every dimension exponent (*partial*) — `Dim.lean, DimLemmas.lean`: counterexample (pow<10>) and the statement without multiples of ten.  Result: the unchanged code violates the claim for exponents reaching a multiple of ten (C15_pow_ten_lost); proved otherwise, and without restriction for base dimensions.  Theorems: `C15_pow_exponents_partial`, `C15_pow_base`, `C15_pow_succ_partial`, `C15_pow_root_partial`, `C15_pow_ten_lost`, `C15_pow_fraction_not_reduced`.
* **C16** Dimensions with the same identifier but different base units stay apart in products (*partial*) — `Dim.lean`: additivity for any order; counterexample from the self comparison in base_dimension_less.  Result: exponents proved; order independence is violated by the unchanged code (C16_order_dependent).  Theorems: `C16_exponents`, `C16_order_dependent`.
* **C17** Equivalence of dimensions is an equivalence relation (*partial*) — `Equivalent.lean`: relation laws; counterexample to transitivity on quantities.  Result: reflexivity and symmetry proved for dimensions and quantities; transitivity proved for dimensions; the unchanged code violates transitivity for units of unrelated dimensions, with a witness.  Theorems: `C17_reflexive`, `C17_symmetric`, `C17_transitive`, `C17_same_exponents`, `C17_complete`, `C17_units_not_transitive`.
* **C18** Downcasting finds the registered child and only that one (*proved*) — `Downcast.lean`: state of friend definitions; induction on histories.    Theorems: `C18_downcast_on`, `C18_duplicates_rejected`, `C18_other_definitions_irrelevant`, `C18_downcast_automatic`, `C18_downcast_off`.
* **C19** Scaled and prefixed units have the size their definition says (*proved*) — `Unit.lean`: inductive type of unit definitions, size by recursion.    Theorems: `C19_chain_size`, `C19_prefix_family`.
* **C20** Unnamed derived units are the product of powers of their component units (*partial*) — `Size.lean`: derived_ratio; counterexample and the statement for unit ratio one.  Result: the unchanged code violates the claim where the unit of a component dimension has a ratio other than one; proved otherwise.  Theorems: `C20_derived_unit_size_partial`, `C20_prefixed_base_unit_power_wrong`, `C20_fraction_ignored`.
* **C21** A prefixed alias is the prefix times the aliased unit (*partial*) — `Systems*.lean`: all declarations of src/systems as data, interpreted by a model of the compiler; whole-table check in the kernel.  Result: proved for all units, prefixes and pairs of names of the shipped headers except the hectolitre, for which the unchanged code violates the claim (C21_hectolitre_wrong).  Theorems: `C21_prefixed_units_partial`, `C21_hectolitre_wrong`.
* **C22** Implicit conversion loses no information (*partial*) — `Size.lean, Num.lean, Quantity.lean, QuantityLemmas.lean`: amount of a quantity in ℝ from physical sizes of units; integral types with wrap-around.  Result: exact for integral and exact floating types when the dimensions agree on unit sizes; the unchanged code violates the claim for narrowing integral conversions (C22_narrowing_wraps) and for unknown dimensions of two systems (C22_unknown_dimensions_wrong).  Theorems: `C22_implicit_conversion_exact_partial`, `C22_implicit_conversion_float_partial`, `C22_narrowing_wraps`, `C22_unknown_dimensions_wrong`.
* **C23** Integral quantity_cast truncates toward zero exactly once (*partial*) — `Quantity.lean, QuantityLemmas.lean`: cast = truncated division of the exact numerator.  Result: proved where the dimensions agree on unit sizes (Coherent); unsigned intermediate results must not wrap; C91 says what a cast gives when they wrap.  Theorems: `C23_truncates_once_partial`, `C23_truncates_once_float_partial`.
* **C24** Cast to a finer unit and back is the identity (*partial*) — `Quantity.lean`: corollaries of C23.  Result: proved under the same conditions as C23.  Theorems: `C24_finer_and_back_partial`, `C24_coarser_and_back_partial`.
* **C25** Addition and subtraction across units are exact (*partial*) — `Quantity.lean`: amount homomorphism through the common quantity.  Result: exactness, commutativity and associativity proved where the dimensions agree on unit sizes and nothing overflows; C91 has the sums of unsigned types without the condition of overflow.  Theorems: `C25_add_exact_partial`, `C25_sub_exact_partial`, `C25_add_comm_partial`, `C25_add_assoc_partial`.
* **C26** Comparison across units is the comparison of physical amounts (*partial*) — `Quantity.lean`: order isomorphism to amounts.  Result: proved where the dimensions agree on unit sizes; the unchanged code violates the claim for unknown dimensions of two systems (C26_unknown_dimensions_wrong); between signed and unsigned integral types there is no order (C26_mixed_sign), but equality is accepted and wrong (C26_mixed_sign_equality_wrong); C91 says what comparisons answer when the conversion to the common type wraps around.  Theorems: `C26_compare_partial`, `C26_eq_partial`, `C26_total_order_partial`, `C26_order_exists`, `C26_mixed_sign`, `C26_mixed_sign_equality_wrong`, `C26_unknown_dimensions_wrong`.
* **C27** Multiplication and division of quantities are physically exact (*proved*) — `Quantity.lean`: multiplicativity of base_units_ratio.  Result: physically exact for all accepted operands; unsigned results must not wrap.  Theorems: `C27_product_exact`, `C27_quotient_exact`.
* **C28** Number divided by a quantity is the reciprocal amount (*partial*) — `Quantity.lean`: counterexample and the statement for unit ratio one.  Result: the unchanged code ignores the ratio of the dimension's unit (C28_unit_ratio_ignored); proved where that ratio is one.  Theorems: `C28_reciprocal_partial`, `C28_times_back_partial`, `C28_unit_ratio_ignored`.
* **C29** Quotient and remainder are consistent (*partial*) — `Quantity.lean`: tdiv/tmod law; counterexamples for different units.  Result: proved for the same unit; the unchanged code violates the bound when the units differ (C29_units_not_converted, C29_percent_not_converted).  Theorems: `C29_remainder_smaller_partial`, `C29_units_not_converted`, `C29_percent_not_converted`, `C29_quotient_remainder_partial`.
* **C30** Compound assignment agrees with the binary operator (*partial*) — `Quantity.lean`: each compound operator against the binary one.  Result: proved; the unchanged code violates the claim for % of quantities in different units (C30_remainder_disagrees).  Theorems: `C30_add_sub_exact_partial`, `C30_agrees_with_binary_partial`, `C30_mod_exact_partial`, `C30_remainder_disagrees`, `C30_number_agrees`, `C30_number_exact`, `C30_dimensionless`, `C30_increment`, `C30_negate`.
* **C31** The common quantity type does not depend on operand order (*partial*) — `Size.lean`: common_quantity symmetric up to size; coarsest.  Result: proved where the dimensions agree on unit sizes; the unchanged code ignores coherent ratios otherwise, with a witness.  Theorems: `C31_operands_convert_partial`, `C31_common_unit_exact_partial`, `C31_common_unit_symmetric_partial`, `C31_coherent_ratio_ignored`.
* **C32** Conversions between systems of units are consistent (*partial*) — `Size.lean`: cocycle law for cast_ratio through physical sizes.  Result: proved where the dimensions agree on unit sizes; the unchanged code violates the claim for unknown dimensions of two systems.  Theorems: `C32_values_compose_partial`, `C32_cast_ratio_is_size_quotient_partial`, `C32_base_dimensions`, `C32_conversions_compose_partial`, `C32_unknown_dimensions_wrong`.
* **C33** Floating point conversion error is bounded (*partial*) — `Num.lean`: arbitrary rounding function with the standard model |fl x − x| ≤ u|x|.  Result: standard rounding model, without overflow and underflow (C69 has them); the sizes of the dimensions must agree (Coherent).  Theorems: `C33_error_bounded_partial`, `C33_relative_error_partial`, `C33_truncated_once_partial`, `C33_exact_partial`.
* **C34** Power and root of quantities are physically exact (*partial*) — `Math.lean`: pow/sqrt/cbrt on amounts; counterexample.  Result: exact <cmath> assumed; the unchanged code ignores the ratio of the coherent unit, so powers and roots of kilograms are wrong (C34_pow_ignores_unit).  Theorems: `C34_pow_zero`, `C34_pow_rational_partial`, `C34_pow_exact_partial`, `C34_sqrt_exact_partial`, `C34_cbrt_exact_partial`, `C34_sqrt_of_square_partial`, `C34_pow_ignores_unit`.
* **C35** abs, exp and epsilon operate on the right unit (*partial*) — `Math.lean`: abs, exp, epsilon, floor etc. on amounts.  Result: proved where the absolute value is representable; abs of -128 in a signed byte is -128 (C35_abs_wraps); exp with exact floating point.  Theorems: `C35_abs_exact`, `C35_abs_wraps`, `C35_abs_unsigned_rejected`, `C35_exp_exact`, `C35_exp_rejected`, `C35_epsilon`.
* **C36** Dimensionless quantities interoperate with plain numbers only in unit one (*partial*) — `Quantity.lean`: friend operators with Value.  Result: proved; comparison converts the number to the representation of the quantity first, which narrows (C36_comparison_narrows); so does the remainder with a number on the left (C36_remainder_narrows).  Theorems: `C36_implicit_number`, `C36_sum_exact`, `C36_sum_left_exact`, `C36_comparison_exact_partial`, `C36_comparison_narrows`, `C36_remainder_partial`, `C36_remainder_narrows`.
* **C37** Quantity points form an affine space over quantities (*partial*) — `Point.lean`: affine laws on positions.  Result: proved where the dimensions agree on unit sizes and the types hold the results; accepted only for equivalent origins (C37_origins_checked).  Theorems: `C37_translate_partial`, `C37_add_sub_partial`, `C37_sub_add_partial`, `C37_assoc_partial`, `C37_compare_partial`, `C37_order_translation_partial`, `C37_convert_partial`, `C37_origins_checked`, `C37_equivalent_origins`, `C37_assign_partial`, `C37_increment`.
* **C38** Point casts preserve the origin and the position (*partial*) — `Point.lean`: casts of points against casts of quantities.  Result: the position is that of quantity_cast; the unchanged code turns every static origin into a dynamic one (C38_static_origin_lost).  Theorems: `C38_quantity_cast_spec_partial`, `C38_position_partial`, `C38_origin_partial`, `C38_static_origin_lost`.
* **C39** Quantity kinds behave like their underlying quantities and never mix (*partial*) — `Kind.lean`: kinds as wrappers: refinement to quantities, rejection of mixed kinds.  Result: sums proved exact where the dimensions agree on unit sizes and the types hold the results; products, scaling, remainders and assignments equal those of the underlying quantities.  Theorems: `C39_add_sub_partial`, `C39_add_sub_same_dimension`, `C39_unrelated_rejected`, `C39_products`, `C39_product_amount`, `C39_scaling`, `C39_remainder`, `C39_compare_partial`, `C39_convert_partial`, `C39_assign_partial`, `C39_assign_underlying`.
* **C40** Quantity point kinds form an affine space over quantity kinds (*partial*) — `Kind.lean`: affine laws for point kinds.  Result: proved for dynamic origins; with any other origin the unchanged code rejects (p + q) - p (C40_static_origin_rejected).  Theorems: `C40_translate_partial`, `C40_add_sub_partial`, `C40_static_origin_rejected`, `C40_mixing_rejected`, `C40_compare_partial`, `C40_sub_add_partial`, `C40_assoc_partial`, `C40_order_translation_partial`, `C40_convert_partial`, `C40_assign_partial`.
* **C41** Kind casts change what they are asked to change only (*partial*) — `Kind.lean`: each cast against the parts it must keep.  Result: proved; the unchanged code loses static origins of point kinds in casts to units, representations and kinds (C41_static_origin_lost).  Theorems: `C41_kind_cast_partial`, `C41_point_kind_cast_partial`, `C41_point_origin_partial`, `C41_static_origin_lost`.
* **C42** References build the same quantity as the explicit constructor (*proved*) — `Reference.lean`: reference algebra against the explicit constructor.  Result: products commute as types for dimensions in normal form (C42_comm_partial is an extra).  Theorems: `C42_number_times_reference`, `C42_product`, `C42_quotient`, `C42_mul_div_cancel`, `C42_quantities`, `C42_comm_partial`, `C42_equal_references`.
* **C43** std::chrono durations and time points convert without change of amount (*proved*) — `Reference.lean`: period ratio; conversions both ways.  Result: every positive period is accepted; conversions to a given type are exact when the type holds the amount.  Theorems: `C43_duration`, `C43_duration_convert`, `C43_time_point`, `C43_time_point_convert`.
* **C44** Unit symbol powers are printed so that distinct exponents look different (*partial*) — `Text.lean`: injectivity of exponent text; counterexample.  Result: proved for integral exponents, and for all exponents when at most one is negative, for single exponents and whole symbols; the unchanged code drops the sign of roots otherwise (C44_sign_of_root_lost).  Theorems: `C44_exponent_partial`, `C44_sign_of_root_lost`, `C44_symbol_partial`.
* **C45** Superscript and regular integers denote the number (*partial*) — `Text.lean`: digits by induction, parse ∘ print = id.  Result: superscripts and non-negative numbers proved; the unchanged code prints negative numbers with superscript digits in the standard text (C45_regular_negative) and rejects the least integer.  Theorems: `C45_superscript`, `C45_regular_partial`, `C45_regular_negative`, `C45_least_rejected`.
* **C46** Scale factor text is faithful (*proved*) — `Text.lean`: ratio text parsed back.  Result: for all positive ratios with a printable power of ten, and for whole unit texts.  Theorems: `C46_ratio_text`, `C46_unit_text`.
* **C47** Prefix lookup prints the right prefix (*partial*) — `Text.lean`: lookup in the prefix registry.  Result: proved for equal ratios, and by value for powers of ten; a binary ratio in another normal form is not recognised by the unchanged code (C47_binary_prefix_missed).  Theorems: `C47_prefix`, `C47_shipped_prefixes`, `C47_decimal_prefix`, `C47_binary_prefix_missed`, `C47_unit`.
* **C48** Fixed strings are totally ordered and concatenate (*proved*) — `FixedString.lean`: lexicographic total order, monoid.  Result: fixed strings and symbol texts, all lengths and characters.  Theorems: `C48_concat`, `C48_eq`, `C48_concat_assoc`, `C48_compare`, `C48_total_order`, `C48_symbol_text`, `C48_symbol_compare`.
* **C49** Format strings outside the grammar are rejected (*partial*) — `Format.lean`: parser on character lists against an inductive grammar.  Result: exactly which texts are accepted is proved (C49_accepted_exactly), and that everything else ends with an exception; every specification of the documented grammar is accepted unless an argument name contains q; the unchanged code also accepts texts outside the grammar (C49_outside_accepted) and texts that span several fields (C49_field_boundary_ignored).  Theorems: `C49_accepted_exactly`, `C49_parse_total`, `C49_format_total`, `C49_documented_accepted_partial`, `C49_field_boundary_ignored`, `C49_grammar_accepted_partial`, `C49_outside_accepted`, `C49_unfinished_rejected`, `C49_integral_precision_rejected`, `C49_type_rejected`.
* **C50** Formatting output is made of the requested parts (*partial*) — `Format.lean`: output as a fold over parsed items against the grammar’s meaning.  Result: the output of every accepted text is proved (C50_output_accepted); it is the one asked for when all %Q share one modifier and all %q share one flag; otherwise the unchanged code uses the last modifier for all (C50_modifiers_shared); fmt itself is a parameter.  Theorems: `C50_output_accepted`, `C50_output_partial`, `C50_modifiers_shared`, `C50_number_spec`.
* **C51** Stream output is the number, a space and the symbol, padded as a whole (*partial*) — `Format.lean`: stream state, number writer as a parameter.  Result: proved without a width; with a width when the number has the same text in a new stream, since the unchanged code ignores precision, flags and locale of the stream (C51_precision_ignored).  Theorems: `C51_no_width`, `C51_width_partial`, `C51_precision_ignored`.
* **C52** Random distributions of quantities are the distributions of the numbers (*partial*) — `Random.lean`: wrappers parametric in an abstract distribution and engine.  Result: proved for all sixteen classes with numeric parameters, engines, states and numbers of draws; the unchanged code violates the claim for piecewise_constant_distribution from a list and a non-affine function (C52_pwc_weights_wrong), for an empty list (C52_pwc_empty), and takes the numbers of intervals in another unit (C52_intervals_other_unit).  Theorems: `C52_draws`, `C52_constructed`, `C52_params`, `C52_limits`, `C52_intervals`, `C52_intervals_other_unit`, `C52_weights`, `C52_pwc_weights_partial`, `C52_pwc_weights_wrong`, `C52_pwc_empty`.
* **C53** Safe integer comparison helpers compare mathematically (*proved*) — `Hacks.lean`: integer types as width × signedness.  Result: std::cmp_equal/cmp_less and their derived comparisons and in_range, as written in bits/hacks for standard libraries without them: they decide the mathematical comparison of the two values for every pair of integer types.  Theorems: `C53_cmp_equal`, `C53_cmp_less`, `C53_cmp_others`, `C53_in_range`.
* **C54** Compile-time log/exp/pow approximate the real functions (*proved*) — `ConstexprMath.lean, LogTable.lean, LogApprox.lean, ExpApprox.lean, Rounding.lean`: error analysis in ℝ, exact and with IEEE rounding.  Result: log: every positive argument, exact arithmetic and IEEE double rounding; exp: every argument, order up to 20, exact, and order 12/factor 64 with double rounding; pow: exact for all arguments as the composition, and a closed bound for |a log v| <= 22, exact and double. Orders from 21 on have wrong coefficients and from 66 on divide by zero (C54_exp_wraps, C54_exp_order_66).  Theorems: `C54_log_exact`, `C54_log_double`, `C54_exp_exact`, `C54_exp_12_64`, `C54_exp_wraps`, `C54_exp_order_66`, `C54_pow_all`, `C54_pow_exact`, `C54_pow_double`.
* **C55** Static quantity values and unary plus (*proved*) — `Quantity.lean`: limits of the representation types.  Result: min and max are the least and the greatest value of the representation, also for the binary floating-point formats.  Theorems: `C55_zero_one`, `C55_min_max`, `C55_min_max_floating`, `C55_unary_plus`.
* **C56** The symbol of an unnamed coherent unit denotes it (*partial*) — `Text.lean`: recipes nested to any depth, by induction.  Result: proved when dimensions with unnamed units occur with exponent one in recipes; otherwise the unchanged code prints a wrong symbol (C56_energy_density_wrong).  Theorems: `C56_unnamed_unit_text_partial`, `C56_energy_density_wrong`.
* **C57** Every shipped unit has the size its name means (*partial*) — `Systems*.lean, Standards.lean`: all declarations of src/systems as data (SystemsData.lean), interpreted by `load`/`declare` (Systems.lean); tables computed once (SystemsTable.lean) and proved equal to what the interpretation yields (SystemsLoad.lean); whole-table checks in the kernel (SystemsChecked.lean) with soundness proofs.  Result: proved for all shipped units and dimensions; the unchanged code violates the claim for the seven units in `misdefined` (C57_misdefined_units, with the factor), eight units in `rounded` are off by less than 2e-8 relative.  Theorems: `C57_units_mean_their_names_partial`, `C57_exact_units`, `C57_misdefined_units`.
* **C58** Every shipped dimension is that of its quantity (*proved*) — `Systems*.lean, Standards.lean`: as C57.  Result: all shipped dimensions.  Theorems: `C58_dimensions_are_isq`.
* **C59** Shipped headers are self-contained (*partial*) — `Systems*.lean, Standards.lean`: as C57.  Result: proved for all headers except isq/dimensions/momentum.h; the unchanged code violates the claim for it, isq/si/momentum.h (C59_momentum_rejected) and isq/si/radioactivity.h (C59_radioactivity_rejected).  Theorems: `C59_headers_self_contained_partial`, `C59_momentum_rejected`, `C59_radioactivity_rejected`.
* **C60** The downcasting facility maps a type to one definition (*partial*) — `Systems*.lean, Standards.lean`: as C57.  Result: the only collisions are the listed twins, which do collide (C60_unit_twins, C60_dimension_twins), and no shipped header includes both members of a pair.  Theorems: `C60_unit_downcasts_partial`, `C60_dimension_downcasts_partial`, `C60_unit_twins`, `C60_dimension_twins`, `C60_no_header_has_unit_twins`, `C60_no_header_has_dimension_twins`.
* **C61** Literals, references and aliases agree (*proved*) — `Systems*.lean, Standards.lean`: as C57.  Result: all literals, references and aliases of every shipped header.  Theorems: `C61_tags_agree`.
* **C62** Prefixes have their standard value and symbol (*proved*) — `Systems*.lean, Standards.lean`: as C57.  Result: all shipped prefixes, value and both symbols.  Theorems: `C62_prefixes`.
* **C63** Physical constants have their exact values (*partial*) — `Systems*.lean, Standards.lean`: as C57.  Result: proved for all constants but the reduced Planck constant, which is wrong by the factor 10^15 in the unchanged code (C63_reduced_planck_constant_wrong).  Theorems: `C63_constants_partial`, `C63_reduced_planck_constant_wrong`.
* **C64** Converting between shipped units multiplies by the quotient of their sizes (*partial*) — `Systems*.lean, Standards.lean`: as C57.  Result: proved for all pairs for which the ratio is computed and units not listed in C57; the computation fails for some pairs (C64_rejected_conversions).  Theorems: `C64_conversion_factors_partial`, `C64_rejected_conversions`.
* **C65** Quantities of shipped units mean what the names of the units say (*partial*) — `Props/ShippedProps.lean`: the theorems on conversions, casts, comparisons and sums instantiated with every shipped unit and with the reference sizes of `Standards.lean`.  Result: proved for all shipped units but those listed in C57, for results that fit; sums and comparisons of CGS with FPS areas are left out, for which the unchanged code picks a wrong common unit and rejects the sum (C65_cgs_and_fps_areas).  Theorems: `C65_conversion_partial`, `C65_cast_partial`, `C65_compare_partial`, `C65_sum_partial`, `C65_cgs_and_fps_areas`.
* **C66** Arithmetic on shipped dimensions finds the shipped dimension (*partial*) — `Props/DimArithProps.lean`: a registry of the dimensions visible from any set of headers; induction over expressions with C13–C15.  Result: proved for dimensions of one namespace (whose base dimensions have distinct symbols) and powers that lose no power of ten; the unchanged code violates the claim for mass and storage capacity, which share the symbol M (C66_mass_and_storage_capacity).  Theorems: `C66_namespaces_separated`, `C66_arithmetic_partial`, `C66_mass_and_storage_capacity`.
* **C67** Types reported equivalent mean the same (*partial*) — `EquivType.lean, Equivalent.lean`: the specialisations of `equivalent_impl` as a function; sizes of units as in C32; unit identities as a map from type names to ratio and reference, checked row by row for the shipped units.  Result: proved for dimensions whose coherent units have the same size (all shipped dimensions of one namespace) and in the other direction for one dimension but for the two miles; the unchanged code reports metres (SI) and centimetres (CGS) equivalent, and the two shipped miles not equivalent.  Theorems: `C67_reflexive`, `C67_symmetric`, `C67_symmetric_points_and_kinds`, `C67_same_amount_partial`, `C67_same_size_is_equivalent_partial`, `C67_points_and_kinds_partial`, `C67_units`, `C67_shipped_same_amount_partial`, `C67_shipped_partial`, `C67_metre_and_centimetre`, `C67_two_miles`.
* **C68** A width or precision taken from an argument means the number written in its place (*partial*) — `FormatDyn.lean`: the abstract syntax of all accepted texts (`LSpec`) with an iff between it and the parser; output as a function of it; references replaced by numbers in the syntax.  Result: proved for arguments that can be used and precisions that are not partly written; the unchanged code lets a precision from an argument win over one written later (C68_argument_wins), cannot use arguments for precisions whose name contains q (C68_name_with_q) and does not check earlier precisions (C68_earlier_unchecked).  Theorems: `C68_static`, `C68_written_out_partial`, `C68_width_rejected`, `C68_precision_rejected`, `C68_argument_wins`, `C68_name_with_q`, `C68_earlier_unchecked`.
* **C69** Floating point conversions within the limits of the IEEE formats (*partial*) — `Ieee.lean, IeeeLemmas.lean`: binary32, binary64 and the x87 format with infinities, NaNs, signed zeros and denormals; a check over all shipped units bounds the decimal exponents of conversion ratios.  Result: proved where the conversion factor is computed within the range of the type: decimal exponents up to 18 for float, 288 for double, 4912 for long double, hence for every conversion between shipped units in double; the unchanged code violates the claim for float conversions with larger factors (C69_float_range_wrong).  Theorems: `C69_monotone_partial`, `C69_number_partial`, `C69_special_partial`, `C69_truncated_partial`, `C69_amounts_partial`, `C69_shipped_double_partial`, `C69_float_range_wrong`.
* **C70** Sums and comparisons of floating point quantities on the IEEE formats (*partial*) — `IeeeArith.lean`: sums, differences and three-way comparison with infinities and NaNs; every finite or infinite value has an extended key, which rounding maps monotonically.  Result: proved where the dimensions agree on unit sizes and the conversion factors to the common unit are computed within the range of the type (for double: for all shipped units); the unchanged code violates the claim for float with larger factors (C70_zero_unequal), and equality is not transitive across integral and floating point representations (C70_not_transitive).  Theorems: `C70_sum_partial`, `C70_separated_partial`, `C70_consistent_partial`, `C70_nan`, `C70_eq_agrees`, `C70_shipped_sum_partial`, `C70_shipped_compare_partial`, `C70_zero_unequal`, `C70_not_transitive`.
* **C71** Points and kinds that can be subtracted can be compared (*partial*) — `Comparable.lean, Point.lean, Kind.lean`: `std::common_reference_t` over implicit conversions and the specialisations of `std::common_type`.  Result: exactly which pairs of types are comparable is proved; the unchanged code violates the claim for floating point representations in two systems (C71_two_systems_rejected).  Theorems: `C71_symmetric`, `C71_exactly`, `C71_one_dimension`, `C71_floating_rejected`, `C71_two_systems_rejected`, `C71_kinds_exactly`.
* **C72** The dimension concepts mean the quantities they are named after (*partial*) — `DimConcepts.lean`: `DimensionOfT` as a relation over the class templates in `SystemsData.lean`.  Result: the exponents are proved for every dimension that satisfies a concept; the unchanged code violates the converse for unnamed dimensions without downcasting, which satisfy the concepts of exactly nine of the derived quantities (C72_unnamed_exactly, C72_unnamed_force_never).  Theorems: `C72_concept_means_isq`, `C72_one_quantity`, `C72_unnamed_exactly`, `C72_unnamed_force_never`.
* **C73** Constructors and implicit conversions between quantities, points, kinds and point kinds (*partial*) — `Construct.lean`: the constructors of the four templates as one function on values of all templates, numbers, durations and time points; the non-explicit ones as another; exactness by reduction to the conversion of the underlying quantities.  Result: proved; the amount under the side conditions of C22 (Coherent, CastGuard; exact floating arithmetic).  Unary plus of a kind does not promote the representation, unlike that of the quantity and unlike unary minus (C73_unary_plus_differs).  Theorems: `C73_implicit_is_explicit`, `C73_implicit_within`, `C73_within_implicit`, `C73_accepted`, `C73_amount_partial`, `C73_number`, `C73_from_quantity`, `C73_round_trip`, `C73_special`, `C73_unary_plus_differs`.
* **C74** What is printed for a unit means that unit (*partial*) — `Symbols.lean` is the specification: symbols of units and prefixes from the standards, and a reader of printed units (a slash divides by the next factor only, as in the tests of the library).  `Props/SymbolReading.lean`: the reader inverts the texts of `Text.lean` for all exponents and ratios.  `SymbolCheck.lean`: the checks of symbols of shipped units and dimensions, evaluated in the kernel in `SymbolChecked.lean`; lookups by name go through a search tree proved equal to the search in the list of declarations.  `Props/SymbolProps.lean` puts these together for the state after loading all headers.  Result: proved for all ratios and exponents, except that the unchanged code violates the claim for three dimensions (C74_wrong_texts), for two units (C74_wrong_symbols), for units that get two prefixes in five dimensions whose coherent unit has a prefix (C74_double_prefix) and for powers of the units of natural units (C74_natural_area); two units of different size share a symbol (C74_same_symbol).  Theorems: `C74_unit_partial`, `C74_unit_accepts`, `C74_symbol_partial`, `C74_symbol_size_partial`, `C74_unknown`, `C74_wrong_texts`, `C74_double_prefix`, `C74_wrong_symbols`, `C74_natural_area`, `C74_same_symbol`, `C74_product`, `C74_number`.
* **C75** Products, quotients, scaling and roots on the IEEE formats (*partial*) — `IeeeOps.lean`: `*`, `/`, `+=`, `-=`, `*=`, `/=`, `++`, `--`, unary minus, `abs` and `sqrt` with infinities, NaNs, signed zeros and denormals; the square root is correctly rounded by definition (nearest integer to the root of the scaled number) and proved to be the nearest representable number to the real root.  `Props/IeeeOpsProps.lean`: the errors of the conversions and of the operation are combined with the error calculus of C69.  Result: proved; the reciprocal and the root under the conditions of C27 and C34 on coherent units, `+=` and `-=` under those of C70.  Integral roots are proved below 2^52; the unchanged code violates the claim for larger integers, where the root rounded to double exceeds the true one (C75_sqrt_rounds_up); `++` leaves a double of 2^53 unchanged (C75_increment_absorbed).  Theorems: `C75_product`, `C75_quotient`, `C75_scale`, `C75_commutative`, `C75_reciprocal_partial`, `C75_nearest`, `C75_not_associative`, `C75_sqrt_partial`, `C75_sqrt_int_partial`, `C75_sqrt_rounds_up`, `C75_special`, `C75_sqrt_special`, `C75_assign`, `C75_assign_int`, `C75_assign_sum_partial`, `C75_increment`, `C75_increment_absorbed`, `C75_negate`, `C75_abs`, `C75_integral`.
* **C76** Representation types supplied by the user (*partial*) — `Representation.lean`: the concepts and `quantity_cast` as functions of a record of what the compiler knows about types (common types, members, types of products) and of what their operators do; instances are the arithmetic types, a class around a number and vectors over any instance.  `Props/RepresentationProps.lean`: wrapping and floating point by following `value_type`; the instance of the arithmetic types is shown equal to `castNum` of C22–C33, vectors to its elementwise application; the general theorem interprets values in a real vector space.  Result: proved; vectors whose products keep the type of the elements need elements of 64 bits or floating point (C76_vector_narrow), and negative 32 bit elements do not fit an unsigned common type.  The unchanged code violates the promise of the documentation for vectors that are multiplied only by numbers of the type of their elements (C76_gap), and the class given in the documentation is no representation (C76_documented_class).  Theorems: `C76_representation`, `C76_arithmetic`, `C76_class`, `C76_documented_class`, `C76_class_and_numbers`, `C76_vector_partial`, `C76_vector_types`, `C76_gap`, `C76_vector_narrow`, `C76_linear`, `C76_amount`.
* **C77** The operators of quantity for representation types supplied by the user (*partial*) — `RepOps.lean`: construction, implicit conversion, the operators and compound assignments of `quantity` as functions of what the compiler knows about the representations (types of the results, convertibility) and of what their operators do; instances are the arithmetic types and the classes of the two tests of custom representations.  Meaning: `Means` relates values to numbers and vectors of a real vector space; the theorems say what the amounts of the results are (`RepOpsProps.lean`), `exactOps` meets the conditions.  `C77_class` and `C77_arithmetic` compare with the operators on arithmetic types.  `RepStep.lean` adds unary plus, increments and decrements (`RepStepProps.lean`: their meaning, reciprocals, remainders, and what an accepted operator requires).  Result: proved; what the operators mean is proved for units that are related as in C25 (the code takes the wrong scale for unknown dimensions of two systems, C26_unknown_dimensions_wrong), `v / q` for coherent units of reciprocal ratios as in C28, and `%` for units of one size as in C29.  Theorems: `C77_sum_partial`, `C77_difference_partial`, `C77_equality_partial`, `C77_order_partial`, `C77_product`, `C77_quotient`, `C77_scale`, `C77_assign_partial`, `C77_arithmetic`, `C77_class`, `C77_reciprocal_partial`, `C77_remainder_partial`, `C77_remainder_number`, `C77_steps`, `C77_steps_arithmetic`, `C77_needs`.
* **C78** Measurements with uncertainty as a representation (*partial*) — `Measurement.lean`: the class template as functions of an arithmetic (real numbers, or doubles with any `std::hypot`), and as an instance of the operators of `RepOps.lean`, so that C76 and C77 apply to it.  The specification (`FirstOrder`) uses Mathlib's derivative.  Result: propagation is proved over the real numbers and for values other than zero (the derivation divides by the values); for doubles the conversion of units is proved within rounding errors under range conditions.  The unchanged code violates the claim for the value zero: products, quotients and conversions of units of 0 ± e have NaN as uncertainty (C78_zero, C78_zero_cast, C78_zero_witness).  Rounding bounds for the operators on measurements are C99.  Theorems: `C78_first_order`, `C78_laws`, `C78_same_object`, `C78_bounds`, `C78_representation`, `C78_cast`, `C78_cast_value`, `C78_operators`, `C78_zero`, `C78_zero_cast`, `C78_cast_uncertainty_partial`, `C78_nan_unequal`, `C78_order`, `C78_zero_witness`.
* **C79** The Kalman filters of the examples (*partial*) — `Kalman.lean`: the functions of `kalman.h` and the loops of the examples as programs over the modelled operators of quantities and points.  The specification is arithmetic on real numbers: means, precisions, a least variance, a recurrence.  Proved by induction on the list of measurements.  Result: proved with exact floating point operations for the state, for related dimensions as in C26 and, in the extrapolation of three variables, coherent units as in C34.  The unchanged code violates the claim for the update of three variables with an interval of integers, whose half square is truncated (C79_integral_interval).  Theorems: `C79_update_partial`, `C79_gain_partial`, `C79_covariance_partial`, `C79_noise_partial`, `C79_optimal_partial`, `C79_filter_bounds_partial`, `C79_filter_partial`, `C79_average_partial`, `C79_update2_partial`, `C79_extrapolate2_partial`, `C79_track_partial`, `C79_track_uniform_partial`, `C79_update3_partial`, `C79_extrapolate3_partial`, `C79_integral_interval`.
* **C80** The glide computer of the examples (*partial*) — `Glide.lean`: `task`, `terrain_level_alt`, `glide_distance`, `takeoff`, `tow`, `circle`, `glide`, `final_glide` and `estimate` as programs over the modelled operators of quantity kinds and point kinds; the loop has a number of rounds as fuel.  `GlideLemmas.lean` reduces every operator on its types, by the kernel, to an operation on the numbers.  The specification (`Rounds`, `OnLeg`, `GlideTime`, `groundAt`) is arithmetic on rational numbers.  Result: proved with exact arithmetic (the rounding of doubles is not modelled here) and, for the whole estimate, on flat ground.  The unchanged code violates the claim elsewhere: on sloping ground the altitude after a glide is the height for safety above the ground where the glide began, which may be under the ground (C80_glide_partial, C80_underground); with a cloud base not above the height for safety the loop never ends (C80_endless); a tow that passes the finish in the first glide makes the program read a leg past the end (C80_overshoot); a tow that suffices makes the glider circle down in negative time (C80_descends); a task of fewer than two waypoints is undefined (C80_waypoints).  Theorems: `C80_flat_partial`, `C80_safe_partial`, `C80_endless`, `C80_overshoot`, `C80_descends`, `C80_waypoints`, `C80_glide_partial`, `C80_circle_partial`, `C80_underground`.
* **C81** Distances on the globe in the examples (*partial*) — `Geographic.lean`: `spherical_distance` over any arithmetic (`GeoArith`), instantiated with the real numbers and with IEEE doubles and arbitrary functions of `<cmath>`; the specification is Mathlib's angle between unit vectors.  For doubles the functions are only assumed accurate to 0.55 units in the last place (`Accurate`; `rounded` shows that such functions exist); Taylor sums with error bounds determine the doubles the functions return on latitude 8.  Result: the geometry is proved over the real numbers, not with the rounding of doubles.  In doubles the distance from a place on latitude 8 to itself is NaN (C81_nan), for any sine and cosine accurate to 0.55 units in the last place; symmetry in doubles is proved for the law of cosines, the formula doubles use.  The claim on printing fails at zero, which is printed as S-0 and W-0 (C81_zero_sign).  Theorems: `C81_angle`, `C81_formulas`, `C81_metric`, `C81_zero`, `C81_meridian`, `C81_equator`, `C81_antipode`, `C81_symmetric`, `C81_nan`, `C81_print_partial`, `C81_zero_sign`, `C81_literal`.
* **C82** Which classes are units, dimensions, kinds and origins (*partial*) — `Classes.lean`: class hierarchies (the templates of the library, and any classes a program declares: `Program`), base class subobjects, look-up of member types, deduction of a base class from a pointer, and the concepts defined by them.  The specification is inheritance on paths (`Inherits`), not the lists of subobjects of the model.  The arguments of `exponent_list`, symbols and computed ratios are parameters of a class.  `ConformanceClasses.lean` replays the assertions of three tests.  Result: proved for all hierarchies a program can declare.  That point_origin<D> is no origin fails for const point_origin<D>, which satisfies the concept (C82_const_origin).  With two bases a class can be a unit and a dimension, and a class with two units as bases is no unit (C82_two_bases).  Theorems: `C82_derived`, `C82_member`, `C82_kind`, `C82_derived_kind`, `C82_kind_argument`, `C82_base_kind`, `C82_point_kind`, `C82_redeclared`, `C82_unit`, `C82_alias`, `C82_dimension`, `C82_origin_partial`, `C82_const_origin`, `C82_rebind`, `C82_rebind_own`, `C82_prefix`, `C82_exclusive_partial`, `C82_two_bases`.
* **C83** Quantities and points of other libraries (*partial*) — `External.lean`: specializations of the traits with any subset of their members, `QuantityLike`, `QuantityPointLike`, the constructors and deduction guides for them; the model of `std::chrono` (C43) is shown to be the instance.  Result: proved for quantities.  For points it fails: the concept asks for a member dimension that the documentation replaces by origin, so that a point type with the documented traits is not point-like and no point can be constructed from it (C83_documented_point); proved for those that have it besides.  The concept QuantityLike is satisfied by types from which nothing can be constructed (C83_like_useless).  Members are modelled as dimensions, units and arithmetic types.  Theorems: `C83_construction`, `C83_amount`, `C83_deduction`, `C83_accepts`, `C83_like_useless`, `C83_documented_point`, `C83_point_partial`, `C83_point_position`, `C83_point_deduction`, `C83_concepts`, `C83_chrono`.
* **C84** The small example programs (*partial*) — `Programs.lean`: the box, total energy, capacitor, average speed and conversion factor programs as functions over the operators of the library, with the units and dimensions of the headers they include; `ProgramsLemmas.lean`: each operator on its own types as an operation on the numbers.  Result: proved with exact floating point arithmetic and exact squares and roots (Libm.Squares).  The function with int narrows its arguments without a word: from 2147484 km on the printed speed is wrong (C84_avg_int_narrowed).  Nothing keeps the box from being overfull (C84_box_overfull).  The text printed is not part of this property.  Theorems: `C84_box`, `C84_box_overfull`, `C84_box_density`, `C84_energy_si`, `C84_energy_natural`, `C84_capacitor_printed`, `C84_capacitor_voltage`, `C84_capacitor_rows`, `C84_avg_double`, `C84_avg_double_miles`, `C84_avg_int`, `C84_avg_int_deduced`, `C84_avg_int_miles`, `C84_avg_int_narrowed`, `C84_conversion_factor`, `C84_conversion_factor_int`.
* **C85** Common types of points, kinds and points of a kind (*partial*) — `CommonType.lean`: the specialisations of `std::common_type` and the implicit conversions of points, with errors inside a specialisation apart from the absence of a type.  Result: proved for dimensions that agree on unit sizes.  Violated by the unchanged code: with a kind of unknown dimension first and a dimension with its own coherent unit second, naming the common type and the sum are errors, in the other order not (C85_unknown_left_rejected).  The common type depends on the order exactly for two known dimensions (C85_points_order).  Theorems: `C85_points`, `C85_points_none`, `C85_points_order`, `C85_points_comparable`, `C85_kinds`, `C85_unknown_left_rejected`, `C85_point_kinds`, `C85_kinds_none`, `C85_convertible`.
* **C86** Strings and symbol texts from characters, literals and each other (*partial*) — `StringOps.lean`: the constructors, accessors and deduction guides of `basic_fixed_string` with reads beyond the array as undefined behaviour, output through `c_str()`, the implicit conversions of the right operand of `==`, and the six mixed `operator+` of `basic_symbol_text`.  Result: violated by the unchanged code: an array without terminator loses its last character (C86_array_unterminated), output stops at a zero (C86_stream_cut), an empty string made of a character is printed beyond its end (C86_char_empty), the empty string equals every character (C86_empty_equals_char), only constant strings can be iterated over (C86_iteration_constant), and a wide character added to a symbol text is cut to eight bits (C86_wide_char_changed).  The rest is proved for all strings and operands.  Theorems: `C86_array`, `C86_array_unterminated`, `C86_terminated`, `C86_access`, `C86_iteration_constant`, `C86_stream_partial`, `C86_stream_cut`, `C86_char`, `C86_char_empty`, `C86_equal_char_partial`, `C86_empty_equals_char`, `C86_equal_array`, `C86_operand`, `C86_plus`, `C86_pair`, `C86_wide_char`, `C86_wide_char_changed`.
* **C87** A quantity of vectors behaves as a vector of quantities (*partial*) — `LinearAlgebra.lean`: a library of vectors with operators element by element and the product of two vectors, as the representation of `quantity`; the specification is the list of quantities with arithmetic representations.  The library is a model of what the example relies on, it is not in the repository.  Result: proved for vectors that are not empty and whose elements the common element type holds, which floating point elements always do.  Violated without that: a vector is converted to the common type of its elements before it is scaled, a number is not, so minus one hundred centimetres become different numbers of metres in an unsigned type (C87_fits).  Theorems: `C87_cast_partial`, `C87_sum_partial`, `C87_scale`, `C87_product`, `C87_dot`, `C87_equal_partial`, `C87_assign_partial`, `C87_fits`.
* **C88** Points and kinds of floating point numbers follow the affine laws up to rounding, and exactly for near points (*partial*) — `IeeePoint.lean`: the operators of `Point.lean` and `Kind.lean` over the IEEE numbers of `Ieee.lean`.  The specification is the position, a real number; near points are handled with Sterbenz's lemma.  Result: bounds between different units need ratios with exponents in the range of the type and `Related` dimensions, as C69, C70.  (p + q) - p == q, strict order after a translation and ++p are lost when the sum is rounded (C88_add_sub_loses, C88_order_may_be_lost, C88_increment_lost).  Theorems: `C88_translate_partial`, `C88_difference_partial`, `C88_add_sub_partial`, `C88_add_sub_loses`, `C88_separated_partial`, `C88_nan`, `C88_near_exact`, `C88_order_kept`, `C88_order_may_be_lost`, `C88_convert_partial`, `C88_increment`, `C88_increment_lost`, `C88_assign`, `C88_kind_sum`, `C88_kind_products`, `C88_kind_scaling`, `C88_kind_compare`, `C88_integers`.
* **C89** Powers, cube roots and exponentials with an inexact <cmath> have the error of the function called and no more, except for integers (*partial*) — `IeeeMath.lean`: the functions of `math.h` over the IEEE numbers of `Ieee.lean`, with `std::pow`, `std::cbrt` and `std::exp` as parameters.  The specification is the real power, root or exponential of the amount; that of `<cmath>` is a relative error, or the nearest value of the type.  Result: `<cmath>` is a parameter with a stated accuracy (`libm_exists`: a correctly rounded one satisfies it).  Integers lose powers above 2^53 (C89_pow_int_loses), negative powers are zero (C89_pow_negative_int), pow<1, 3> of 8^k is 2^k - 1 (C89_third_power_of_cube), pow<1> of the largest 64-bit number is undefined (C89_first_power_undefined); coherent units and roots of ratios as C34; results that are neither too large nor too small.  Theorems: `C89_pow_partial`, `C89_pow_rational_partial`, `C89_pow_zero`, `C89_pow_int_partial`, `C89_pow_negative_int`, `C89_pow_int_loses`, `C89_third_power_of_cube`, `C89_first_power_undefined`, `C89_cbrt_partial`, `C89_cbrt_int_partial`, `C89_exp_partial`.
* **C90** In double precision the one-variable Kalman filters stay within rounding of the exact filter: gains in [0, 1], variances that never turn negative, estimates and averages near the measurements (*proved*) — `IeeeKalman.lean`: the functions of `kalman.h` for one variable and the loops of the examples over the IEEE numbers of `Ieee.lean`.  The specification is the exact filter on rational numbers: p/(p+r), pr/(p+r), s+k(m−s), the mean.  Result: States of one variable with representation double whose unit is kept by products with numbers (`Steady`, satisfied by named units such as metres and square metres); measurements of the unit of the state.  The estimate can leave the range of state and measurement by rounding (C90_overshoot).  Theorems: `C90_gain`, `C90_covariance`, `C90_update`, `C90_filter`, `C90_collapse`, `C90_frozen`, `C90_average`, `C90_zero_variances`, `C90_overshoot`.
* **C91** Quantities of integers that wrap around: casts, sums and comparisons are specified without any condition that numbers fit (*partial*) — `Quantity.lean`, `Num.lean`: no new definitions; the specification is arithmetic modulo the range of a type (`Modulo`) on the amounts.  Result: The cast is proved for dimensions that agree on unit sizes and a divisor below 2^64; sums and comparisons for `Related` types and, in `std::uint64_t`, for ratios with the denominator one (`WholeRatio`): the normal form of a ratio is not canonical (C02), and with a denominator such as that of 50/2 the product wraps around before the division.  Across different unsigned types addition is not associative (C91_mixed_not_associative).  Theorems: `C91_cast`, `C91_cast_wraps_though_fits`, `C91_sum_partial`, `C91_add_comm_partial`, `C91_add_assoc_partial`, `C91_add_sub_partial`, `C91_mixed_not_associative`, `C91_equal_partial`, `C91_order_partial`, `C91_comparisons_wrap`.
* **C92** The remaining example programs: custom systems, unknown dimensions, angles, hello, ships and the response (*partial*) — `Demos.lean`: the programs as functions of their constants, with dimensions and units taken from the table of the shipped systems (`C92_units`); the expected numbers are written with the definitions of the units (0.3048, 0.45359237, …).  Result: Proved with exact floating point arithmetic.  The unchanged programs violate the agreement of the versions (C92_unknown_dimension_versions, C92_response_int), and the knots of the ships are those of the library (C92_knots).  Theorems: `C92_units`, `C92_custom_rejected`, `C92_custom_conversion`, `C92_custom_ratios`, `C92_custom_areas`, `C92_unknown_dimension`, `C92_unknown_dimension_int`, `C92_unknown_dimension_versions`, `C92_angle`, `C92_hello`, `C92_response`, `C92_response_int`, `C92_ship_metric`, `C92_ship_imperial`, `C92_knots`, `C92_power`.
* **C93** Whole expressions in IEEE floating point (*partial*) — `IeeeExpr.lean`: expression trees evaluated with the operators of `IeeeOps`, `IeeeArith` and `Ieee`; the specification is the value of the tree in exact real arithmetic (`ExprI.exact`), where casts do nothing.  Proved by induction from C69, C70 and C75 with a calculus of relative errors closed under products, quotients and sums of one sign (`Rel`).  Result: The bound is proved for all expressions under the stated conditions, whose necessity is shown by C93_cancellation_wrong and C93_overflow_wrong.  Violated by the unchanged code: the truncation after a conversion can lose a whole unit (C93_truncated_wrong).  Not covered: parts with integer arithmetic, zero amounts, number / quantity and %.  Theorems: `C93_expression`, `C93_agree`, `C93_unknown_dimension`, `C93_hello`, `C93_avg_speed`, `C93_truncated_wrong`, `C93_cancellation_wrong`, `C93_overflow_wrong`.
* **C94** Expressions with sums of any sign, and the filter with a position and a speed, in IEEE floating point (*proved*) — `IeeeExpr.lean` and `IeeeTrack.lean`: the expression trees of C93, and the filter of kalman.h with two variables and IEEE numbers.  The specifications are the exact real value of the tree, its magnitude (`ExprI.mag`, the value with all amounts made positive, padded by the smallest normal numbers) and the filter in exact rational arithmetic (`trackExact`).  Proved by induction over the tree with absolute errors relative to magnitudes (`Off`), then by induction over the measurements.  Result: C94_overflow_wrong shows that the bounds on the numbers are needed.  Divisors must be expressions covered by C93, parts with integer arithmetic, number / quantity and % are not covered.  Theorems: `C94_expression`, `C94_sign`, `C94_state_update`, `C94_extrapolation`, `C94_track`, `C94_overflow_wrong`.
* **C95** The filter with a position, a speed and an acceleration in IEEE floating point (*partial*) — `IeeeTrack.lean`: `stateUpdate3I` and `extrapolate3I` over the operators with IEEE numbers and the `std::pow` of C89.  The specification is the formula in exact arithmetic.  Proved from `C94_expression` and `C94_state_update`; the square of the interval comes from the specification of `std::pow`.  `IeeeTrack3.lean` adds the loop (`trackLoop3I`, `trackMain3I`), proved against the loop in exact arithmetic (`trackExact3`) by induction over the measurements.  Result: Proved for intervals in double.  Violated by the unchanged code for integral intervals, whose halved square is truncated (C95_integral_interval_wrong, as C79_integral_interval).  The loop is proved for gains with k1 + k2 + k3 ≤ 2 and k2 + 2 k3 ≤ 1 and a correctly rounded std::pow (C95_track).  Theorems: `C95_state_update`, `C95_extrapolation`, `C95_extrapolation_rounded`, `C95_requirements`, `C95_integral_interval_wrong`, `C95_track`.
* **C96** The total energy of a particle in IEEE floating point (*proved*) — `IeeeEnergy.lean`: `totalEnergyI`, `siExampleI` and `naturalExampleI` over the operators with IEEE numbers, the correctly rounded `std::sqrt` of C75 and a parameter for `std::pow`.  The specification is the formula over the real numbers.  Proved with a calculus of values known up to factors between `1 - δ` and its inverse, closed under products, quotients, sums of one sign, squares, square roots and conversions (`Got`).  Result: The condition of moderate sizes is necessary: the squares overflow and underflow long before the energy (C96_squares_wrong).  Theorems: `C96_total_energy`, `C96_natural`, `C96_si`, `C96_square_spec`, `C96_squares_wrong`.
* **C97** The discharge of a capacitor in IEEE floating point (*proved*) — `IeeeCapacitor.lean`: `capVoltageI`, `capPrintedI`, `capLoopI` and `capMainI` over the operators with IEEE numbers, the times and the thresholds being `int`, and a parameter for `std::exp`.  The specification is the formula over the real numbers (`discharge`, `CapRow`).  Proved with the calculus of C96; the rounding of the argument of the exponential function gives the part of the error that grows with the time.  Result: The bound on t / (R C) keeps the exponential within the range of the type; negative voltages are always printed in picovolts (C97_negative_wrong).  Theorems: `C97_printed`, `C97_voltage`, `C97_rows`, `C97_negative_wrong`.
* **C98** The filling of a box in IEEE floating point (*proved*) — `IeeeBox.lean`: `Box` and `main` of the references version of the box over the operators with IEEE numbers, with `q - 1` for a dimensionless quantity and an `int`.  The specification is the formulas over the real numbers (`BoxSpec`).  Proved with the calculus of C96 and, for the two differences, with error bounds relative to the sum of the magnitudes (`App`).  Result: A full box may be found to have a volume and a time left (C98_full_wrong), within the stated errors.  Theorems: `C98_box`, `C98_density`, `C98_full_wrong`.
* **C99** Measurements with an uncertainty in IEEE floating point (*proved*) — `Measurement.lean` (the class, over any type of numbers) with `double`, and `IeeeMeasurement.lean`: `example` of the program (`measMain`).  The specification is the rule for independent errors with partial derivatives over the real numbers (`FirstOrder`, `MClose`).  Proved with the calculus of C96 and a rule for `hypot`; `C99_plain_hypot` shows that there is such a function.  Result: Outside the range the relative uncertainty may overflow, and the uncertainty becomes infinite (C99_range_wrong); values of zero are the finding of C78.  Theorems: `C99_products`, `C99_numbers`, `C99_sums`, `C99_program`, `C99_plain_hypot`, `C99_range_wrong`.
* **C100** Vectors of quantities in IEEE floating point (*proved*) — `LinearAlgebra.lean` (sums of products and operations element by element) with the IEEE operators of quantities: `IeeeLinear.lean`.  The specification is the sum of the products of the real numbers and the sum of their magnitudes (`dotR`, `dotAbs`).  Proved by induction on the vectors with the partial sum and its bound (`Summed`); sums have no underflow (`add_rel`).  Result: The error is not relative to the result where terms cancel, and the order of the elements matters (C100_cancellation_wrong). The library of vectors is modelled by what the program needs of it; a library that sums in another order is not covered.  Theorems: `C100_dot`, `C100_dot_nonneg`, `C100_dot_comm`, `C100_lengths`, `C100_add`, `C100_scale`, `C100_matrix_vector`, `C100_vector_matrix`, `C100_number`, `C100_program`, `C100_add_kilometres`, `C100_cancellation_wrong`.
* **C101** Average speeds and conversion factors in IEEE floating point (*proved*) — `IeeeSpeed.lean`: the functions of `avg_speed.cpp` and `conversion_factor.cpp` over the IEEE operators of quantities.  The specification is the quotient of the real numbers (`PrintedKmh`).  Proved with the calculus of C96; the conversion factor with the fact that one is neutral for the product of IEEE numbers.  Result: The functions do not agree on the 220 km in two hours of the program: with metres and seconds the speed is above 110 km/h by 2^-46 (C101_agree_wrong). The conversion factors of the two directions are not inverse to each other (C101_inverse_wrong). The functions that compute with int are C84; the cast to another dimension that the program needs for centimetres in the function for the SI is not part of this property.  Theorems: `C101_fixed`, `C101_deduced`, `C101_deduced_error`, `C101_conversion_factor`, `C101_cgs`, `C101_int`, `C101_agree_wrong`, `C101_inverse_wrong`.
* **C102** The response and the first program in IEEE floating point (*proved*) — `IeeeHello.lean`: the casts and quotients of `clcpp_response.cpp` and `hello_units.cpp` over the IEEE operators of quantities.  The specification is a list of the metres in the units (`responseMetres`) and the quotients of the real numbers.  Proved with the calculus of C96; that each of the eighteen factors is one rounding from the exact one is a computation over the whole table.  Result: The truncation can be one too small for a speed that is a whole number of metres per second: 3125 miles in 11 hours are 127 m/s, and the program gives 126 (C102_whole_wrong). The metre of the version of the response with references is an int (C92).  Theorems: `C102_response`, `C102_hello`, `C102_whole_wrong`.
* **C103** The ships of the foot-pound-second program in IEEE floating point (*proved*) — `IeeeShip.lean`: `Ship`, `fmt_line` and `print_details` over the IEEE operators of quantities.  The specification is the amount in metres, kilograms, seconds and the units of the columns by their definitions (`ShipPrinted`).  Proved with the calculus of C96; that the factor of each conversion is at most two roundings from the exact one is a computation (`factorB`).  Result: The metric column does not always show what was given: the 800 kg of the shells of the first ship are printed as 800 + 2^-43 kg (C103_column_wrong). The knot and the power of the first ship are the findings of C92; the output is modelled up to the three quantities of a line, not their text.  Theorems: `C103_ship_metric`, `C103_ship_imperial`, `C103_column_wrong`.
* **C104** Unknown dimensions, angles and custom systems in IEEE floating point (*proved*) — `IeeeDemos.lean`: the expressions of the three programs over the IEEE operators of quantities; a number times a reference is the quantity of that number.  The specification is the value over the real numbers (`Printed98`).  Proved with the calculus of C96.  Result: The distance covered in the time the speed was measured with need not be the given one: for one metre in 49 s it is 1 - 2^-53 m (C104_distance_wrong). The versions of the program with integers are C92.  Theorems: `C104_unknown_dimension`, `C104_distance_wrong`, `C104_angle`, `C104_custom_conversion`, `C104_custom_areas`.
* **C105** Quantities of vectors are vectors of quantities, to the last bit (*proved*) — `IeeeQtyVec.lean`: the operators of quantities with a list of doubles for the number, which the linear algebra library multiplies and adds element by element and from the left.  The specification is the model of vectors of quantities of C100, written over the operators on single quantities.  Proved by induction on the vectors, with the function a conversion applies to each number; the error follows from C100.  Result: Empty vectors are excluded: a vector of no quantities has no product and converts to anything. The library of vectors is modelled as in C100.  Theorems: `C105_convert`, `C105_add`, `C105_dot`, `C105_scale`, `C105_number`, `C105_dot_error`, `C105_matrix_vector`, `C105_vector_matrix`, `C105_matrix_add`, `C105_matrix_scale`.
