{"id": "C01", "title": "Ratio construction preserves the value and normalises", "statement": "Constructing a unit ratio from any numerator, denominator and power-of-ten exponent either is rejected (zero denominator, or arithmetic that would overflow intmax_t) or yields a ratio with exactly the same rational value, whose denominator is positive, whose numerator and denominator are coprime and neither is divisible by ten.", "quantifier": "all intmax_t numerators, denominators and exponents", "why_tests_cant": "the domain is three 64-bit integers; tests sample a handful", "anchors": ["src/core/include/units/ratio.h: ratio::ratio", "src/core/include/units/bits/ratio_maths.h: normalize"]}
{"id": "C02", "title": "Ratio equality decides equality of value", "statement": "Two unit ratios compare equal exactly when they denote the same rational number, so that two units of the same size get the same scaled unit type.", "quantifier": "all pairs of constructible ratios", "why_tests_cant": "needs every pair of representations; the tests only compare ratios that are built the same way", "anchors": ["src/core/include/units/ratio.h: operator==", "src/core/include/units/bits/ratio_maths.h: normalize"]}
{"id": "C03", "title": "Ratio multiplication, division and inversion are exact or rejected", "statement": "Multiplying, dividing or inverting ratios either is rejected at compile time or returns a ratio whose value is exactly the product, quotient or reciprocal; multiplication is commutative including rejection, the unit ratio is neutral, and a non-zero ratio divided by itself is one.", "quantifier": "all pairs of constructible ratios", "why_tests_cant": "the interplay of cross-cancellation, overflow checks and re-normalisation must be right for all 64-bit values", "anchors": ["src/core/include/units/ratio.h: operator*, operator/, inverse", "src/core/include/units/bits/ratio_maths.h: safe_multiply"]}
{"id": "C04", "title": "Overflow-checked multiplication accepts exactly the representable products", "statement": "The overflow guard used by ratio arithmetic accepts a product precisely when its absolute value is at most INTMAX_MAX, and then returns the exact product; it never lets a wrapped value through and never rejects a product that fits (other than INTMAX_MIN itself).", "quantifier": "all pairs of intmax_t factors", "why_tests_cant": "2^128 pairs", "anchors": ["src/core/include/units/bits/ratio_maths.h: safe_multiply"]}
{"id": "C05", "title": "Integrality test is exact for arbitrarily large exponents", "statement": "Asking whether a positive ratio is integral answers yes exactly when its value is an integer, for every exponent, although num*10^exp does not fit in any machine integer.", "quantifier": "all positive normalised ratios", "why_tests_cant": "exponents range over 2^64 values and the modular arithmetic wraps by design", "anchors": ["src/core/include/units/ratio.h: is_integral", "src/core/include/units/bits/ratio_maths.h: gcdpow, mulmod, modpow"]}
{"id": "C06", "title": "Modular helper arithmetic never produces a wrong residue", "statement": "The unsigned modular multiplication and power used for large exponents return the mathematically correct residue for every 64-bit modulus greater than zero, including moduli above 2^63 where intermediate sums wrap.", "quantifier": "all 64-bit a, b, e and m>0", "why_tests_cant": "wrap-around only happens for moduli beyond 2^63 and specific bit patterns", "anchors": ["src/core/include/units/bits/ratio_maths.h: mulmod, modpow"]}
{"id": "C07", "title": "The common unit of two units divides both and is the coarsest such unit", "statement": "When a common ratio of two positive ratios is produced, both ratios are integer multiples of it, every other rational with that property divides it, and the result has the same value whichever ratio comes first.", "quantifier": "all pairs of positive ratios", "why_tests_cant": "greatest-common-divisor claims quantify over all candidate divisors", "anchors": ["src/core/include/units/ratio.h: common_ratio", "src/core/include/units/bits/ratio_maths.h: gcd_frac"]}
{"id": "C08", "title": "Ratio powers are exact", "statement": "Raising a ratio to an integral power either is rejected or yields exactly the mathematical power, including negative and zero powers.", "quantifier": "all ratios and all integral exponents", "why_tests_cant": "exponentiation by squaring over unbounded exponents", "anchors": ["src/core/include/units/ratio.h: pow", "src/core/include/units/bits/pow.h: pow_impl"]}
{"id": "C09", "title": "Ratio roots are exact for ratios that have an exact root", "statement": "Taking the N-th root of a ratio whose value is the N-th power of a rational returns that rational.", "quantifier": "all ratios that are perfect powers and all N >= 1", "why_tests_cant": "depends on representation of the ratio and on a floating point estimate", "anchors": ["src/core/include/units/ratio.h: root, sqrt, cbrt, make_exp_align", "src/core/include/units/bits/root.h: iroot_impl"]}
{"id": "C10", "title": "Integer root returns the floor of the real root", "statement": "The integer N-th root returns the unique r with r^N <= v < (r+1)^N for every non-negative v, provided the floating point estimate is off by at most one; and never executes undefined behaviour.", "quantifier": "all v in [0, INTMAX_MAX], all N >= 1, all estimates within one of the true root", "why_tests_cant": "2^63 arguments for every N; estimate is platform dependent", "anchors": ["src/core/include/units/bits/root.h: iroot_impl, iroot_compile, iroot_runtime"]}
{"id": "C11", "title": "Type list sort is a permutation and is sorted", "statement": "Sorting the exponent list of a dimension yields an ordered permutation of its elements for any length, so normalisation never loses, invents or duplicates a factor.", "quantifier": "all lists and all strict weak orderings", "why_tests_cant": "lists of unbounded length", "anchors": ["src/core/include/units/bits/external/type_list.h: type_list_merge_sorted, type_list_sort, type_list_split_half"]}
{"id": "C12", "title": "Type list split, push and join are correct", "statement": "Splitting a type list at N gives back the two halves whose concatenation is the original; pushing and joining concatenate in the documented order.", "quantifier": "all lists and split positions", "why_tests_cant": "lists of unbounded length", "anchors": ["src/core/include/units/bits/external/type_list.h"]}
{"id": "C13", "title": "A derived dimension is determined by its exponents, not by how the recipe is written", "statement": "For any recipe of base and derived dimensions, the normalised dimension has for each base dimension exactly the sum of the contributed exponents, contains no zero exponent, and two recipes denoting the same product of powers of base dimensions normalise to the same dimension, whatever their order, grouping or nesting.", "quantifier": "all recipes of any length and nesting", "why_tests_cant": "recipes are unbounded and the claim compares all permutations/groupings", "anchors": ["src/core/include/units/derived_dimension.h: make_dimension", "src/core/include/units/bits/dim_unpack.h", "src/core/include/units/bits/dim_consolidate.h", "src/core/include/units/base_dimension.h: base_dimension_less"]}
{"id": "C14", "title": "Multiplication and division of dimensions add and subtract exponents", "statement": "The dimension of a product (quotient) of two quantities has, for each base dimension, the sum (difference) of the operands' exponents; the operation is commutative and associative, dividing a dimension by itself is dimensionless, and dimension one is neutral.", "quantifier": "all pairs and triples of dimensions", "why_tests_cant": "unbounded set of dimensions", "anchors": ["src/core/include/units/bits/dimension_op.h: dimension_multiply, dimension_divide, dim_invert"]}
{"id": "C15", "title": "Raising a quantity to a power multiplies every dimension exponent", "statement": "The dimension of pow<Num,Den>(q) has, for each base dimension, the operand's exponent times Num/Den.", "quantifier": "all dimensions and all rational powers", "why_tests_cant": "unbounded powers; failure only for exponents that happen to reduce to a multiple of ten", "anchors": ["src/core/include/units/bits/dimension_op.h: dimension_pow", "src/core/include/units/exponent.h: exponent_multiply", "src/core/include/units/math.h: pow"]}
{"id": "C16", "title": "Dimensions with the same identifier but different base units stay apart in products", "statement": "When quantities of two systems (same symbol, different base unit) are multiplied, the result still has the right exponent of every base dimension, and the result does not depend on the order of the factors.", "quantifier": "all products over base dimensions of several systems", "why_tests_cant": "needs all interleavings of tied elements in the sort", "anchors": ["src/core/include/units/base_dimension.h: base_dimension_less", "src/core/include/units/derived_dimension.h: make_dimension"]}
{"id": "C17", "title": "Equivalence of dimensions is an equivalence relation", "statement": "Dimension equivalence across systems is reflexive, symmetric and transitive, implies equal exponents of equally named base dimensions, and never relates dimensions with different exponents.", "quantifier": "all triples of dimensions", "why_tests_cant": "relation over an unbounded domain", "anchors": ["src/core/include/units/bits/equivalent.h"]}
{"id": "C18", "title": "Downcasting finds the registered child and only that one", "statement": "Whatever set of dimensions/units has been defined, the result of an arithmetic operation is the unique user-defined type registered for that normalised dimension or scaled unit if one exists, and otherwise the unnamed base type; defining further types for other bases does not change the result.", "quantifier": "all histories of type definitions", "why_tests_cant": "depends on the whole program's set of definitions", "anchors": ["src/core/include/units/bits/external/downcasting.h"]}
{"id": "C19", "title": "Scaled and prefixed units have the size their definition says", "statement": "For any chain of scaled, prefixed and alias unit definitions the size of the unit relative to the reference unit is the product of all factors in the chain, and all units in the chain share the reference of its root.", "quantifier": "all finite definition chains", "why_tests_cant": "chains of unbounded length", "anchors": ["src/core/include/units/unit.h: named_scaled_unit, prefixed_unit, alias_unit, prefixed_alias_unit", "src/core/include/units/prefix.h"]}
{"id": "C20", "title": "Unnamed derived units are the product of powers of their component units", "statement": "The ratio of a derived unit built from component units equals the product of the component units' sizes (relative to the coherent unit of the component dimension) raised to the recipe exponents.", "quantifier": "all recipes and component units", "why_tests_cant": "unbounded recipes and ratios", "anchors": ["src/core/include/units/bits/derived_unit.h: derived_ratio, make_derived_unit", "src/core/include/units/unit.h: derived_unit, named_derived_unit"]}
{"id": "C21", "title": "A prefixed alias is the prefix times the aliased unit", "statement": "Every unit of the shipped systems named with a prefix (kilolitre, millitonne, gigabaud, ...) has the size prefix x unprefixed unit.", "quantifier": "all unit definitions in src/systems", "why_tests_cant": "hundreds of hand-written alias definitions; no test enumerates them all", "anchors": ["src/systems/si/include/units/isq/si/volume.h: hectolitre", "src/systems/si/include/units/isq/si/mass.h", "src/systems/isq-iec80000/include/units/isq/iec80000/modulation_rate.h"]}
{"id": "C22", "title": "Implicit conversion loses no information", "statement": "Whenever a quantity with an integral representation converts implicitly, the converted quantity denotes exactly the same physical amount, or the arithmetic overflows the representation; no truncation can happen.", "quantifier": "all pairs of units/dimensions for which the conversion is accepted and all values", "why_tests_cant": "all unit ratios and values", "anchors": ["src/core/include/units/quantity.h: safe_convertible_to_, quantity(const Q&)", "src/core/include/units/quantity_cast.h: quantity_cast"]}
{"id": "C23", "title": "Integral quantity_cast truncates toward zero exactly once", "statement": "An explicit cast between integral representations yields the exact physical value expressed in the target unit rounded toward zero, unless an intermediate product overflows; it never accumulates two roundings.", "quantifier": "all unit pairs and all values", "why_tests_cant": "all ratios and values", "anchors": ["src/core/include/units/quantity_cast.h: cast_traits, cast_ratio, quantity_cast"]}
{"id": "C24", "title": "Cast to a finer unit and back is the identity", "statement": "Casting an integral quantity to a unit of which its unit is a multiple and back returns the original value when nothing overflows; casting to a coarser unit and back yields the largest multiple of the coarser unit not exceeding the magnitude.", "quantifier": "all unit pairs and values", "why_tests_cant": "round trips over all ratios", "anchors": ["src/core/include/units/quantity_cast.h: quantity_cast"]}
{"id": "C25", "title": "Addition and subtraction across units are exact", "statement": "Adding or subtracting integral quantities of equivalent dimensions in any units yields exactly the physical sum or difference, expressed in the common unit, unless the representation overflows; addition is commutative and associative.", "quantifier": "all quantities of equivalent dimensions in any units", "why_tests_cant": "all unit pairs/triples and values", "anchors": ["src/core/include/units/quantity.h: operator+, operator-", "src/core/include/units/bits/common_quantity.h"]}
{"id": "C26", "title": "Comparison across units is the comparison of physical amounts", "statement": "== and <=> on quantities in different units agree with comparing the physical amounts, hence define a total order and equality is transitive, unless conversion to the common unit overflows.", "quantifier": "all quantities of equivalent dimensions", "why_tests_cant": "transitivity quantifies over triples of units and values", "anchors": ["src/core/include/units/quantity.h: operator<=>, operator=="]}
{"id": "C27", "title": "Multiplication and division of quantities are physically exact", "statement": "The product of two quantities denotes the product of the two physical amounts whatever the units, systems and derived dimension the result is downcast to; the quotient likewise for exact division.", "quantifier": "all pairs of quantities, all dimensions", "why_tests_cant": "all unit ratio and dimension combinations", "anchors": ["src/core/include/units/quantity.h: operator*, operator/", "src/core/include/units/bits/dimension_op.h"]}
{"id": "C28", "title": "Number divided by a quantity is the reciprocal amount", "statement": "value / quantity denotes value divided by the physical amount of the quantity, so that (v / q) * q is v.", "quantifier": "all values, dimensions and units", "why_tests_cant": "every dimension whose coherent/base unit ratio is not one", "anchors": ["src/core/include/units/quantity.h: operator/(const Value&, const quantity&)"]}
{"id": "C29", "title": "Quotient and remainder are consistent", "statement": "For integral quantities of the same unit and non-zero divisor, (a / b) * b + a % b == a, and the magnitude of the remainder is smaller than that of the divisor also when the units differ.", "quantifier": "all pairs of quantities", "why_tests_cant": "all unit ratio combinations and values", "anchors": ["src/core/include/units/quantity.h: operator%, operator/"]}
{"id": "C30", "title": "Compound assignment agrees with the binary operator", "statement": "q += r, q -= r, q *= v, q /= v, q %= v, ++ and -- leave q with the value of the corresponding binary expression converted to q's type, and return q.", "quantifier": "all quantities and operands for which the expressions are accepted", "why_tests_cant": "all values and widths", "anchors": ["src/core/include/units/quantity.h: compound assignment operators"]}
{"id": "C31", "title": "The common quantity type does not depend on operand order", "statement": "The common unit/dimension chosen for two equivalent quantities denotes the same unit size in either order, both operands convert to it without loss, and it is the coarsest unit with that property.", "quantifier": "all pairs of equivalent quantity types", "why_tests_cant": "all ratio and dimension pairs", "anchors": ["src/core/include/units/bits/common_quantity.h"]}
{"id": "C32", "title": "Conversions between systems of units are consistent", "statement": "Converting a quantity from system A to B and then to C gives the same amount as converting directly, and conversion uses the sizes of the base units of both systems, for base, derived and unknown dimensions alike.", "quantifier": "all triples of equivalent dimensions and units", "why_tests_cant": "dimension/units combinations are unbounded; failing cases involve unnamed dimensions", "anchors": ["src/core/include/units/quantity_cast.h: quantity_ratio, cast_ratio", "src/core/include/units/bits/base_units_ratio.h", "src/core/include/units/bits/common_quantity.h"]}
{"id": "C33", "title": "Floating point conversion error is bounded", "statement": "A floating point unit conversion differs from the exact result by at most a bounded number of roundings determined by the ratio (no catastrophic loss), under the standard rounding model without overflow/underflow; an exact representation type converts exactly.", "quantifier": "all ratios, values and rounding behaviours satisfying the standard model", "why_tests_cant": "rounding adversary", "anchors": ["src/core/include/units/quantity_cast.h: quantity_cast", "src/core/include/units/bits/pow.h: fpow10"]}
{"id": "C34", "title": "Power and root of quantities are physically exact", "statement": "pow<N>(q) denotes the N-th power of the physical amount of q; sqrt(pow<2>(q)) gives back q for non-negative q when the unit ratio has an exact root.", "quantifier": "all quantities, units and powers", "why_tests_cant": "all ratios", "anchors": ["src/core/include/units/math.h: pow, sqrt, cbrt"]}
{"id": "C35", "title": "abs, exp and epsilon operate on the right unit", "statement": "abs(q) has the same unit and magnitude |q|; exp of a dimensionless quantity in any unit is exp of its plain number.", "quantifier": "all quantities and (for exp) all units of dimension one", "why_tests_cant": "percent and other scaled dimensionless units", "anchors": ["src/core/include/units/math.h: abs, exp, epsilon"]}
{"id": "C36", "title": "Dimensionless quantities interoperate with plain numbers only in unit one", "statement": "A plain number is accepted as a dimensionless operand only when the unit of the quantity is one, and then denotes the same amount; comparisons and sums with it are exact.", "quantifier": "all dimensionless quantities and numbers", "why_tests_cant": "all units", "anchors": ["src/core/include/units/quantity.h: friend operators with Value", "src/core/include/units/generic/dimensionless.h"]}
{"id": "C37", "title": "Quantity points form an affine space over quantities", "statement": "(p + q) - p == q, p + (q + r) == (p + q) + r, (p1 - p2) + p2 == p1 and the order on points is translation invariant, in any mix of units; conversions between point types preserve the distance from the origin and points of different origins never mix.", "quantifier": "all points and quantities in any units", "why_tests_cant": "algebraic laws over all values and units", "anchors": ["src/core/include/units/quantity_point.h", "src/core/include/units/point_origin.h"]}
{"id": "C38", "title": "Point casts preserve the origin and the position", "statement": "quantity_point_cast changes only unit and representation: the position relative to the origin is that of the cast relative quantity, and the origin in the type is the one of the argument.", "quantifier": "all point types, target units and representations", "why_tests_cant": "type-level behaviour over all origins", "anchors": ["src/core/include/units/quantity_cast.h: quantity_point_cast"]}
{"id": "C39", "title": "Quantity kinds behave like their underlying quantities and never mix", "statement": "Every arithmetic and comparison result on kinds equals the result on the underlying quantities, with the kind derived from the operands' kind; operations between unrelated kinds are rejected.", "quantifier": "all kinds, dimensions, units and values", "why_tests_cant": "all derivations of kinds", "anchors": ["src/core/include/units/quantity_kind.h", "src/core/include/units/kind.h"]}
{"id": "C40", "title": "Quantity point kinds form an affine space over quantity kinds", "statement": "The affine laws of quantity points hold for point kinds over their base kind.", "quantifier": "all point kinds, units and values", "why_tests_cant": "algebraic laws over all values", "anchors": ["src/core/include/units/quantity_point_kind.h"]}
{"id": "C41", "title": "Kind casts change what they are asked to change only", "statement": "quantity_kind_cast and quantity_point_kind_cast to a kind, unit or representation leave all other attributes unchanged and the amount equals that of the corresponding quantity_cast.", "quantifier": "all kinds, units, representations", "why_tests_cant": "overload combinations over all types", "anchors": ["src/core/include/units/quantity_cast.h: quantity_kind_cast, quantity_point_kind_cast"]}
{"id": "C42", "title": "References build the same quantity as the explicit constructor", "statement": "number * reference denotes number of the reference's unit; products and quotients of references denote the product and quotient of the units.", "quantifier": "all references and numbers", "why_tests_cant": "all unit/dimension pairs", "anchors": ["src/core/include/units/reference.h"]}
{"id": "C43", "title": "std::chrono durations and time points convert without change of amount", "statement": "A duration with any period converts to a time quantity with the same amount of seconds, a time point to a point with the clock's origin.", "quantifier": "all periods and tick counts", "why_tests_cant": "all std::ratio periods", "anchors": ["src/core/include/units/chrono.h"]}
{"id": "C44", "title": "Unit symbol powers are printed so that distinct exponents look different", "statement": "The exponent text printed after a unit symbol determines the exponent: two different exponents never print the same text in the same position.", "quantifier": "all rational exponents", "why_tests_cant": "all numerators/denominators and separators", "anchors": ["src/core/include/units/bits/derived_symbol_text.h: exp_text, derived_symbol_text", "src/core/include/units/bits/external/text_tools.h"]}
{"id": "C45", "title": "Superscript and regular integers denote the number", "statement": "The decimal text generated for an exponent or ratio, read back as decimal, is the number, for every integer.", "quantifier": "all intmax_t", "why_tests_cant": "2^64 numbers", "anchors": ["src/core/include/units/bits/external/text_tools.h: superscript, regular"]}
{"id": "C46", "title": "Scale factor text is faithful", "statement": "The [num/den x 10^exp] text printed for units without a name determines the ratio.", "quantifier": "all ratios", "why_tests_cant": "all ratios", "anchors": ["src/core/include/units/bits/unit_text.h: ratio_text, prefix_or_ratio_text"]}
{"id": "C47", "title": "Prefix lookup prints the right prefix", "statement": "A unit whose ratio to a named unit is exactly that of a prefix of its family prints as prefix followed by symbol, no other unit does, and the chosen prefix has exactly this ratio.", "quantifier": "all prefix families and ratios", "why_tests_cant": "depends on every registered prefix", "anchors": ["src/core/include/units/bits/unit_text.h: prefix_or_ratio_text", "src/core/include/units/prefix.h"]}
{"id": "C48", "title": "Fixed strings are totally ordered and concatenate", "statement": "Comparison of compile-time strings is a total order consistent with equality and lexicographic; concatenation is associative and preserves lengths and characters.", "quantifier": "all strings", "why_tests_cant": "unbounded strings", "anchors": ["src/core/include/units/bits/external/fixed_string.h", "src/core/include/units/symbol_text.h"]}
{"id": "C49", "title": "Format strings outside the grammar are rejected", "statement": "A format specification for a quantity is accepted exactly when it belongs to the documented grammar.", "quantifier": "all format strings", "why_tests_cant": "infinite language", "anchors": ["src/core-fmt/include/units/format.h: do_parse, parse_units_format, parse_units_rep"]}
{"id": "C50", "title": "Formatting output is made of the requested parts", "statement": "For every accepted specification, the output is the concatenation, in order, of the formatted number for every %Q, the unit symbol for every %q (ASCII with A), newline/tab/percent for %n %t %% and the literal characters, padded to the width with the fill and alignment; an empty specification gives number, space, symbol, and no separator when the unit has no symbol.", "quantifier": "all accepted format strings and quantities", "why_tests_cant": "infinite language", "anchors": ["src/core-fmt/include/units/format.h: format, units_formatter", "src/core-io/include/units/quantity_io.h"]}
{"id": "C51", "title": "Stream output is the number, a space and the symbol, padded as a whole", "statement": "operator<< writes the number and, if the unit has a symbol, a space and the symbol; width, fill and alignment apply to the whole text and the width is consumed.", "quantifier": "all quantities and stream states", "why_tests_cant": "all widths and fills", "anchors": ["src/core-io/include/units/quantity_io.h"]}
{"id": "C52", "title": "Random distributions of quantities are the distributions of the numbers", "statement": "Every quantity distribution, constructed from quantity parameters, returns for every engine state the quantity whose number is what the underlying standard distribution with the same numbers returns, and reports its parameters back in the same unit.", "quantifier": "all engines, states and parameters", "why_tests_cant": "all random sequences", "anchors": ["src/core/include/units/random.h"]}
{"id": "C53", "title": "Safe integer comparison helpers compare mathematically", "statement": "The mixed-sign comparison helpers compare the mathematical values for every pair of integer types and values, and in_range is true exactly when the value fits.", "quantifier": "all integer type pairs and values", "why_tests_cant": "all widths and values", "anchors": ["src/core/include/units/bits/external/hacks.h: cmp_equal, cmp_less, in_range"]}
{"id": "C54", "title": "Compile-time log/exp/pow approximate the real functions", "statement": "In exact real arithmetic the compile-time logarithm, exponential and power differ from the real functions by less than a stated bound, for all positive arguments.", "quantifier": "all positive reals", "why_tests_cant": "continuum of arguments", "anchors": ["src/core/include/units/bits/constexpr_math.h: to_decimal, constexpr_log, constexpr_exp, constexpr_pow"]}
{"id": "C55", "title": "Static quantity values and unary plus", "statement": "zero() denotes no amount, one() one unit, min() and max() bound every quantity of the type, and unary plus keeps the amount.", "quantifier": "all quantity types and values", "why_tests_cant": "every unit/dimension/representation combination and every value", "anchors": ["src/core/include/units/quantity.h:121-177", "src/core/include/units/customization_points.h: quantity_values"]}
{"id": "C56", "title": "The symbol of an unnamed coherent unit denotes it", "statement": "The symbol composed for the coherent unit of a dimension without a named unit is a product of powers of symbols of named coherent units whose dimensions multiply to the dimension.", "quantifier": "all dimensions and recipes, nested to any depth", "why_tests_cant": "all recipes; the tests print few unnamed coherent units", "anchors": ["src/core/include/units/bits/unit_text.h: exponent_list_with_named_units, derived_dimension_unit_text"]}
{"id": "C57", "title": "Every shipped unit has the size its name means", "statement": "Every unit declared in the headers of the shipped systems stands, in every shipped dimension it can be used with, for the amount its name means according to the standards (SI Brochure, international yard and pound agreement, IEC 80000-13, IAU, ...).", "quantifier": "all unit declarations in src/systems, all dimensions", "why_tests_cant": "630 hand-written declarations; the tests compare a few", "anchors": ["src/systems/*/include/units/**/*.h: unit declarations", "src/core/include/units/quantity_cast.h:53-78"]}
{"id": "C58", "title": "Every shipped dimension is that of its quantity", "statement": "Every dimension declared in a shipped header has the exponents of the ISQ base quantities that ISO 80000 gives for the quantity it is named after.", "quantifier": "all dimension declarations in src/systems", "why_tests_cant": "the tests only check some combinations of dimensions", "anchors": ["src/systems/isq/include/units/isq/dimensions/*.h", "src/systems/*/include/units/**/*.h: dim_*"]}
{"id": "C59", "title": "Shipped headers are self-contained", "statement": "Every name a shipped header refers to is declared in the header itself or in a header that it includes, directly or not.", "quantifier": "all headers and names", "why_tests_cant": "every header would have to be compiled alone", "anchors": ["src/systems/*/include/units/**/*.h: #include"]}
{"id": "C60", "title": "The downcasting facility maps a type to one definition", "statement": "No two units with the same ratio and reference, and no two derived dimensions with the same exponents, are registered in a translation unit made of shipped headers.", "quantifier": "all pairs of definitions, all headers", "why_tests_cant": "quadratically many pairs; a collision shows only when both headers are included", "anchors": ["src/core/include/units/bits/external/downcasting.h", "src/core/include/units/unit.h", "src/core/include/units/derived_dimension.h"]}
{"id": "C61", "title": "Literals, references and aliases agree", "statement": "A user-defined literal _q_x, the reference x and the alias x<Rep> declared in one header have the same dimension and the same unit.", "quantifier": "all literals, references and aliases of the shipped headers", "why_tests_cant": "thousands of hand-written one-line declarations", "anchors": ["src/systems/*/include/units/**/*.h: literals, *_references, aliases"]}
{"id": "C62", "title": "Prefixes have their standard value and symbol", "statement": "Every shipped prefix has the value and the symbol that the SI Brochure or IEC 80000-13 gives for its name.", "quantifier": "all prefixes", "why_tests_cant": "tests use only some of them", "anchors": ["src/systems/si/include/units/isq/si/prefixes.h", "src/systems/isq-iec80000/include/units/isq/iec80000/binary_prefixes.h"]}
{"id": "C63", "title": "Physical constants have their exact values", "statement": "Every shipped physical constant has the exact value and dimension fixed by the 2019 definition of the SI.", "quantifier": "all constants", "why_tests_cant": "the tests compare one constant", "anchors": ["src/systems/si/include/units/isq/si/constants.h"]}
{"id": "C64", "title": "Converting between shipped units multiplies by the quotient of their sizes", "statement": "Converting a quantity between any two shipped units of equivalent dimensions is accepted and multiplies the number by the quotient of the amounts the names of the units mean.", "quantifier": "all pairs of shipped units and dimensions", "why_tests_cant": "hundreds of thousands of pairs", "anchors": ["src/core/include/units/quantity_cast.h: cast_ratio, quantity_ratio", "src/systems/*/include/units/**/*.h"]}
{"id": "C65", "title": "Quantities of shipped units mean what the names of the units say", "statement": "Implicit conversions, casts, comparisons, sums and differences of quantities whose units are any shipped units agree with the arithmetic of the amounts: the number times what the standards say the name of the unit means.", "quantifier": "all pairs of shipped units of equivalent dimensions, all representation types and all numbers", "why_tests_cant": "hundreds of thousands of pairs of units, and all numbers", "anchors": ["src/core/include/units/quantity.h: operator+, operator-, operator==, operator<=>, converting constructor", "src/core/include/units/quantity_cast.h: quantity_cast", "src/core/include/units/bits/common_quantity.h", "src/systems/*/include/units/**/*.h"]}
{"id": "C66", "title": "Arithmetic on shipped dimensions finds the shipped dimension", "statement": "In a translation unit that includes any shipped headers, the dimension of a product, quotient or power of quantities is the declared dimension with the resulting exponents whenever one is declared, and never a declared dimension with other exponents.", "quantifier": "all sets of included headers and all expressions of any depth on shipped dimensions", "why_tests_cant": "unboundedly many expressions, and every combination of included headers", "anchors": ["src/core/include/units/bits/dimension_op.h: dimension_multiply, dimension_divide, dimension_pow", "src/core/include/units/bits/external/downcasting.h", "src/systems/*/include/units/**/*.h"]}
{"id": "C67", "title": "Types reported equivalent mean the same", "statement": "`units::equivalent` is reflexive and symmetric on quantity, point, kind and point kind types, and holds for two quantity types exactly when the same number denotes the same amount in both: equivalent dimensions and units of the same size.", "quantifier": "all pairs of quantity, quantity point, quantity kind and quantity point kind types, in particular of all shipped units", "why_tests_cant": "the trait is used by the static tests themselves to compare types, on a few pairs; there are hundreds of thousands of pairs of shipped types", "anchors": ["src/core/include/units/bits/equivalent.h: equivalent_impl, equivalent_unit, equivalent", "test/unit_test/static/test_tools.h: compare"]}
{"id": "C68", "title": "A width or precision taken from an argument means the number written in its place", "statement": "Formatting a quantity with a dynamic width or precision (`{}`, `{n}` or `{name}` inside the specification) gives the text that the specification with the numbers written in place of the references gives; arguments that are missing, negative, too large or not integers are errors; specifications without references do not depend on the other arguments.", "quantifier": "all specifications, numberings, argument lists, quantities and symbols", "why_tests_cant": "the references can appear at any place of an unbounded language and refer to any number of arguments by position, number or name; the unit tests use three specifications", "anchors": ["src/core-fmt/include/units/format.h: spec_handler::make_arg_ref, on_dynamic_width, on_dynamic_precision, formatter::format", "src/core-fmt/include/units/format.h: parse_units_rep"]}
{"id": "C69", "title": "Floating point conversions within the limits of the IEEE formats", "statement": "Converting a finite floating point (or integral) number to a floating point quantity of another unit gives a finite number whose amount differs from the exact one by a small relative error, plus at most the least positive number of the format, whenever the exact result is well within the range of the format; an infinity of the right sign when it is beyond the range; infinities, NaNs and signed zeros are kept; a conversion to an integral representation truncates such a result once and is undefined exactly when it does not fit. For double and the shipped units the relative error is at most 2e-14.", "quantifier": "all ratios, all finite and special values of float, double and long double, all integral values, all pairs of shipped units", "why_tests_cant": "extremes of the exponent range, denormal results and double rounding for every ratio", "anchors": ["src/core/include/units/quantity_cast.h:114-139", "src/core/include/units/bits/pow.h:42-59"]}
{"id": "C70", "title": "Sums and comparisons of floating point quantities on the IEEE formats", "statement": "A sum or difference of finite floating point quantities (or one such and an integral one) of moderate size is finite and differs from the exact sum of amounts by a small multiple of the magnitudes, plus at most three times the least positive number; a comparison of quantities whose amounts differ by more than such an error finds which one is less; where the conversion factors are exact no comparison is ever reversed; a NaN is unordered with, and unequal to, everything, and makes a sum a NaN; equality agrees with the order. For double and the shipped units the relative error is at most 2e-14.", "quantifier": "all pairs of equivalent quantity types, all finite and special values of float, double and long double, all integral values, all pairs of shipped units", "why_tests_cant": "rounding, cancellation and range limits for every pair of units and values", "anchors": ["src/core/include/units/quantity.h:378-413", "src/core/include/units/quantity.h:441-455"]}
{"id": "C71", "title": "Points and kinds that can be subtracted can be compared", "statement": "Two quantity points, quantity kinds or points of a kind whose difference is accepted can be compared for order (if their representations can) and for equality, in either order of the arguments, and the comparison is that of the underlying quantities. The constraint std::three_way_comparable_with (std::equality_comparable_with) on the underlying types holds exactly when the types have one dimension, or just one of them has an unknown dimension, or just one of them converts implicitly to the other.", "quantifier": "all pairs of quantity types, point types, kind types and point kind types, all origins", "why_tests_cant": "the constraint depends on implicit conversions in both directions and on a common type computed in both orders, for every pair of dimensions, units and representations", "anchors": ["src/core/include/units/quantity_point.h:188-200", "src/core/include/units/quantity_kind.h:365-377", "src/core/include/units/quantity_point_kind.h:170-182", "src/core/include/units/bits/common_quantity.h:92-121"]}
{"id": "C72", "title": "The dimension concepts mean the quantities they are named after", "statement": "A dimension satisfies the concept of a dimension class template (Length, Speed, Force, ...) only if, adding the exponents of its base dimensions by symbol, it has the exponents of that quantity in the ISQ, in whatever system of quantities and from whatever units and dimensions it was defined; a dimension that satisfies two concepts satisfies those of quantities with the same dimension. In the mode without downcasting an unnamed dimension that has the exponents of a quantity satisfies its concept.", "quantifier": "all systems of quantities, all chains of instantiations of the class templates, all dimensions, all lists of exponents", "why_tests_cant": "the templates can be instantiated by users from any dimensions that satisfy other concepts, without a bound on the number of systems and definitions", "anchors": ["src/core/include/units/bits/quantity_of.h:30-68", "src/systems/isq/include/units/isq/dimensions/force.h:29-38", "src/systems/isq/include/units/isq/dimensions/energy.h:31-41", "src/core/include/units/derived_dimension.h:39-88"]}
{"id": "C73", "title": "Constructors and implicit conversions between quantities, points, kinds and point kinds", "statement": "An implicit conversion gives what the explicit constructor gives, and stays within one class template, except that a number becomes a quantity of dimension one in the unit one; within one template everything constructible converts implicitly. Each template is constructible only from the listed sources (a kind or point kind from a number only if it is dimensionless), with equivalent origins and one base kind where both sides have them. Construction from a quantity, a duration, a time point or another wrapper keeps the amount and construction from a number keeps the number; a quantity makes a wrapper exactly when it converts to the underlying quantity; unwrapping and wrapping again is the identity; zero, one, min and max of the wrappers hold the numbers of those of the quantity.", "quantifier": "all dimensions, units, representations, kinds, origins, values, durations and time points", "why_tests_cant": "the constraints of the constructors interact across five kinds of sources and four templates, for unboundedly many dimensions, units and kinds", "anchors": ["src/core/include/units/quantity.h:145-160", "src/core/include/units/quantity_point.h:73-109", "src/core/include/units/quantity_kind.h:92-143", "src/core/include/units/quantity_point_kind.h:60-97"]}
{"id": "C74", "title": "What is printed for a unit means that unit", "statement": "The text printed for a unit, in the standard and in the ASCII notation, reads as the size of the unit, if symbols of units and prefixes have their meaning in the SI Brochure, IEC 80000-13 and NIST SP 811, a number in front multiplies, a slash divides by the next factor and powers are as written. This holds for every unit without a symbol of its own in a shipped dimension, whatever its ratio; for every shipped unit with a symbol; and for every unit of a dimension that is a product of integral powers of base dimensions of a system.", "quantifier": "all shipped units and dimensions, all ratios, all integral exponents, any number of base dimensions, both notations", "why_tests_cant": "there are unboundedly many ratios and products; a test compares with an expected text written by the same author and does not say what the text means", "anchors": ["src/core/include/units/bits/unit_text.h:68-178", "src/core/include/units/unit.h:53-235", "src/core/include/units/prefix.h:51-78"]}
{"id": "C75", "title": "Products, quotients, scaling and roots on the IEEE formats", "statement": "For quantities with floating point or mixed representations the product, the quotient, multiplication and division by a number (also in place), and the square root denote the exact result within a few relative rounding errors plus less than one smallest denormal; a result of more than twice the largest finite number is an infinity of the right sign; when the operands convert exactly the number is the representable one nearest to the exact result. Multiplication commutes. NaN, infinities, zeros and division by zero behave as in IEEE 754; negation and absolute value are exact. In-place scaling of an integral quantity truncates once and is undefined when it does not fit; the root of an integral quantity is its integral square root.", "quantifier": "all quantities in all units and dimensions, the formats binary32, binary64 and x87 extended, all integral types, all finite and special values", "why_tests_cant": "about 2^128 pairs of doubles, and the interesting ones are denormal, near overflow or on rounding boundaries", "anchors": ["src/core/include/units/quantity.h:179-256", "src/core/include/units/quantity.h:319-357", "src/core/include/units/quantity.h:415-428", "src/core/include/units/math.h:73-81", "src/core/include/units/math.h:121-126"]}
{"id": "C76", "title": "Representation types supplied by the user", "statement": "A representation is a regular, scalable type that neither is a quantity nor wraps one at any depth; it is treated as floating point iff its innermost elements are. For every representation whose conversions and operators act as those of a real vector space, quantity_cast multiplies by the ratio of the units and keeps the amount. Converting a class around a number or a vector of numbers of any length gives what converting the number, or each element, gives; for the arithmetic types the general definition is the one of C22, C23 and C33.", "quantifier": "all systems of types and operators, all vector lengths, all arithmetic element types, all ratios, all values", "why_tests_cant": "the representation is a template parameter: the tests use three classes, and the set of types is open", "anchors": ["src/core/include/units/bits/basic_concepts.h:396-458", "src/core/include/units/customization_points.h:40-45", "src/core/include/units/quantity_cast.h:80-139", "docs/use_cases/custom_representation_types.rst:14-59"]}
{"id": "C77", "title": "The operators of quantity for representation types supplied by the user", "statement": "For every representation whose conversions and operators act as those of a real vector space, the sum, difference, product, quotient, multiples, reciprocals, negation, unary plus, steps by one, compound assignments, equality and comparison of quantities are those of the amounts, in the largest common unit for sums and in the unit of the left operand for assignments. With values that mean integers `%` leaves less than the divisor, of the sign of the dividend. An operator that is accepted never takes a quantity for a value and never brings a fraction to a representation without one. With a class that offers only *, / and == the quantities are converted, multiplied, divided and compared for equality as the number in it and every other operator does not compile; for the arithmetic types the general operators are those of C25 to C31.", "quantifier": "all systems of types and operators, all units and equivalent dimensions, all values", "why_tests_cant": "the representation is a template parameter: the tests use two classes with a few values each, and the set of types is open", "anchors": ["src/core/include/units/quantity.h:42-91", "src/core/include/units/quantity.h:150-286", "src/core/include/units/quantity.h:288-455", "src/core/include/units/bits/common_quantity.h:45-77", "test/unit_test/static/custom_rep_test_min_expl.cpp:37-140", "test/unit_test/static/custom_rep_test_min_impl.cpp:36-160"]}
{"id": "C78", "title": "Measurements with uncertainty as a representation", "statement": "The class of the measurement example is a representation, and as the representation of a quantity it propagates uncertainty to first order: the value of a sum, difference, product, quotient or multiple is that of the values, and the square of the uncertainty is the sum of the squares of each uncertainty times the partial derivative of the operation there. Uncertainties stay non-negative, products and sums commute, and bounds lie around the value. Converting units multiplies the value as for a double, and the uncertainty with it: the relative uncertainty changes only by rounding errors. The operators of quantity apply those of the class to the numbers in the common unit. Order and equality are those of the value first and then of the uncertainty.", "quantifier": "all real values and uncertainties; all IEEE doubles, all hypot functions, all units and ratios for the class as written", "why_tests_cant": "the example has no test at all; it prints a few results with one value each", "anchors": ["example/measurement.cpp:34-118", "example/measurement.cpp:125-145", "src/core/include/units/quantity_cast.h:80-139"]}
{"id": "C79", "title": "The Kalman filters of the examples", "statement": "The functions of the Kalman filter examples compute what the filter equations say, in whatever compatible units the quantities or points are given: the update moves the state to x + k (z - x), the gain is p / (p + r) and lies between 0 and 1, the new variance (1 - k) p is the least that any gain achieves, extrapolation is uniform or uniformly accelerated motion. Consequently, after any number of measurements: the averaging filter yields the mean of the measurements whatever the initial guess; without process noise the precisions add up and the state is the mean weighted by precision; with process noise the variance stays positive and the state stays between the extremes of the initial state and the measurements; the tracking filter is the alpha-beta recurrence on the amounts and follows a uniform motion without error.", "quantifier": "all lists of measurements of any length, all states, variances, gains and intervals, all compatible units and representations of the measurements; exact floating point", "why_tests_cant": "the examples print one run each and there is no test; the claims are about runs of any length and any combination of units", "anchors": ["example/kalman_filter/kalman.h:86-149", "example/kalman_filter/kalman_filter-example_1.cpp:56-62", "example/kalman_filter/kalman_filter-example_2.cpp:60-65", "example/kalman_filter/kalman_filter-example_5.cpp:65-71", "example/kalman_filter/kalman_filter-example_6.cpp:99-105"]}
{"id": "C80", "title": "The glide computer of the examples", "statement": "On flat ground, with exact arithmetic, a glider that sinks, a cloud base above the height for safety and thermals stronger than the sink, `estimate` ends: after the tow it prints as many rounds of a glide and a climb as the height still needed divided by the usable height band, rounded up, and a final glide. Every glide ends at the height for safety at the distance the glide ratio gives, on the right leg; every climb ends at the cloud base, the last one exactly at the altitude from which the glide ratio reaches the finish; durations are the length of the line divided by the speed and the height divided by the rate of climb; the heights gained add up to the height needed. On any ground, a glide ends at the intersection of the glide line and the line to the finish, and a climb stops at the cloud base above the ground or when the height is gained.", "quantifier": "all numbers of legs and lengths, altitudes, speeds, rates, heights, starting times, all square root functions", "why_tests_cant": "the example has no test: it prints the tables of four gliders in three weathers on one task", "anchors": ["example/glide_computer/glide_computer.cpp:31-64", "example/glide_computer/glide_computer.cpp:80-164", "example/glide_computer/include/glide_computer.h:70-217"]}
{"id": "C81", "title": "Distances on the globe in the examples", "statement": "Over the real numbers, `spherical_distance` is the radius of the earth times the angle between the two places seen from the centre, by both of its formulas (law of cosines and haversine), so it is a metric bounded by half the circumference, zero only between equal places, proportional to the difference of latitudes on a meridian and of longitudes on the equator. In doubles it is symmetric, and the distance from a place to itself is 0. Coordinates are printed as their direction and magnitude, as literals are written.", "quantifier": "all latitudes and longitudes; all implementations of the functions of <cmath> of the stated accuracy", "why_tests_cant": "the example has no test; distances are known for a few places only, and the failing latitudes are rare", "anchors": ["example/glide_computer/geographic.cpp:31", "example/glide_computer/geographic.cpp:37-61", "example/glide_computer/include/geographic.h:42-88", "example/glide_computer/include/geographic.h:108-136"]}
{"id": "C82", "title": "Which classes are units, dimensions, kinds and origins", "statement": "A type is a prefix, unit, base dimension, derived dimension, point origin, kind or point kind only if exactly one specialization of the template concerned is among its bases, on one path; a class without multiple inheritance is at most one of these, and none is a family of prefixes. Every class declared with the templates of the library is what it was declared to be, with the reference, family of prefixes, dimension, base kind and origin that were given, whether downcasting is on, off or off for this class because of a collision; the units of a dimension are those with the reference of its unit; a point kind needs an origin of the dimension of its kind; a dynamic origin can be moved to every dimension, a static one without a `rebind` of its own to none but its own. `point_origin<D>` itself is no origin.", "quantifier": "all programs: all class hierarchies, member types and `rebind` templates that a program adds to those of the library, all ways of downcasting", "why_tests_cant": "the classes are those of programs that do not exist yet; the tests name a few classes of the library, none with two bases or cv-qualified", "anchors": ["src/core/include/units/bits/basic_concepts.h:48-301", "src/core/include/units/bits/external/type_traits.h:68-78", "src/core/include/units/bits/external/downcasting.h:38-85", "src/core/include/units/kind.h:35-66", "src/core/include/units/point_origin.h:29-32", "src/core/include/units/unit.h:53-235", "src/core/include/units/prefix.h:39-78"]}
{"id": "C83", "title": "Quantities and points of other libraries", "statement": "An object of a type for which `quantity_like_traits` is specialized as documented can be turned into a quantity: by deduction with the dimension, unit, representation and number of the traits, and into a given type exactly if the quantity of the traits converts to it, with the same amount. A point of a type for which `quantity_point_like_traits` is specialized as documented can be turned into a point of its origin, at the amount of its value; types with other origins are rejected. Durations and time points of `std::chrono` are such objects.", "quantifier": "all types of other libraries (all sets of members of the traits), all values, all target types", "why_tests_cant": "the only such types in the repository are those of std::chrono, for which the concept is specialized by hand", "anchors": ["src/core/include/units/bits/basic_concepts.h:463-485", "src/core/include/units/customization_points.h:75-99", "src/core/include/units/quantity.h:97-98", "src/core/include/units/quantity.h:158-160", "src/core/include/units/quantity.h:395-396", "src/core/include/units/quantity_point.h:85-89", "src/core/include/units/quantity_point.h:213-216", "src/core/include/units/chrono.h:34-61", "docs/use_cases/interoperability.rst:57-60"]}
{"id": "C84", "title": "The small example programs", "statement": "The programs print what they announce. Box: level times base times density is the mass, the percentage is of the height, the spare capacity is the volume less that of the contents, flow and rise times the time are mass and level, and after the time left the box is full. Total energy: with e² = p² + m² the energy is e GeV, from SI values e · 1.602176634e-10 J, back e GeV, in natural units e GeV. Capacitor: one row for each millisecond, with v₀ · exp(-t/RC) in the largest unit with a number of at least one. Average speed: exactly distance by time in double; in int off by less than one unit of the result type. Conversion factor: converting multiplies the number by it.", "quantifier": "all dimensions, densities, masses and times of the box; all momenta, masses and speeds of light; all resistances, capacitances, voltages and lengths of the loop; all distances and times; all quantity types", "why_tests_cant": "the programs run on one set of literals each, and nothing checks what they print", "anchors": ["example/literals/box_example.cpp:50-105", "example/literals/total_energy.cpp:38-89", "example/literals/capacitor_time_curve.cpp:42-62", "example/literals/avg_speed.cpp:38-70", "example/conversion_factor.cpp:30-39"]}
{"id": "C85", "title": "Common types of points, kinds and points of a kind", "statement": "Two types of quantity points, quantity kinds or points of a kind have a common type exactly if their origins, kinds, or both are equivalent. It is the type over the common type of the two quantity types, whose unit is the greatest common measure, measured from the origin of one of the points and of the kind of the first operand; both types convert to it implicitly. Generic code may compare two types of points exactly when their operators accept them.", "quantifier": "all environments, user-defined rebindings of origins, origins, kinds, units, representations", "why_tests_cant": "the static tests name common types for a few pairs of one system of units", "anchors": ["src/core/include/units/bits/common_quantity.h:79-122", "src/core/include/units/bits/quantity_of.h:76-136", "src/core/include/units/quantity_point.h:81-83", "src/core/include/units/quantity_point_kind.h:75-77"]}
{"id": "C86", "title": "Strings and symbol texts from characters, literals and each other", "statement": "A compile-time string made from a literal has its characters, is terminated, is iterated over, subscripted and printed as those characters, and equals a character or literal exactly if it has the same characters. Adding a string, literal, character or symbol text on either side of a symbol text joins the characters of both versions in the order written, and is accepted exactly if the second version stays ASCII.", "quantifier": "all lengths, all character values, all operands", "why_tests_cant": "the tests build and compare a handful of short literals, none with zeros, of size zero or of a wide character type", "anchors": ["src/core/include/units/bits/external/fixed_string.h:44-96", "src/core/include/units/bits/external/fixed_string.h:118-122", "src/core-io/include/units/bits/external/fixed_string_io.h:30-34", "src/core/include/units/symbol_text.h:38-161"]}
{"id": "C87", "title": "A quantity of vectors behaves as a vector of quantities", "statement": "For a quantity whose representation is a vector, quantity_cast, implicit conversion, sums, differences, the negative, products with and quotients by numbers and quantities, the product of two vectors, compound assignments and == give exactly the numbers and units that come out when every element is a quantity of its own.", "quantifier": "all vectors of all sizes, all element types, all units, all rounding functions that keep one and ten", "why_tests_cant": "the example prints a few vectors of three doubles and checks nothing; the vector versions multiply by a ratio of another type than the element versions", "anchors": ["example/references/linear_algebra.cpp:72-300", "src/core/include/units/quantity_cast.h:74-139", "src/core/include/units/quantity.h:110-455", "src/core/include/units/bits/common_quantity.h:45-77"]}
{"id": "C88", "title": "Points and kinds of floating point numbers follow the affine laws up to rounding, and exactly for near points", "statement": "With IEEE numbers, p + q, p - q, p1 - p2, (p + q) - p, conversions and comparisons of points in any units are right up to a few roundings and never NaN for finite points of moderate size; the difference of two near points of one type is exact and p + (r - p) == r; moving two points by one quantity never reverses their order; ++p moves by exactly one unit up to the size of the significand; and all operators of kinds give what the underlying quantities give.", "quantifier": "all points, kinds and quantities of float, double and long double (and integers mixed with them), all units, origins and kinds", "why_tests_cant": "tests compare a few literals that are exact in binary; cancellation, lost increments and the order of translated points depend on the last digit of every operand", "anchors": ["src/core/include/units/quantity_point.h:60-200", "src/core/include/units/quantity_kind.h:39-377", "src/core/include/units/quantity.h:378-455"]}
{"id": "C89", "title": "Powers, cube roots and exponentials with an inexact <cmath> have the error of the function called and no more, except for integers", "statement": "For floating point quantities in any units, pow<N>(q) and cbrt(q) denote the power and the root of the amount with the relative error of std::pow and std::cbrt alone (one more rounding for float powers); pow<Num, Den>(q) adds the effect of rounding the exponent Num/Den, and exp(q) of a dimensionless quantity the effect of converting its argument and its result; pow<0>(q) is one whatever q is. For integers pow<N>(q) is the exact power while it is below 2^53 and cbrt(q) the truncated root below 2^51.", "quantifier": "all quantities of all representations and units, all exponents, every <cmath> within a stated accuracy", "why_tests_cant": "tests call one standard library on a few perfect powers; the accuracy of the library's functions differs, and the failures depend on the last digit of the rounded exponent or power", "anchors": ["src/core/include/units/math.h:50-63", "src/core/include/units/math.h:91-99", "src/core/include/units/math.h:109-113"]}
{"id": "C90", "title": "In double precision the one-variable Kalman filters stay within rounding of the exact filter: gains in [0, 1], variances that never turn negative, estimates and averages near the measurements", "statement": "For a state of one variable (a quantity or a point) held as double and measurements of its unit as doubles or integers: the gain is in [0, 1] and within a relative error of 3 units of p/(p+r); covariance_update never returns a negative variance nor one above p, and is close to pr/(p+r); after n measurements the state is within accumulated rounding of the range of the first guess and the measurements and the variance is bounded for ever, with or without process noise; the running average of the first example is within (6n+14) units of the mean; an uncertainty 2^56 times that of the measurements makes the gain exactly one, the variance exactly zero and, without process noise, all later measurements without effect; two zero variances give NaN.", "quantifier": "all variances, states, gains, noises and all sequences of measurements of any length, all rounding errors", "why_tests_cant": "the examples print a few tables of ten measurements; the sign of a variance, the bound after any number of steps and the collapse of the gain depend on the rounding of every single operation", "anchors": ["example/kalman_filter/kalman.h:86-98", "example/kalman_filter/kalman.h:120-124", "example/kalman_filter/kalman.h:145-149", "example/kalman_filter/kalman_filter-example_1.cpp:56-62", "example/kalman_filter/kalman_filter-example_5.cpp:65-71"]}
{"id": "C91", "title": "Quantities of integers that wrap around: casts, sums and comparisons are specified without any condition that numbers fit", "statement": "A cast of a non-negative number involving std::uint64_t with the ratio N/D gives ((v·N) mod 2^64)/D; it is the amount rounded towards zero if and only if v·N < 2^64 and otherwise too small by at least 2^64/D units, even if the exact result fits.  A sum or difference in an unsigned type is the exact one modulo the range of the type in the greatest common unit, whatever intermediate results do, so it is exact if and only if the exact result is in range; addition is commutative and associative and subtraction undoes it even when they wrap.  == of integral quantities answers whether the amounts agree modulo the range of the common type, <=> compares the residues; in consequence 1 km == 232 m in std::uint8_t.", "quantifier": "all units, all dimensions, all integral representations and all numbers, including those that overflow", "why_tests_cant": "wrap-around depends on the number, the ratio of the units and both representations; no test can enumerate 2^64 numbers for all pairs of units", "anchors": ["src/core/include/units/quantity_cast.h:114-139", "src/core/include/units/quantity.h:399-413", "src/core/include/units/quantity.h:378-388", "src/core/include/units/quantity.h:441-455", "src/core/include/units/bits/common_quantity.h:45-77"]}
{"id": "C92", "title": "The remaining example programs: custom systems, unknown dimensions, angles, hello, ships and the response", "statement": "custom_systems.cpp: yards without a relation to the metre are rejected by a cast to kilometres for every representation and number, yards of si::fps give 0.0009144 km each, and the product of two lengths in yards is nine times the product in square feet in both systems.  unknown_dimension.cpp computes d/t·a/b·c exactly with a floating point representation; with integers both quotients are truncated (bounds on the loss).  experimental_angle.cpp: an energy by a torque is the quotient in radians.  hello_units.cpp: the speeds and their conversions.  foot_pound_second.cpp: every printed number for any ship given in metric or in imperial units of any representation.  clcpp_response.cpp: a length in eighteen units is the number by the metres in the unit, for double.  The versions of a program that differ only in the spelling of constants should agree: they do not.", "quantifier": "all numbers of the constants and all their representations", "why_tests_cant": "the programs run on one set of constants each, and nothing compares the versions with references, literals and aliases", "anchors": ["example/custom_systems.cpp:32-123", "example/hello_units.cpp:33-65", "example/references/unknown_dimension.cpp:32-57", "example/references/experimental_angle.cpp:37-49", "example/references/foot_pound_second.cpp:44-103", "example/references/clcpp_response.cpp:61-112", "example/aliases/unknown_dimension.cpp:32-57"]}
{"id": "C93", "title": "Whole expressions in IEEE floating point", "statement": "An expression of products, quotients, scalings, sums of amounts of one sign and casts of quantities, nested to any depth and with any mixture of integer and floating point representations and units, evaluates to a finite number of the right sign whose amount is the exact amount up to a relative error of at most 2·k·u, where u is the unit roundoff of the least precise format and k a count of the roundings, provided the exact amounts of the parts are in the normal ranges of their types.  Two expressions for one amount agree up to their roundings.  Applied to unknown_dimension.cpp (aliases), hello_units.cpp and avg_speed.cpp in double precision.  A final truncation to an integer should lose less than one unit: it does not.", "quantifier": "all expressions, all finite numbers of all formats, all units and dimensions meeting the stated conditions", "why_tests_cant": "the tests check single operations on a handful of exactly representable numbers, mostly at compile time", "anchors": ["src/core/include/units/quantity.h:319-345", "src/core/include/units/quantity.h:399-428", "src/core/include/units/quantity_cast.h:114-139", "example/aliases/unknown_dimension.cpp:31-49", "example/hello_units.cpp:34-56", "example/literals/avg_speed.cpp:45-70"]}
{"id": "C94", "title": "Expressions with sums of any sign, and the filter with a position and a speed, in IEEE floating point", "statement": "An expression of products, quotients, scalings, casts and sums and differences of quantities of any signs, nested to any depth and in mixed representations and units, whose parts may vanish or underflow, evaluates to a finite number whose amount differs from the exact amount by at most 2·k·u times the magnitude of the expression (the sum of the absolute amounts added, padded by the smallest normal number), provided the magnitudes stay below overflow and divisors are away from zero.  If the exact amount exceeds this bound the computed amount has its sign.  Applied to state_update and state_extrapolation of the filter with a position and a speed: after n ≤ 40 measurements in double precision position and speed differ from those of exact arithmetic by at most 1000·n·2^n/2^53 times a bound on the positions.", "quantifier": "all expressions, all numbers of all formats within the stated ranges, all gains between 0 and 1, all intervals from 2^-5 s to 2^20 s, all lists of at most 40 measurements", "why_tests_cant": "the examples are run once with fixed measurements and their output is not checked", "anchors": ["src/core/include/units/quantity.h:319-345", "src/core/include/units/quantity.h:371-428", "example/kalman_filter/kalman.h:100-107", "example/kalman_filter/kalman.h:127-133", "example/kalman_filter/kalman_filter-example_2.cpp:50-66"]}
{"id": "C95", "title": "The filter with a position, a speed and an acceleration in IEEE floating point", "statement": "In double precision, state_update with three variables gives p + k1 (m - p), v + k2 (m - p) / t and a + k3 (m - p) / (t² / 2), and state_extrapolation gives p + v t + a t² / 2, v + a t and a, up to fixed numbers of roundings relative to the sums of the magnitudes of the terms and the error of std::pow; the measurement may be an integer or a double.  The whole program, which extrapolates the initial state and then updates and extrapolates for each measurement, gives the state of exact arithmetic up to 1800 n 3^n 2^-53 times the size of the data for n - 1 measurements (at most 29).  Updates are accepted only for measurements of an equivalent dimension and dimensionless gains.  The same should hold for an integral interval: it does not.", "quantifier": "all states, measurements and gains up to 2^100 in magnitude, all intervals from 2^-100 s to 2^100 s, all implementations of std::pow with a bounded relative error", "why_tests_cant": "the example is run once with fixed measurements and its output is not checked", "anchors": ["example/kalman_filter/kalman.h:109-117", "example/kalman_filter/kalman.h:135-142", "example/kalman_filter/kalman_filter-example_4.cpp:46-68", "src/core/include/units/math.h:50-63"]}
{"id": "C96", "title": "The total energy of a particle in IEEE floating point", "statement": "In double precision and with a std::pow of relative error δ (at least 2^-53) on squares, total_energy gives √((p c)² + (m c²)²) with a relative error of at most 8 δ, also for a particle at rest or without mass; si_example gives √(p² + m²) GeV for a momentum of p GeV/c and a mass of m GeV/c² whatever the number for the speed of light (12 δ), the same energy in joules from kilograms and metres per second (64 δ), and that converted back to GeV (116 δ); natural_example gives √(p² + m²) GeV with the speed of light one (8 δ).", "quantifier": "all momenta and masses that are zero or from 2^-100 to 2^100 in magnitude, all speeds of light from 2^-100 to 2^100, all implementations of std::pow with a bounded relative error on squares", "why_tests_cant": "the example is run once with 4 GeV and 3 GeV and its output is not checked", "anchors": ["example/references/total_energy.cpp:38-41", "example/references/total_energy.cpp:43-72", "example/references/total_energy.cpp:74-88", "src/core/include/units/math.h:50-81"]}
{"id": "C97", "title": "The discharge of a capacitor in IEEE floating point", "statement": "In double precision, with times in int and a std::exp of relative error δ (from 2^-53 to 2^-20), the program that prints the voltage of a discharging capacitor computes V0 · exp(-t / (R C)) with a relative error of at most δ (6 + 18 t / (R C)); it prints one row for each millisecond from zero to the last one, in order, and stops; each row shows the time and that voltage (with δ (8 + 18 t / (R C))) in volts, millivolts, microvolts, nanovolts or picovolts, with a number of at least one unless the unit is the picovolt and at most 1000 unless it is the volt.", "quantifier": "all initial voltages that are zero or from 2^-100 to 2^100 in magnitude, all resistances and capacitances from 2^-100 to 2^100, all last times below 2^31 - 1 up to 240 times R C, all implementations of std::exp with a bounded relative error", "why_tests_cant": "the example is run once with one capacitor and its output is not checked", "anchors": ["example/references/capacitor_time_curve.cpp:45-65", "src/core/include/units/math.h:105-113", "src/core/include/units/quantity_cast.h:107-133"]}
{"id": "C98", "title": "The filling of a box in IEEE floating point", "statement": "In double precision, the program about the filling of a box prints the level m/(ρ l w), the part of the height in percent, the flow m/t and the rise of the level with relative errors of at most 30, 38, 2 and 32 units of 2^-53, the spare volume l w h - m/ρ with an error of at most 44 units of 2^-53 of l w h + m/ρ, and the time left t (ρ l w h / m) - t with an error of at most 40 units of 2^-53 of the sum of the two magnitudes; it stops at the assertion when the density is not above that of air.", "quantifier": "all sides in millimetres, densities, masses and times in double from 2^-100 to 2^100 in magnitude, the density above that of air (for the assertion: all finite densities up to that of air and all other numbers)", "why_tests_cant": "the example is run once with one box and its output is not checked", "anchors": ["example/references/box_example.cpp:45-101", "src/core/include/units/quantity.h:304-310", "src/core/include/units/quantity_cast.h:107-133"]}
{"id": "C99", "title": "Measurements with an uncertainty in IEEE floating point", "statement": "For measurement<double> with a std::hypot of relative error δ (at least 2^-53), products and quotients of measurements have the value and the uncertainty of the rule for independent errors (the root of the sum of the squares of the uncertainties, each multiplied by the partial derivative) with relative errors of at most 2 δ and 8 δ, products and quotients with numbers with 2 δ and 6 δ, and sums and differences with δ (also where the values cancel) and 2 δ; the example program computes a · t with 2 δ and 8 δ, the same in km/h with 6 δ and 20 δ, and 10 · l with 2 δ and 6 δ.", "quantifier": "all values from 2^-100 to 2^100 in magnitude (for sums and differences also zero), all uncertainties that are zero or in that range, all implementations of std::hypot with a bounded relative error", "why_tests_cant": "the class is only run in an example, with three measurements, and its output is not checked", "anchors": ["example/measurement.cpp:34-118", "example/measurement.cpp:127-143", "src/core/include/units/quantity_cast.h:107-133"]}
{"id": "C100", "title": "Vectors of quantities in IEEE floating point", "statement": "The product of two vectors of quantities in double precision of the same length n from 1 to 2^52 is a quantity of the type of the products of the elements, and differs from the sum of the products by at most ((1 + 2^-53)^n - 1) times the sum of the magnitudes of the products, which is a relative error where no term is negative; exchanging the vectors gives the same number to the last bit; vectors of different lengths have no product and no sum; the elements of sums and differences of vectors of one type and of products of a quantity with a vector are those of the elements with a relative error of at most 2^-53; metres plus kilometres are metres with two roundings; the elements of a matrix times a vector and of a vector times a matrix are the products with the rows and columns, and those of a whole number times a vector the products with a relative error of at most 2^-53. For the program: metres times metres are square metres and newtons times metres are joules.", "quantifier": "all systems of units and all types with a product, all lengths up to 2^52, all elements that are zero or from 2^-100 to 2^100 in magnitude (for sums, all finite elements whose sum does not exceed 2^1023; for the exchange and the lengths, all elements)", "why_tests_cant": "the program is run once with vectors of three small integers, for which all operations are exact, and its output is not checked", "anchors": ["example/references/linear_algebra.cpp:72-185", "src/core/include/units/quantity.h:399-420"]}
{"id": "C101", "title": "Average speeds and conversion factors in IEEE floating point", "statement": "In double precision, the function of the average speed program that takes metres and seconds prints the quotient of the distance and the time in km/h with a relative error of at most 10 * 2^-53 from kilometres and 12 * 2^-53 from miles, or centimetres of the CGS system (for quantities of integers, too, from kilometres and miles), and the functions that keep the units with at most 2 * 2^-53 from kilometres, 8 * 2^-53 from miles and 6 * 2^-53 from centimetres, which the function for the SI does not take; from kilometres and hours, the latter print the quotient of the two numbers as the processor computes it, to the last bit. Converting a quantity multiplies its number by conversion_factor, to the last bit.", "quantifier": "all distances that are zero or from 2^-100 to 2^100 in magnitude and all times from 2^-100 to 2^100 (integers: all up to 2^31 in magnitude, the time not zero; for the quotient to the last bit, all numbers with infinities and not-a-number); for the conversion factor all systems of units, all convertible types of one floating point type (float, double, long double) and all their numbers", "why_tests_cant": "the programs are run with one distance and one time per unit, and their output is not checked", "anchors": ["example/references/avg_speed.cpp:38-70", "example/literals/avg_speed.cpp:38-70", "example/conversion_factor.cpp:30-39", "src/core/include/units/quantity_cast.h:114-139"]}
{"id": "C102", "title": "The response and the first program in IEEE floating point", "statement": "In double precision, the program of the response prints a length in metres in each of its eighteen units as the number divided by the metres in the unit, with a relative error of at most 4 * 2^-53. The program that greets computes from whole kilometres and hours the truncated quotient and its value in m/s with a relative error of at most 4 * 2^-53, and from miles and hours the speed in m/s with at most 6 * 2^-53, and casts it to int by truncation of what was computed.", "quantifier": "all lengths and distances that are zero or from 2^-100 to 2^100 in magnitude, all times from 2^-100 to 2^100, with a quotient of at most 2^31; all whole kilometres up to 2^31 in magnitude and all whole hours other than zero", "why_tests_cant": "the programs are run with one length and one speed, and their output is not checked", "anchors": ["example/references/clcpp_response.cpp:88-111", "example/hello_units.cpp:34-56", "src/core/include/units/quantity_cast.h:114-219"]}
{"id": "C103", "title": "The ships of the foot-pound-second program in IEEE floating point", "statement": "In double precision, every number that the foot-pound-second program prints for a ship (ten lines of a member and its values in two other units, the last one the volume of the water displaced) is the exact amount in the unit of the column, with a foot of 0.3048 m and a pound of 0.45359237 kg, up to a relative error of at most 20 * 2^-53; for ships given in metric units and for ships given in feet, feet and inches, knots, long tons, inches, pounds, feet per second and horsepower.", "quantifier": "all numbers of the members, each an integer of any integer type of at most 2^31 in magnitude or a double that is zero or from 2^-100 to 2^100 in magnitude; feet and inches that are added are doubles and not negative", "why_tests_cant": "the program is run with three ships, and its output is not checked", "anchors": ["example/references/foot_pound_second.cpp:44-103", "src/core/include/units/quantity.h:399-428", "src/core/include/units/quantity_cast.h:114-219"]}
{"id": "C104", "title": "Unknown dimensions, angles and custom systems in IEEE floating point", "statement": "In double precision, the program with the unknown dimension computes its speed, product, second speed and distance with relative errors of at most 2, 4, 6 and 8 units of 2^-53; the program of the angle gives the quotient of the numbers of the energy and the torque as the processor computes it, to the last bit; in the program of custom systems, yards not based on the metre do not convert to kilometres, those based on it do with a relative error of at most 6 * 2^-53, and areas of yards are nine times as many square feet with at most 4 * 2^-53.", "quantifier": "all numbers that are zero or from 2^-100 to 2^100 in magnitude, and divisors of that range other than zero; for the angle all numbers with infinities and not-a-number", "why_tests_cant": "the programs are run with one number each, and their output is not checked", "anchors": ["example/aliases/unknown_dimension.cpp:32-48", "example/references/experimental_angle.cpp:43-46", "example/custom_systems.cpp:33-97", "src/core/include/units/quantity.h:415-428"]}
{"id": "C105", "title": "Quantities of vectors are vectors of quantities, to the last bit", "statement": "In double precision, converting quantities of vectors, adding and subtracting them and quantities of matrices, multiplying them with each other, with quantities of matrices, with quantities of numbers and with integers gives the quantities that the same operations on the vectors of their elements give, to the last bit, and one of the two compiles when the other does; the product of two quantities of vectors has an error of at most (1 + 2^-53)^n - 1 times the sum of the magnitudes of the products of their elements.", "quantifier": "all systems of units, all types of quantities in double precision, all vectors and matrices that are not empty, with infinities and not-a-number; for the error, elements that are zero or from 2^-100 to 2^100 in magnitude and up to 2^52 of them", "why_tests_cant": "the program prints the results of both halves for vectors of three small integers, and they are not compared", "anchors": ["example/references/linear_algebra.cpp:208-330", "src/core/include/units/quantity_cast.h:80-139", "src/core/include/units/quantity.h:155-156", "src/core/include/units/quantity.h:328-335", "src/core/include/units/quantity.h:399-420"]}
