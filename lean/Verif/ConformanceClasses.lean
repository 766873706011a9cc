import Verif.Classes

/-!
# The assertions of the tests about concepts

The declarations used by test/unit_test/static/concepts_test.cpp, point_origin_test.cpp and kind_test.cpp, and their assertions.  These are tests of the
model, evaluated and not proved.
-/

namespace Verif.ConformanceClasses

open LibClass

/-- The declarations of the tests: src/systems/isq/include/units/isq/si (length.h, speed.h, time.h, prefixes.h, cgs/length.h, fps/length.h), and lines 35-46 of
test/unit_test/static/point_origin_test.cpp and 47-49, 112-115 of test/unit_test/static/kind_test.cpp. -/
def tests : Program where
  bases
    | "si_prefix" => [.prefixFamily]
    | "kilo" => [.prefix (.user "kilo") (.user "si_prefix") "k" ⟨1, 1, 3⟩]
    | "metre" => [.namedUnit (.user "metre") "m" (.user "si_prefix")]
    | "second" => [.namedUnit (.user "second") "s" (.user "si_prefix")]
    | "kilometre" => [.prefixedUnit (.user "kilometre") (.user "kilo") (.user "metre") ⟨1, 1, 3⟩ (.user "metre")]
    | "centimetre" => [.prefixedUnit (.user "centimetre") (.user "centi") (.user "metre") ⟨1, 1, -2⟩ (.user "metre")]
    | "mile" => [.namedScaledUnit (.user "mile") "mi" .noPrefix (.user "foot") ⟨1609344, 1000000, 3⟩ (.user "metre")]
    | "metre_per_second" => [.unit (.user "metre_per_second")]
    | "square_metre" => [.unit (.user "square_metre")]
    | "dim_length" => [.baseDimension "L" (.user "metre")]
    | "cgs_dim_length" => [.baseDimension "L" (.user "centimetre")]
    | "dim_time" => [.baseDimension "T" (.user "second")]
    | "dim_speed" => [.derivedDimension (.user "dim_speed") (.user "metre_per_second") "L T-1" "L T-1"]
    | "dim_area" => [.derivedDimension (.user "dim_area") (.user "square_metre") "L2" "L2"]
    | "radian" => [.namedUnit (.user "radian") "rad" .noPrefix]
    | "dim_angle" => [.baseDimension "A" (.user "radian")]
    | "radius" => [.kind (.user "radius") (.user "dim_length")]
    | "azimuth" => [.kind (.user "azimuth") (.user "dim_angle")]
    | "width" => [.kind (.user "width") (.user "dim_length")]
    | "abscissa" => [.pointKind (.user "abscissa") (.user "width") (.dynamicOrigin (.user "dim_length")) (.user "dim_length")]
    | "ones_viewpoint1" => [.pointOrigin (.user "dim_length")]
    | "ones_viewpoint2" => [.pointOrigin (.user "cgs_dim_length")]
    | _ => []
  members _ _ := none
  rebind
    | "ones_viewpoint1" | "ones_viewpoint2" => some fun _ => some (.user "ones_viewpoint1")
    | _ => none
  downcastOff := false
  poisoned _ := false
  rank _ := 5
  later := by
    intro n b hb
    split at hb <;> simp only [List.mem_cons, List.not_mem_nil, or_false] at hb
    all_goals subst hb; simp [rankWith]

-- test/unit_test/static/concepts_test.cpp:47-92
#guard isPrefixFamily tests (.user "si_prefix")
#guard !isPrefixFamily tests (.user "kilo")
#guard isPrefix tests (.user "kilo")
#guard !isPrefix tests (.user "si_prefix")
#guard !isPrefix tests (.other "std::kilo")
#guard isBaseDimension tests (.user "dim_length")
#guard !isBaseDimension tests (.user "dim_speed")
#guard !isBaseDimension tests (.other "int")
#guard isDerivedDimension tests (.user "dim_speed")
#guard !isDerivedDimension tests (.user "dim_length")
#guard !isDerivedDimension tests (.other "int")
#guard isDimension tests (.user "dim_length")
#guard isDimension tests (.user "dim_speed")
#guard !isDimension tests (.user "metre")
#guard !isDimension tests (.other "int")
#guard isUnit tests (.user "metre")
#guard isUnit tests (.user "kilometre")
#guard isUnit tests (.user "mile")
#guard isUnit tests (.user "metre_per_second")
#guard !isUnit tests (.user "dim_length")
#guard !isUnit tests (.other "int")
-- test/unit_test/static/concepts_test.cpp:97-100
#guard isUnitOf tests (.user "metre") (.user "dim_length")
#guard isUnitOf tests (.user "kilometre") (.user "dim_length")
#guard isUnitOf tests (.user "mile") (.user "dim_length")
#guard !isUnitOf tests (.user "second") (.user "dim_length")

-- test/unit_test/static/point_origin_test.cpp:48-65
#guard isPointOrigin tests false (.dynamicOrigin (.user "dim_length"))
#guard !isPointOrigin tests false (.pointOrigin (.user "dim_length"))
#guard !isPointOrigin tests false (.user "width")
#guard !isPointOrigin tests false (.user "abscissa")
#guard rebindable tests (.dynamicOrigin (.user "dim_length")) (.user "dim_length")
#guard rebindTo tests (.dynamicOrigin (.user "dim_length")) (.user "dim_length") = some (.dynamicOrigin (.user "dim_length"))
#guard rebindable tests (.dynamicOrigin (.user "dim_length")) (.user "dim_time")
#guard rebindTo tests (.dynamicOrigin (.user "dim_length")) (.user "dim_time") = some (.dynamicOrigin (.user "dim_time"))
#guard rebindable tests (.user "ones_viewpoint1") (.user "dim_length")
#guard rebindTo tests (.user "ones_viewpoint1") (.user "dim_length") = some (.user "ones_viewpoint1")
#guard rebindable tests (.user "ones_viewpoint2") (.user "dim_length")
#guard rebindTo tests (.user "ones_viewpoint2") (.user "dim_length") = some (.user "ones_viewpoint1")
#guard rebindable tests (.user "ones_viewpoint2") (.user "cgs_dim_length")
#guard rebindTo tests (.user "ones_viewpoint2") (.user "cgs_dim_length") = some (.user "ones_viewpoint2")
#guard !rebindable tests (.user "ones_viewpoint1") (.user "cgs_dim_length")

/-- `azimuth::kind` and `azimuth::_kind_base`. -/
def azimuths : List LibClass := [.user "azimuth", .kind (.user "azimuth") (.user "dim_angle"), .kindBase (.user "azimuth") (.user "dim_angle")]

/-- `abscissa`, `abscissa::point_kind` and `abscissa::_point_kind_base`. -/
def abscissas : List LibClass :=
  [.user "abscissa", .pointKind (.user "abscissa") (.user "width") (.dynamicOrigin (.user "dim_length")) (.user "dim_length"),
    .pointKindBase (.user "width") (.dynamicOrigin (.user "dim_length")) (.user "dim_length")]

-- test/unit_test/static/kind_test.cpp:51-64
#guard isKind tests (.user "radius") && !isPointKind tests (.user "radius")
#guard azimuths.all fun c => isKind tests c && !isPointKind tests c
#guard member tests (.user "radius") .baseKind = some (.user "radius")
#guard member tests (.user "radius") .dimension = some (.user "dim_length")
-- test/unit_test/static/kind_test.cpp:83-100
#guard isKind tests (.kindBase (.user "radius") (.user "dim_area")) && !isPointKind tests (.kindBase (.user "radius") (.user "dim_area"))
#guard member tests (.kindBase (.user "radius") (.user "dim_area")) .baseKind = some (.user "radius")
#guard member tests (.kindBase (.user "radius") (.user "dim_area")) .dimension = some (.user "dim_area")
#guard !isKind tests (.pointKindBase (.user "radius") (.dynamicOrigin (.user "dim_length")) (.user "dim_length"))
#guard isPointKind tests (.pointKindBase (.user "radius") (.dynamicOrigin (.user "dim_length")) (.user "dim_length"))
-- test/unit_test/static/kind_test.cpp:118-127
#guard abscissas.all fun c => isPointKind tests c && !isKind tests c
#guard member tests (.user "abscissa") .baseKind = some (.user "width")
#guard member tests (.user "abscissa") .dimension = some (.user "dim_length")
#guard isDowncastable tests (.user "abscissa") && isDowncastable tests (.user "radius") && !isDowncastable tests (.user "dim_length")

end Verif.ConformanceClasses
