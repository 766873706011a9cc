import Verif.IeeeArith
import Mathlib.Analysis.SpecialFunctions.Trigonometric.Inverse

/-!
# Distances on the globe, as in the examples

`geographic::spherical_distance` for any arithmetic: the real numbers, and doubles with given functions of `<cmath>`.
-/

namespace Verif

/-- The operations `spherical_distance` needs, example/glide_computer/geographic.cpp:37-61: the arithmetic operators, the integers 2 and 180, the radius 6371, pi and the
functions of `<cmath>`. -/
structure GeoArith (T : Type) where
  add : T → T → T
  sub : T → T → T
  mul : T → T → T
  div : T → T → T
  int : Int → T
  pi : T
  sin : T → T
  cos : T → T
  asin : T → T
  acos : T → T
  sqrt : T → T

/-- `position`, example/glide_computer/include/geographic.h:133-136: latitude and longitude in degrees. -/
structure Position (T : Type) where
  lat : T
  lon : T

section
variable {T : Type} (A : GeoArith T)

/-- `p`, example/glide_computer/geographic.cpp:40. -/
def GeoArith.deg : T := A.div A.pi (A.int 180)

/-- The central angle by the spherical law of cosines, example/glide_computer/geographic.cpp:51. -/
def lawOfCosines (lat1 lon1 lat2 lon2 : T) : T :=
  A.acos (A.add (A.mul (A.sin lat1) (A.sin lat2)) (A.mul (A.mul (A.cos lat1) (A.cos lat2)) (A.cos (A.sub lon2 lon1))))

/-- The central angle by the haversine formula, example/glide_computer/geographic.cpp:56-58. -/
def haversine (lat1 lon1 lat2 lon2 : T) : T :=
  let sinLat := A.sin (A.div (A.sub lat2 lat1) (A.int 2))
  let sinLon := A.sin (A.div (A.sub lon2 lon1) (A.int 2))
  A.mul (A.int 2) (A.asin (A.sqrt (A.add (A.mul sinLat sinLat) (A.mul (A.mul (A.mul (A.cos lat1) (A.cos lat2)) sinLon) sinLon))))

/-- `spherical_distance`, example/glide_computer/geographic.cpp:37-61: the number of kilometres.  `wide` is the condition of line 49 on the size of the representation. -/
def sphericalDistance (wide : Bool) (a b : Position T) : T :=
  let p := A.deg
  let lat1 := A.mul a.lat p
  let lon1 := A.mul a.lon p
  let lat2 := A.mul b.lat p
  let lon2 := A.mul b.lon p
  if wide then A.mul (A.int 6371) (lawOfCosines A lat1 lon1 lat2 lon2) else A.mul (A.int 6371) (haversine A lat1 lon1 lat2 lon2)

end

/-- The real numbers in place of the representation of example/glide_computer/geographic.cpp:39. -/
noncomputable def realGeo : GeoArith ℝ where
  add := (· + ·)
  sub := (· - ·)
  mul := (· * ·)
  div := (· / ·)
  int z := z
  pi := Real.pi
  sin := Real.sin
  cos := Real.cos
  asin := Real.arcsin
  acos := Real.arccos
  sqrt := Real.sqrt

/-- The double `std::numbers::pi`, example/glide_computer/geographic.cpp:40. -/
def piDouble : FVal := .fin false (884279719003555 / 281474976710656)

/-- Doubles with given functions of `<cmath>`, example/glide_computer/geographic.cpp:39-46 with the types of example/glide_computer/include/geographic.h:53-59. -/
def doubleGeo (sin cos asin acos sqrt : FVal → FVal) : GeoArith FVal where
  add := FVal.add .f64
  sub := FVal.sub .f64
  mul := FVal.mul .f64
  div := FVal.div .f64
  int := FVal.ofInt .f64
  pi := piDouble
  sin := sin
  cos := cos
  asin := asin
  acos := acos
  sqrt := sqrt

/-- A literal `_N`, `_S`, `_E` or `_W` of an integer, example/glide_computer/include/geographic.h:81-88; `neg` for south and west. -/
def coordinateLiteral (neg : Bool) (v : Nat) : FVal :=
  if neg then (FVal.ofInt .f64 v).neg else FVal.ofInt .f64 v

/-- `operator<<` and the formatters of coordinates, example/glide_computer/include/geographic.h:61-77, 108-126: the letter and the number that is printed after it. -/
def printCoordinate (plus minus : String) (v : FVal) : String × FVal :=
  if v.cmp (.fin false 0) = some .gt then (plus, v) else (minus, v.neg)

end Verif
