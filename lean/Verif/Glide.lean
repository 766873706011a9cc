import Verif.Kind
import Verif.Math
import Verif.Reference

/-!
# The glide computer of the examples

example/glide_computer: the tactical glide computer as a program over the operators of quantity kinds and point kinds.  Not modelled: names and positions of the
waypoints (the length of a leg, `geographic::spherical_distance`, is a parameter), printing and the formatters.
-/

namespace Verif

/-! ### Types -/

/-- `isq::si::metre`, src/systems/si/include/units/isq/si/length.h:37. -/
def siMetre : MUnit := ⟨.named "units::isq::si::metre", Ratio.one, "units::isq::si::metre", [], true, "m", some "units::isq::si::prefix"⟩

/-- `isq::si::kilometre`, src/systems/si/include/units/isq/si/length.h:50. -/
def siKilometre : MUnit := ⟨.named "units::isq::si::kilometre", ⟨1, 1, 3⟩, "units::isq::si::metre", [], true, "km", none⟩

/-- `isq::si::dim_length`, src/systems/si/include/units/isq/si/length.h:61. -/
def siLength : BaseDim := ⟨"units::isq::si::dim_length", "L", siMetre⟩

/-- `isq::si::metre_per_second`, src/systems/si/include/units/isq/si/speed.h:37. -/
def siMps : MUnit := ⟨.named "units::isq::si::metre_per_second", Ratio.one, "units::isq::si::metre_per_second", [], false, "m/s", none⟩

/-- `isq::si::dim_speed`, src/systems/si/include/units/isq/si/speed.h:38. -/
def siSpeed : NamedDim := ⟨"units::isq::si::dim_speed", [⟨siLength, 1, 1⟩, ⟨siTime, -1, 1⟩], siMps⟩

/-- `isq::si::kilometre_per_hour`, src/systems/si/include/units/isq/si/speed.h:40: 1000/3600 of a metre per second. -/
def siKmh : MUnit := ⟨.named "units::isq::si::kilometre_per_hour", ⟨1, 36, 1⟩, "units::isq::si::metre_per_second", [], false, "km/h", none⟩

/-- `isq::si::minute`, src/systems/si/include/units/isq/si/time.h:46. -/
def siMin : MUnit := ⟨.named "units::isq::si::minute", ⟨6, 1, 1⟩, "units::isq::si::second", [], true, "min", none⟩

/-- `isq::si::hour`, src/systems/si/include/units/isq/si/time.h:47. -/
def siHr : MUnit := ⟨.named "units::isq::si::hour", ⟨36, 1, 2⟩, "units::isq::si::second", [], true, "h", none⟩

/-- `horizontal_kind`, example/glide_computer/include/geographic.h:130. -/
def horizontalKind : Kind := ⟨some "horizontal_kind", "horizontal_kind", .base siLength⟩

/-- `vertical_kind`, example/glide_computer/include/glide_computer.h:79. -/
def verticalKind : Kind := ⟨some "vertical_kind", "vertical_kind", .base siLength⟩

/-- `vertical_point_kind`, example/glide_computer/include/glide_computer.h:80. -/
def verticalPointKind : PKind := ⟨some "vertical_point_kind", verticalKind, dynamicOrigin (.base siLength)⟩

/-- `velocity_kind`, example/glide_computer/include/glide_computer.h:81. -/
def velocityKind : Kind := ⟨some "velocity_kind", "horizontal_kind", .named siSpeed⟩

/-- `rate_of_climb_kind`, example/glide_computer/include/glide_computer.h:82. -/
def rateOfClimbKind : Kind := ⟨some "rate_of_climb_kind", "vertical_kind", .named siSpeed⟩

/-- `distance`, example/glide_computer/include/glide_computer.h:86. -/
def distanceTy : KTy := ⟨horizontalKind, siKilometre, .flt .f64⟩
/-- `height`, example/glide_computer/include/glide_computer.h:87. -/
def heightTy : KTy := ⟨verticalKind, siMetre, .flt .f64⟩
/-- `altitude`, example/glide_computer/include/glide_computer.h:88. -/
def altitudeTy : PKTy := ⟨verticalPointKind, siMetre, .flt .f64⟩
/-- `duration`, example/glide_computer/include/glide_computer.h:91. -/
def durationTy : QTy := ⟨.base siTime, siSecond, .flt .f64⟩
/-- `timestamp`, example/glide_computer/include/glide_computer.h:92. -/
def timestampTy : PTy := ⟨clockOrigin "system_clock", siSecond, .flt .f64⟩
/-- `velocity`, example/glide_computer/include/glide_computer.h:95. -/
def velocityTy : KTy := ⟨velocityKind, siKmh, .flt .f64⟩
/-- `rate_of_climb`, example/glide_computer/include/glide_computer.h:96. -/
def rateTy : KTy := ⟨rateOfClimbKind, siMps, .flt .f64⟩

/-- What the program depends on: the classes known to the compiler and the functions of `<cmath>`.  Stands for the headers included by
example/glide_computer/include/glide_computer.h:23-43. -/
structure GEnv where
  env : Env
  rebinds : Rebinds
  kinds : KindReg
  pkinds : PKindReg
  libm : Libm

/-- `glider::polar_point`, example/glide_computer/include/glide_computer.h:120-128; the array of points has one element. -/
structure Polar where
  v : Kd
  climb : Kd

/-- `weather`, example/glide_computer/include/glide_computer.h:132-135. -/
structure Weather where
  cloudBase : Kd
  thermal : Kd

/-- `task::leg`, example/glide_computer/include/glide_computer.h:147-156: the altitudes of the two waypoints and the length. -/
structure Leg where
  first : Pk
  last : Pk
  length : Kd

/-- `task`, example/glide_computer/include/glide_computer.h:143-187: the altitudes of the waypoints, the legs, the distances of their ends, and the total. -/
structure Task where
  alts : List Pk
  legs : List Leg
  totals : List Kd
  length : Kd

/-- `aircraft_tow`, example/glide_computer/include/glide_computer.h:193-196. -/
structure Tow where
  height : Kd
  performance : Kd

/-- `flight_point`, example/glide_computer/include/glide_computer.h:198-203. -/
structure FlightPoint where
  ts : Pt
  alt : Pk
  leg : Nat
  dist : Kd
  deriving DecidableEq

variable (G : GEnv)

/-- `operator/` of kinds that are not related, example/glide_computer/include/glide_computer.h:70-75. -/
def divKinds (a b : Kd) : C Qty :=
  if a.ty.kind.base ≠ b.ty.kind.base then divQty G.env a.common b.common else .error .rejected

/-- `glide_ratio`, example/glide_computer/include/glide_computer.h:130. -/
def glideRatio (p : Polar) : C Qty := do
  let c ← negKind G.env p.climb
  divKinds G p.v c

/-- `make_legs`, example/glide_computer/glide_computer.cpp:31-38; the lengths of the legs (example/glide_computer/include/glide_computer.h:150) are given. -/
def makeLegs : List Pk → List Kd → List Leg
  | a :: b :: rest, l :: ls => ⟨a, b, l⟩ :: makeLegs (b :: rest) ls
  | _, _ => []

/-- `make_leg_total_distances`, example/glide_computer/glide_computer.cpp:40-47, after the first leg. -/
def makeTotals : Kd → List Leg → C (List Kd)
  | _, [] => .ok []
  | acc, l :: ls => do
    let s ← addSubKind G.env .add acc l.length
    let s' ← convertKind G.env distanceTy s
    let rest ← makeTotals s' ls
    .ok (s' :: rest)

/-- The constructors of `task`, example/glide_computer/include/glide_computer.h:159-163, 180-183.  Without a leg (at most one waypoint) `leg_total_distances_.back()` is undefined. -/
def makeTask (alts : List Pk) (lens : List Kd) : C Task :=
  match makeLegs alts lens with
  | [] => .error .precondition
  | l :: ls => do
    let rest ← makeTotals G l.length ls
    .ok ⟨alts, l :: ls, l.length :: rest, (l.length :: rest).getLast (by simp)⟩

/-- `get_finish().alt`, example/glide_computer/include/glide_computer.h:169. -/
def Task.finish (t : Task) : C Pk :=
  match t.alts.getLast? with
  | some a => .ok a
  | none => .error .precondition

/-- `get_leg_dist_offset`, example/glide_computer/include/glide_computer.h:173. -/
def Task.offset (t : Task) (i : Nat) : C Kd :=
  if i = 0 then .ok ⟨distanceTy, .f 0⟩
  else match t.totals[i - 1]? with
    | some d => .ok d
    | none => .error .precondition

/-- `get_leg_index`, example/glide_computer/include/glide_computer.h:174-177: the first end that is not before the distance, as `lower_bound` on a sorted range ([lower.bound]); on another range, where
`lower_bound` is undefined, this is a simplification. -/
def legIndex : List Kd → Kd → C Nat
  | [], _ => .ok 0
  | x :: xs, d => do
    let o ← compareKinds G.env x d
    if o = .lt then do
      let n ← legIndex xs d
      .ok (n + 1)
    else .ok 0

/-- `terrain_level_alt`, example/glide_computer/glide_computer.cpp:49-54. -/
def terrainLevel (t : Task) (p : FlightPoint) : C Pk :=
  match t.legs[p.leg]? with
  | none => .error .precondition
  | some l => do
    let d ← subPks G.env G.rebinds l.last l.first
    let alt ← convertKind G.env heightTy d
    let o ← t.offset p.leg
    let x ← addSubKind G.env .sub p.dist o
    let r ← mulDivKinds G.env G.kinds false x l.length
    let y ← mulDivKindQty G.env G.kinds true alt r.common
    let z ← addSubPk G.env G.pkinds .add l.first y
    convertPk G.env G.rebinds altitudeTy z

/-- `agl`, example/glide_computer/include/glide_computer.h:207. -/
def agl (a b : Pk) : C Kd := do
  let d ← subPks G.env G.rebinds a b
  convertKind G.env heightTy d

/-- `length_3d`, example/glide_computer/include/glide_computer.h:209-213. -/
def length3d (d h : Kd) : C Qty := do
  let x ← powQty G.env G.libm 2 1 d.common
  let y ← powQty G.env G.libm 2 1 h.common
  match x, y with
  | .inr x, .inr y => do
    let s ← addSub G.env .add x y
    let r ← sqrtQty G.env G.libm s
    convertQty G.env distanceTy.qty r
  | _, _ => .error .rejected

/-- `glide_distance`, example/glide_computer/glide_computer.cpp:59-64. -/
def glideDistance (p : FlightPoint) (g : Polar) (t : Task) (minAgl : Kd) (ground : Pk) : C Kd := do
  let d ← addSubKind G.env .sub t.length p.dist
  let a ← addSubPk G.env G.pkinds .add ground minAgl
  let n ← subPks G.env G.rebinds a p.alt
  let f ← t.finish
  let s ← subPks G.env G.rebinds ground f
  let q ← divKinds G s d
  let gr ← glideRatio G g
  let i ← recipQty G.env (.int .i32) (.i 1) gr
  let m ← addSub G.env .sub q i
  let x ← divQty G.env n.common m
  constructKind G.env distanceTy x

/-- `flight_point{pos.ts + d, alt, leg, dist}`, example/glide_computer/glide_computer.cpp:88, 100, 116, 127. -/
def advanceTo (p : FlightPoint) (d : Qty) (alt : Pk) (leg : Nat) (dist : Kd) : C FlightPoint := do
  let ts ← addSubPoint G.env G.rebinds .add p.ts d
  let ts' ← convertPoint G.env G.rebinds timestampTy ts
  let alt' ← convertPk G.env G.rebinds altitudeTy alt
  let dist' ← convertKind G.env distanceTy dist
  .ok ⟨ts', alt', leg, dist'⟩

/-- `takeoff`, example/glide_computer/glide_computer.cpp:80-83. -/
def takeoff (ts : Pt) (t : Task) : C FlightPoint :=
  match t.alts with
  | a :: _ => .ok ⟨ts, a, 0, ⟨distanceTy, .f 0⟩⟩
  | [] => .error .precondition

/-- `tow`, example/glide_computer/glide_computer.cpp:85-92. -/
def tow (p : FlightPoint) (at_ : Tow) : C FlightPoint := do
  let x ← mulDivKinds G.env G.kinds false at_.height at_.performance
  let d ← convertQty G.env durationTy x.common
  let alt ← addSubPk G.env G.pkinds .add p.alt at_.height
  advanceTo G p d alt p.leg p.dist

/-- `circle`, example/glide_computer/glide_computer.cpp:94-106: the new position and the height that is still to be gained. -/
def circle (p : FlightPoint) (g : Polar) (w : Weather) (t : Task) (toGain : Kd) : C (FlightPoint × Kd) := do
  let l ← terrainLevel G t p
  let h ← agl G p.alt l
  let c ← addSubKind G.env .sub w.cloudBase h
  let o ← compareKinds G.env toGain c
  let ch ← convertKind G.env heightTy (if o = .lt then toGain else c)
  let r ← addSubKind G.env .add w.thermal g.climb
  let r' ← convertKind G.env rateTy r
  let x ← mulDivKinds G.env G.kinds false ch r'
  let d ← convertQty G.env durationTy x.common
  let alt ← addSubPk G.env G.pkinds .add p.alt ch
  let n ← advanceTo G p d alt p.leg p.dist
  let rest ← assignKind G.env .sub toGain ch
  .ok (n, rest)

/-- `glide`, example/glide_computer/glide_computer.cpp:108-120. -/
def glide (p : FlightPoint) (g : Polar) (t : Task) (minAgl : Kd) : C FlightPoint := do
  let ground ← terrainLevel G t p
  let dist ← glideDistance G p g t minAgl ground
  let nd ← addSubKind G.env .add p.dist dist
  let alt ← addSubPk G.env G.pkinds .add ground minAgl
  let dh ← subPks G.env G.rebinds p.alt alt
  let h ← convertKind G.env heightTy dh
  let l3 ← length3d G dist h
  let q ← divQty G.env l3 g.v.common
  let d ← convertQty G.env durationTy q
  let l ← terrainLevel G t p
  let alt' ← addSubPk G.env G.pkinds .add l minAgl
  let i ← legIndex G t.totals nd
  advanceTo G p d alt' i nd

/-- `final_glide`, example/glide_computer/glide_computer.cpp:122-131. -/
def finalGlide (p : FlightPoint) (g : Polar) (t : Task) : C FlightPoint := do
  let dist ← addSubKind G.env .sub t.length p.dist
  let f ← t.finish
  let dh ← subPks G.env G.rebinds p.alt f
  let h ← convertKind G.env heightTy dh
  let d' ← convertKind G.env distanceTy dist
  let l3 ← length3d G d' h
  let q ← divQty G.env l3 g.v.common
  let d ← convertQty G.env durationTy q
  let nd ← addSubKind G.env .add p.dist dist
  advanceTo G p d f (t.legs.length - 1) nd

/-- The phases that are printed, example/glide_computer/glide_computer.cpp:90, 104, 118, 129. -/
inductive Phase where
  | tow | glide | circle | finalGlide
  deriving DecidableEq

/-- A printed row: the phase and the position at its end, example/glide_computer/glide_computer.cpp:72-78. -/
abbrev Row := Phase × FlightPoint

/-- The loop of `estimate`, example/glide_computer/glide_computer.cpp:154-160: the rows printed and the last position, or `none` when the given number of rounds is not enough. -/
def estimateLoop (g : Polar) (w : Weather) (t : Task) (minAgl : Kd) : Nat → FlightPoint → Kd → C (Option (List Row × FlightPoint))
  | 0, _, _ => .ok none
  | n + 1, p, toGain => do
    let p1 ← glide G p g t minAgl
    let (p2, rest) ← circle G p1 g w t toGain
    let o ← compareKinds G.env rest ⟨heightTy, .f 0⟩
    if o = .gt then do
      let r ← estimateLoop g w t minAgl n p2 rest
      .ok (r.map fun x => ((.glide, p1) :: (.circle, p2) :: x.1, x.2))
    else .ok (some ([(.glide, p1), (.circle, p2)], p2))

/-- `final_glide_alt` and `height_to_gain`, example/glide_computer/glide_computer.cpp:148-152. -/
def heightToGain (p : FlightPoint) (g : Polar) (t : Task) : C Kd := do
  let gr ← glideRatio G g
  let x ← divQty G.env t.length.common gr
  let h ← constructKind G.env heightTy x
  let f ← t.finish
  let a ← addSubPk G.env G.pkinds .add f h
  let a' ← convertPk G.env G.rebinds altitudeTy a
  let d ← subPks G.env G.rebinds a' p.alt
  convertKind G.env heightTy d

/-- `estimate`, example/glide_computer/glide_computer.cpp:137-164: the rows printed, or `none` when the given number of rounds of the loop is not enough. -/
def estimate (rounds : Nat) (start : Pt) (g : Polar) (w : Weather) (t : Task) (minAgl : Kd) (at_ : Tow) : C (Option (List Row)) := do
  let p0 ← takeoff start t
  let p1 ← tow G p0 at_
  let toGain ← heightToGain G p1 g t
  let r ← estimateLoop G g w t minAgl rounds p1 toGain
  match r with
  | none => .ok none
  | some (rows, p2) => do
    let p3 ← finalGlide G p2 g t
    .ok (some ((.tow, p1) :: rows ++ [(.finalGlide, p3)]))

/-! ### The classes of the program -/

/-- The dimensions with a name in the translation unit: `dim_one`, src/core/include/units/generic/dimensionless.h:42, and `dim_speed`,
src/systems/si/include/units/isq/si/speed.h:38. -/
def glideDims : DimReg := fun es => [dimOne, siSpeed].find? fun n => n.exps = es

/-- The units with a name that the program comes across, of those declared in src/systems/si/include/units/isq/si/{length,time,speed}.h and
src/core/include/units/generic/dimensionless.h. -/
def glideUnits : UnitReg := fun r ref =>
  [siMetre, siKilometre, siSecond, siMin, siHr, siMps, siKmh, unitOne].find? fun u => u.ratio = r ∧ u.ref = ref

/-- The kinds with a name, example/glide_computer/include/glide_computer.h:78-82. -/
def glideKinds : KindReg := fun b d => [horizontalKind, verticalKind, velocityKind, rateOfClimbKind].find? fun k => k.base = b ∧ k.dim = d

/-- The point kinds with a name, example/glide_computer/include/glide_computer.h:80. -/
def glidePKinds : PKindReg := fun k o => if k = verticalKind ∧ o = dynamicOrigin (.base siLength) then some verticalPointKind else none

/-- The program with exact floating point arithmetic (a simplification) and given functions of `<cmath>`; stands for the headers included by
example/glide_computer/include/glide_computer.h:23-43.  The first guess of the root of a ratio is the integral square root. -/
def glideProg (L : Libm) : GEnv :=
  ⟨⟨fun _ v => Nat.sqrt v.toNat, glideDims, glideUnits, fun _ x => x⟩, fun _ _ => none, glideKinds, glidePKinds, L⟩

end Verif
