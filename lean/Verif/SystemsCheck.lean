import Verif.SystemsTable

/-!
# Checks of the tables of the shipped systems of units

Every property of the tables is computed by a Boolean function, which the kernel evaluates (`check…_ok`).  What each function establishes is
proved in `Verif.Props.SystemsProps`.
-/

namespace Verif.Systems

open Standards

/-- Units with a wrong size and the factor by which it is wrong; src/systems/si/include/units/isq/si/volume.h:104 (hectolitre) and in
src/systems/si-fps/include/units/isq/si/fps length.h:69, speed.h:42-44, pressure.h:46-51, volume.h:41. -/
def misdefined : List (String × ℚ) := [
  ("units::isq::si::hectolitre", 1 / 100),
  ("units::isq::si::fps::nautical_mile", 2286 / 2315),
  ("units::isq::si::fps::nautical_mile_per_hour", 2286 / 2315),
  ("units::isq::si::fps::knot", 2286 / 2315),
  ("units::isq::si::fps::pound_force_per_inch_sq", 1362034741 / 28243152000000),
  ("units::isq::si::fps::kilopound_force_per_inch_sq", 1362034741 / 28243152000000),
  ("units::isq::si::fps::cubic_yard", 145161 / 1562500)]

/-- Units with a rounded size: the dalton (src/systems/si/include/units/isq/si/mass.h:92) and those built on the pound-force with 32.174049 for the acceleration of free fall in
feet per second squared (src/systems/si-fps/include/units/isq/si/fps/force.h:42, power.h, energy.h, pressure.h). -/
def rounded : List String := [
  "units::isq::si::dalton", "units::isq::si::fps::pound_force", "units::isq::si::fps::kilopound_force", "units::isq::si::fps::kip",
  "units::isq::si::fps::foot_pound_force", "units::isq::si::fps::foot_pound_force_per_second", "units::isq::si::fps::horse_power",
  "units::isq::si::fps::pound_force_per_foot_sq"]

/-- Units whose `quantity_ratio` overflows. -/
def unconvertible : List String := [
  "units::isq::si::fps::foot_pound_force", "units::isq::si::fps::foot_pound_force_per_second", "units::isq::si::fps::horse_power"]

/-- The code of a reference. -/
def refCode (u : MUnit) : Nat := encode u.ref

/-- The dimensions by the reference of their unit. -/
def dimsByRef : Tree (List DRow) := group (fun d => refCode d.dim.unit) .leaf dimTable

/-- The full name. -/
def URow.full (r : URow) : String := qualS r.scope.str r.name.str

/-- Whether the amount `b` may be taken for the amount `a` that the name of the unit means. -/
def fits (name : String) (a b : Amount) : Bool :=
  decide (b.exps = a.exps) &&
    (decide (b.factor = a.factor) || decide (name ∈ misdefined.map (·.1)) ||
      (decide (name ∈ rounded) && decide (|b.factor - a.factor| ≤ 2 / 10 ^ 8 * a.factor)))

/-- A unit means what its name says, in every dimension it can be used with. -/
def checkUnit (t : Tree (List DRow)) (e : URow) : Bool :=
  match meaning e.scope.code e.name.code with
  | none => false
  | some a => withNat (refCode e.ent.unit) fun c => (t.list c).all fun d =>
    match denote d.dim e.ent.unit with
    | none => false
    | some b => fits e.full a b

/-- Every unit means what its name says. -/
def checkUnits (l : List URow) : Bool := l.all (checkUnit dimsByRef)

/-- `quantity_ratio` exists. -/
def checkRatios (l : List URow) : Bool :=
  l.all fun e => withNat (refCode e.ent.unit) fun c => (dimsByRef.list c).all fun d =>
    (match quantityRatio est d.dim e.ent.unit with
      | .ok _ => true
      | .error _ => false) || decide (e.full ∈ unconvertible)

/-- The misdefined units are wrong by the given factor. -/
def checkMisdefined : Bool :=
  misdefined.all fun p => unitTable.any fun e => decide (e.full = p.1) &&
    match meaning e.scope.code e.name.code with
    | none => false
    | some a => (dimsByRef.list (refCode e.ent.unit)).any fun d =>
      match denote d.dim e.ent.unit with
      | none => false
      | some b => decide (unitOf e.ent.unit d.dim = true) && decide (b.factor = p.2 * a.factor) && decide (a.factor ≠ 0)

/-- The ratio of the unconvertible units violates an expectation (a product does not fit). -/
def checkUnconvertible : Bool :=
  unconvertible.all fun n => unitTable.any fun e => decide (e.full = n) &&
    (dimsByRef.list (refCode e.ent.unit)).any fun d => decide (unitOf e.ent.unit d.dim = true) &&
      decide (quantityRatio est d.dim e.ent.unit = .error .expects)

/-- Pairs of units that measure the same thing but cannot be converted. -/
def rejectedPairs : List (String × String) := [
  ("units::isq::si::iau::parsec", "units::isq::si::uscs::foot"), ("units::isq::si::iau::parsec", "units::isq::si::international::mile"),
  ("units::isq::si::fps::horse_power", "units::isq::si::watt")]

/-- Conversions between the pairs are rejected. -/
def checkRejectedPairs : Bool :=
  rejectedPairs.all fun p => unitTable.any fun e => decide (e.full = p.1) && unitTable.any fun f => decide (f.full = p.2) &&
    (dimsByRef.list (refCode e.ent.unit)).any fun d => decide (unitOf e.ent.unit d.dim = true) &&
      (dimsByRef.list (refCode f.ent.unit)).any fun d' => decide (unitOf f.ent.unit d'.dim = true) &&
        decide (dimEquivalent d.dim d'.dim = .ok true) &&
        (match castRatio est d.dim e.ent.unit d'.dim f.ent.unit with
          | .ok _ => false
          | .error _ => true)

/-- Well-formedness of a ratio with a positive value (`Ratio.WF`). -/
def posWF (r : Ratio) : Bool :=
  decide (0 < r.den) && decide (Int.gcd r.num r.den = 1) && decide (r.num % 10 ≠ 0) && decide (r.den % 10 ≠ 0) &&
    decide (0 < r.num) && decide (r.num ≤ intMax) && decide (r.den ≤ intMax) && decide (intMin ≤ r.exp) && decide (r.exp ≤ intMax)

/-- All units are well-formed. -/
def checkWF (l : List URow) : Bool := l.all fun e => posWF e.ent.unit.ratio

/-- All dimensions are well-formed: integral exponents, well-formed units, known references. -/
def checkDims (l : List DRow) : Bool :=
  l.all fun e => posWF e.dim.unit.ratio &&
    match e.dim.exps with
    | .ok es => es.all fun x => decide (x.den = 1) && posWF x.dim.unit.ratio && (baseAmount (encode x.dim.unit.ref)).isSome
    | .error _ => false

/-- Equivalent dimensions measure the same thing. -/
def checkEquivalent (l : List DRow) : Bool :=
  l.all fun a => l.all fun b =>
    match dimEquivalent a.dim b.dim with
    | .ok true =>
      match denote a.dim a.dim.unit, denote b.dim b.dim.unit with
      | some x, some y => decide (x.exps = y.exps)
      | _, _ => false
    | _ => true

/-- The size a dimension gives to the reference of its unit. -/
def refAmount (d : Dim) : Option ℚ :=
  match d.exps with
  | .ok es =>
    match dimAmount es with
    | some a => some (a.factor / d.unit.ratio.val)
    | none => none
  | .error _ => none

/-- Dimensions whose units share a reference give it the same size. -/
def checkCoherent (l : List DRow) : Bool := functional (fun d : DRow => refCode d.dim.unit) (fun d => refAmount d.dim) .leaf l

/-- Every dimension is that of the quantity it is named after. -/
def checkDimensions (l : List DRow) : Bool :=
  l.all fun e =>
    match dimensionOf e.scope.code e.name.code, e.dim.exps with
    | some x, .ok es =>
      match dimAmount es with
      | some a => decide (a.exps = x)
      | none => false
    | _, _ => false

/-- The value and symbol of every prefix. -/
def checkPrefixes (l : List PRow) : Bool :=
  l.all fun e =>
    (match (siPrefixes ++ binaryPrefixes).find? fun p => Nat.beq p.1.code e.name.code with
      | some p => decide (e.pre.ratio.val = p.2)
      | none => false) &&
    (match (siPrefixSymbols ++ binaryPrefixSymbols).find? fun p => Nat.beq p.1.code e.name.code with
      | some p => decide (e.pre.symbol = p.2.1 ∧ e.ascii = p.2.2)
      | none => false)

/-- Whether the code and the text of a name agree. -/
def faithful (n : Nm) : Bool := Nat.beq (encode n.str) n.code && Nat.beq (bytes n.code) n.str.utf8ByteSize

/-- The codes of unit and prefix names are faithful. -/
def checkNames : Bool := (unitTable.all fun e => faithful e.name && faithful e.scope) && prefixTable.all fun e => faithful e.name

/-- The units by name. -/
def unitsByName : Tree (List URow) := group (fun e : URow => e.name.code) .leaf unitTable

/-- A unit named after a prefix and another unit of the same namespace is the prefix times the other unit. -/
def checkPrefixedNames (l : List PRow) : Bool :=
  l.all fun p => unitTable.all fun z =>
    withNat (glue p.name.code z.name.code) fun c => (unitsByName.list c).all fun y =>
      !(Nat.beq y.scope.code z.scope.code) || decide (y.full = "units::isq::si::hectolitre") ||
        (decide (y.ent.unit.ref = z.ent.unit.ref) && decide (y.ent.unit.ratio.val = p.pre.ratio.val * z.ent.unit.ratio.val))

/-- Units that are the same for the downcasting facility (same ratio and reference). -/
def unitTwins : List (String × String) := [
  ("units::isq::si::international::thou", "units::isq::si::fps::thousandth"),
  ("units::isq::si::international::inch", "units::isq::si::fps::inch"),
  ("units::isq::si::international::foot", "units::isq::si::fps::foot"),
  ("units::isq::si::international::yard", "units::isq::si::fps::yard"),
  ("units::isq::si::international::fathom", "units::isq::si::fps::fathom")]

/-- Dimensions that are the same for the downcasting facility (same exponents). -/
def dimTwins : List (String × String) := [
  ("units::isq::si::dim_radioactivity", "units::isq::si::dim_frequency"),
  ("units::isq::si::dim_energy_density", "units::isq::si::dim_pressure")]

/-- The representative of a name. -/
def canonical (l : List (String × String)) (s : String) : String :=
  match l.find? fun p => decide (p.1 = s) with
  | some p => p.2
  | none => s

/-- The key of a unit for the downcasting facility. -/
def unitKey (d : String × Ratio × String) : Nat :=
  Nat.add (Nat.mul (encode d.2.2) (Nat.pow 2 256)) (Nat.add (Nat.mul (Int.toNat d.2.1.num) (Nat.pow 2 192))
    (Nat.add (Nat.mul (Int.toNat d.2.1.den) (Nat.pow 2 64)) (Int.toNat (d.2.1.exp + 1000))))

/-- Adds an exponent to the key of a list of exponents. -/
def expKey (k : Nat) (e : String × Int × Int) : Nat :=
  Nat.add (Nat.mul k (Nat.pow 2 768)) (Nat.add (Nat.mul (encode e.1) (Nat.pow 2 32))
    (Nat.add (Nat.mul (Int.toNat (e.2.1 + 1000)) (Nat.pow 2 16)) (Int.toNat e.2.2)))

/-- The key of a dimension for the downcasting facility. -/
def dimKey (d : String × List (String × Int × Int)) : Nat := d.2.foldl expKey 0

/-- Only the listed types are confused by the downcasting facility. -/
def checkTwins : Bool :=
  functional unitKey (fun d => canonical unitTwins d.1) .leaf unitDefTable &&
  functional dimKey (fun d => canonical dimTwins d.1) .leaf dimDefTable

/-- The headers that declare a unit (under any name). -/
def unitHeaders (name : String) : List URow → List Nat
  | [] => []
  | e :: es => bif decide (e.ent.name = name) then e.header :: unitHeaders name es else unitHeaders name es

/-- The headers that declare a dimension (under any name). -/
def dimHeaders (name : String) : List DRow → List Nat
  | [] => []
  | e :: es => bif decide (e.full = name) then e.header :: dimHeaders name es else dimHeaders name es

/-- `f l`; in the kernel the elements of `l` are evaluated first. -/
def withNats {α : Type} : List Nat → (List Nat → α) → α
  | [], f => f []
  | x :: xs, f => withNat x fun x => withNats xs fun xs => f (x :: xs)

theorem withNats_eq {α : Type} (l : List Nat) (f : List Nat → α) : withNats l f = f l := by
  induction l generalizing f with
  | nil => rfl
  | cons x xs ih => simp only [withNats, withNat_eq, ih]

/-- No header includes members of both sets of headers. -/
def disjointHeaders (all : List Header) (a b : List Nat) : Bool :=
  withNats a fun a => withNats b fun b =>
    checkHeaders all (fun _ m _ => a.all fun i => b.all fun j => !(Nat.testBit m i && Nat.testBit m j)) .leaf 0 all

/-- No header includes two types that the downcasting facility confuses. -/
def checkTwinHeaders (all : List Header) : Bool :=
  (unitTwins.all fun p => disjointHeaders all (unitHeaders p.1 unitTable) (unitHeaders p.2 unitTable)) &&
  (dimTwins.all fun p => disjointHeaders all (dimHeaders p.1 dimTable) (dimHeaders p.2 dimTable))

/-- The name of a literal, reference or alias as that of the literal. -/
def TRow.suffix (r : TRow) : String :=
  match r.kind with
  | .literal => r.name
  | _ => "_q_" ++ r.name

/-- The header and the name of the literal. -/
def TRow.key (r : TRow) : Nat := Nat.add (Nat.mul (encode r.suffix) 1000) r.header

/-- A literal, a reference and an alias of one header with the same suffix have the same dimension and unit. -/
def checkTags : Bool := functional TRow.key (fun t => (t.dim, t.unit)) .leaf tagTable

end Verif.Systems
