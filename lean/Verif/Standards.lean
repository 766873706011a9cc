import Verif.Systems

/-!
# What names of units mean (specification)

Independent of the library: the sizes of units as in the SI Brochure (9th edition), NIST Special Publication 811, IEC 80000-13
and the definitions of the customary units, and how a composed name (`kilogram_metre_per_second`, `square_foot`) is read.
-/

namespace Verif.Standards

open Verif.Systems

/-- An amount: a number times powers of the fundamental units metre, gram, second, ampere, kelvin, mole, candela, radian, bit, erlang,
electronvolt (the last only for natural units). -/
structure Amount where
  factor : ℚ
  exps : List Int
deriving DecidableEq, Repr

/-- The product of amounts. -/
def Amount.mul (a b : Amount) : Amount := ⟨a.factor * b.factor, a.exps.zipWith Int.add b.exps⟩

/-- A power of an amount. -/
def Amount.pow (a : Amount) (n : Int) : Amount := ⟨a.factor ^ n, a.exps.map (Int.mul n)⟩

/-- A multiple of an amount. -/
def Amount.times (q : ℚ) (a : Amount) : Amount := ⟨q * a.factor, a.exps⟩

def unity : Amount := ⟨1, [0, 0, 0, 0, 0, 0, 0, 0, 0, 0, 0]⟩
def metre : Amount := ⟨1, [1, 0, 0, 0, 0, 0, 0, 0, 0, 0, 0]⟩
def gram : Amount := ⟨1, [0, 1, 0, 0, 0, 0, 0, 0, 0, 0, 0]⟩
def second : Amount := ⟨1, [0, 0, 1, 0, 0, 0, 0, 0, 0, 0, 0]⟩
def ampere : Amount := ⟨1, [0, 0, 0, 1, 0, 0, 0, 0, 0, 0, 0]⟩
def kelvin : Amount := ⟨1, [0, 0, 0, 0, 1, 0, 0, 0, 0, 0, 0]⟩
def mole : Amount := ⟨1, [0, 0, 0, 0, 0, 1, 0, 0, 0, 0, 0]⟩
def candela : Amount := ⟨1, [0, 0, 0, 0, 0, 0, 1, 0, 0, 0, 0]⟩
def radian : Amount := ⟨1, [0, 0, 0, 0, 0, 0, 0, 1, 0, 0, 0]⟩
def bit : Amount := ⟨1, [0, 0, 0, 0, 0, 0, 0, 0, 1, 0, 0]⟩
def erlang : Amount := ⟨1, [0, 0, 0, 0, 0, 0, 0, 0, 0, 1, 0]⟩
def eV : Amount := ⟨1, [0, 0, 0, 0, 0, 0, 0, 0, 0, 0, 1]⟩

/-- `1000^a` g^a m^b s^c A^d: the coherent derived units of mechanics and electricity (with the kilogram). -/
def kgmsA (a b c d : Int) : Amount := ⟨1000 ^ a, [b, a, c, d, 0, 0, 0, 0, 0, 0, 0]⟩

/-- The SI prefixes (SI Brochure, table 7). -/
def siPrefixes : List (Nm × ℚ) := [
  (n!"yocto", 1 / 10 ^ 24), (n!"zepto", 1 / 10 ^ 21), (n!"atto", 1 / 10 ^ 18), (n!"femto", 1 / 10 ^ 15),
  (n!"pico", 1 / 10 ^ 12), (n!"nano", 1 / 10 ^ 9), (n!"micro", 1 / 10 ^ 6), (n!"milli", 1 / 10 ^ 3),
  (n!"centi", 1 / 10 ^ 2), (n!"deci", 1 / 10), (n!"deca", 10), (n!"hecto", 10 ^ 2), (n!"kilo", 10 ^ 3),
  (n!"mega", 10 ^ 6), (n!"giga", 10 ^ 9), (n!"tera", 10 ^ 12), (n!"peta", 10 ^ 15), (n!"exa", 10 ^ 18),
  (n!"zetta", 10 ^ 21), (n!"yotta", 10 ^ 24)]

/-- The binary prefixes (IEC 80000-13, clause 4). -/
def binaryPrefixes : List (Nm × ℚ) := [
  (n!"kibi", 2 ^ 10), (n!"mebi", 2 ^ 20), (n!"gibi", 2 ^ 30), (n!"tebi", 2 ^ 40), (n!"pebi", 2 ^ 50), (n!"exbi", 2 ^ 60),
  (n!"zebi", 2 ^ 70), (n!"yobi", 2 ^ 80)]

/-- A list of words with their meaning. -/
abbrev Words := List (Nm × Amount)

/-- Words that belong to no system. -/
def genericWords : Words := [
  (n!"one", unity), (n!"percent", unity.times (1 / 100)), (n!"radian", radian)]

/-- The SI units and the non-SI units accepted for use with the SI (SI Brochure, tables 2, 4 and 8); gauss from the CGS units of
the 8th edition, table 9; the enzyme unit is one micromole per minute. -/
def siWords : Words := [
  (n!"metre", metre), (n!"gram", gram), (n!"second", second), (n!"ampere", ampere), (n!"kelvin", kelvin), (n!"mole", mole),
  (n!"mol", mole), (n!"candela", candela),
  (n!"minute", second.times 60), (n!"hour", second.times 3600), (n!"day", second.times 86400),
  (n!"hertz", second.pow (-1)), (n!"becquerel", second.pow (-1)),
  (n!"newton", kgmsA 1 1 (-2) 0), (n!"pascal", kgmsA 1 (-1) (-2) 0), (n!"joule", kgmsA 1 2 (-2) 0),
  (n!"watt", kgmsA 1 2 (-3) 0), (n!"coulomb", kgmsA 0 0 1 1), (n!"volt", kgmsA 1 2 (-3) (-1)),
  (n!"farad", kgmsA (-1) (-2) 4 2), (n!"ohm", kgmsA 1 2 (-3) (-2)), (n!"siemens", kgmsA (-1) (-2) 3 2),
  (n!"weber", kgmsA 1 2 (-2) (-1)), (n!"tesla", kgmsA 1 0 (-2) (-1)), (n!"henry", kgmsA 1 2 (-2) (-2)),
  (n!"gray", kgmsA 0 2 (-2) 0), (n!"katal", mole.mul (second.pow (-1))),
  (n!"astronomical_unit", metre.times 149597870700), (n!"hectare", (metre.pow 2).times 10000), (n!"are", (metre.pow 2).times 100),
  (n!"litre", (metre.pow 3).times (1 / 1000)), (n!"tonne", gram.times 1000000),
  (n!"dalton", gram.times (166053906660 / 10 ^ 35)), (n!"electronvolt", (kgmsA 1 2 (-2) 0).times (1602176634 / 10 ^ 28)),
  (n!"gauss", (kgmsA 1 0 (-2) (-1)).times (1 / 10000)),
  (n!"enzyme_unit", (mole.mul (second.pow (-1))).times (1 / 60000000))]

/-- The mechanical units of the CGS system. -/
def cgsWords : Words := [
  (n!"gal", ⟨1 / 100, [1, 0, -2, 0, 0, 0, 0, 0, 0, 0, 0]⟩), (n!"dyne", ⟨1 / 100, [1, 1, -2, 0, 0, 0, 0, 0, 0, 0, 0]⟩),
  (n!"erg", ⟨1 / 10000, [2, 1, -2, 0, 0, 0, 0, 0, 0, 0, 0]⟩), (n!"barye", ⟨100, [-1, 1, -2, 0, 0, 0, 0, 0, 0, 0, 0]⟩)]

/-- The international yard and pound agreement of 1959: the yard is 0.9144 m, the pound 453.59237 g. -/
def yard : Amount := metre.times (9144 / 10000)
def pound : Amount := gram.times (45359237 / 100000)
def foot : Amount := yard.times (1 / 3)
def inch : Amount := yard.times (1 / 36)

/-- The pound-force: a pound at the standard acceleration of free fall 9.80665 m/s². -/
def poundForce : Amount := (pound.mul (metre.mul (second.pow (-2)))).times (980665 / 100000)

/-- The units of the foot-pound-second system. -/
def fpsWords : Words := [
  (n!"foot", foot), (n!"inch", inch), (n!"thousandth", inch.times (1 / 1000)), (n!"thou", inch.times (1 / 1000)),
  (n!"mil", inch.times (1 / 1000)), (n!"yard", yard), (n!"fathom", yard.times 2), (n!"mile", yard.times 1760),
  (n!"nautical_mile", metre.times 1852), (n!"knot", (metre.mul (second.pow (-1))).times (1852 / 3600)),
  (n!"pound", pound), (n!"grain", pound.times (1 / 7000)), (n!"dram", pound.times (1 / 256)), (n!"ounce", pound.times (1 / 16)),
  (n!"stone", pound.times 14), (n!"quarter", pound.times 28), (n!"hundredweight", pound.times 112),
  (n!"short_ton", pound.times 2000), (n!"long_ton", pound.times 2240),
  (n!"poundal", pound.mul (foot.mul (second.pow (-2)))), (n!"pound_force", poundForce), (n!"kip", poundForce.times 1000),
  (n!"horse_power", ((poundForce.mul foot).mul (second.pow (-1))).times 550)]

/-- The international units of length, area, speed. -/
def internationalWords : Words := [
  (n!"foot", foot), (n!"inch", inch), (n!"hand", inch.times 4), (n!"thou", inch.times (1 / 1000)),
  (n!"mil", inch.times (1 / 1000)), (n!"yard", yard), (n!"fathom", yard.times 2), (n!"mile", yard.times 1760),
  (n!"nautical_mile", metre.times 1852), (n!"knot", (metre.mul (second.pow (-1))).times (1852 / 3600))]

/-- The imperial units of length. -/
def imperialWords : Words := [(n!"chain", yard.times 22), (n!"rod", yard.times (22 / 4))]

/-- The United States survey units (Mendenhall order: 1 m = 39.37 in). -/
def uscsWords : Words := [
  (n!"foot", metre.times (1200 / 3937)), (n!"fathom", metre.times (7200 / 3937)), (n!"mile", metre.times (5280 * 1200 / 3937))]

/-- The astronomical units of length: the light year is the distance light travels in 365.25 days, the parsec is `648000/π` astronomical units, here
rounded to the metre. -/
def iauWords : Words := [
  (n!"light_year", metre.times (299792458 * 36525 * 864)), (n!"parsec", metre.times 30856775814913673),
  (n!"angstrom", metre.times (1 / 10 ^ 10))]

/-- The typographic units as rounded in NIST SP 811, appendix B. -/
def typographicWords : Words := [
  (n!"pica_comp", metre.times (4233333 / 10 ^ 9)), (n!"pica_prn", metre.times (4217518 / 10 ^ 9)),
  (n!"point_comp", metre.times (3527778 / 10 ^ 10)), (n!"point_prn", metre.times (3514598 / 10 ^ 10))]

/-- The units of information (IEC 80000-13). -/
def iecWords : Words := [
  (n!"bit", bit), (n!"byte", bit.times 8), (n!"baud", second.pow (-1)), (n!"erlang", erlang),
  (n!"binary_prefix_bit", bit), (n!"binary_prefix_byte", bit.times 8)]

/-- Natural units: everything is a power of the electronvolt. -/
def naturalWords : Words := [(n!"electronvolt", eV)]

/-- The words of a namespace of the library, innermost first. -/
def wordsOf (scope : Nat) : Words :=
  bif Nat.beq scope n!"units::isq::si".code then siWords ++ genericWords
  else bif Nat.beq scope n!"units::isq::si::cgs".code then cgsWords ++ siWords
  else bif Nat.beq scope n!"units::isq::si::fps".code then fpsWords ++ siWords
  else bif Nat.beq scope n!"units::isq::si::international".code then internationalWords ++ siWords
  else bif Nat.beq scope n!"units::isq::si::imperial".code then imperialWords
  else bif Nat.beq scope n!"units::isq::si::uscs".code then uscsWords
  else bif Nat.beq scope n!"units::isq::si::iau".code then iauWords
  else bif Nat.beq scope n!"units::isq::si::typographic".code then typographicWords
  else bif Nat.beq scope n!"units::isq::iec80000".code then iecWords ++ siWords
  else bif Nat.beq scope n!"units::isq::natural".code then naturalWords
  else genericWords

/-- The meaning of a word in a list. -/
def findWord : Words → Nat → Option Amount
  | [], _ => none
  | (n, a) :: ws, w => bif Nat.beq n.code w then some a else findWord ws w

/-- Whether a name begins with another and if so the rest. -/
def stripPrefix (p w : Nat) : Option Nat :=
  withNat (Nat.mul 8 (Nat.sub (bytes w) (bytes p))) fun k =>
    bif Nat.beq (Nat.shiftRight w k) p then some (Nat.mod w (Nat.pow 2 k)) else none

/-- The meaning of a word that begins with a prefix. -/
def findPrefixed (ws : Words) : List (Nm × ℚ) → Nat → Option Amount
  | [], _ => none
  | (p, q) :: ps, w =>
    match stripPrefix p.code w with
    | some r =>
      match findWord ws r with
      | some a => some (a.times q)
      | none => findPrefixed ws ps w
    | none => findPrefixed ws ps w

/-- The meaning of a word, possibly with a prefix. -/
def word (ws : Words) (w : Nat) : Option Amount :=
  match findWord ws w with
  | some a => some a
  | none => findPrefixed ws (siPrefixes ++ binaryPrefixes) w

/-- The words of a name, which are separated by `_`; the first argument limits the number of bytes, `cur` and `k` are the bytes of the current word and their number. -/
def split : Nat → Nat → Nat → Nat → List Nat → List Nat
  | 0, _, _, _, acc => acc
  | f + 1, c, cur, k, acc =>
    bif Nat.beq c 0 then cur :: acc
    else withNat (Nat.mod c 256) fun b => withNat (Nat.div c 256) fun c =>
      bif Nat.beq b 0x5f then split f c 0 0 (cur :: acc)
      else withNat (Nat.add cur (Nat.mul b (Nat.pow 256 k))) fun cur => split f c cur (Nat.succ k) acc

/-- Reads a unit of one or two words (`pound_force`), possibly with a prefix. -/
def readUnit (ws : Words) : List Nat → Option (Amount × List Nat)
  | [] => none
  | [w] => (word ws w).map fun a => (a, [])
  | w :: v :: rest =>
    match word ws (glue (glue w 0x5f) v) with
    | some a => some (a, rest)
    | none => (word ws w).map fun a => (a, v :: rest)

/-- Reads a unit with a power: `square_metre`, `metre_sq`, `cubic_metre`, `metre_cub`, `inverted_gigaelectronvolt`. -/
def readTerm (ws : Words) : List Nat → Option (Amount × List Nat)
  | [] => none
  | w :: rest =>
    bif Nat.beq w n!"square".code then (readUnit ws rest).map fun p => (p.1.pow 2, p.2)
    else bif Nat.beq w n!"cubic".code then (readUnit ws rest).map fun p => (p.1.pow 3, p.2)
    else bif Nat.beq w n!"inverted".code then (readUnit ws rest).map fun p => (p.1.pow (-1), p.2)
    else match readUnit ws (w :: rest) with
      | some (a, v :: rest) =>
        bif Nat.beq v n!"sq".code then some (a.pow 2, rest)
        else bif Nat.beq v n!"cub".code then some (a.pow 3, rest)
        else some (a, v :: rest)
      | r => r

/-- Reads a product of units; those after `per` are in the denominator.  The first argument limits the number of factors. -/
def readWords (ws : Words) : Nat → Bool → List Nat → Option Amount
  | 0, _, _ => none
  | _ + 1, _, [] => some unity
  | f + 1, inv, w :: rest =>
    bif Nat.beq w n!"per".code then readWords ws f true rest
    else match readTerm ws (w :: rest) with
      | none => none
      | some (a, rest) =>
        match readWords ws f inv rest with
        | none => none
        | some b => some ((bif inv then a.pow (-1) else a).mul b)

/-- What the name of a unit means in a namespace. -/
def meaning (scope name : Nat) : Option Amount :=
  match findWord (wordsOf scope) name with
  | some a => some a
  | none => readWords (wordsOf scope) 8 false (split (Nat.succ (bytes name)) name 0 0 [])

/-- The amounts the units without definition in terms of others stand for. -/
def baseAmount (ref : Nat) : Option Amount :=
  findWord [(n!"units::isq::si::metre", metre), (n!"units::isq::si::gram", gram), (n!"units::isq::si::second", second),
    (n!"units::isq::si::ampere", ampere), (n!"units::isq::si::kelvin", kelvin), (n!"units::isq::si::mole", mole),
    (n!"units::isq::si::candela", candela), (n!"units::radian", radian), (n!"units::isq::iec80000::bit", bit),
    (n!"units::isq::iec80000::erlang", erlang), (n!"units::isq::natural::electronvolt", eV),
    (n!"units::isq::natural::inverted_gigaelectronvolt", ⟨1 / 10 ^ 9, [0, 0, 0, 0, 0, 0, 0, 0, 0, 0, -1]⟩)] ref

/-- The symbols of the SI prefixes (SI Brochure, table 7), with the substitute in ASCII. -/
def siPrefixSymbols : List (Nm × String × String) := [
  (n!"yocto", "y", "y"), (n!"zepto", "z", "z"), (n!"atto", "a", "a"), (n!"femto", "f", "f"), (n!"pico", "p", "p"), (n!"nano", "n", "n"),
  (n!"micro", "µ", "u"), (n!"milli", "m", "m"), (n!"centi", "c", "c"), (n!"deci", "d", "d"), (n!"deca", "da", "da"), (n!"hecto", "h", "h"),
  (n!"kilo", "k", "k"), (n!"mega", "M", "M"), (n!"giga", "G", "G"), (n!"tera", "T", "T"), (n!"peta", "P", "P"), (n!"exa", "E", "E"),
  (n!"zetta", "Z", "Z"), (n!"yotta", "Y", "Y")]

/-- The symbols of the binary prefixes (IEC 80000-13, clause 4). -/
def binaryPrefixSymbols : List (Nm × String × String) := [
  (n!"kibi", "Ki", "Ki"), (n!"mebi", "Mi", "Mi"), (n!"gibi", "Gi", "Gi"), (n!"tebi", "Ti", "Ti"), (n!"pebi", "Pi", "Pi"), (n!"exbi", "Ei", "Ei"),
  (n!"zebi", "Zi", "Zi"), (n!"yobi", "Yi", "Yi")]

/-- The quantities of the ISQ (ISO 80000) and their dimensions as powers of length, mass, time, electric current, temperature, amount of substance,
luminous intensity, angle (which the library treats as a base quantity; it divides torque), storage capacity, traffic intensity. -/
def isqDimensions : List (Nm × List Int) := [
  (n!"dim_one", [0, 0, 0, 0, 0, 0, 0, 0, 0, 0, 0]),
  (n!"dim_angle<>", [0, 0, 0, 0, 0, 0, 0, 1, 0, 0, 0]),
  (n!"dim_length", [1, 0, 0, 0, 0, 0, 0, 0, 0, 0, 0]),
  (n!"dim_mass", [0, 1, 0, 0, 0, 0, 0, 0, 0, 0, 0]),
  (n!"dim_time", [0, 0, 1, 0, 0, 0, 0, 0, 0, 0, 0]),
  (n!"dim_electric_current", [0, 0, 0, 1, 0, 0, 0, 0, 0, 0, 0]),
  (n!"dim_thermodynamic_temperature", [0, 0, 0, 0, 1, 0, 0, 0, 0, 0, 0]),
  (n!"dim_amount_of_substance", [0, 0, 0, 0, 0, 1, 0, 0, 0, 0, 0]),
  (n!"dim_luminous_intensity", [0, 0, 0, 0, 0, 0, 1, 0, 0, 0, 0]),
  (n!"dim_storage_capacity", [0, 0, 0, 0, 0, 0, 0, 0, 1, 0, 0]),
  (n!"dim_traffic_intensity", [0, 0, 0, 0, 0, 0, 0, 0, 0, 1, 0]),
  (n!"dim_transfer_rate", [0, 0, -1, 0, 0, 0, 0, 0, 1, 0, 0]),
  (n!"dim_modulation_rate", [0, 0, -1, 0, 0, 0, 0, 0, 0, 0, 0]),
  (n!"dim_frequency", [0, 0, -1, 0, 0, 0, 0, 0, 0, 0, 0]),
  (n!"dim_radioactivity", [0, 0, -1, 0, 0, 0, 0, 0, 0, 0, 0]),
  (n!"dim_area", [2, 0, 0, 0, 0, 0, 0, 0, 0, 0, 0]),
  (n!"dim_volume", [3, 0, 0, 0, 0, 0, 0, 0, 0, 0, 0]),
  (n!"dim_speed", [1, 0, -1, 0, 0, 0, 0, 0, 0, 0, 0]),
  (n!"dim_acceleration", [1, 0, -2, 0, 0, 0, 0, 0, 0, 0, 0]),
  (n!"dim_angular_velocity", [0, 0, -1, 0, 0, 0, 0, 1, 0, 0, 0]),
  (n!"dim_density", [-3, 1, 0, 0, 0, 0, 0, 0, 0, 0, 0]),
  (n!"dim_momentum", [1, 1, -1, 0, 0, 0, 0, 0, 0, 0, 0]),
  (n!"dim_force", [1, 1, -2, 0, 0, 0, 0, 0, 0, 0, 0]),
  (n!"dim_pressure", [-1, 1, -2, 0, 0, 0, 0, 0, 0, 0, 0]),
  (n!"dim_surface_tension", [0, 1, -2, 0, 0, 0, 0, 0, 0, 0, 0]),
  (n!"dim_dynamic_viscosity", [-1, 1, -1, 0, 0, 0, 0, 0, 0, 0, 0]),
  (n!"dim_energy", [2, 1, -2, 0, 0, 0, 0, 0, 0, 0, 0]),
  (n!"dim_energy_density", [-1, 1, -2, 0, 0, 0, 0, 0, 0, 0, 0]),
  (n!"dim_torque", [2, 1, -2, 0, 0, 0, 0, -1, 0, 0, 0]),
  (n!"dim_power", [2, 1, -3, 0, 0, 0, 0, 0, 0, 0, 0]),
  (n!"dim_absorbed_dose", [2, 0, -2, 0, 0, 0, 0, 0, 0, 0, 0]),
  (n!"dim_heat_capacity", [2, 1, -2, 0, -1, 0, 0, 0, 0, 0, 0]),
  (n!"dim_specific_heat_capacity", [2, 0, -2, 0, -1, 0, 0, 0, 0, 0, 0]),
  (n!"dim_molar_heat_capacity", [2, 1, -2, 0, -1, -1, 0, 0, 0, 0, 0]),
  (n!"dim_molar_energy", [2, 1, -2, 0, 0, -1, 0, 0, 0, 0, 0]),
  (n!"dim_thermal_conductivity", [1, 1, -3, 0, -1, 0, 0, 0, 0, 0, 0]),
  (n!"dim_concentration", [-3, 0, 0, 0, 0, 1, 0, 0, 0, 0, 0]),
  (n!"dim_catalytic_activity", [0, 0, -1, 0, 0, 1, 0, 0, 0, 0, 0]),
  (n!"dim_electric_charge", [0, 0, 1, 1, 0, 0, 0, 0, 0, 0, 0]),
  (n!"dim_charge_density", [-3, 0, 1, 1, 0, 0, 0, 0, 0, 0, 0]),
  (n!"dim_surface_charge_density", [-2, 0, 1, 1, 0, 0, 0, 0, 0, 0, 0]),
  (n!"dim_current_density", [-2, 0, 0, 1, 0, 0, 0, 0, 0, 0, 0]),
  (n!"dim_voltage", [2, 1, -3, -1, 0, 0, 0, 0, 0, 0, 0]),
  (n!"dim_electric_field_strength", [1, 1, -3, -1, 0, 0, 0, 0, 0, 0, 0]),
  (n!"dim_capacitance", [-2, -1, 4, 2, 0, 0, 0, 0, 0, 0, 0]),
  (n!"dim_permittivity", [-3, -1, 4, 2, 0, 0, 0, 0, 0, 0, 0]),
  (n!"dim_resistance", [2, 1, -3, -2, 0, 0, 0, 0, 0, 0, 0]),
  (n!"dim_conductance", [-2, -1, 3, 2, 0, 0, 0, 0, 0, 0, 0]),
  (n!"dim_magnetic_flux", [2, 1, -2, -1, 0, 0, 0, 0, 0, 0, 0]),
  (n!"dim_magnetic_induction", [0, 1, -2, -1, 0, 0, 0, 0, 0, 0, 0]),
  (n!"dim_inductance", [2, 1, -2, -2, 0, 0, 0, 0, 0, 0, 0]),
  (n!"dim_permeability", [1, 1, -2, -2, 0, 0, 0, 0, 0, 0, 0]),
  (n!"dim_luminance", [-2, 0, 0, 0, 0, 0, 1, 0, 0, 0, 0])]

/-- In natural units (`c = ħ = 1`) every quantity is a power of energy. -/
def naturalDimensions : List (Nm × List Int) := [
  (n!"dim_length", [0, 0, 0, 0, 0, 0, 0, 0, 0, 0, -1]),
  (n!"dim_time", [0, 0, 0, 0, 0, 0, 0, 0, 0, 0, -1]),
  (n!"dim_mass", [0, 0, 0, 0, 0, 0, 0, 0, 0, 0, 1]),
  (n!"dim_speed", [0, 0, 0, 0, 0, 0, 0, 0, 0, 0, 0]),
  (n!"dim_acceleration", [0, 0, 0, 0, 0, 0, 0, 0, 0, 0, 1]),
  (n!"dim_momentum", [0, 0, 0, 0, 0, 0, 0, 0, 0, 0, 1]),
  (n!"dim_force", [0, 0, 0, 0, 0, 0, 0, 0, 0, 0, 2]),
  (n!"dim_energy", [0, 0, 0, 0, 0, 0, 0, 0, 0, 0, 1])]

/-- The dimension of a quantity by its name. -/
def dimensionOf (scope name : Nat) : Option (List Int) :=
  let l := bif Nat.beq scope n!"units::isq::natural".code then naturalDimensions else isqDimensions
  match l.find? fun p => Nat.beq p.1.code name with
  | some p => some p.2
  | none => none

/-- The defining constants of the SI (SI Brochure, table 1), the standard acceleration of free fall, and the reduced Planck constant as CODATA 2018 gives it to ten digits
(6.582119569e-16 eV s). -/
def constants : List (Nm × Amount) := [
  (n!"units::isq::si::si2019::planck_constant", (kgmsA 1 2 (-1) 0).times (662607015 / 10 ^ 42)),
  (n!"units::isq::si::si2019::reduced_planck_constant",
    ((kgmsA 1 2 (-1) 0).times (1602176634 / 10 ^ 28)).times (6582119569 / 10 ^ 25)),
  (n!"units::isq::si::si2019::elementary_charge", (kgmsA 0 0 1 1).times (1602176634 / 10 ^ 28)),
  (n!"units::isq::si::si2019::boltzmann_constant", ((kgmsA 1 2 (-2) 0).mul (kelvin.pow (-1))).times (1380649 / 10 ^ 29)),
  (n!"units::isq::si::si2019::avogadro_constant", (mole.pow (-1)).times (602214076 * 10 ^ 15)),
  (n!"units::isq::si::si2019::speed_of_light", (kgmsA 0 1 (-1) 0).times 299792458),
  (n!"units::isq::si::si2019::hyperfine_structure_transition_frequency", (second.pow (-1)).times 9192631770),
  (n!"units::isq::si::si2019::standard_gravity", (kgmsA 0 1 (-2) 0).times (980665 / 10 ^ 5)),
  (n!"units::isq::natural::speed_of_light", unity)]

end Verif.Standards
