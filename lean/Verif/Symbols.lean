import Verif.Standards
import Verif.Text

/-!
# What symbols of units mean (specification)

Independent of the library: the symbols of units and prefixes as in the SI Brochure (9th edition, tables 2, 4, 7 and 8), IEC 80000-13 and NIST Special
Publication 811, and how a printed unit (`kg ⋅ m/s²`, `[5/18 × 10³] m/s`) is read, in the standard or in the ASCII notation.
-/

namespace Verif.Standards

open Verif.Systems

/-- Read decimal digits. -/
def readDigits (digits : List Char) : List Char → Option Nat
  | [] => none
  | c :: l => (c :: l).foldlM (fun acc c => (digits.idxOf? c).map (10 * acc + ·)) 0

/-- Read decimal digits after an optional minus sign. -/
def readSigned (digits : List Char) (minus : Char) : List Char → Option Int
  | [] => none
  | c :: l =>
    if c = minus then (readDigits digits l).map fun n => -(n : Int) else (readDigits digits (c :: l)).map fun n => (n : Int)

/-- The symbols of the SI prefixes and of the binary prefixes; `u` stands for `µ` in ASCII. -/
def symbolPrefixes : List (Nm × ℚ) := [
  (n!"y", 1 / 10 ^ 24), (n!"z", 1 / 10 ^ 21), (n!"a", 1 / 10 ^ 18), (n!"f", 1 / 10 ^ 15), (n!"p", 1 / 10 ^ 12), (n!"n", 1 / 10 ^ 9),
  (n!"µ", 1 / 10 ^ 6), (n!"u", 1 / 10 ^ 6), (n!"m", 1 / 10 ^ 3), (n!"c", 1 / 10 ^ 2), (n!"d", 1 / 10), (n!"da", 10), (n!"h", 10 ^ 2),
  (n!"k", 10 ^ 3), (n!"M", 10 ^ 6), (n!"G", 10 ^ 9), (n!"T", 10 ^ 12), (n!"P", 10 ^ 15), (n!"E", 10 ^ 18), (n!"Z", 10 ^ 21), (n!"Y", 10 ^ 24),
  (n!"Ki", 2 ^ 10), (n!"Mi", 2 ^ 20), (n!"Gi", 2 ^ 30), (n!"Ti", 2 ^ 40), (n!"Pi", 2 ^ 50), (n!"Ei", 2 ^ 60), (n!"Zi", 2 ^ 70), (n!"Yi", 2 ^ 80)]

/-- Symbols that belong to no system; `1` is what is divided in `1/s`. -/
def genericSymbols : Words := [(n!"1", unity), (n!"%", unity.times (1 / 100)), (n!"rad", radian)]

/-- The SI units and the units accepted for use with the SI; `ohm` stands for `Ω` in ASCII. -/
def siSymbols : Words := [
  (n!"m", metre), (n!"g", gram), (n!"s", second), (n!"A", ampere), (n!"K", kelvin), (n!"mol", mole), (n!"cd", candela),
  (n!"min", second.times 60), (n!"h", second.times 3600), (n!"d", second.times 86400),
  (n!"Hz", second.pow (-1)), (n!"Bq", second.pow (-1)),
  (n!"N", kgmsA 1 1 (-2) 0), (n!"Pa", kgmsA 1 (-1) (-2) 0), (n!"J", kgmsA 1 2 (-2) 0),
  (n!"W", kgmsA 1 2 (-3) 0), (n!"C", kgmsA 0 0 1 1), (n!"V", kgmsA 1 2 (-3) (-1)),
  (n!"F", kgmsA (-1) (-2) 4 2), (n!"Ω", kgmsA 1 2 (-3) (-2)), (n!"ohm", kgmsA 1 2 (-3) (-2)), (n!"S", kgmsA (-1) (-2) 3 2),
  (n!"Wb", kgmsA 1 2 (-2) (-1)), (n!"T", kgmsA 1 0 (-2) (-1)), (n!"H", kgmsA 1 2 (-2) (-2)),
  (n!"Gy", kgmsA 0 2 (-2) 0), (n!"kat", mole.mul (second.pow (-1))),
  (n!"au", metre.times 149597870700), (n!"ha", (metre.pow 2).times 10000),
  (n!"l", (metre.pow 3).times (1 / 1000)), (n!"t", gram.times 1000000),
  (n!"Da", gram.times (166053906660 / 10 ^ 35)), (n!"eV", (kgmsA 1 2 (-2) 0).times (1602176634 / 10 ^ 28)),
  (n!"G", (kgmsA 1 0 (-2) (-1)).times (1 / 10000)),
  (n!"U", (mole.mul (second.pow (-1))).times (1 / 60000000))]

/-- The mechanical units of the CGS system. -/
def cgsSymbols : Words := [
  (n!"Gal", ⟨1 / 100, [1, 0, -2, 0, 0, 0, 0, 0, 0, 0, 0]⟩), (n!"dyn", ⟨1 / 100, [1, 1, -2, 0, 0, 0, 0, 0, 0, 0, 0]⟩),
  (n!"erg", ⟨1 / 10000, [2, 1, -2, 0, 0, 0, 0, 0, 0, 0, 0]⟩), (n!"Ba", ⟨100, [-1, 1, -2, 0, 0, 0, 0, 0, 0, 0, 0]⟩)]

/-- The customary abbreviations of units of the foot-pound-second system; for some a name is in use as abbreviation (`mile`, `knot`). -/
def fpsSymbols : Words := [
  (n!"ft", foot), (n!"in", inch), (n!"thou", inch.times (1 / 1000)), (n!"mil", inch.times (1 / 1000)), (n!"yd", yard), (n!"ftm", yard.times 2),
  (n!"mile", yard.times 1760), (n!"mi(naut)", metre.times 1852), (n!"knot", (metre.mul (second.pow (-1))).times (1852 / 3600)),
  (n!"lb", pound), (n!"gr", pound.times (1 / 7000)), (n!"dr", pound.times (1 / 256)), (n!"oz", pound.times (1 / 16)),
  (n!"st", pound.times 14), (n!"qr", pound.times 28), (n!"cwt", pound.times 112),
  (n!"ton (short)", pound.times 2000), (n!"ton (long)", pound.times 2240),
  (n!"pdl", pound.mul (foot.mul (second.pow (-2)))), (n!"lbf", poundForce), (n!"psi", poundForce.mul (inch.pow (-2))),
  (n!"hp", ((poundForce.mul foot).mul (second.pow (-1))).times 550)]

/-- The customary abbreviations of the international units of length. -/
def internationalSymbols : Words := [
  (n!"ft", foot), (n!"in", inch), (n!"thou", inch.times (1 / 1000)), (n!"yd", yard), (n!"fathom", yard.times 2), (n!"mi", yard.times 1760),
  (n!"mi(naut)", metre.times 1852)]

/-- The imperial units of length. -/
def imperialSymbols : Words := [(n!"ch", yard.times 22), (n!"rd", yard.times (22 / 4))]

/-- The United States survey units. -/
def uscsSymbols : Words := [
  (n!"ft(us)", metre.times (1200 / 3937)), (n!"fathom(us)", metre.times (7200 / 3937)), (n!"mi(us)", metre.times (5280 * 1200 / 3937))]

/-- The astronomical units of length (the ångström is spelled out). -/
def iauSymbols : Words := [
  (n!"ly", metre.times (299792458 * 36525 * 864)), (n!"pc", metre.times 30856775814913673), (n!"angstrom", metre.times (1 / 10 ^ 10))]

/-- The typographic units (printer's and computer points). -/
def typographicSymbols : Words := [
  (n!"pica(comp)", metre.times (4233333 / 10 ^ 9)), (n!"pica(prn)", metre.times (4217518 / 10 ^ 9)),
  (n!"point(comp)", metre.times (3527778 / 10 ^ 10)), (n!"point(prn)", metre.times (3514598 / 10 ^ 10))]

/-- The units of information (IEC 80000-13). -/
def iecSymbols : Words := [(n!"bit", bit), (n!"B", bit.times 8), (n!"Bd", second.pow (-1)), (n!"E", erlang)]

/-- Natural units. -/
def naturalSymbols : Words := [(n!"eV", eV)]

/-- The symbols used in a system of units (a namespace of the library). -/
def symbolsOf (scope : Nat) : Words :=
  (bif Nat.beq scope n!"units::isq::si".code then siSymbols
  else bif Nat.beq scope n!"units::isq::si::cgs".code then cgsSymbols ++ siSymbols
  else bif Nat.beq scope n!"units::isq::si::fps".code then fpsSymbols ++ siSymbols
  else bif Nat.beq scope n!"units::isq::si::international".code then internationalSymbols ++ siSymbols
  else bif Nat.beq scope n!"units::isq::si::imperial".code then imperialSymbols
  else bif Nat.beq scope n!"units::isq::si::uscs".code then uscsSymbols
  else bif Nat.beq scope n!"units::isq::si::iau".code then iauSymbols
  else bif Nat.beq scope n!"units::isq::si::typographic".code then typographicSymbols
  else bif Nat.beq scope n!"units::isq::iec80000".code then iecSymbols ++ siSymbols
  else bif Nat.beq scope n!"units::isq::natural".code then naturalSymbols
  else []) ++ genericSymbols

/-- The meaning of a symbol, possibly with one prefix. -/
def readSymbol (ws : Words) (l : List Char) : Option Amount :=
  withNat (encode (String.ofList l)) fun w =>
    match findWord ws w with
    | some a => some a
    | none => findPrefixed ws symbolPrefixes w

/-- A character that begins a power. -/
def isPower (c : Char) : Bool := c == '^' || c == '⁻' || superDigits.contains c

/-- A character that ends a factor. -/
def isBreak (c : Char) : Bool := c == ' ' || c == '/'

/-- Reads a power: nothing, superscripts, or `^` and a number. -/
def readPower : List Char → Option Int
  | [] => some 1
  | '^' :: l => readSigned asciiDigits '-' l
  | l => readSigned superDigits '⁻' l

/-- Reads a factor: a symbol with a power. -/
def readFactor (look : List Char → Option Amount) (l : List Char) : Option Amount :=
  match look (l.takeWhile fun c => !isPower c), readPower (l.dropWhile fun c => !isPower c) with
  | some a, some n => some (a.pow n)
  | _, _ => none

/-- What follows a factor: nothing, or another factor after ` ⋅ ` or a space, or after `/` (then `true`). -/
def nextFactor : List Char → Option (Bool × List Char)
  | [] => none
  | ' ' :: '⋅' :: ' ' :: l => some (false, l)
  | ' ' :: l => some (false, l)
  | _ :: l => some (true, l)

/-- Reads a product of factors, from the left; what comes after `/` is divided by (only the next factor).  The number limits the number of factors. -/
def readProduct (look : List Char → Option Amount) : Nat → Bool → List Char → Option Amount
  | 0, _, _ => none
  | k + 1, inv, l =>
    match readFactor look (l.takeWhile fun c => !isBreak c) with
    | none => none
    | some a =>
      let a := bif inv then a.pow (-1) else a
      match nextFactor (l.dropWhile fun c => !isBreak c) with
      | none => some a
      | some (i, r) => (readProduct look k i r).map a.mul

/-- Reads the symbol of a unit: nothing, a product, or a symbol that contains a space. -/
def readUnits (look : List Char → Option Amount) (l : List Char) : Option Amount :=
  match l with
  | [] => some unity
  | _ =>
    match readProduct look (l.length + 1) false l with
    | some a => some a
    | none => look l

/-- Reads a power of ten up to a space or a bracket. -/
def readTen (l : List Char) : Option (Int × List Char) :=
  match readPower (l.takeWhile fun c => !(c == ' ' || c == ']')) with
  | some n => some (n, l.dropWhile fun c => !(c == ' ' || c == ']'))
  | none => none

/-- Reads `× 10ⁿ` or `x 10^n`. -/
def readTimesTen : List Char → Option (Int × List Char)
  | '×' :: ' ' :: '1' :: '0' :: l => readTen l
  | 'x' :: ' ' :: '1' :: '0' :: l => readTen l
  | _ => none

/-- Without a leading space. -/
def dropSpace : List Char → List Char
  | ' ' :: l => l
  | l => l

/-- Reads the digits up to another character. -/
def readNumber (l : List Char) : Option (Nat × List Char) :=
  match readDigits asciiDigits (l.takeWhile asciiDigits.contains) with
  | some n => some (n, l.dropWhile asciiDigits.contains)
  | none => none

/-- Reads what is after the fraction: nothing or a space and a power of ten, and the closing bracket. -/
def readBracketEnd (q : ℚ) : List Char → Option (ℚ × List Char)
  | ']' :: l => some (q, dropSpace l)
  | ' ' :: l =>
    match readTimesTen l with
    | some (e, ']' :: l) => some (q * 10 ^ e, dropSpace l)
    | _ => none
  | _ => none

/-- Reads the number in front of a unit, if there is one: `× 10ⁿ`, or `[a]`, `[a/b]`, `[a × 10ⁿ]`, `[a/b × 10ⁿ]`. -/
def readScale : List Char → Option (ℚ × List Char)
  | '[' :: l =>
    match readNumber l with
    | some (n, '/' :: l) =>
      match readNumber l with
      | some (d, l) => readBracketEnd (n / d) l
      | none => none
    | some (n, l) => readBracketEnd n l
    | none => none
  | l =>
    match readTimesTen l with
    | some (e, l) => some (10 ^ e, dropSpace l)
    | none => none

/-- Reads a printed unit: a number and the symbol of a unit. -/
def readText (look : List Char → Option Amount) (l : List Char) : Option Amount :=
  match readScale l with
  | some (q, r) => (readUnits look r).map (Amount.times q)
  | none => readUnits look l

/-- What a printed unit means in a system of units. -/
def printedMeaning (scope : Nat) (l : List Char) : Option Amount := readText (readSymbol (symbolsOf scope)) l

end Verif.Standards
