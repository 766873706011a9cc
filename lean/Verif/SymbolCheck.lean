import Verif.SystemsTable
import Verif.SystemsSpec
import Verif.Symbols
import Verif.Printed

/-!
# What is printed for shipped units and dimensions: what is checked

The lookups by name of `Verif/Printed.lean` on the tables of `Verif/SystemsTable.lean`, and the checks of symbols against `Verif/Symbols.lean` that the kernel
evaluates in `Verif/SymbolChecked.lean`.
-/

namespace Verif.Systems

open Standards

/-- The first element of each key. -/
def indexBy {α : Type} (key : α → Nat) : Tree α → List α → Tree α
  | t, [] => t
  | t, x :: xs => withNat (key x) fun k =>
    match t.find k with
    | some _ => indexBy key t xs
    | none => indexBy key (t.insert k x) xs

theorem indexBy_find {α : Type} (key : α → Nat) (l : List α) (t : Tree α) (k : Nat) :
    (indexBy key t l).find k = match t.find k with
      | some x => some x
      | none => l.find? fun x => Nat.beq (key x) k := by
  induction l generalizing t with
  | nil => simp only [indexBy]; split <;> simp [*]
  | cons a l ih =>
    simp only [indexBy, withNat_eq]
    split
    · rename_i y hy
      rw [ih]
      by_cases hk : key a = k
      · rw [← hk, hy]
      · have : Nat.beq (key a) k = false := by
          rw [Bool.eq_false_iff]; intro h; exact hk (Nat.eq_of_beq_eq_true h)
        rw [List.find?_cons, this]
    · rename_i hy
      rw [ih, Tree.find_insert]
      by_cases hk : k = key a
      · subst hk
        have : Nat.beq (key a) (key a) = true := Nat.beq_refl _
        rw [if_pos rfl, hy, List.find?_cons, this]
      · rw [if_neg hk]
        have : Nat.beq (key a) k = false := by
          rw [Bool.eq_false_iff]; intro h; exact hk (Nat.eq_of_beq_eq_true h).symm
        rw [List.find?_cons, this]

/-- What is found under a name. -/
def findNamed {α : Type} (name : α → String) (t : Tree α) (n : String) : Option α :=
  match t.find (encode n) with
  | some x => if name x = n then some x else none
  | none => none

/-- Looking up a name in the index finds the first element with this name. -/
theorem findNamed_eq {α : Type} [DecidableEq α] (name : α → String) (l : List α)
    (h : functional (fun x => encode (name x)) id .leaf l = true) (n : String) :
    findNamed name (indexBy (fun x => encode (name x)) .leaf l) n = l.find? fun x => decide (name x = n) := by
  have hf := functional_sound h
  unfold findNamed
  rw [indexBy_find]
  have hleaf : (Tree.leaf : Tree α).find (encode n) = none := rfl
  rw [hleaf]
  simp only
  cases hx : l.find? (fun x => Nat.beq (encode (name x)) (encode n)) with
  | none =>
    simp only
    symm
    rw [List.find?_eq_none] at hx ⊢
    intro y hy hn
    simp only [decide_eq_true_eq] at hn
    exact hx y hy (by rw [hn]; exact Nat.beq_refl _)
  | some x =>
    simp only
    have hxl := List.mem_of_find?_eq_some hx
    have hxk : encode (name x) = encode n := Nat.eq_of_beq_eq_true (by simpa using List.find?_some hx)
    cases hy : l.find? (fun x => decide (name x = n)) with
    | none =>
      rw [List.find?_eq_none] at hy
      rw [if_neg (by simpa using hy x hxl)]
    | some y =>
      have hyl := List.mem_of_find?_eq_some hy
      have hyn : name y = n := by simpa using List.find?_some hy
      have : y = x := hf y hyl x hxl (by rw [hyn, hxk])
      subst this
      rw [if_pos hyn]

/-- The units by name. -/
def unitIndex : Tree UEnt := indexBy (fun u => encode u.name) .leaf (unitTable.map URow.ent)

/-- The dimensions by name. -/
def dimIndex : Tree DEnt := indexBy (fun d => encode d.name) .leaf dentTable

/-- `Sys.unitNamed` on the table. -/
def tableUnit (n : String) : Option UEnt := findNamed UEnt.name unitIndex n

/-- `Sys.dimNamed` on the table. -/
def tableDim (n : String) : Option DEnt := findNamed DEnt.name dimIndex n

/-- Whether things with the same name are the same. -/
def checkIndexed : Bool :=
  functional (fun u : UEnt => encode u.name) id .leaf (unitTable.map URow.ent) && functional (fun d : DEnt => encode d.name) id .leaf dentTable

/-- Dimensions whose coherent unit is printed wrongly. -/
def wrongTexts : List String := ["units::isq::si::dim_energy_density", "units::isq::si::fps::dim_pressure", "units::isq::si::dim_angular_velocity"]

/-- The dimension whose coherent unit has a symbol with a prefix, but for which all units that would get a second one are declared. -/
def massName : String := "units::isq::si::dim_mass"

/-- The other dimensions whose coherent unit has a symbol with a prefix: here a unit may get a second one. -/
def prefixedCoherent : List String := [
  "units::isq::si::cgs::dim_length", "units::isq::natural::dim_momentum", "units::isq::natural::dim_energy",
  "units::isq::natural::dim_mass", "units::isq::natural::dim_acceleration"]

/-- The text of the coherent unit of a dimension, src/core/include/units/bits/unit_text.h:160-176. -/
def coherentText (d : TDim) : C SText :=
  match d.unit.symbol with
  | some s => .ok s
  | none =>
    match d with
    | .base _ _ => .error .rejected
    | .derived _ _ r => derivedDimensionUnitText r

/-- The two versions of a text. -/
def SText.both' (s : SText) : List (List Char) := [s.std, s.ascii]

/-- Whether the text of the coherent unit of a dimension, alone and after each prefix that can be put in front of it, reads as what it is. -/
def checkDimText (ps : List PRow) (r : DRow) : Bool :=
  decide (r.full ∈ wrongTexts) ||
  match tDimOf tableUnit tableDim 40 r.dim with
  | .error _ => false
  | .ok td =>
    match coherentText td, denote r.dim r.dim.unit with
    | .ok s, some a =>
      (s.std.isEmpty == s.ascii.isEmpty) && (SText.both' s).all (fun l => decide (printedMeaning r.scope.code l = some a) &&
        decide (readUnits (readSymbol (symbolsOf r.scope.code)) l = some a)) &&
      (decide (r.full ∈ prefixedCoherent) || decide (r.full = massName) ||
        match td.unit.refFamily with
        | none => true
        | some f => ps.all fun p => bif decide (p.pre.family = f) then
            decide (printedMeaning r.scope.code (p.pre.symbol.toList ++ s.std) = some (a.times p.pre.ratio.val)) &&
            decide (printedMeaning r.scope.code (p.ascii.toList ++ s.ascii) = some (a.times p.pre.ratio.val))
          else true)
    | _, _ => false

/-- The units whose symbol does not mean what their name means. -/
def wrongSymbols : List String := ["units::isq::si::radian_per_second", "units::isq::si::fps::pound_force_per_foot_sq"]

/-- Whether the symbols of a unit mean what its name means. -/
def checkSymbol (r : URow) : Bool :=
  bif r.ent.unit.named || decide (r.ent.unit.symbol ≠ "") then
    decide (r.ent.unit.id = .named r.ent.name) &&
    (decide (r.ent.name ∈ wrongSymbols) ||
      match meaning r.scope.code r.name.code with
      | some a => decide (printedMeaning r.scope.code r.ent.unit.symbol.toList = some a) && decide (printedMeaning r.scope.code r.ent.ascii.toList = some a)
      | none => false)
  else true

/-- Whether every prefix has the value of its symbol, so that other values are not those of prefixes. -/
def checkPrefixValues : Bool := prefixTable.all fun p => symbolPrefixes.any fun q => decide (q.2 = p.pre.ratio.val)

/-- `Sys.prefixes` on the table. -/
def tablePrefix : PrefixReg := fun f r =>
  prefixTable.findSome? fun p => if p.pre.family = f ∧ p.pre.ratio = r then some ⟨f, ⟨p.pre.symbol.toList, p.ascii.toList⟩, r⟩ else none

/-- `Sys.printed` on the tables. -/
def tablePrinted (d : Dim) (u : MUnit) : C SText := do
  let d ← tDimOf tableUnit tableDim 40 d
  unitText tablePrefix d (tUnitOf tableUnit u)

/-- The dimensions printed wrongly and what is printed for their coherent units. -/
def wrongTextsShown : List (String × String × String) := [
  ("units::isq::si::dim_energy_density", "J ⋅ m³", "J m^3"), ("units::isq::si::fps::dim_pressure", "pdl ⋅ ft²", "pdl ft^2"),
  ("units::isq::si::dim_angular_velocity", "ω", "w")]

/-- Whether what is printed is what is shown and reads as something else. -/
def checkWrongTexts : Bool := wrongTextsShown.all fun p => dimTable.any fun r =>
  decide (r.full = p.1) && decide (tablePrinted r.dim r.dim.unit = .ok ⟨p.2.1.toList, p.2.2.toList⟩) && (denote r.dim r.dim.unit).isSome &&
  decide (printedMeaning r.scope.code p.2.1.toList ≠ denote r.dim r.dim.unit) && decide (printedMeaning r.scope.code p.2.2.toList ≠ denote r.dim r.dim.unit)

/-- Units that get two prefixes: the dimension, the ratio, the reference and what is printed. -/
def doublePrefixes : List (String × Ratio × String × String) := [
  ("units::isq::si::cgs::dim_length", ⟨1, 1, 4⟩, "units::isq::si::metre", "Mcm"),
  ("units::isq::natural::dim_momentum", ⟨1, 1, 12⟩, "units::isq::natural::electronvolt", "kGeV"),
  ("units::isq::natural::dim_energy", ⟨1, 1, 12⟩, "units::isq::natural::electronvolt", "kGeV"),
  ("units::isq::natural::dim_mass", ⟨1, 1, 12⟩, "units::isq::natural::electronvolt", "kGeV"),
  ("units::isq::natural::dim_acceleration", ⟨1, 1, 12⟩, "units::isq::natural::electronvolt", "kGeV")]

/-- A `scaled_unit` that is not downcast. -/
def plainScaled (r : Ratio) (ref : String) : MUnit := ⟨.scaled r ref, r, ref, [], false, "", none⟩

/-- Whether the text is as shown and has no meaning, and the unit is not one that is declared. -/
def checkDoublePrefixes : Bool := doublePrefixes.all fun p => (unitDefTable.all fun d => !(decide (d.2.1 = p.2.1) && decide (d.2.2 = p.2.2.1))) &&
  dimTable.any fun r => decide (r.full = p.1) && decide (tablePrinted r.dim (plainScaled p.2.1 p.2.2.1) = .ok (.both p.2.2.2.toList)) &&
    unitOf (plainScaled p.2.1 p.2.2.1) r.dim && decide (printedMeaning r.scope.code p.2.2.2.toList = none)

/-- Whether the symbols of these units have no meaning. -/
def checkWrongSymbols : Bool := wrongSymbols.all fun n => unitTable.any fun r => decide (r.ent.name = n) && decide (r.ent.unit.symbol ≠ "") &&
  (meaning r.scope.code r.name.code).isSome && decide (printedMeaning r.scope.code r.ent.unit.symbol.toList = none) &&
  decide (printedMeaning r.scope.code r.ent.ascii.toList = none)

/-- The systems of units whose base dimensions can occur in products that no header declares. -/
def productScopes : List Nm := [n!"units::isq::si", n!"units::isq::si::cgs", n!"units::isq::si::fps", n!"units::isq::iec80000"]

/-- The base dimensions used in a system of units: its own, those of the SI, and the angle. -/
def usedIn (scope other : Nat) : Bool := Nat.beq other scope || Nat.beq other n!"units::isq::si".code || Nat.beq other n!"units".code

/-- A character a number in front of a unit begins with. -/
def beginsScale (c : Char) : Bool := c == '[' || c == '×' || c == 'x'

/-- Whether the symbols of the base units of a system can be factors and read as the base units. -/
def checkBaseSymbols : Bool := productScopes.all fun scope => dimTable.all fun r =>
  match r.dim with
  | .base b =>
    bif usedIn scope.code r.scope.code then
      b.unit.named &&
      match (tUnitOf tableUnit b.unit).symbol, baseUnitAmount b with
      | some s, some a => (SText.both' s).all (fun l => decide (l ≠ []) && l.all (fun c => !isPower c && !isBreak c && c != '⋅' && !beginsScale c) &&
          decide (readSymbol (symbolsOf scope.code) l = some a)) && decide (a.exps.length = 11)
      | _, _ => false
    else true
  | _ => true

/-- `1` is read as one; the coherent unit of an unknown dimension is not declared in the headers of systems. -/
def checkOneSymbol : Bool := productScopes.all (fun scope => decide (readSymbol (symbolsOf scope.code) ['1'] = some unity)) &&
  (tableUnit "unknown_coherent_unit").isNone

/-- The square of a length in natural units. -/
def naturalArea : Dim := .unknown [⟨b_isq_natural_dim_length, 2, 1⟩]

/-- Whether the symbol of the square of a length in natural units reads as another power. -/
def checkNaturalArea : Bool :=
  decide (tablePrinted naturalArea unknownCoherentUnit = .ok ⟨"GeV⁻¹²".toList, "GeV^-1^2".toList⟩) &&
  decide (printedMeaning n!"units::isq::natural".code "GeV⁻¹²".toList = some ⟨1 / 10 ^ 108, [0, 0, 0, 0, 0, 0, 0, 0, 0, 0, -12]⟩) &&
  decide (printedMeaning n!"units::isq::natural".code "GeV^-1^2".toList = none) &&
  decide (denote naturalArea unknownCoherentUnit = some ⟨1 / 10 ^ 18, [0, 0, 0, 0, 0, 0, 0, 0, 0, 0, -2]⟩)

/-- Two nautical miles. -/
def checkNautical : Bool :=
  unitTable.any fun r => decide (r.ent.name = "units::isq::si::international::nautical_mile") && decide (r.ent.unit.symbol = "mi(naut)") &&
  unitTable.any fun q => decide (q.ent.name = "units::isq::si::fps::nautical_mile") && decide (q.ent.unit.symbol = "mi(naut)") &&
    decide (r.ent.unit.ref = q.ent.unit.ref) && decide (r.ent.unit.ratio.val ≠ q.ent.unit.ratio.val)

/-- Whether the units that are a prefix away from the kilogram are declared. -/
def checkMass : Bool :=
  dimTable.all (fun r => bif decide (r.full = massName) then
    decide (r.dim.unit.ratio = ⟨1, 1, 3⟩) && decide (r.dim.unit.ref = "units::isq::si::gram") &&
      decide ((tUnitOf tableUnit r.dim.unit).refFamily = some "units::isq::si::prefix") else true) &&
  prefixTable.all fun p => bif decide (p.pre.family = "units::isq::si::prefix") then
    decide (p.pre.ratio.num = 1) && decide (p.pre.ratio.den = 1) &&
      unitDefTable.any fun d => decide (d.2.1 = ⟨1, 1, p.pre.ratio.exp + 3⟩) && decide (d.2.2 = "units::isq::si::gram")
    else true

/-- A dimension no header declares: area per time cubed. -/
def oddDim : Dim := .unknown [⟨b_isq_si_dim_length, 2, 1⟩, ⟨b_isq_si_dim_time, -3, 1⟩]

/-- Some printed units. -/
def checkShown : Bool :=
  (dimTable.any fun r => decide (r.full = "units::isq::si::dim_speed") &&
    decide (tablePrinted r.dim (plainScaled ⟨5, 18, 3⟩ "units::isq::si::metre_per_second") = .ok ⟨"[5/18 × 10³] m/s".toList, "[5/18 x 10^3] m/s".toList⟩) &&
    unitOf (plainScaled ⟨5, 18, 3⟩ "units::isq::si::metre_per_second") r.dim) &&
  (dimTable.any fun r => decide (r.full = "units::isq::si::dim_force") &&
    decide (tablePrinted r.dim (plainScaled ⟨1, 1, -6⟩ "units::isq::si::newton") = .ok ⟨"µN".toList, "uN".toList⟩)) &&
  decide (tablePrinted oddDim (plainScaled ⟨1, 1, 3⟩ "unknown_coherent_unit") = .ok ⟨"× 10³ m²/s³".toList, "x 10^3 m^2/s^3".toList⟩)

end Verif.Systems
