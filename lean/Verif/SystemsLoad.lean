import Verif.SystemsTable

/-!
# Loading the shipped headers

`loaded` evaluates the model of the compiler on all shipped headers in the kernel.
-/

namespace Verif.Systems

open Standards

/-- Every name used in a header is declared in a header it includes (`isq/dimensions/momentum.h` excepted). -/
def checkUses (S : Sys) (all : List Header) : Bool :=
  checkHeaders all (fun _ m h => h.sections.all fun s => s.2.all fun d => d.uses.all fun n =>
    match lookup S.names s.1 n with
    | some e => Nat.testBit m e.header || Nat.beq h.path.code n!"isq/dimensions/momentum.h".code
    | none => false) .leaf 0 all

/-- The amount of a constant: the product of the powers of its factors. -/
def constantAmount : List (Option DEnt × ℚ × Int) → Option Amount
  | [] => some unity
  | (none, q, n) :: l =>
    match constantAmount l with
    | some b => some (((unity.times q).pow n).mul b)
    | none => none
  | (some d, q, n) :: l =>
    match denote d.dim d.dim.unit, constantAmount l with
    | some a, some b => some (((a.times q).pow n).mul b)
    | _, _ => none

/-- The values of the constants; that of the reduced Planck constant is wrong. -/
def checkConstants (S : Sys) : Bool :=
  ((constantsOf S.log).all fun e =>
    match findWord constants (qual e.1.scope.code e.1.name.code), constantAmount e.2 with
    | some a, some b => decide (b.exps = a.exps) && decide (a.factor ≠ 0) &&
      bif decide (e.1.full = "units::isq::si::si2019::reduced_planck_constant") then decide (b.factor = 10 ^ 15 * a.factor)
      else decide (b.factor = a.factor)
    | _, _ => false) &&
  (constantsOf S.log).any fun e => decide (e.1.full = "units::isq::si::si2019::reduced_planck_constant")

/-- What is checked while the state exists. -/
def checkLoad (c : C Sys) : Bool :=
  match c with
  | .error _ => false
  | .ok S => decide (unitRows S.log = unitTable) && decide (dimRows S.log = dimTable) && decide (dentRows S.log = dentTable) && decide (prefixRows S.log = prefixTable) &&
    decide (tagRows S.log = tagTable) && decide (S.unitDefs.map unitDefRow = unitDefTable) &&
    decide (S.dimDefs.map dimDefRow = dimDefTable) && checkConstants S && checkUses S shipped

set_option maxRecDepth 100000 in
theorem checkLoad_everything : checkLoad everything = true := by decide +kernel

end Verif.Systems
