import Verif.Systems

/-!
# What is printed for a unit declared in a header

`Verif/Text.lean` models src/core/include/units/bits/unit_text.h for descriptions of dimensions and units that contain what printing needs.  Here the description
of a dimension and a unit of a translation unit is read off its declarations.
-/

namespace Verif.Systems

/-- The unit with this full name, and its ASCII symbol. -/
def Sys.unitNamed (S : Sys) (n : String) : Option UEnt :=
  S.log.findSome? fun e =>
    match e.ent with
    | .unit u => if u.name = n then some u else none
    | _ => none

/-- What printing needs of a unit: a `scaled_unit` and a `unit` have no symbol (src/core/include/units/unit.h:53-58, 76-80), the other class templates have one
(lines 97, 119, 138, 173, 203, 226); the prefix family is that of the reference unit (src/core/include/units/bits/unit_text.h:167, 173; `no_prefix` for a `unit`,
src/core/include/units/unit.h:79). -/
def tUnitOf (U : String → Option UEnt) (u : MUnit) : TUnit where
  ratio := u.ratio
  symbol :=
    match u.id with
    | .scaled _ _ => none
    | .named n =>
      if u.named ∨ u.symbol ≠ "" then
        match U n with
        | some e => some ⟨u.symbol.toList, e.ascii.toList⟩
        | none => some (.both u.symbol.toList)
      else none
  named := u.named
  refFamily := (U u.ref).bind fun e => e.unit.family

/-- What printing needs of a unit of a translation unit. -/
def Sys.tUnit (S : Sys) (u : MUnit) : TUnit := tUnitOf S.unitNamed u

/-- `prefix` found by the downcasting facility, src/core/include/units/bits/unit_text.h:77. -/
def Sys.prefixes (S : Sys) : PrefixReg := fun f r =>
  S.log.findSome? fun e =>
    match e.ent with
    | .pre p a => if p.family = f ∧ p.ratio = r then some ⟨f, ⟨p.symbol.toList, a.toList⟩, r⟩ else none
    | _ => none

/-- The dimension with this full name. -/
def Sys.dimNamed (S : Sys) (n : String) : Option DEnt :=
  S.log.findSome? fun e =>
    match e.ent with
    | .dim d => if d.name = n then some d else none
    | _ => none

mutual
/-- What printing needs of a dimension: `recipe` of a derived dimension as written (src/core/include/units/derived_dimension.h:85); that of an unknown dimension
is the list of its exponents (src/core/include/units/bits/dimension_op.h:44-45).  Recipes are finite; the number bounds their depth (not library code). -/
def tDimOf (U : String → Option UEnt) (D : String → Option DEnt) : Nat → Dim → C TDim
  | 0, _ => .error .divergence
  | _ + 1, .base b => .ok (.base b.name (tUnitOf U b.unit))
  | k + 1, .unknown es => do
    let r ← tRecipeOf U D k (es.map fun e => ⟨.base e.dim, e.num, e.den⟩)
    .ok (.derived "unknown_dimension" (tUnitOf U unknownCoherentUnit) r)
  | k + 1, .named n =>
    match D n.name with
    | some d => do
      let r ← tRecipeOf U D k d.recipe
      .ok (.derived n.name (tUnitOf U n.coherent) r)
    | none => .error .rejected
/-- A recipe, src/core/include/units/exponent.h:37-42. -/
def tRecipeOf (U : String → Option UEnt) (D : String → Option DEnt) : Nat → List RecipeItem → C TRecipe
  | 0, _ => .error .divergence
  | _ + 1, [] => .ok .nil
  | k + 1, i :: is => do
    let d ← tDimOf U D k i.dim
    let r ← tRecipeOf U D k is
    .ok (.cons d i.num i.den r)
end

/-- What printing needs of a dimension of a translation unit. -/
def Sys.tDim (S : Sys) (k : Nat) (d : Dim) : C TDim := tDimOf S.unitNamed S.dimNamed k d

/-- `detail::unit_text<dimension, unit>()`, src/core/include/units/bits/unit_text.h:154-178. -/
def Sys.printed (S : Sys) (d : Dim) (u : MUnit) : C SText := do
  let d ← S.tDim 40 d
  unitText S.prefixes d (S.tUnit u)

end Verif.Systems
