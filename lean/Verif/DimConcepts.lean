import Verif.SystemsData
import Verif.Quantity

/-!
# The concepts of the dimension class templates

`Length`, `Speed`, `Force`, … are concepts about quantities: the dimension is an instantiation of (a class derived from an instantiation of)
the class template `dim_length`, `dim_speed`, `dim_force`, …  Any system of quantities may instantiate the templates, with any units and from
any dimensions that satisfy the concepts of the template's parameters.
-/

namespace Verif.Systems

/-- Whether a declaration is that of a dimension class template. -/
def Decl.isTemplate : Decl → Bool
  | .baseTemplate _ _ => true
  | .derivedTemplate _ _ _ => true
  | _ => false

/-- The dimension class templates of the library, src/systems/isq/include/units/isq/dimensions and
src/core/include/units/generic/angle.h:35-36.  `dim_energy` and `dim_power` have two partial specialisations each. -/
def dimTemplates : List Decl := headers.flatMap fun h => h.sections.flatMap fun s => s.2.filter Decl.isTemplate

/-- The exponents of the base class of a template, `derived_dimension<Child, U, exponent<D, n, m>...>`, for the dimensions the parameters stand for,
src/systems/isq/include/units/isq/dimensions. -/
def instRecipe (recipe : List (Nat × Int × Int)) (args : List Dim) : List RecipeItem :=
  recipe.filterMap fun r => args[r.1]?.map fun d => ⟨d, r.2.1, r.2.2⟩

/-- `DimensionOfT<d, T>`, src/core/include/units/bits/quantity_of.h:30-59, for the template with name code `c`.  `off` is
`UNITS_DOWNCAST_MODE == 0`; `origin` gives for the name of a dimension the program has defined the code of the template it derives from (`0`: none).

The first two rules are `is_derived_from_specialization_of`: `d` is a class the program has defined from an instantiation of the template.  The
constraints of the template's parameters are the premises.  The last rule is `EquivalentUnknownDimensionOfT`
(src/core/include/units/bits/quantity_of.h:33-47): the base dimensions of the exponents of an `unknown_dimension`, in their order, are given to the
template and the recipe must be the list of exponents itself.  Simplification: a check that is not well-formed counts as not satisfied. -/
inductive OfT (off : Bool) (origin : String → Nat) : Nat → Dim → Prop
  | base {n : Nm} {sym : String} (h : .baseTemplate n sym ∈ dimTemplates) (child : String) (u : MUnit) (ho : origin child = n.code) :
      OfT off origin n.code (.base ⟨child, sym, u⟩)
  | derived {n : Nm} {params : List Nm} {recipe : List (Nat × Int × Int)} (h : .derivedTemplate n params recipe ∈ dimTemplates) (args : List Dim)
      (hl : args.length = params.length) (ha : ∀ (i : Nat) (p : Nm) (a : Dim), params[i]? = some p → args[i]? = some a → OfT off origin p.code a)
      (child : String) (u : MUnit) (nd : NamedDim) (hd : defineDim child u (instRecipe recipe args) = .ok nd) (ho : origin child = n.code) :
      OfT off origin n.code (.named nd)
  | unknown {n : Nm} {params : List Nm} {recipe : List (Nat × Int × Int)} (hoff : off = true) (h : .derivedTemplate n params recipe ∈ dimTemplates)
      (es : List Exp) (hl : es.length = params.length)
      (ha : ∀ (i : Nat) (p : Nm) (e : Exp), params[i]? = some p → es[i]? = some e → OfT off origin p.code (.base e.dim))
      (hr : instRecipe recipe (es.map fun e => .base e.dim) = es.map fun e => ⟨.base e.dim, e.num, e.den⟩) : OfT off origin n.code (.unknown es)

/-- `QuantityOfT<Q, T>`, src/core/include/units/bits/quantity_of.h:67-68. -/
def QuantityOfT (off : Bool) (origin : String → Nat) (c : Nat) (q : QTy) : Prop := OfT off origin c q.dim

end Verif.Systems
