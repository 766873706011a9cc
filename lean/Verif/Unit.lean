import Verif.RatioLemmas

/-!
# `units/unit.h` and `units/prefix.h`: unit types

A unit type is represented by what the library can observe of it: its identity (the type), the
`ratio` and `reference` it inherits from `scaled_unit`, the unit types it derives from, and its naming
attributes.  A prefix family is represented by its name.
-/

namespace Verif

/-- The identity of a unit type: either a specialisation `scaled_unit<R, U>` itself or a user-defined
struct.  src/core/include/units/unit.h:53-58 and the struct definitions deriving from the class
templates of lines 76-222. -/
inductive UnitId where
  | scaled (r : Ratio) (ref : String)
  | named (n : String)
deriving DecidableEq, Repr

/-- A unit type: `ratio`, `reference` (src/core/include/units/unit.h:55-58), the proper base classes that
are units (what `std::is_base_of` sees), `is_named`, `symbol` and `prefix_family`
(lines 77-78, 95-97 etc.; `none` is `no_prefix`).  Simplification: the symbol is one text (the
standard one); the ASCII variant is treated in `Verif/SymbolText.lean`. -/
structure MUnit where
  id : UnitId
  ratio : Ratio
  ref : String
  bases : List UnitId
  named : Bool
  symbol : String
  family : Option String
deriving DecidableEq, Repr

/-- A prefix: `prefix<Child, PF, Symbol, R>`, src/core/include/units/prefix.h:74-78. -/
structure MPrefix where
  family : String
  symbol : String
  ratio : Ratio
deriving DecidableEq, Repr

/-- `scaled_unit<R, U>`, src/core/include/units/unit.h:53-58, including the constraint `UnitRatio<R>`
(src/core/include/units/bits/basic_concepts.h:75-76). -/
def scaledUnit (r : Ratio) (ref : String) : C MUnit :=
  if r.num > 0 ∧ r.den > 0 then .ok ⟨.scaled r ref, r, ref, [], false, "", none⟩
  else .error .rejected

/-- `struct child : unit<child>`, src/core/include/units/unit.h:76-80. -/
def mkUnit (child : String) : C MUnit := do
  let s ← scaledUnit Ratio.one child
  .ok ⟨.named child, s.ratio, s.ref, [s.id], false, "", none⟩

/-- `struct child : named_unit<child, symbol, family>`, src/core/include/units/unit.h:94-99. -/
def mkNamed (child symbol : String) (family : Option String) : C MUnit := do
  let s ← scaledUnit Ratio.one child
  .ok ⟨.named child, s.ratio, s.ref, [s.id], true, symbol, family⟩

/-- `struct child : named_scaled_unit<child, symbol, family, r, u>`, src/core/include/units/unit.h:115-121. -/
def mkNamedScaled (child symbol : String) (family : Option String) (r : Ratio) (u : MUnit) : C MUnit :=
  if ¬ (r.num > 0 ∧ r.den > 0) then .error .rejected
  else do
    let x ← Ratio.mul r u.ratio
    let s ← scaledUnit x u.ref
    .ok ⟨.named child, s.ratio, s.ref, [s.id], true, symbol, family⟩

/-- `struct child : prefixed_unit<child, p, u>`, src/core/include/units/unit.h:134-140. -/
def mkPrefixed (child : String) (p : MPrefix) (u : MUnit) : C MUnit :=
  if ¬ (u.named = true ∧ u.family = some p.family) then .error .rejected
  else do
    let x ← Ratio.mul p.ratio u.ratio
    let s ← scaledUnit x u.ref
    .ok ⟨.named child, s.ratio, s.ref, [s.id], true, p.symbol ++ u.symbol, none⟩

/-- `struct child : alias_unit<u, symbol, family>`, src/core/include/units/unit.h:200-205. -/
def mkAlias (child symbol : String) (family : Option String) (u : MUnit) : MUnit :=
  ⟨.named child, u.ratio, u.ref, u.id :: u.bases, true, symbol, family⟩

/-- `struct child : prefixed_alias_unit<u, p, au>`, src/core/include/units/unit.h:222-228. -/
def mkPrefixedAlias (child : String) (u : MUnit) (p : MPrefix) (au : MUnit) : C MUnit :=
  if ¬ (au.named = true ∧ au.family = some p.family) then .error .rejected
  else .ok ⟨.named child, u.ratio, u.ref, u.id :: u.bases, true, p.symbol ++ au.symbol, none⟩

/-- A definition of a unit, as written in a header. -/
inductive UnitDef where
  /-- `struct child : unit<child>`, src/core/include/units/unit.h:76-80 -/
  | unit (child : String)
  /-- `struct child : named_unit<child, symbol, family>`, src/core/include/units/unit.h:94-99 -/
  | named (child symbol : String) (family : Option String)
  /-- `struct child : named_scaled_unit<child, symbol, family, r, u>`,
  src/core/include/units/unit.h:115-121 -/
  | namedScaled (child symbol : String) (family : Option String) (r : Ratio) (u : UnitDef)
  /-- `struct child : prefixed_unit<child, p, u>`, src/core/include/units/unit.h:134-140 -/
  | prefixed (child : String) (p : MPrefix) (u : UnitDef)
  /-- `struct child : alias_unit<u, symbol, family>`, src/core/include/units/unit.h:200-205 -/
  | aliasOf (child symbol : String) (family : Option String) (u : UnitDef)
  /-- `struct child : prefixed_alias_unit<u, p, au>`, src/core/include/units/unit.h:222-228 -/
  | prefixedAlias (child : String) (u : UnitDef) (p : MPrefix) (au : UnitDef)
deriving DecidableEq, Repr

/-- The unit type a definition introduces, or the rejection of its constraints.
src/core/include/units/unit.h:76-228, line ranges per case at `UnitDef`. -/
def UnitDef.eval : UnitDef → C MUnit
  | .unit child => mkUnit child
  | .named child symbol family => mkNamed child symbol family
  | .namedScaled child symbol family r u => do
    let u ← u.eval
    mkNamedScaled child symbol family r u
  | .prefixed child p u => do
    let u ← u.eval
    mkPrefixed child p u
  | .aliasOf child symbol family u => do
    let u ← u.eval
    .ok (mkAlias child symbol family u)
  | .prefixedAlias child u p au => do
    let u ← u.eval
    let au ← au.eval
    mkPrefixedAlias child u p au

/-- `same_unit_reference`, src/core/include/units/unit.h:65-66. -/
def sameUnitReference (u1 u2 : MUnit) : Bool := u1.ref == u2.ref

/-- `unknown_coherent_unit`, src/core/include/units/unit.h:235. -/
def unknownCoherentUnit : MUnit :=
  ⟨.named "unknown_coherent_unit", Ratio.one, "unknown_coherent_unit",
    [.scaled Ratio.one "unknown_coherent_unit"], false, "", none⟩

/-- What every accepted unit satisfies: its ratio is a normalised positive ratio. -/
structure MUnit.WF (u : MUnit) : Prop where
  ratio : u.ratio.WF
  pos : 0 < u.ratio.num

theorem MUnit.WF.val_pos {u : MUnit} (h : u.WF) : 0 < u.ratio.val := h.ratio.val_pos.mpr h.pos

theorem unknownCoherentUnit_wf : unknownCoherentUnit.WF := ⟨one_wf, by decide⟩

theorem scaledUnit_eq_ok {r : Ratio} {ref : String} {s : MUnit} :
    scaledUnit r ref = .ok s ↔ (0 < r.num ∧ 0 < r.den) ∧ s = ⟨.scaled r ref, r, ref, [], false, "", none⟩ := by
  unfold scaledUnit
  split
  · rename_i h; simp [eq_comm]; intro _; exact h
  · rename_i h
    simp only [reduceCtorEq, false_iff, not_and]
    intro h1; exact absurd h1 h

end Verif
