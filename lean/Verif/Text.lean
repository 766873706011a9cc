import Verif.Unit
import Verif.Downcast

/-!
# Symbols of units as text

`units/bits/external/text_tools.h`, `units/bits/derived_symbol_text.h`, `units/bits/unit_text.h` and the
prefix lookup of `units/prefix.h`.

A symbol text is a pair of lists of characters (code points; the encoding as UTF-8 is not modelled).  That
the concatenation of `basic_symbol_text` and of its two `basic_fixed_string`s is the concatenation of lists
is proved in `Verif/Props/FixedStringProps.lean`.
-/

namespace Verif

/-- `basic_symbol_text`, src/core/include/units/symbol_text.h:64-67: the standard and the ASCII text. -/
@[ext] structure SText where
  std : List Char
  ascii : List Char
deriving DecidableEq, Repr

/-- `operator+`, src/core/include/units/symbol_text.h:81-87. -/
instance : Append SText := ⟨fun a b => ⟨a.std ++ b.std, a.ascii ++ b.ascii⟩⟩

/-- A text whose two versions are the same, `basic_symbol_text(basic_fixed_string)`,
src/core/include/units/symbol_text.h:72. -/
def SText.both (s : List Char) : SText := ⟨s, s⟩

/-! ## text_tools.h -/

/-- `superscript_number<Value>`, src/core/include/units/bits/external/text_tools.h:30-43. -/
def superDigits : List Char := ['⁰', '¹', '²', '³', '⁴', '⁵', '⁶', '⁷', '⁸', '⁹']

/-- The decimal digits. -/
def asciiDigits : List Char := ['0', '1', '2', '3', '4', '5', '6', '7', '8', '9']

/-- `superscript_number<Value>` for `0 <= Value < 10`. -/
def superDigit (d : Nat) : Char := superDigits.getD d ' '

/-- `static_cast<char>('0' + Value)`, src/core/include/units/bits/external/text_tools.h:55, 72. -/
def asciiDigit (d : Nat) : Char := Char.ofNat (48 + d)

/-- `superscript_helper<Value>` for `Value >= 0`, src/core/include/units/bits/external/text_tools.h:54-57. -/
def superNat (n : Nat) : SText :=
  if n < 10 then ⟨[superDigit n], [asciiDigit n]⟩ else superNat (n / 10) ++ superNat (n % 10)
termination_by n
decreasing_by all_goals omega

/-- `superscript_helper<Value>`, src/core/include/units/bits/external/text_tools.h:49-58. -/
def superscriptHelper (v : Int) : C SText :=
  if v < 0 then do
    let n ← neg64 v
    .ok (⟨['⁻'], ['-']⟩ ++ superNat n.toNat)
  else .ok (superNat v.toNat)

/-- `superscript<Value>`, src/core/include/units/bits/external/text_tools.h:47, 60-64. -/
def superscript (v : Int) : C SText := do
  let t ← superscriptHelper v
  .ok (⟨[], ['^']⟩ ++ t)

/-- `regular<Value>` for `Value >= 0`, src/core/include/units/bits/external/text_tools.h:71-74. -/
def regularNat (n : Nat) : SText :=
  if n < 10 then .both [asciiDigit n] else regularNat (n / 10) ++ regularNat (n % 10)
termination_by n
decreasing_by all_goals omega

/-- `regular<Value>`, src/core/include/units/bits/external/text_tools.h:66-75.  As in the source, the digits
of a negative number come from `superscript_helper`. -/
def regular (v : Int) : C SText :=
  if v < 0 then do
    let n ← neg64 v
    let t ← superscriptHelper n
    .ok (.both ['-'] ++ t)
  else .ok (regularNat v.toNat)

/-! ## derived_symbol_text.h -/

/-- `operator_text<Divide, NegativeExpCount, Idx>`, src/core/include/units/bits/derived_symbol_text.h:32-51. -/
def operatorText (divide : Bool) (negCount idx : Nat) : SText :=
  if idx = 0 then
    if divide && negCount == 1 then .both ['1', '/'] else .both []
  else
    if divide && negCount == 1 then .both ['/'] else ⟨[' ', '⋅', ' '], [' ']⟩

/-- `std::abs` of an `intmax_t`. -/
def absMax (v : Int) : C Int := if v < 0 then neg64 v else .ok v

/-- `exp_text<E, Symbol, NegativeExpCount, Idx>`, src/core/include/units/bits/derived_symbol_text.h:53-77, for
`E::num = num` and `E::den = den`. -/
def expText (num den : Int) (sym : SText) (negCount idx : Nat) : C SText := do
  let txt := operatorText (decide (num < 0)) negCount idx ++ sym
  if den ≠ 1 then do
    let a ← absMax num
    let n ← regular a
    let d ← regular den
    .ok (txt ++ .both ['^', '('] ++ n ++ .both ['/'] ++ d ++ .both [')'])
  else if num ≠ 1 then
    if negCount > 1 then do
      let s ← superscript num
      .ok (txt ++ s)
    else if num ≠ -1 then do
      let a ← absMax num
      let s ← superscript a
      .ok (txt ++ s)
    else .ok txt
  else .ok txt

/-- One factor of a printed symbol: a unit symbol and its exponent. -/
structure Factor where
  sym : SText
  num : Int
  den : Int
deriving DecidableEq, Repr

/-- `negative_exp_count<Es...>`, src/core/include/units/bits/derived_symbol_text.h:79-80. -/
def negExpCount (fs : List Factor) : Nat := (fs.map fun f => if f.num < 0 then 1 else 0).sum

/-- The fold of `derived_symbol_text` and `derived_dimension_unit_text` from index `idx` on,
src/core/include/units/bits/derived_symbol_text.h:82-87, src/core/include/units/bits/unit_text.h:104-108. -/
def factorsText (negCount : Nat) : Nat → List Factor → C SText
  | _, [] => .ok (.both [])
  | idx, f :: fs => do
    let t ← expText f.num f.den f.sym negCount idx
    let ts ← factorsText negCount (idx + 1) fs
    .ok (t ++ ts)

/-- `derived_symbol_text`, src/core/include/units/bits/derived_symbol_text.h:82-93 (a unary fold: ill-formed for
no factors). -/
def derivedSymbolText (fs : List Factor) : C SText :=
  if fs = [] then .error .rejected else factorsText (negExpCount fs) 0 fs

/-! ## unit_text.h -/

/-- `base_multiplier`, src/core/include/units/bits/unit_text.h:32. -/
def baseMultiplier : SText := ⟨['×', ' ', '1', '0'], ['x', ' ', '1', '0']⟩

/-- `ratio_text<R>`, src/core/include/units/bits/unit_text.h:34-66. -/
def ratioText (r : Ratio) : C SText :=
  if r.num = 1 ∧ r.den = 1 ∧ r.exp ≠ 0 then do
    let s ← superscript r.exp
    .ok (baseMultiplier ++ s)
  else if r.num ≠ 1 ∨ r.den ≠ 1 ∨ r.exp ≠ 0 then do
    let n ← regular r.num
    let txt := SText.both ['['] ++ n
    if r.den = 1 then
      if r.exp = 0 then .ok (txt ++ .both [']'])
      else do
        let s ← superscript r.exp
        .ok (txt ++ .both [' '] ++ baseMultiplier ++ s ++ .both [']'])
    else do
      let d ← regular r.den
      if r.exp = 0 then .ok (txt ++ .both ['/'] ++ d ++ .both [']'])
      else do
        let s ← superscript r.exp
        .ok (txt ++ .both ['/'] ++ d ++ .both [' '] ++ baseMultiplier ++ s ++ .both [']'])
  else .ok (.both [])

/-- A prefix with its symbol in both versions: `prefix<Child, PF, Symbol, R>`,
src/core/include/units/prefix.h:74-78. -/
structure TPrefix where
  family : String
  symbol : SText
  ratio : Ratio
deriving DecidableEq, Repr

/-- What the downcasting facility knows about prefixes: the child of `prefix_base<PF, R>`,
src/core/include/units/prefix.h:51-55. -/
abbrev PrefixReg := String → Ratio → Option TPrefix

/-- The registry after the given prefix definitions, `downcast_dispatch<Child, prefix_base<PF, R>,
downcast_mode::on>`, src/core/include/units/prefix.h:76. -/
def prefixRegOf (ps : List TPrefix) : C PrefixReg := do
  let s ← Downcast.defineAll (κ := String × Ratio) .on .empty (ps.map fun p => (p, (p.family, p.ratio)))
  .ok fun f r => Downcast.downcast s (f, r)

/-- The ratio as text, followed by a space in front of a symbol,
src/core/include/units/bits/unit_text.h:86-91 and 95-100. -/
def spacedRatioText (r : Ratio) (symLen : Nat) : C SText := do
  let txt ← ratioText r
  if symLen > 0 ∧ txt.std.length > 0 then .ok (txt ++ .both [' ']) else .ok txt

/-- `prefix_or_ratio_text<R, PrefixFamily, SymbolLen>`, src/core/include/units/bits/unit_text.h:68-102
(`none` is `no_prefix`). -/
def prefixOrRatioText (Γ : PrefixReg) (r : Ratio) (family : Option String) (symLen : Nat) : C SText :=
  if r.num = 1 ∧ r.den = 1 ∧ r.exp = 0 then .ok (.both [])
  else
    match family with
    | some f =>
      match Γ f r with
      | some p => .ok p.symbol
      | none => spacedRatioText r symLen
    | none => spacedRatioText r symLen

/-- What printing needs of a unit type: its ratio, its symbol if it has one (`has_symbol`,
src/core/include/units/bits/unit_text.h:150-152), `is_named`, and the prefix family of its reference. -/
structure TUnit where
  ratio : Ratio
  symbol : Option SText
  named : Bool
  refFamily : Option String
deriving DecidableEq, Repr

mutual
/-- A dimension type for printing: its identity, its coherent unit and, for derived dimensions, its recipe
(src/core/include/units/base_dimension.h:53-58, src/core/include/units/derived_dimension.h:83-88). -/
inductive TDim where
  | base (name : String) (unit : TUnit)
  | derived (name : String) (unit : TUnit) (recipe : TRecipe)
/-- A recipe: a list of `exponent<Dim, Num, Den>`, src/core/include/units/exponent.h:37-42. -/
inductive TRecipe where
  | nil
  | cons (dim : TDim) (num den : Int) (rest : TRecipe)
end

/-- `dimension_unit<D>`, src/core/include/units/bits/basic_concepts.h:165-184. -/
def TDim.unit : TDim → TUnit
  | .base _ u => u
  | .derived _ u _ => u

/-- One `exponent<Dim, Num, Den>`. -/
structure TItem where
  dim : TDim
  num : Int
  den : Int

mutual
/-- `exponent_list_with_named_units(Exp)`, src/core/include/units/bits/unit_text.h:119-130. -/
def itemNamed (d : TDim) (num den : Int) : C (List TItem) :=
  if d.unit.named then .ok [⟨d, num, den⟩]
  else
    match d with
    | .base _ _ => .error .rejected
    | .derived _ _ r => recipeNamed r
/-- `exponent_list_with_named_units(exponent_list<Es...>)`, src/core/include/units/bits/unit_text.h:132-141. -/
def recipeNamed (r : TRecipe) : C (List TItem) :=
  match r with
  | .nil => .ok []
  | .cons d n m rest => do
    let l ← itemNamed d n m
    let ls ← recipeNamed rest
    .ok (l ++ ls)
end

/-- The factor printed for an exponent: `dimension_unit<Es::dimension>::symbol`,
src/core/include/units/bits/unit_text.h:107. -/
def itemFactor (i : TItem) : C Factor :=
  match i.dim.unit.symbol with
  | some s => .ok ⟨s, i.num, i.den⟩
  | none => .error .rejected

/-- Element-wise evaluation of a pack expansion. -/
def factorsOf : List TItem → C (List Factor)
  | [] => .ok []
  | i :: is => do
    let f ← itemFactor i
    let fs ← factorsOf is
    .ok (f :: fs)

/-- `derived_dimension_unit_text<Dim>`, src/core/include/units/bits/unit_text.h:104-114, 143-148. -/
def derivedDimensionUnitText (r : TRecipe) : C SText := do
  let is ← recipeNamed r
  let fs ← factorsOf is
  factorsText (negExpCount fs) 0 fs

/-- `unit_text<Dim, U>`, src/core/include/units/bits/unit_text.h:154-178. -/
def unitText (Γ : PrefixReg) (d : TDim) (u : TUnit) : C SText :=
  match u.symbol with
  | some s => .ok s
  | none =>
    match d.unit.symbol with
    | some s => do
      let r ← Ratio.div u.ratio d.unit.ratio
      let p ← prefixOrRatioText Γ r u.refFamily s.std.length
      .ok (p ++ s)
    | none =>
      match d with
      | .base _ _ => .error .rejected
      | .derived _ _ recipe => do
        let s ← derivedDimensionUnitText recipe
        let r ← Ratio.div u.ratio d.unit.ratio
        let p ← prefixOrRatioText Γ r u.refFamily s.std.length
        .ok (p ++ s)

end Verif
