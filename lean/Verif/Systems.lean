import Verif.Size
import Verif.Text
import Verif.ConstexprMath

/-!
# The declarations in the headers of the systems of units

The headers under src/systems consist of a few kinds of declarations; `Decl` has one constructor per kind.  `load` plays the
role of the compiler for them: it follows `#include`s (each header once), resolves names from the innermost namespace
outwards among what has been declared so far, evaluates the class templates with the model of
`units/unit.h`, `units/derived_dimension.h` etc., and checks their constraints.  Simplifications: a name is looked up as a whole path in each enclosing
namespace; `using namespace` and `inline` have no effect on lookup (no declaration needs them).
-/

namespace Verif.Systems

/-- A name as written in a header with its code, used only to make comparisons of names fast (src/systems: all names). -/
structure Nm where
  str : String
  code : Nat
deriving Repr, DecidableEq

/-- The code of a name: its UTF-8 bytes as a number in base 256 (not library code). -/
def encode (s : String) : Nat := s.toUTF8.data.toList.foldl (fun a b => a * 256 + b.toNat) 0

/-- `n!"metre"` is the name with its code. -/
macro:max "n!" s:str : term => do
  let c := encode s.getString
  `(Nm.mk $s $(Lean.quote c))

/-- The number of bytes of a coded name (not library code). -/
def bytes (c : Nat) : Nat := bif Nat.beq c 0 then 0 else Nat.add (Nat.div (Nat.log2 c) 8) 1

/-- The code of two names written one after the other (not library code). -/
def glue (a b : Nat) : Nat := Nat.add (Nat.mul a (Nat.pow 256 (bytes b))) b

/-- The code of the qualified name `a::b` (not library code); an empty `a` is the global namespace. -/
def qual (a b : Nat) : Nat := bif Nat.beq a 0 then b else glue (Nat.add (Nat.mul a 0x10000) 0x3a3a) b

/-- The qualified name `a::b` as text. -/
def qualS (a b : String) : String := if a = "" then b else a ++ "::" ++ b

/-- `a::b` (not library code). -/
def Nm.qual (a b : Nm) : Nm := ⟨qualS a.str b.str, Systems.qual a.code b.code⟩

/-- `f n`; in the kernel `n` is evaluated first (not library code). -/
def withNat {α : Type} (n : Nat) (f : Nat → α) : α :=
  match n with
  | 0 => f 0
  | Nat.succ m => f (Nat.succ m)

theorem withNat_eq {α : Type} (n : Nat) (f : Nat → α) : withNat n f = f n := by cases n <;> rfl

/-- The two variants of a symbol: `basic_symbol_text`, src/core/include/units/symbol_text.h:64-143. -/
structure Sym where
  std : String
  ascii : String
deriving Repr, DecidableEq

/-- A factor in the definition of a constant, src/systems/si/include/units/isq/si/constants.h:35-60: the number
`m · 10^e`, with or without a unit. -/
inductive CFactor where
  | qty (q u : Nm) (m : Int) (e : Int)
  | number (m : Int) (e : Int)
deriving Repr

/-- A declaration of a header under src/systems or src/core/include/units/generic. -/
inductive Decl where
  /-- `struct name : prefix_family {}` -/
  | family (name : Nm)
  /-- `struct name : prefix<name, family, sym, ratio(n, d, e)> {}`, src/core/include/units/prefix.h:74-78 -/
  | pre (name family : Nm) (sym : Sym) (n d e : Int)
  /-- `struct name : unit<name> {}`, src/core/include/units/unit.h:76-80 -/
  | unit (name : Nm)
  /-- `struct name : named_unit<name, sym, family> {}`, src/core/include/units/unit.h:94-99 -/
  | named (name : Nm) (sym : Sym) (family : Nm)
  /-- `struct name : named_scaled_unit<name, sym, family, ratio(n, d, e), u> {}`, src/core/include/units/unit.h:115-121 -/
  | namedScaled (name : Nm) (sym : Sym) (family : Nm) (n d e : Int) (u : Nm)
  /-- `struct name : prefixed_unit<name, p, u> {}`, src/core/include/units/unit.h:134-140 -/
  | prefixed (name p u : Nm)
  /-- `struct name : derived_unit<name, dim, us...> {}`, src/core/include/units/unit.h:155-162 -/
  | derived (name dim : Nm) (us : List Nm)
  /-- `struct name : alias_unit<u, sym, family> {}`, src/core/include/units/unit.h:200-205 -/
  | aliasOf (name u : Nm) (sym : Sym) (family : Nm)
  /-- `struct name : prefixed_alias_unit<u, p, au> {}`, src/core/include/units/unit.h:222-228 -/
  | prefixedAlias (name u p au : Nm)
  /-- `struct name : base_dimension<"symbol", u> {}`, src/core/include/units/base_dimension.h:53-58 -/
  | baseDim (name : Nm) (symbol : String) (u : Nm)
  /-- `template<Unit U> struct name : base_dimension<"symbol", U> {}`, src/systems/isq/include/units/isq/dimensions -/
  | baseTemplate (name : Nm) (symbol : String)
  /-- `struct name : template<u> {}` -/
  | baseInst (name template u : Nm)
  /-- `struct name : derived_dimension<name, u, exponent<d, n, m>...> {}`, src/core/include/units/derived_dimension.h:83-88 -/
  | derivedDim (name u : Nm) (recipe : List (Nm × Int × Int))
  /-- `template<typename Child, Unit U, DimensionOfT<t> D...> struct name<Child, U, D...> : derived_dimension<Child, U, exponent<D, n, m>...> {}`,
  src/systems/isq/include/units/isq/dimensions; an exponent refers to a parameter by its index -/
  | derivedTemplate (name : Nm) (params : List Nm) (recipe : List (Nat × Int × Int))
  /-- `struct name : template<name, u, args...> {}` -/
  | derivedInst (name template u : Nm) (args : List Nm)
  /-- `using target;` or `using name = target;` -/
  | using_ (name target : Nm)
  /-- `template<UnitOf<dim> U, Representation Rep = double> using name = quantity<dim, U, Rep>;` -/
  | quantityAlias (name dim : Nm)
  /-- `constexpr auto operator"" _q_suffix(unsigned long long l)` (`integral`) or `(long double l)`, returning
  `q<u, std::int64_t>` or `q<u, long double>` -/
  | literal (suffix : Nm) (integral : Bool) (q u : Nm)
  /-- `using ns::operator"" _q_suffix;` -/
  | usingLiteral (suffix ns : Nm)
  /-- `inline constexpr auto name = reference<dim, u>{};` -/
  | reference (name dim u : Nm)
  /-- `inline constexpr auto name = other;` -/
  | referenceCopy (name other : Nm)
  /-- `template<Representation Rep = double> using name = q<u, Rep>;` -/
  | repAlias (name q u : Nm)
  /-- `template<Representation Rep = double> using name = other<Rep>;` -/
  | repAliasCopy (name other : Nm)
  /-- `inline constexpr auto name = a;`, `= a * b;` (`false`) or `= a / b;` (`true`),
  src/systems/si/include/units/isq/si/constants.h:35-60 -/
  | constant (name : Nm) (a : CFactor) (b : Option (Bool × CFactor))
deriving Repr

/-- A header: the headers it includes (of those modelled) and, per namespace, its declarations; the namespace is given
as the list of all enclosing namespaces, innermost first. -/
structure Header where
  path : Nm
  includes : List Nm
  sections : List (List Nm × List Decl)
deriving Repr

/-- A unit that has been declared: its full name, the type, the ASCII symbol. -/
structure UEnt where
  name : String
  unit : MUnit
  ascii : String
deriving DecidableEq, Repr

/-- A dimension that has been declared: its full name, the type, the recipe (empty for base dimensions), and the code of the class template in
`units::isq` it derives from (`0`: none). -/
structure DEnt where
  name : String
  dim : Dim
  recipe : List RecipeItem
  template : Nat
deriving DecidableEq, Repr

/-- What a name denotes. -/
inductive Ent where
  | family
  | pre (p : MPrefix) (ascii : String)
  | unit (e : UEnt)
  | dim (e : DEnt)
  | baseTemplate (symbol : String)
  | derivedTemplate (specs : List (List Nat × List (Nat × Int × Int)))
  | quantity (d : DEnt)
  | reference (d : DEnt) (u : UEnt)
  | rep (d : DEnt) (u : UEnt)
  /-- the overload set of a literal operator: argument `unsigned long long` and/or `long double` -/
  | literal (integral floating : Option (DEnt × UEnt))
  /-- the factors of a constant: dimension (none for a number), amount in the coherent unit of the dimension, power -/
  | constant (parts : List (Option DEnt × ℚ × Int))

/-- A declaration that has been processed: the position of its header in the list of headers, the innermost namespace, the name, and what the
name denotes. -/
structure Entry where
  header : Nat
  scope : Nm
  name : Nm
  ent : Ent

/-- A table: a binary search tree by code (not library code). -/
inductive Tree (α : Type) where
  | leaf
  | node (l : Tree α) (k : Nat) (e : α) (r : Tree α)

/-- Lookup in a table (not library code).  By the recursor, which the kernel evaluates faster than a recursive definition; compiled as `Tree.findC`. -/
noncomputable def Tree.find {α : Type} (t : Tree α) : Nat → Option α :=
  Tree.rec (motive := fun _ => Nat → Option α) (fun _ => none)
    (fun _ k e _ l r x => Bool.rec (Bool.rec (r x) (l x) (Nat.ble x k)) (some e) (Nat.beq x k)) t

/-- `Tree.find` for the compiler. -/
def Tree.findC {α : Type} : Tree α → Nat → Option α
  | .leaf, _ => none
  | .node l k e r, x => bif Nat.beq x k then some e else bif Nat.ble x k then l.findC x else r.findC x

theorem Tree.find_leaf {α : Type} (x : Nat) : (Tree.leaf : Tree α).find x = none := rfl

theorem Tree.find_node {α : Type} (l r : Tree α) (k : Nat) (e : α) (x : Nat) : (Tree.node l k e r).find x =
    bif Nat.beq x k then some e else bif Nat.ble x k then l.find x else r.find x := by
  show @Bool.rec (fun _ => Option α) (@Bool.rec (fun _ => Option α) (r.find x) (l.find x) (Nat.ble x k)) (some e) (Nat.beq x k) = _
  cases Nat.beq x k <;> cases Nat.ble x k <;> rfl

@[csimp] theorem Tree.find_eq_findC : @Tree.find = @Tree.findC := by
  funext α t x
  induction t with
  | leaf => rfl
  | node l k e r ihl ihr => rw [Tree.find_node, Tree.findC, ihl, ihr]

/-- Insertion (not library code); compiled as `Tree.insertC`. -/
noncomputable def Tree.insert {α : Type} (t : Tree α) (x : Nat) (v : α) : Tree α :=
  Tree.rec (motive := fun _ => Tree α) (.node .leaf x v .leaf)
    (fun l k e r il ir => Bool.rec (Bool.rec (.node l k e ir) (.node il k e r) (Nat.ble x k)) (.node l k v r) (Nat.beq x k)) t

/-- `Tree.insert` for the compiler. -/
def Tree.insertC {α : Type} : Tree α → Nat → α → Tree α
  | .leaf, x, v => .node .leaf x v .leaf
  | .node l k e r, x, v =>
    bif Nat.beq x k then .node l k v r else bif Nat.ble x k then .node (l.insertC x v) k e r else .node l k e (r.insertC x v)

theorem Tree.insert_leaf {α : Type} (x : Nat) (v : α) : (Tree.leaf : Tree α).insert x v = .node .leaf x v .leaf := rfl

theorem Tree.insert_node {α : Type} (l r : Tree α) (k : Nat) (e : α) (x : Nat) (v : α) : (Tree.node l k e r).insert x v =
    bif Nat.beq x k then .node l k v r else bif Nat.ble x k then .node (l.insert x v) k e r else .node l k e (r.insert x v) := by
  show @Bool.rec (fun _ => Tree α) (@Bool.rec (fun _ => Tree α) (.node l k e (r.insert x v)) (.node (l.insert x v) k e r) (Nat.ble x k))
    (.node l k v r) (Nat.beq x k) = _
  cases Nat.beq x k <;> cases Nat.ble x k <;> rfl

@[csimp] theorem Tree.insert_eq_insertC : @Tree.insert = @Tree.insertC := by
  funext α t x v
  induction t with
  | leaf => rfl
  | node l k e r ihl ihr => rw [Tree.insert_node, Tree.insertC, ihl, ihr]

theorem natBeq_ne {a b : Nat} (h : a ≠ b) : Nat.beq a b = false :=
  Bool.eq_false_iff.mpr fun h' => h (Nat.eq_of_beq_eq_true h')

/-- What is found after an insertion. -/
theorem Tree.find_insert {α : Type} (t : Tree α) (k x : Nat) (v : α) :
    (t.insert k v).find x = if x = k then some v else t.find x := by
  induction t with
  | leaf =>
    by_cases h : x = k
    · simp [Tree.insert_leaf, Tree.find_leaf, Tree.find_node, h]
    · have : Nat.beq x k = false := natBeq_ne h
      simp [Tree.insert_leaf, Tree.find_leaf, Tree.find_node, h, this]
  | node l k' e r ihl ihr =>
    by_cases hk : k = k'
    · subst hk
      by_cases h : x = k
      · simp [Tree.insert_node, Tree.find_node, h]
      · have : Nat.beq x k = false := natBeq_ne h
        simp [Tree.insert_node, Tree.find_node, h, this]
    · have hk' : Nat.beq k k' = false := natBeq_ne hk
      by_cases hle : Nat.ble k k' = true
      · simp only [Tree.insert_node, hk', hle, cond_true, cond_false, Tree.find_node, ihl]
        by_cases hx : x = k'
        · subst hx
          have : ¬ x = k := fun h => hk h.symm
          simp [this]
        · have hx' : Nat.beq x k' = false := natBeq_ne hx
          simp only [hx', cond_false]
          by_cases hxk : x = k
          · subst hxk; simp [hle]
          · simp [hxk]
      · have hle : Nat.ble k k' = false := Bool.eq_false_iff.mpr hle
        simp only [Tree.insert_node, hk', hle, cond_false, Tree.find_node, ihr]
        by_cases hx : x = k'
        · subst hx
          have : ¬ x = k := fun h => hk h.symm
          simp [this]
        · have hx' : Nat.beq x k' = false := natBeq_ne hx
          simp only [hx', cond_false]
          by_cases hxk : x = k
          · subst hxk; simp [hle]
          · simp [hxk]

/-- What has been declared in a translation unit: the table of names, everything in it in (reverse) order of declaration with the innermost namespace, what
has been registered with the downcasting facility, the headers seen, and the position of the current header. -/
structure Sys where
  names : Tree Entry
  log : List Entry
  unitDefs : List (UEnt × Ratio × String)
  dimDefs : List (DEnt × List Exp)
  prefixDefs : List (String × Ratio)
  seen : List Nat
  cur : Nat

/-- An empty translation unit. -/
def Sys.empty : Sys := ⟨.leaf, [], [], [], [], [], 0⟩

/-- Name lookup from the innermost namespace outwards; the last scope is the global namespace (code `0`). -/
def lookupFrom (t : Tree Entry) : List Nm → Nm → Option Entry
  | [], _ => none
  | s :: ss, n =>
    match withNat (qual s.code n.code) t.find with
    | some e => some e
    | none => lookupFrom t ss n

/-- Whether a name begins with `units::`. -/
def absolute (n : Nat) : Bool :=
  Nat.beq (Nat.shiftRight n (Nat.sub (Nat.mul 8 (bytes n)) 56)) 0x756e6974733a3a

/-- Name lookup.  The only namespace called `units` is in the global namespace, so a name that begins with `units::` is looked up there. -/
def lookup (t : Tree Entry) (ss : List Nm) (n : Nm) : Option Entry :=
  bif absolute n.code then t.find n.code else lookupFrom t ss n

/-- What a name denotes. -/
def resolve (t : Tree Entry) (ss : List Nm) (n : Nm) : C Ent :=
  match lookup t ss n with
  | some e => .ok e.ent
  | none => .error .rejected

/-- The lookup of a unit name. -/
def resolveUnit (t : Tree Entry) (ss : List Nm) (n : Nm) : C UEnt := do
  match ← resolve t ss n with
  | .unit e => .ok e
  | _ => .error .rejected

/-- The lookup of several unit names. -/
def resolveUnits (t : Tree Entry) (ss : List Nm) : List Nm → C (List UEnt)
  | [] => .ok []
  | n :: ns => do
    let e ← resolveUnit t ss n
    let es ← resolveUnits t ss ns
    .ok (e :: es)

/-- The lookup of a dimension name. -/
def resolveDim (t : Tree Entry) (ss : List Nm) (n : Nm) : C DEnt := do
  match ← resolve t ss n with
  | .dim e => .ok e
  | _ => .error .rejected

/-- The lookup of several dimension names. -/
def resolveDims (t : Tree Entry) (ss : List Nm) : List Nm → C (List DEnt)
  | [] => .ok []
  | n :: ns => do
    let e ← resolveDim t ss n
    let es ← resolveDims t ss ns
    .ok (e :: es)

/-- The lookup of an alias template of `quantity`. -/
def resolveQuantity (t : Tree Entry) (ss : List Nm) (n : Nm) : C DEnt := do
  match ← resolve t ss n with
  | .quantity d => .ok d
  | _ => .error .rejected

/-- The lookup of a prefix family; `no_prefix` is the absence of one (src/core/include/units/prefix.h:41-47). -/
def resolveFamily (t : Tree Entry) (ss : List Nm) (n : Nm) : C (Option String) :=
  bif Nat.beq n.code n!"no_prefix".code then .ok none
  else match lookup t ss n with
    | some e =>
      match e.ent with
      | .family => .ok (some (qualS e.scope.str e.name.str))
      | _ => .error .rejected
    | none => .error .rejected

/-- The code of the full name of a class template (where the lookup finds it) and what it denotes. -/
def resolveTemplate (t : Tree Entry) (ss : List Nm) (n : Nm) : C (Nat × Ent) :=
  match lookup t ss n with
  | some e => .ok (qual e.scope.code e.name.code, e.ent)
  | none => .error .rejected

/-- The codes of several class templates. -/
def resolveTemplates (t : Tree Entry) (ss : List Nm) : List Nm → C (List Nat)
  | [] => .ok []
  | n :: ns => do
    let (c, _) ← resolveTemplate t ss n
    let cs ← resolveTemplates t ss ns
    .ok (c :: cs)

/-- The elements of a recipe. -/
def resolveRecipe (t : Tree Entry) (ss : List Nm) : List (Nm × Int × Int) → C (List RecipeItem)
  | [] => .ok []
  | (n, a, b) :: ns => do
    let e ← resolveDim t ss n
    let es ← resolveRecipe t ss ns
    .ok (⟨e.dim, a, b⟩ :: es)

/-- `UnitOf<U, D>`, src/core/include/units/bits/basic_concepts.h:202-206. -/
def unitOf (u : MUnit) (d : Dim) : Bool := u.ref == d.unit.ref

/-- The partial specialization of a class template of `units::isq` selected by the arguments: the constraints are
`DimensionOfT` (src/core/include/units/bits/quantity_of.h:54-59, downcasting not off): deriving from the class template. -/
def selectSpec (specs : List (List Nat × List (Nat × Int × Int))) (args : List DEnt) : C (List RecipeItem) :=
  match specs.filter fun s => s.1 == args.map (·.template) with
  | [(_, recipe)] => mapC (fun (i, a, b) => match args[i]? with
      | some d => .ok ⟨d.dim, a, b⟩
      | none => .error .rejected) recipe
  | _ => .error .rejected

/-- The name of a new entity must not be in use. -/
def Sys.add (S : Sys) (scope n : Nm) (e : Ent) : C Sys :=
  withNat (qual scope.code n.code) fun c =>
  match S.names.find c with
  | some _ => .error .rejected
  | none => .ok { S with names := S.names.insert c ⟨S.cur, scope, n, e⟩, log := ⟨S.cur, scope, n, e⟩ :: S.log }

/-- A new unit type. -/
def Sys.addUnit (S : Sys) (scope n : Nm) (u : MUnit) (ascii : String) (reg : Bool) : C Sys := do
  let e : UEnt := ⟨qualS scope.str n.str, u, ascii⟩
  let S ← S.add scope n (.unit e)
  .ok (if reg then { S with unitDefs := (e, u.ratio, u.ref) :: S.unitDefs } else S)

/-- A new derived dimension. -/
def Sys.addDim (S : Sys) (scope n : Nm) (coherent : MUnit) (recipe : List RecipeItem) (template : Nat) : C Sys := do
  let nd ← defineDim (qualS scope.str n.str) coherent recipe
  let e : DEnt := ⟨qualS scope.str n.str, .named nd, recipe, template⟩
  let S ← S.add scope n (.dim e)
  .ok { S with dimDefs := (e, nd.exps) :: S.dimDefs }

/-- The symbol of a derived unit, src/core/include/units/bits/derived_symbol_text.h:82-93. -/
def derivedSymbol (recipe : List RecipeItem) (us : List UEnt) : C Sym := do
  let t ← derivedSymbolText ((recipe.zip us).map fun p => ⟨⟨p.2.unit.symbol.toList, p.2.ascii.toList⟩, p.1.num, p.1.den⟩)
  .ok ⟨String.ofList t.std, String.ofList t.ascii⟩

/-- The estimate of roots at compile time (never needed for the shipped units). -/
def est : RootEstimate := compileEst rnd53

/-- A factor of a constant: the amount in the coherent unit of the dimension. -/
def constFactor (t : Tree Entry) (ss : List Nm) : CFactor → C (Option DEnt × ℚ)
  | .number m e => .ok (none, m * (10 : ℚ) ^ e)
  | .qty q u m e => do
    let d ← resolveQuantity t ss q
    let u ← resolveUnit t ss u
    if unitOf u.unit d.dim then .ok (some d, m * (10 : ℚ) ^ e * u.unit.ratio.val / d.dim.unit.ratio.val)
    else .error .rejected

/-- `struct name : prefix_family {}`: src/systems -/
def declareFamily (S : Sys) (_ss : List Nm) (scope : Nm) (n : Nm) : C Sys :=
  S.add scope n .family

/-- `struct name : prefix<name, family, sym, ratio(n, d, e)> {}`, src/core/include/units/prefix.h:74-78 -/
def declarePre (S : Sys) (ss : List Nm) (scope : Nm) (n : Nm) (fam : Nm) (sym : Sym) (a : Int) (b : Int) (e : Int) : C Sys := do
  let f ← resolveFamily S.names ss fam
  let r ← Ratio.make a b e
  match f with
  | none => .error .rejected                      -- `requires (!std::same_as<PF, no_prefix>)`
  | some f => do
    let S ← S.add scope n (.pre ⟨f, sym.std, r⟩ sym.ascii)
    .ok { S with prefixDefs := (f, r) :: S.prefixDefs }

/-- `struct name : unit<name> {}`, src/core/include/units/unit.h:76-80 -/
def declareUnit (S : Sys) (_ss : List Nm) (scope : Nm) (n : Nm) : C Sys := do
  let u ← mkUnit (qualS scope.str n.str)
  S.addUnit scope n u "" true

/-- `struct name : named_unit<name, sym, family> {}`, src/core/include/units/unit.h:94-99 -/
def declareNamed (S : Sys) (ss : List Nm) (scope : Nm) (n : Nm) (sym : Sym) (fam : Nm) : C Sys := do
  let f ← resolveFamily S.names ss fam
  let u ← mkNamed (qualS scope.str n.str) sym.std f
  S.addUnit scope n u sym.ascii true

/-- `struct name : named_scaled_unit<name, sym, family, ratio(n, d, e), u> {}`, src/core/include/units/unit.h:115-121 -/
def declareNamedScaled (S : Sys) (ss : List Nm) (scope : Nm) (n : Nm) (sym : Sym) (fam : Nm) (a : Int) (b : Int) (e : Int) (u : Nm) : C Sys := do
  let f ← resolveFamily S.names ss fam
  let r ← Ratio.make a b e
  let u ← resolveUnit S.names ss u
  let v ← mkNamedScaled (qualS scope.str n.str) sym.std f r u.unit
  S.addUnit scope n v sym.ascii true

/-- `struct name : prefixed_unit<name, p, u> {}`, src/core/include/units/unit.h:134-140 -/
def declarePrefixed (S : Sys) (ss : List Nm) (scope : Nm) (n : Nm) (p : Nm) (u : Nm) : C Sys := do
  let u ← resolveUnit S.names ss u
  match ← resolve S.names ss p with
  | .pre p a => do
    let v ← mkPrefixed (qualS scope.str n.str) p u.unit
    S.addUnit scope n v (a ++ u.ascii) true
  | _ => .error .rejected

/-- `struct name : derived_unit<name, dim, us...> {}`, src/core/include/units/unit.h:155-162 -/
def declareDerived (S : Sys) (ss : List Nm) (scope : Nm) (n : Nm) (d : Nm) (us : List Nm) : C Sys := do
  let d ← resolveDim S.names ss d
  let us ← resolveUnits S.names ss us
  if ¬ us.all (·.unit.named) then .error .rejected
  else do
    let u ← derivedUnit est d.recipe d.dim.unit (us.map (·.unit))
    let sym ← derivedSymbol d.recipe us
    S.addUnit scope n ⟨.named (qualS scope.str n.str), u.ratio, u.ref, [u.id], false, sym.std, none⟩ sym.ascii true

/-- `struct name : alias_unit<u, sym, family> {}`, src/core/include/units/unit.h:200-205 -/
def declareAliasOf (S : Sys) (ss : List Nm) (scope : Nm) (n : Nm) (u : Nm) (sym : Sym) (fam : Nm) : C Sys := do
  let u ← resolveUnit S.names ss u
  let f ← resolveFamily S.names ss fam
  S.addUnit scope n (mkAlias (qualS scope.str n.str) sym.std f u.unit) sym.ascii false

/-- `struct name : prefixed_alias_unit<u, p, au> {}`, src/core/include/units/unit.h:222-228 -/
def declarePrefixedAlias (S : Sys) (ss : List Nm) (scope : Nm) (n : Nm) (u : Nm) (p : Nm) (au : Nm) : C Sys := do
  let u ← resolveUnit S.names ss u
  let au ← resolveUnit S.names ss au
  match ← resolve S.names ss p with
  | .pre p a => do
    let v ← mkPrefixedAlias (qualS scope.str n.str) u.unit p au.unit
    S.addUnit scope n v (a ++ au.ascii) false
  | _ => .error .rejected

/-- `struct name : base_dimension<"symbol", u> {}`, src/core/include/units/base_dimension.h:53-58 -/
def declareBaseDim (S : Sys) (ss : List Nm) (scope : Nm) (n : Nm) (symbol : String) (u : Nm) : C Sys := do
  let u ← resolveUnit S.names ss u
  S.add scope n (.dim ⟨qualS scope.str n.str, .base ⟨qualS scope.str n.str, symbol, u.unit⟩, [], 0⟩)

/-- `template<Unit U> struct name : base_dimension<"symbol", U> {}`, src/systems/isq/include/units/isq/dimensions -/
def declareBaseTemplate (S : Sys) (_ss : List Nm) (scope : Nm) (n : Nm) (symbol : String) : C Sys :=
  S.add scope n (.baseTemplate symbol)

/-- `struct name : template<u> {}`: src/systems -/
def declareBaseInst (S : Sys) (ss : List Nm) (scope : Nm) (n : Nm) (t : Nm) (u : Nm) : C Sys := do
  let u ← resolveUnit S.names ss u
  match ← resolveTemplate S.names ss t with
  | (c, .baseTemplate symbol) =>
    S.add scope n (.dim ⟨qualS scope.str n.str, .base ⟨qualS scope.str n.str, symbol, u.unit⟩, [], c⟩)
  | _ => .error .rejected

/-- `struct name : derived_dimension<name, u, exponent<d, n, m>...> {}`, src/core/include/units/derived_dimension.h:83-88 -/
def declareDerivedDim (S : Sys) (ss : List Nm) (scope : Nm) (n : Nm) (u : Nm) (recipe : List (Nm × Int × Int)) : C Sys := do
  let u ← resolveUnit S.names ss u
  let r ← resolveRecipe S.names ss recipe
  S.addDim scope n u.unit r 0

/-- `template<typename Child, Unit U, DimensionOfT<t> D...> struct name<Child, U, D...> : derived_dimension<Child, U, exponent<D, n, m>...> {}`,
src/systems/isq/include/units/isq/dimensions; an exponent refers to a parameter by its index -/
def declareDerivedTemplate (S : Sys) (ss : List Nm) (scope : Nm) (n : Nm) (params : List Nm) (recipe : List (Nat × Int × Int)) : C Sys := do
  let cs ← resolveTemplates S.names ss params
  withNat (qual scope.code n.code) fun c =>
    match S.names.find c with
    | none => S.add scope n (.derivedTemplate [(cs, recipe)])
    | some ⟨h, _, _, .derivedTemplate specs⟩ =>
      .ok { S with names := S.names.insert c ⟨h, scope, n, .derivedTemplate ((cs, recipe) :: specs)⟩ }
    | some _ => .error .rejected

/-- `struct name : template<name, u, args...> {}`: src/systems -/
def declareDerivedInst (S : Sys) (ss : List Nm) (scope : Nm) (n : Nm) (t : Nm) (u : Nm) (args : List Nm) : C Sys := do
  let u ← resolveUnit S.names ss u
  let args ← resolveDims S.names ss args
  match ← resolveTemplate S.names ss t with
  | (c, .derivedTemplate specs) => do
    let r ← selectSpec specs args
    S.addDim scope n u.unit r c
  | _ => .error .rejected

/-- `using target;` or `using name = target;`: src/systems -/
def declareUsing (S : Sys) (ss : List Nm) (scope : Nm) (n : Nm) (target : Nm) : C Sys := do
  let e ← resolve S.names ss target
  S.add scope n e

/-- `template<UnitOf<dim> U, Representation Rep = double> using name = quantity<dim, U, Rep>;`: src/systems -/
def declareQuantityAlias (S : Sys) (ss : List Nm) (scope : Nm) (n : Nm) (d : Nm) : C Sys := do
  let d ← resolveDim S.names ss d
  S.add scope n (.quantity d)

/-- `constexpr auto operator"" _q_suffix(unsigned long long l)` (`integral`) or `(long double l)`, returning
`q<u, std::int64_t>` or `q<u, long double>`: src/systems -/
def declareLiteral (S : Sys) (ss : List Nm) (scope : Nm) (suffix : Nm) (integral : Bool) (q : Nm) (u : Nm) : C Sys := do
  let d ← resolveQuantity S.names ss q
  let u ← resolveUnit S.names ss u
  if ¬ unitOf u.unit d.dim then .error .rejected
  else
    withNat (qual scope.code suffix.code) fun c =>
      match S.names.find c, integral with
      | none, true => S.add scope suffix (.literal (some (d, u)) none)
      | none, false => S.add scope suffix (.literal none (some (d, u)))
      | some ⟨_, _, _, .literal (some x) none⟩, false =>
        let e : Entry := ⟨S.cur, scope, suffix, .literal (some x) (some (d, u))⟩
        .ok { S with names := S.names.insert c e, log := e :: S.log }
      | _, _ => .error .rejected

/-- `using ns::operator"" _q_suffix;`: src/systems -/
def declareUsingLiteral (S : Sys) (ss : List Nm) (scope : Nm) (suffix : Nm) (ns : Nm) : C Sys := do
  let e ← resolve S.names ss (ns.qual suffix)
  S.add scope suffix e

/-- `inline constexpr auto name = reference<dim, u>{};`: src/systems -/
def declareReference (S : Sys) (ss : List Nm) (scope : Nm) (n : Nm) (d : Nm) (u : Nm) : C Sys := do
  let d ← resolveDim S.names ss d
  let u ← resolveUnit S.names ss u
  if unitOf u.unit d.dim then S.add scope n (.reference d u) else .error .rejected

/-- `inline constexpr auto name = other;`: src/systems -/
def declareReferenceCopy (S : Sys) (ss : List Nm) (scope : Nm) (n : Nm) (o : Nm) : C Sys := do
  match ← resolve S.names ss o with
  | .reference d u => S.add scope n (.reference d u)
  | _ => .error .rejected

/-- `template<Representation Rep = double> using name = q<u, Rep>;`: src/systems -/
def declareRepAlias (S : Sys) (ss : List Nm) (scope : Nm) (n : Nm) (q : Nm) (u : Nm) : C Sys := do
  let d ← resolveQuantity S.names ss q
  let u ← resolveUnit S.names ss u
  if unitOf u.unit d.dim then S.add scope n (.rep d u) else .error .rejected

/-- `template<Representation Rep = double> using name = other<Rep>;`: src/systems -/
def declareRepAliasCopy (S : Sys) (ss : List Nm) (scope : Nm) (n : Nm) (o : Nm) : C Sys := do
  match ← resolve S.names ss o with
  | .rep d u => S.add scope n (.rep d u)
  | _ => .error .rejected

/-- `inline constexpr auto name = a;`, `= a * b;` (`false`) or `= a / b;` (`true`),
src/systems/si/include/units/isq/si/constants.h:35-60 -/
def declareConstant (S : Sys) (ss : List Nm) (scope : Nm) (n : Nm) (a : CFactor) (b : Option (Bool × CFactor)) : C Sys := do
  let (d1, v1) ← constFactor S.names ss a
  match b with
  | none => S.add scope n (.constant [(d1, v1, 1)])
  | some (inv, b) => do
    let (d2, v2) ← constFactor S.names ss b
    S.add scope n (.constant [(d1, v1, 1), (d2, v2, if inv then -1 else 1)])

/-- One declaration in a namespace with the given enclosing scopes (innermost first).  See `Decl` for what each case models. -/
def declare (S : Sys) (ss : List Nm) (scope : Nm) : Decl → C Sys
  | .family n => declareFamily S ss scope n
  | .pre n fam sym a b e => declarePre S ss scope n fam sym a b e
  | .unit n => declareUnit S ss scope n
  | .named n sym fam => declareNamed S ss scope n sym fam
  | .namedScaled n sym fam a b e u => declareNamedScaled S ss scope n sym fam a b e u
  | .prefixed n p u => declarePrefixed S ss scope n p u
  | .derived n d us => declareDerived S ss scope n d us
  | .aliasOf n u sym fam => declareAliasOf S ss scope n u sym fam
  | .prefixedAlias n u p au => declarePrefixedAlias S ss scope n u p au
  | .baseDim n symbol u => declareBaseDim S ss scope n symbol u
  | .baseTemplate n symbol => declareBaseTemplate S ss scope n symbol
  | .baseInst n t u => declareBaseInst S ss scope n t u
  | .derivedDim n u recipe => declareDerivedDim S ss scope n u recipe
  | .derivedTemplate n params recipe => declareDerivedTemplate S ss scope n params recipe
  | .derivedInst n t u args => declareDerivedInst S ss scope n t u args
  | .using_ n target => declareUsing S ss scope n target
  | .quantityAlias n d => declareQuantityAlias S ss scope n d
  | .literal suffix integral q u => declareLiteral S ss scope suffix integral q u
  | .usingLiteral suffix ns => declareUsingLiteral S ss scope suffix ns
  | .reference n d u => declareReference S ss scope n d u
  | .referenceCopy n o => declareReferenceCopy S ss scope n o
  | .repAlias n q u => declareRepAlias S ss scope n q u
  | .repAliasCopy n o => declareRepAliasCopy S ss scope n o
  | .constant n a b => declareConstant S ss scope n a b

/-- The declarations of one namespace. -/
def declareAll (ss : List Nm) (scope : Nm) : Sys → List Decl → C Sys
  | S, [] => .ok S
  | S, d :: ds => do
    let S ← declare S ss scope d
    declareAll ss scope S ds

/-- The sections of a header; a section is given by its scopes. -/
def declareSections : Sys → List (List Nm × List Decl) → C Sys
  | S, [] => .ok S
  | S, (ss, ds) :: rest => do
    let S ← declareAll ss (ss.headD ⟨"", 0⟩) S ds
    declareSections S rest

/-- The header with a given path and its position. -/
def findHeader (hs : List Header) (p : Nat) (i : Nat) : Option (Header × Nat) :=
  match hs with
  | [] => none
  | h :: hs => bif Nat.beq h.path.code p then some (h, i) else findHeader hs p (Nat.succ i)

/-- `#include <path>` with `#pragma once`; the first argument limits the depth. -/
def load (hs : List Header) : Nat → Sys → Nat → C Sys
  | 0, _, _ => .error .divergence
  | k + 1, S, p =>
    if S.seen.any (Nat.beq p) then .ok S
    else match findHeader hs p 0 with
    | none => .error .rejected
    | some (h, i) => do
      let S ← h.includes.foldl (fun (acc : C Sys) (i : Nm) => do
        let S ← acc
        load hs k S i.code) (.ok { S with seen := p :: S.seen })
      declareSections { S with cur := i } h.sections

/-- A translation unit that includes all headers of a list in which every header comes after those it includes, so that `#include`s have no effect. -/
def loadInOrder : Sys → List Header → C Sys
  | S, [] => .ok S
  | S, h :: hs => do
    let S ← declareSections S h.sections
    loadInOrder { S with cur := Nat.succ S.cur, seen := h.path.code :: S.seen } hs

end Verif.Systems
