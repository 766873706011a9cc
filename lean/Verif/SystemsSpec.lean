import Verif.SystemsData
import Verif.Standards

/-!
# The shipped systems of units: what is to be shown and how it is checked

First the notions in which the properties of the shipped units are stated, then generic checks that
run in the kernel together with the proofs that they are sound.
-/

namespace Verif.Systems

open Standards

/-- All headers, in an order in which each comes after those it includes.  The aliases of `isq/si/radioactivity.h` (the last section) never
compile (see `C59_radioactivity_rejected`) and are left out, as with `UNITS_NO_ALIASES`. -/
def shipped : List Header := headers.map fun h =>
  bif Nat.beq h.path.code n!"isq/si/radioactivity.h".code then { h with sections := h.sections.dropLast } else h

/-- A translation unit with all shipped headers. -/
def everything : C Sys := loadInOrder .empty shipped

/-- The full name of what is declared. -/
def Entry.full (e : Entry) : String := qualS e.scope.str e.name.str

/-- The amount of the base unit of a dimension: its ratio times the amount its reference stands for. -/
def baseUnitAmount (b : BaseDim) : Option Amount :=
  match baseAmount (encode b.unit.ref) with
  | some a => some (a.times b.unit.ratio.val)
  | none => none

/-- The product of the base units of a dimension, to their powers. -/
def dimAmount : List Exp → Option Amount
  | [] => some unity
  | e :: es =>
    if e.den = 1 then
      match baseUnitAmount e.dim, dimAmount es with
      | some a, some b => some ((a.pow e.num).mul b)
      | _, _ => none
    else none

/-- The amount a unit of a dimension stands for: its ratio, relative to that of the coherent unit of the dimension, times the product of the base
units (the exact value of what `quantity_ratio` computes, src/core/include/units/quantity_cast.h:44-65). -/
def denote (d : Dim) (u : MUnit) : Option Amount :=
  match d.exps with
  | .ok es =>
    match dimAmount es with
    | some a => some (a.times (u.ratio.val / d.unit.ratio.val))
    | none => none
  | .error _ => none

/-- The units declared, with where they are declared. -/
def unitsOf : List Entry → List (Entry × UEnt)
  | [] => []
  | e :: es =>
    match e.ent with
    | .unit u => (e, u) :: unitsOf es
    | _ => unitsOf es

/-- The dimensions declared. -/
def dimsOf : List Entry → List (Entry × DEnt)
  | [] => []
  | e :: es =>
    match e.ent with
    | .dim d => (e, d) :: dimsOf es
    | _ => dimsOf es

/-- The prefixes declared. -/
def prefixesOf : List Entry → List (Entry × MPrefix × String)
  | [] => []
  | e :: es =>
    match e.ent with
    | .pre p a => (e, p, a) :: prefixesOf es
    | _ => prefixesOf es

/-- The constants declared. -/
def constantsOf : List Entry → List (Entry × List (Option DEnt × ℚ × Int))
  | [] => []
  | e :: es =>
    match e.ent with
    | .constant p => (e, p) :: constantsOf es
    | _ => constantsOf es

theorem mem_unitsOf {l : List Entry} {e : Entry} {u : UEnt} : (e, u) ∈ unitsOf l ↔ e ∈ l ∧ e.ent = .unit u := by
  induction l with
  | nil => simp [unitsOf]
  | cons a l ih =>
    unfold unitsOf
    split
    · rename_i v hv
      simp only [List.mem_cons, ih, Prod.mk.injEq]
      constructor
      · rintro (⟨rfl, rfl⟩ | ⟨h, h'⟩)
        · exact ⟨Or.inl rfl, hv⟩
        · exact ⟨Or.inr h, h'⟩
      · rintro ⟨rfl | h, h'⟩
        · rw [hv] at h'; simp only [Ent.unit.injEq] at h'; exact Or.inl ⟨rfl, h'.symm⟩
        · exact Or.inr ⟨h, h'⟩
    · rename_i hv
      rw [ih, List.mem_cons]
      constructor
      · rintro ⟨h, h'⟩; exact ⟨Or.inr h, h'⟩
      · rintro ⟨rfl | h, h'⟩
        · exact absurd h' (hv _)
        · exact ⟨h, h'⟩

theorem mem_dimsOf {l : List Entry} {e : Entry} {u : DEnt} : (e, u) ∈ dimsOf l ↔ e ∈ l ∧ e.ent = .dim u := by
  induction l with
  | nil => simp [dimsOf]
  | cons a l ih =>
    unfold dimsOf
    split
    · rename_i v hv
      simp only [List.mem_cons, ih, Prod.mk.injEq]
      constructor
      · rintro (⟨rfl, rfl⟩ | ⟨h, h'⟩)
        · exact ⟨Or.inl rfl, hv⟩
        · exact ⟨Or.inr h, h'⟩
      · rintro ⟨rfl | h, h'⟩
        · rw [hv] at h'; simp only [Ent.dim.injEq] at h'; exact Or.inl ⟨rfl, h'.symm⟩
        · exact Or.inr ⟨h, h'⟩
    · rename_i hv
      rw [ih, List.mem_cons]
      constructor
      · rintro ⟨h, h'⟩; exact ⟨Or.inr h, h'⟩
      · rintro ⟨rfl | h, h'⟩
        · exact absurd h' (hv _)
        · exact ⟨h, h'⟩

theorem mem_prefixesOf {l : List Entry} {e : Entry} {p : MPrefix} {a : String} :
    (e, p, a) ∈ prefixesOf l ↔ e ∈ l ∧ e.ent = .pre p a := by
  induction l with
  | nil => simp [prefixesOf]
  | cons x l ih =>
    unfold prefixesOf
    split
    · rename_i v b hv
      simp only [List.mem_cons, ih, Prod.mk.injEq]
      constructor
      · rintro (⟨rfl, rfl, rfl⟩ | ⟨h, h'⟩)
        · exact ⟨Or.inl rfl, hv⟩
        · exact ⟨Or.inr h, h'⟩
      · rintro ⟨rfl | h, h'⟩
        · rw [hv] at h'; simp only [Ent.pre.injEq] at h'; exact Or.inl ⟨rfl, h'.1.symm, h'.2.symm⟩
        · exact Or.inr ⟨h, h'⟩
    · rename_i hv
      rw [ih, List.mem_cons]
      constructor
      · rintro ⟨h, h'⟩; exact ⟨Or.inr h, h'⟩
      · rintro ⟨rfl | h, h'⟩
        · exact absurd h' (hv _ _)
        · exact ⟨h, h'⟩

theorem mem_constantsOf {l : List Entry} {e : Entry} {u : List (Option DEnt × ℚ × Int)} :
    (e, u) ∈ constantsOf l ↔ e ∈ l ∧ e.ent = .constant u := by
  induction l with
  | nil => simp [constantsOf]
  | cons a l ih =>
    unfold constantsOf
    split
    · rename_i v hv
      simp only [List.mem_cons, ih, Prod.mk.injEq]
      constructor
      · rintro (⟨rfl, rfl⟩ | ⟨h, h'⟩)
        · exact ⟨Or.inl rfl, hv⟩
        · exact ⟨Or.inr h, h'⟩
      · rintro ⟨rfl | h, h'⟩
        · rw [hv] at h'; simp only [Ent.constant.injEq] at h'; exact Or.inl ⟨rfl, h'.symm⟩
        · exact Or.inr ⟨h, h'⟩
    · rename_i hv
      rw [ih, List.mem_cons]
      constructor
      · rintro ⟨h, h'⟩; exact ⟨Or.inr h, h'⟩
      · rintro ⟨rfl | h, h'⟩
        · exact absurd h' (hv _)
        · exact ⟨h, h'⟩

/-! ### Grouping by a key -/

/-- The list stored for a key. -/
def Tree.list {α : Type} (t : Tree (List α)) (k : Nat) : List α :=
  match t.find k with
  | some l => l
  | none => []

/-- Adds an element to the list stored for a key. -/
def Tree.push {α : Type} (t : Tree (List α)) (k : Nat) (v : α) : Tree (List α) := t.insert k (v :: t.list k)

theorem Tree.list_push {α : Type} (t : Tree (List α)) (k x : Nat) (v : α) :
    (t.push k v).list x = if x = k then v :: t.list x else t.list x := by
  unfold Tree.push
  rw [Tree.list, Tree.find_insert]
  by_cases h : x = k
  · subst h; simp
  · simp only [if_neg h]; rfl

/-- All elements by their key. -/
def group {α : Type} (key : α → Nat) : Tree (List α) → List α → Tree (List α)
  | t, [] => t
  | t, x :: xs => withNat (key x) fun k => group key (t.push k x) xs

theorem mem_group {α : Type} (key : α → Nat) (l : List α) (t : Tree (List α)) (k : Nat) (x : α) :
    x ∈ (group key t l).list k ↔ x ∈ t.list k ∨ (x ∈ l ∧ key x = k) := by
  induction l generalizing t with
  | nil => simp [group]
  | cons y l ih =>
    simp only [group, withNat_eq, ih, Tree.list_push, List.mem_cons]
    by_cases h : k = key y
    · subst h
      simp only [if_true, List.mem_cons]
      constructor
      · rintro ((rfl | h) | ⟨h, e⟩)
        · exact Or.inr ⟨Or.inl rfl, rfl⟩
        · exact Or.inl h
        · exact Or.inr ⟨Or.inr h, e⟩
      · rintro (h | ⟨rfl | h, e⟩)
        · exact Or.inl (Or.inr h)
        · exact Or.inl (Or.inl rfl)
        · exact Or.inr ⟨h, e⟩
    · rw [if_neg h]
      constructor
      · rintro (h | ⟨h, e⟩)
        · exact Or.inl h
        · exact Or.inr ⟨Or.inr h, e⟩
      · rintro (h' | ⟨rfl | h', e⟩)
        · exact Or.inl h'
        · exact absurd e.symm h
        · exact Or.inr ⟨h', e⟩

/-! ### A value that depends on a key only -/

/-- Whether elements with equal keys have equal values. -/
def functional {α β : Type} [DecidableEq β] (key : α → Nat) (val : α → β) : Tree α → List α → Bool
  | _, [] => true
  | t, x :: xs => withNat (key x) fun k =>
    match t.find k with
    | some y => decide (val y = val x) && functional key val t xs
    | none => functional key val (t.insert k x) xs

theorem functional_sound' {α β : Type} [DecidableEq β] (key : α → Nat) (val : α → β) (l : List α) (t : Tree α)
    (h : functional key val t l = true) :
    (∀ x ∈ l, ∀ z, t.find (key x) = some z → val z = val x) ∧ (∀ x ∈ l, ∀ y ∈ l, key x = key y → val x = val y) := by
  induction l generalizing t with
  | nil => simp
  | cons a l ih =>
    simp only [functional, withNat_eq] at h
    split at h
    · rename_i z hz
      simp only [Bool.and_eq_true, decide_eq_true_eq] at h
      obtain ⟨hza, h⟩ := h
      obtain ⟨h1, h2⟩ := ih t h
      have ha : ∀ x ∈ l, key a = key x → val a = val x := fun x hx e => by
        rw [← hza]; exact h1 x hx z (by rw [← e]; exact hz)
      refine ⟨?_, ?_⟩
      · intro x hx w hw
        rcases List.mem_cons.mp hx with rfl | hx
        · rw [hz] at hw; cases hw; exact hza
        · exact h1 x hx w hw
      · intro x hx y hy e
        rcases List.mem_cons.mp hx with hx1 | hx1 <;> rcases List.mem_cons.mp hy with hy1 | hy1
        · rw [hx1, hy1]
        · rw [hx1]; exact ha y hy1 (hx1 ▸ e)
        · rw [hy1]; exact (ha x hx1 (hy1 ▸ e.symm)).symm
        · exact h2 x hx1 y hy1 e
    · rename_i hz
      obtain ⟨h1, h2⟩ := ih _ h
      have ha : ∀ x ∈ l, key a = key x → val a = val x := fun x hx e =>
        h1 x hx a (by rw [Tree.find_insert, if_pos e.symm])
      refine ⟨?_, ?_⟩
      · intro x hx w hw
        rcases List.mem_cons.mp hx with rfl | hx
        · rw [hz] at hw; cases hw
        · by_cases e : key x = key a
          · rw [e, hz] at hw; cases hw
          · exact h1 x hx w (by rw [Tree.find_insert, if_neg e]; exact hw)
      · intro x hx y hy e
        rcases List.mem_cons.mp hx with hx1 | hx1 <;> rcases List.mem_cons.mp hy with hy1 | hy1
        · rw [hx1, hy1]
        · rw [hx1]; exact ha y hy1 (hx1 ▸ e)
        · rw [hy1]; exact (ha x hx1 (hy1 ▸ e.symm)).symm
        · exact h2 x hx1 y hy1 e

theorem functional_sound {α β : Type} [DecidableEq β] {key : α → Nat} {val : α → β} {l : List α}
    (h : functional key val .leaf l = true) : ∀ x ∈ l, ∀ y ∈ l, key x = key y → val x = val y :=
  (functional_sound' key val l .leaf h).2

/-! ### The headers a header includes -/

/-- The header at position `k` is the header at position `i` or included by it, directly or not. -/
inductive Reach (hs : List Header) : Nat → Nat → Prop
  | self (i : Nat) : Reach hs i i
  | step {i j k : Nat} {h g : Header} {n : Nm} : hs[i]? = some h → n ∈ h.includes →
      findHeader hs n.code 0 = some (g, j) → Reach hs j k → Reach hs i k

/-- Adds to a set (of positions, as bits) what the included headers reach. -/
def reachAll (all : List Header) (t : Tree Nat) : List Nm → Nat → Option Nat
  | [], m => some m
  | n :: ns, m =>
    match findHeader all n.code 0 with
    | none => none
    | some (_, j) =>
      match t.find j with
      | none => none
      | some k => withNat (Nat.lor m k) fun m => reachAll all t ns m

/-- Runs a check on all headers with the sets of headers they reach. -/
def checkHeaders (all : List Header) (P : Nat → Nat → Header → Bool) (t : Tree Nat) (i : Nat) : List Header → Bool
  | [] => true
  | h :: hs =>
    match reachAll all t h.includes (Nat.pow 2 i) with
    | none => false
    | some m => withNat m fun m => P i m h && checkHeaders all P (t.insert i m) (Nat.succ i) hs

theorem reachAll_sound {all : List Header} {t : Tree Nat}
    (ht : ∀ j k, t.find j = some k → ∀ b, k.testBit b = true ↔ Reach all j b) (ns : List Nm) (m m' : Nat)
    (h : reachAll all t ns m = some m') (b : Nat) :
    m'.testBit b = true ↔ m.testBit b = true ∨ ∃ n ∈ ns, ∃ g j, findHeader all n.code 0 = some (g, j) ∧ Reach all j b := by
  induction ns generalizing m with
  | nil => simp only [reachAll, Option.some.injEq] at h; subst h; simp
  | cons n ns ih =>
    simp only [reachAll] at h
    split at h
    · cases h
    · rename_i g j hf
      split at h
      · cases h
      · rename_i k hk
        rw [withNat_eq] at h
        rw [ih _ h]
        have : (Nat.lor m k).testBit b = (m.testBit b || k.testBit b) := Nat.testBit_or m k b
        rw [this, Bool.or_eq_true, ht j k hk b]
        constructor
        · rintro ((h | h) | ⟨n', hn', h⟩)
          · exact Or.inl h
          · exact Or.inr ⟨n, by simp, g, j, hf, h⟩
          · exact Or.inr ⟨n', by simp [hn'], h⟩
        · rintro (h | ⟨n', hn', g', j', hf', h⟩)
          · exact Or.inl (Or.inl h)
          · rcases List.mem_cons.mp hn' with rfl | hn'
            · rw [hf] at hf'; cases hf'; exact Or.inl (Or.inr h)
            · exact Or.inr ⟨n', hn', g', j', hf', h⟩

theorem checkHeaders_sound' {all : List Header} {P : Nat → Nat → Header → Bool} (hs : List Header) (t : Tree Nat) (i : Nat)
    (hall : ∀ j, hs[j]? = all[i + j]?)
    (ht : ∀ j k, t.find j = some k → ∀ b, k.testBit b = true ↔ Reach all j b)
    (h : checkHeaders all P t i hs = true) :
    ∀ j g, hs[j]? = some g → ∃ m, P (i + j) m g = true ∧ ∀ b, m.testBit b = true ↔ Reach all (i + j) b := by
  induction hs generalizing t i with
  | nil => simp
  | cons a hs ih =>
    simp only [checkHeaders] at h
    split at h
    · cases h
    · rename_i m hm
      simp only [withNat_eq, Bool.and_eq_true] at h
      obtain ⟨hP, h⟩ := h
      have ha : all[i]? = some a := by rw [← Nat.add_zero i, ← hall 0]; rfl
      have hbits : ∀ b, m.testBit b = true ↔ Reach all i b := by
        intro b
        rw [reachAll_sound ht _ _ _ hm b]
        have e : (Nat.pow 2 i).testBit b = decide (i = b) := Nat.testBit_two_pow
        rw [e, decide_eq_true_eq]
        constructor
        · rintro (rfl | ⟨n, hn, g, j, hf, h⟩)
          · exact .self _
          · exact .step ha hn hf h
        · intro h
          cases h with
          | self => exact Or.inl rfl
          | step h1 hn hf h =>
            rw [ha] at h1; cases h1
            exact Or.inr ⟨_, hn, _, _, hf, h⟩
      intro j g hj
      cases j with
      | zero =>
        simp only [List.getElem?_cons_zero, Option.some.injEq] at hj
        subst hj
        exact ⟨m, hP, hbits⟩
      | succ j =>
        have := ih (t.insert i m) (i + 1)
          (fun j => by rw [show i + 1 + j = i + (j + 1) by omega, ← hall (j + 1)]; rfl)
          (fun j k hk b => by
            rw [Tree.find_insert] at hk
            split at hk
            · rename_i e; cases hk; subst e; exact hbits b
            · exact ht j k hk b) h j g (by simpa using hj)
        rwa [show i + 1 + j = i + (j + 1) by omega] at this

theorem checkHeaders_sound {all : List Header} {P : Nat → Nat → Header → Bool}
    (h : checkHeaders all P .leaf 0 all = true) (j : Nat) (g : Header) (hj : all[j]? = some g) :
    ∃ m, P j m g = true ∧ ∀ b, m.testBit b = true ↔ Reach all j b := by
  simpa using checkHeaders_sound' all .leaf 0 (fun j => by simp) (fun j k hk => by simp [Tree.find_leaf] at hk) h j g hj

/-- The names a declaration refers to. -/
def CFactor.uses : CFactor → List Nm
  | .qty q u _ _ => [q, u]
  | .number _ _ => []

/-- The name of a prefix family, if it is one. -/
def familyUses (f : Nm) : List Nm := bif Nat.beq f.code n!"no_prefix".code then [] else [f]

/-- The names a declaration refers to. -/
def Decl.uses : Decl → List Nm
  | .family _ => []
  | .pre _ fam _ _ _ _ => [fam]
  | .unit _ => []
  | .named _ _ fam => familyUses fam
  | .namedScaled _ _ fam _ _ _ u => u :: familyUses fam
  | .prefixed _ p u => [p, u]
  | .derived _ d us => d :: us
  | .aliasOf _ u _ fam => u :: familyUses fam
  | .prefixedAlias _ u p au => [u, p, au]
  | .baseDim _ _ u => [u]
  | .baseTemplate _ _ => []
  | .baseInst _ t u => [t, u]
  | .derivedDim _ u recipe => u :: recipe.map (·.1)
  | .derivedTemplate _ params _ => params
  | .derivedInst _ t u args => t :: u :: args
  | .using_ _ target => [target]
  | .quantityAlias _ d => [d]
  | .literal _ _ q u => [q, u]
  | .usingLiteral suffix ns => [ns.qual suffix]
  | .reference _ d u => [d, u]
  | .referenceCopy _ o => [o]
  | .repAlias _ q u => [q, u]
  | .repAliasCopy _ o => [o]
  | .constant _ a b => a.uses ++ (match b with | some (_, b) => b.uses | none => [])

end Verif.Systems
