import Verif.Cpp

/-!
# `units/bits/external/downcasting.h`

`κ` stands for the base types (`derived_dimension_base<Es...>`, `scaled_unit<R, U>`,
`prefix_base<PF, R>`), `ν` for the user-defined child types.  The state of a translation unit is which
friend functions have been defined so far.  Simplification: template instantiation order is the order of
the definitions; a query is made after them.
-/

namespace Verif.Downcast

variable {κ ν : Type}

/-- `enum class downcast_mode`, src/core/include/units/bits/external/downcasting.h:71-75. -/
inductive Mode where
  | off | on | automatic
deriving DecidableEq

/-- Which `downcast_guide(downcast_base<T>)` and `downcast_poison_pill(downcast_base<T>)` have a
definition, src/core/include/units/bits/external/downcasting.h:38-46, 53-69. -/
structure State (κ ν : Type) where
  guide : κ → Option ν
  poison : κ → Bool

/-- No definition seen. -/
def State.empty : State κ ν := ⟨fun _ => none, fun _ => false⟩

/-- Deriving `child` from `downcast_dispatch<child, base, mode>`,
src/core/include/units/bits/external/downcasting.h:78-85 (not MSVC).  Defining the guide of the same
base twice is the compile-time error of `downcast_mode::on`; re-deriving from
`downcast_poison<base>` is the same specialisation and defines nothing new. -/
def define [DecidableEq κ] (mode : Mode) (s : State κ ν) (child : ν) (base : κ) : C (State κ ν) :=
  match mode with
  | .off => .ok s
  | .on =>
    match s.guide base with
    | some _ => .error .rejected
    | none => .ok { s with guide := fun k => if k = base then some child else s.guide k }
  | .automatic =>
    match s.guide base with
    | some _ => .ok { s with poison := fun k => if k = base then true else s.poison k }
    | none => .ok { s with guide := fun k => if k = base then some child else s.guide k }

/-- A sequence of definitions. -/
def defineAll [DecidableEq κ] (mode : Mode) : State κ ν → List (ν × κ) → C (State κ ν)
  | s, [] => .ok s
  | s, (c, b) :: rest => do
    let s' ← define mode s c b
    defineAll mode s' rest

/-- `downcast<T>`, src/core/include/units/bits/external/downcasting.h:87-104: the registered child or,
as `none`, the base type itself. -/
def downcast (s : State κ ν) (base : κ) : Option ν :=
  match s.guide base with
  | some c => if s.poison base then none else some c
  | none => none

/-! ### Helper lemmas -/

/-- The children registered for a base. -/
def childrenOf [DecidableEq κ] (defs : List (ν × κ)) (b : κ) : List ν :=
  (defs.filter fun d => d.2 = b).map Prod.fst

/-- What the state records about `b` after some children of it have been defined. -/
def Rec (mode : Mode) (s : State κ ν) (b : κ) (cs : List ν) : Prop :=
  match mode with
  | .off => s.guide b = none ∧ s.poison b = false
  | .on => s.guide b = cs.head? ∧ s.poison b = false ∧ cs.length ≤ 1
  | .automatic => s.guide b = cs.head? ∧ (s.poison b = true ↔ 2 ≤ cs.length)

theorem define_rec [DecidableEq κ] {mode : Mode} {s s' : State κ ν} {c : ν} {k b : κ} {cs : List ν}
    (h : define mode s c k = .ok s') (hr : Rec mode s b cs) :
    Rec mode s' b (if k = b then cs ++ [c] else cs) := by
  unfold define at h
  cases mode with
  | off =>
    simp only [Except.ok.injEq] at h
    subst h; exact hr
  | on =>
    simp only at h
    obtain ⟨r1, r2, r3⟩ := hr
    split at h
    · cases h
    · rename_i hg
      simp only [Except.ok.injEq] at h
      subst h
      by_cases hk : k = b
      · subst hk
        rw [hg] at r1
        have hnil : cs = [] := List.head?_eq_none_iff.mp r1.symm
        subst hnil
        simp [Rec, r2]
      · simp only [Rec, if_neg hk, if_neg (fun h => hk h.symm : ¬ b = k)]
        exact ⟨r1, r2, r3⟩
  | automatic =>
    simp only at h
    obtain ⟨r1, r2⟩ := hr
    split at h
    · rename_i c0 hg
      simp only [Except.ok.injEq] at h
      subst h
      by_cases hk : k = b
      · subst hk
        rw [hg] at r1
        obtain ⟨tl, rfl⟩ : ∃ tl, cs = c0 :: tl := by
          cases cs with
          | nil => simp at r1
          | cons a tl => simp at r1; exact ⟨tl, by rw [r1]⟩
        simp [Rec, hg]
      · simp only [Rec, if_neg hk, if_neg (fun h => hk h.symm : ¬ b = k)]
        exact ⟨r1, r2⟩
    · rename_i hg
      simp only [Except.ok.injEq] at h
      subst h
      by_cases hk : k = b
      · subst hk
        rw [hg] at r1
        have hnil : cs = [] := List.head?_eq_none_iff.mp r1.symm
        subst hnil
        simp only [List.length_nil] at r2
        simp [Rec, r2]
      · simp only [Rec, if_neg hk, if_neg (fun h => hk h.symm : ¬ b = k)]
        exact ⟨r1, r2⟩

theorem defineAll_rec [DecidableEq κ] {mode : Mode} (defs : List (ν × κ)) {s s' : State κ ν} {b : κ}
    {cs : List ν} (h : defineAll mode s defs = .ok s') (hr : Rec mode s b cs) :
    Rec mode s' b (cs ++ childrenOf defs b) := by
  induction defs generalizing s cs with
  | nil =>
    simp only [defineAll, Except.ok.injEq] at h
    subst h; simpa [childrenOf] using hr
  | cons d rest ih =>
    obtain ⟨c, k⟩ := d
    simp only [defineAll, bind_ok] at h
    obtain ⟨s1, h1, h2⟩ := h
    have := ih h2 (define_rec h1 hr)
    by_cases hk : k = b
    · subst hk
      simpa [childrenOf] using this
    · rw [if_neg hk] at this
      simpa [childrenOf, hk] using this

theorem empty_rec (mode : Mode) (b : κ) : Rec mode (State.empty : State κ ν) b [] := by
  cases mode <;> simp [Rec, State.empty]

/-- The outcome in terms of the children registered for the base. -/
def outcome : Mode → List ν → Option ν
  | .off, _ => none
  | _, [c] => some c
  | _, _ => none

/-- The outcome of a query after any accepted history. -/
theorem downcast_defineAll [DecidableEq κ] {mode : Mode} {defs : List (ν × κ)} {s : State κ ν}
    (h : defineAll mode State.empty defs = .ok s) (b : κ) :
    downcast s b = outcome mode (childrenOf defs b) := by
  have hr := defineAll_rec defs h (empty_rec mode b)
  simp only [List.nil_append] at hr
  unfold downcast
  generalize childrenOf defs b = cs at hr
  cases mode with
  | off => rw [hr.1]; rfl
  | on =>
    obtain ⟨r1, r2, r3⟩ := hr
    rw [r1, r2]
    match cs, r3 with
    | [], _ => rfl
    | [c], _ => rfl
  | automatic =>
    obtain ⟨r1, r2⟩ := hr
    rw [r1]
    match cs, r2 with
    | [], _ => rfl
    | [c], r2 => simp at r2; simp [r2, outcome]
    | a :: c :: tl, r2 =>
      have : s.poison b = true := r2.mpr (by simp)
      simp [this, outcome]

theorem defineAll_on_accepts [DecidableEq κ] (defs : List (ν × κ)) {s : State κ ν}
    (hfresh : ∀ d ∈ defs, s.guide d.2 = none) (hnd : (defs.map Prod.snd).Nodup) :
    ∃ s', defineAll .on s defs = .ok s' := by
  induction defs generalizing s with
  | nil => exact ⟨s, rfl⟩
  | cons d rest ih =>
    obtain ⟨c, b⟩ := d
    have h1 : s.guide b = none := hfresh (c, b) (by simp)
    simp only [List.map_cons, List.nodup_cons] at hnd
    simp only [defineAll, define, h1, ok_bind]
    apply ih _ hnd.2
    intro d hd
    have : d.2 ≠ b := fun h => hnd.1 (h ▸ List.mem_map_of_mem hd)
    simp only [if_neg this]
    exact hfresh d (by simp [hd])

theorem defineAll_on_distinct [DecidableEq κ] {defs : List (ν × κ)} {s s' : State κ ν}
    (h : defineAll .on s defs = .ok s') :
    (defs.map Prod.snd).Nodup ∧ ∀ d ∈ defs, s.guide d.2 = none := by
  induction defs generalizing s with
  | nil => simp
  | cons d rest ih =>
    obtain ⟨c, b⟩ := d
    simp only [defineAll, bind_ok] at h
    obtain ⟨s1, h1, h2⟩ := h
    have hb : s.guide b = none := by
      unfold define at h1
      simp only at h1
      split at h1
      · cases h1
      · assumption
    have hs1 : s1 = { s with guide := fun k => if k = b then some c else s.guide k } := by
      simp only [define, hb, Except.ok.injEq] at h1; exact h1.symm
    obtain ⟨i1, i2⟩ := ih h2
    have hne : ∀ d ∈ rest, d.2 ≠ b := by
      intro d hd heq
      have := i2 d hd
      rw [hs1] at this
      simp [heq] at this
    refine ⟨?_, ?_⟩
    · simp only [List.map_cons, List.nodup_cons, List.mem_map, not_exists, not_and]
      exact ⟨fun d hd h => hne d hd h, i1⟩
    · intro d hd
      rcases List.mem_cons.mp hd with rfl | hd
      · exact hb
      · have := i2 d hd
        rw [hs1] at this
        simpa [hne d hd] using this

end Verif.Downcast
