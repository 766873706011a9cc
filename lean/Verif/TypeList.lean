import Verif.Cpp

/-!
# `units/bits/external/type_list.h`

A type list is a `List` of whatever stands for the types; a predicate template
`Pred<T1, T2>::value` is a Boolean function.
-/

namespace Verif.TypeList

variable {α : Type}

/-- `type_list_push_front`, src/core/include/units/bits/external/type_list.h:53-64. -/
def pushFront (list new : List α) : List α := new ++ list

/-- `type_list_push_back`, src/core/include/units/bits/external/type_list.h:70-81. -/
def pushBack (list new : List α) : List α := list ++ new

/-- `type_list_join`, src/core/include/units/bits/external/type_list.h:87-100: the first two lists are
joined, then the result with the rest. -/
def joinImpl (list : List α) : List (List α) → List α
  | [] => list
  | second :: rest => joinImpl (list ++ second) rest

/-- `split_impl<List, Idx, N, Types...>`,
src/core/include/units/bits/external/type_list.h:106-128; returns `first_list` and `second_list`. -/
def splitImpl (idx n : Nat) : List α → List α × List α
  | [] => ([], [])
  | t :: rest =>
    let base := splitImpl (idx + 1) n rest
    if idx < n then (pushFront base.1 [t], base.2)
    else (base.1, pushFront base.2 [t])

/-- `type_list_split`, src/core/include/units/bits/external/type_list.h:132-141 (the
`static_assert` is the rejection). -/
def split (n : Nat) (l : List α) : C (List α × List α) :=
  if n ≤ l.length then .ok (splitImpl 0 n l) else .error .rejected

/-- `type_list_split_half`, src/core/include/units/bits/external/type_list.h:145-150. -/
def splitHalf (l : List α) : List α × List α := splitImpl 0 ((l.length + 1) / 2) l

/-- `type_list_merge_sorted`, src/core/include/units/bits/external/type_list.h:156-191: the head of the
first list goes first exactly when `Pred<Lhs1, Rhs1>` holds, so ties take the second list first. -/
def mergeSorted (pred : α → α → Bool) : List α → List α → List α
  | [], [] => []
  | lhs, [] => lhs
  | [], rhs => rhs
  | l1 :: lrest, r1 :: rrest =>
    if pred l1 r1 then pushFront (mergeSorted pred lrest (r1 :: rrest)) [l1]
    else pushFront (mergeSorted pred (l1 :: lrest) rrest) [r1]
termination_by l r => l.length + r.length

theorem splitImpl_eq (idx n : Nat) (l : List α) :
    splitImpl idx n l = (l.take (n - idx), l.drop (n - idx)) := by
  induction l generalizing idx with
  | nil => simp [splitImpl]
  | cons t rest ih =>
    simp only [splitImpl, ih, pushFront]
    split
    · rename_i h
      have : n - idx = (n - (idx + 1)) + 1 := by omega
      rw [this, List.take_succ_cons, List.drop_succ_cons]
      rfl
    · rename_i h
      have h1 : n - idx = 0 := by omega
      have h2 : n - (idx + 1) = 0 := by omega
      rw [h1, h2]; simp

theorem splitHalf_eq (l : List α) :
    splitHalf l = (l.take ((l.length + 1) / 2), l.drop ((l.length + 1) / 2)) := by
  rw [splitHalf, splitImpl_eq]; simp

/-- `type_list_sort`, src/core/include/units/bits/external/type_list.h:197-222. -/
def sort (pred : α → α → Bool) : List α → List α
  | [] => []
  | [t] => [t]
  | a :: b :: rest =>
    let s := splitHalf (a :: b :: rest)
    mergeSorted pred (sort pred s.1) (sort pred s.2)
termination_by l => l.length
decreasing_by
  · rw [splitHalf_eq]; simp only [List.length_take, List.length_cons]; omega
  · rw [splitHalf_eq]; simp only [List.length_drop, List.length_cons]; omega

/-! ### Helper lemmas -/

theorem mergeSorted_nil_right (pred : α → α → Bool) (l : List α) : mergeSorted pred l [] = l := by
  cases l <;> simp [mergeSorted]

theorem mergeSorted_nil_left (pred : α → α → Bool) (l : List α) : mergeSorted pred [] l = l := by
  cases l <;> simp [mergeSorted]

theorem mergeSorted_cons (pred : α → α → Bool) (a b : α) (l r : List α) :
    mergeSorted pred (a :: l) (b :: r) =
      if pred a b then a :: mergeSorted pred l (b :: r) else b :: mergeSorted pred (a :: l) r := by
  rw [mergeSorted]; rfl

theorem mergeSorted_perm (pred : α → α → Bool) (l r : List α) :
    (mergeSorted pred l r).Perm (l ++ r) := by
  induction l generalizing r with
  | nil => rw [mergeSorted_nil_left]; exact List.Perm.refl _
  | cons a l ih =>
    induction r with
    | nil => rw [mergeSorted_nil_right]; simp
    | cons b r ihr =>
      rw [mergeSorted_cons]
      split
      · exact (ih (b :: r)).cons a
      · exact (ihr.cons b).trans (List.perm_middle.symm)

theorem sort_perm (pred : α → α → Bool) (l : List α) : (sort pred l).Perm l := by
  induction h : l.length using Nat.strong_induction_on generalizing l with
  | _ n ih =>
    match l, h with
    | [], _ => rw [sort]
    | [t], _ => rw [sort]
    | a :: b :: rest, h =>
      rw [sort]
      have hs := splitHalf_eq (a :: b :: rest)
      simp only [hs]
      refine (mergeSorted_perm ..).trans ?_
      refine ((ih _ ?_ _ rfl).append (ih _ ?_ _ rfl)).trans ?_
      · rw [← h]; simp only [List.length_take, List.length_cons]; omega
      · rw [← h]; simp only [List.length_drop, List.length_cons]; omega
      · rw [List.take_append_drop]

/-- In order: no element is strictly before one that precedes it. -/
def Ordered (pred : α → α → Bool) (l : List α) : Prop := l.Pairwise fun a b => pred b a = false

/-- Strict weak ordering, as the sort needs it: `≤`, i.e. `¬ pred b a`, is transitive and total. -/
structure WeakOrder (pred : α → α → Bool) : Prop where
  asymm : ∀ a b, pred a b = true → pred b a = false
  trans : ∀ a b c, pred b a = false → pred c b = false → pred c a = false

theorem mergeSorted_ordered {pred : α → α → Bool} (hp : WeakOrder pred) (l r : List α)
    (hl : Ordered pred l) (hr : Ordered pred r) : Ordered pred (mergeSorted pred l r) := by
  induction l generalizing r with
  | nil => rw [mergeSorted_nil_left]; exact hr
  | cons a l ih =>
    induction r with
    | nil => rw [mergeSorted_nil_right]; exact hl
    | cons b r ihr =>
      have hl' := List.pairwise_cons.mp hl
      have hr' := List.pairwise_cons.mp hr
      rw [mergeSorted_cons]
      split
      · rename_i hab
        refine List.pairwise_cons.mpr ⟨?_, ih _ hl'.2 hr⟩
        intro x hx
        rcases List.mem_append.mp ((mergeSorted_perm ..).mem_iff.mp hx) with h | h
        · exact hl'.1 x h
        · rcases List.mem_cons.mp h with rfl | h
          · exact hp.asymm _ _ hab
          · exact hp.trans _ _ _ (hp.asymm _ _ hab) (hr'.1 x h)
      · rename_i hab
        have hab : pred a b = false := by simpa using hab
        refine List.pairwise_cons.mpr ⟨?_, ihr hr'.2⟩
        intro x hx
        rcases List.mem_append.mp ((mergeSorted_perm ..).mem_iff.mp hx) with h | h
        · rcases List.mem_cons.mp h with rfl | h
          · exact hab
          · exact hp.trans _ _ _ hab (hl'.1 x h)
        · exact hr'.1 x h

theorem sort_ordered {pred : α → α → Bool} (hp : WeakOrder pred) (l : List α) :
    Ordered pred (sort pred l) := by
  induction h : l.length using Nat.strong_induction_on generalizing l with
  | _ n ih =>
    match l, h with
    | [], _ => rw [sort]; exact List.Pairwise.nil
    | [t], _ => rw [sort]; exact List.pairwise_singleton _ _
    | a :: b :: rest, h =>
      rw [sort]
      have hs := splitHalf_eq (a :: b :: rest)
      simp only [hs]
      refine mergeSorted_ordered hp _ _ (ih _ ?_ _ rfl) (ih _ ?_ _ rfl)
      · rw [← h]; simp only [List.length_take, List.length_cons]; omega
      · rw [← h]; simp only [List.length_drop, List.length_cons]; omega

theorem joinImpl_eq (l : List α) (ls : List (List α)) : joinImpl l ls = l ++ ls.flatten := by
  induction ls generalizing l with
  | nil => simp [joinImpl]
  | cons s ls ih => simp [joinImpl, ih]

end Verif.TypeList
