import Verif.TypeList

/-! # Properties C11, C12: type lists -/

namespace Verif

open TypeList

/-- C11: sorting gives a permutation of the list, for every length and every predicate (even one that
is no ordering): no exponent is lost, invented or duplicated. -/
theorem C11_sort_permutation {α : Type} (pred : α → α → Bool) (l : List α) :
    (sort pred l).Perm l := sort_perm pred l

/-- C11: for a strict weak ordering the result is in order: no element is followed by a smaller
one. -/
theorem C11_sort_ordered {α : Type} (lt : α → α → Bool)
    (asymm : ∀ a b, lt a b = true → lt b a = false)
    (incomp_trans : ∀ a b c, lt b a = false → lt c b = false → lt c a = false) (l : List α) :
    (sort lt l).Pairwise fun a b => ¬ lt b a = true := by
  refine (sort_ordered ⟨asymm, incomp_trans⟩ l).imp ?_
  intro a b h; simp [h]

example : sort (fun a b : Nat => decide (a < b)) [5, 3, 9, 1, 3, 7, 2] = [1, 2, 3, 3, 5, 7, 9] := by
  decide +kernel
example : (∀ a b : Nat, decide (a < b) = true → decide (b < a) = false) ∧
    (∀ a b c : Nat, decide (b < a) = false → decide (c < b) = false → decide (c < a) = false) := by
  constructor <;> intros <;> simp_all <;> omega

/-- C11: the result depends only on the multiset of the elements when the predicate separates distinct
ones, so the order in which factors are written does not matter. -/
theorem C11_sort_canonical {α : Type} (lt : α → α → Bool)
    (asymm : ∀ a b, lt a b = true → lt b a = false)
    (incomp_trans : ∀ a b c, lt b a = false → lt c b = false → lt c a = false)
    (l l' : List α) (hsep : ∀ a ∈ l, ∀ b ∈ l, lt a b = false → lt b a = false → a = b)
    (hperm : l.Perm l') : sort lt l = sort lt l' := by
  have o1 := sort_ordered ⟨asymm, incomp_trans⟩ l
  have o2 := sort_ordered ⟨asymm, incomp_trans⟩ l'
  have hp : (sort lt l).Perm (sort lt l') := (sort_perm lt l).trans (hperm.trans (sort_perm lt l').symm)
  exact hp.eq_of_pairwise
    (fun a b ha _ h1 h2 => hsep a ((sort_perm lt l).mem_iff.mp ha) b
      ((sort_perm lt l).mem_iff.mp (by rename_i hb; exact hp.mem_iff.mpr hb)) h2 h1) o1 o2

example : sort (fun a b : Nat => decide (a < b)) [4, 2, 8] = sort (fun a b => decide (a < b)) [8, 4, 2] := by
  decide +kernel

/-- C11: merging two ordered lists (how dimensions are multiplied) gives an ordered permutation of both. -/
theorem C11_merge_ordered {α : Type} (lt : α → α → Bool)
    (asymm : ∀ a b, lt a b = true → lt b a = false)
    (incomp_trans : ∀ a b c, lt b a = false → lt c b = false → lt c a = false) (l r : List α)
    (hl : l.Pairwise fun a b => ¬ lt b a = true) (hr : r.Pairwise fun a b => ¬ lt b a = true) :
    (mergeSorted lt l r).Perm (l ++ r) ∧
      (mergeSorted lt l r).Pairwise fun a b => ¬ lt b a = true := by
  refine ⟨mergeSorted_perm lt l r, ?_⟩
  have := mergeSorted_ordered ⟨asymm, incomp_trans⟩ l r
    (hl.imp fun h => by simpa using h) (hr.imp fun h => by simpa using h)
  exact this.imp fun h => by simp [h]

example : mergeSorted (fun a b : Nat => decide (a < b)) [1, 4, 6] [2, 4, 9] = [1, 2, 4, 4, 6, 9] := by
  decide +kernel

/-- C12: splitting at a valid position gives the first `n` types and the remaining ones; other positions are
rejected. -/
theorem C12_split {α : Type} (n : Nat) (l : List α) :
    (n ≤ l.length → ∃ a b, split n l = .ok (a, b) ∧ a ++ b = l ∧ a.length = n) ∧
    (l.length < n → split n l = .error .rejected) := by
  constructor
  · intro h
    refine ⟨l.take n, l.drop n, ?_, List.take_append_drop n l, by simp [h]⟩
    rw [split, if_pos h, splitImpl_eq]; simp
  · intro h
    rw [split, if_neg (by omega)]

example : split 2 [10, 20, 30] = .ok ([10, 20], [30]) := by decide

/-- C12: splitting in half loses nothing and the first part is the larger one by at most one. -/
theorem C12_split_half {α : Type} (l : List α) :
    (splitHalf l).1 ++ (splitHalf l).2 = l ∧
      (splitHalf l).2.length ≤ (splitHalf l).1.length ∧
      (splitHalf l).1.length ≤ (splitHalf l).2.length + 1 := by
  rw [splitHalf_eq]
  refine ⟨List.take_append_drop _ _, ?_, ?_⟩ <;>
    simp only [List.length_take, List.length_drop] <;> omega

example : splitHalf [1, 2, 3, 4, 5] = ([1, 2, 3], [4, 5]) := by decide

/-- C12: pushing to the front or back keeps the order of both parts. -/
theorem C12_push {α : Type} (old new : List α) (i : Nat) :
    (pushFront old new)[i]? = (if i < new.length then new[i]? else old[i - new.length]?) ∧
    (pushBack old new)[i]? = (if i < old.length then old[i]? else new[i - old.length]?) := by
  unfold pushFront pushBack
  constructor <;> rw [List.getElem?_append]

example : pushFront [3, 4] [1, 2] = [1, 2, 3, 4] ∧ pushBack [3, 4] [1, 2] = [3, 4, 1, 2] := by decide

/-- C12: joining concatenates all lists in order. -/
theorem C12_join {α : Type} (first : List α) (rest : List (List α)) :
    joinImpl first rest = (first :: rest).flatten := by
  rw [joinImpl_eq]; rfl

example : joinImpl [1] [[2, 3], [], [4]] = [1, 2, 3, 4] := by decide

end Verif
