import Verif.FixedString
import Mathlib.Data.List.Lex
import Mathlib.Order.Basic
import Mathlib.Data.List.Basic
import Mathlib.Order.Compare
import Mathlib.Data.Prod.Lex

/-!
# Properties of compile-time strings (C48)

The specification of a string is the list of its characters; the specification of the order is the
lexicographic order of lists.
-/

namespace Verif

theorem copyLoop_spec (src : Nat → Int) (off : Nat) : ∀ (k i : Nat) (txt : Nat → Int) (j : Nat),
    copyLoop src off k i txt j = if off + i ≤ j ∧ j < off + i + k then src (j - off) else txt j := by
  intro k
  induction k with
  | zero => intro i txt j; simp only [copyLoop]; rw [if_neg (by omega)]
  | succ k ih =>
    intro i txt j
    simp only [copyLoop]
    rw [ih]
    by_cases h : off + (i + 1) ≤ j ∧ j < off + (i + 1) + k
    · rw [if_pos h, if_pos (by omega)]
    · rw [if_neg h]
      by_cases h2 : j = off + i
      · rw [if_pos h2, if_pos (by omega)]; congr 1; omega
      · rw [if_neg h2, if_neg (by omega)]

theorem fstrOfArray_data (n : Nat) (txt : Nat → Int) (j : Nat) :
    (fstrOfArray n txt).data j = if j < n then txt j else 0 := by
  unfold fstrOfArray
  simp only [copyLoop_spec]
  by_cases h : j < n
  · rw [if_pos (by omega), if_pos h]; simp
  · rw [if_neg (by omega), if_neg h]

theorem concat_data (a b : FStr) (j : Nat) :
    (a.concat b).data j = if j < a.n then a.data j else if j < a.n + b.n then b.data (j - a.n) else 0 := by
  unfold FStr.concat
  rw [fstrOfArray_data]
  simp only [copyLoop_spec]
  by_cases h1 : j < a.n
  · rw [if_pos (by omega), if_neg (by omega), if_pos (by omega), if_pos h1]; simp
  · by_cases h2 : j < a.n + b.n
    · rw [if_pos h2, if_pos (by omega), if_neg h1, if_pos h2]
    · rw [if_neg h2, if_neg h1, if_neg h2]

theorem toList_length (a : FStr) : a.toList.length = a.n := by simp [FStr.toList]

/-- C48: concatenation joins the characters, adds the lengths and terminates the result. -/
theorem C48_concat (a b : FStr) :
    (a.concat b).toList = a.toList ++ b.toList ∧ (a.concat b).n = a.n + b.n ∧ (a.concat b).data (a.concat b).n = 0 := by
  refine ⟨?_, rfl, ?_⟩
  · apply List.ext_getElem
    · simp [toList_length]; rfl
    · intro i h1 h2
      have hn : (a.concat b).n = a.n + b.n := rfl
      rw [toList_length, hn] at h1
      rw [List.getElem_append]
      simp only [FStr.toList, List.getElem_map, List.getElem_range, List.length_map, List.length_range]
      rw [concat_data]
      by_cases h : i < a.n
      · rw [if_pos h, dif_pos h]
      · rw [if_neg h, if_pos h1, dif_neg h]
  · have hn : (a.concat b).n = a.n + b.n := rfl
    rw [hn, concat_data, if_neg (by omega), if_neg (by omega)]

theorem eqLoop_spec (a b : FStr) : ∀ k i, eqLoop a b k i = true ↔ ∀ j, i ≤ j → j < i + k → a.data j = b.data j := by
  intro k
  induction k with
  | zero => intro i; simp only [eqLoop, true_iff]; intro j h1 h2; omega
  | succ k ih =>
    intro i
    simp only [eqLoop]
    by_cases h : a.data i = b.data i
    · rw [if_neg (by simpa using h), ih]
      constructor
      · intro hh j h1 h2
        rcases Nat.eq_or_lt_of_le h1 with rfl | h3
        · exact h
        · exact hh j (by omega) (by omega)
      · intro hh j h1 h2; exact hh j (by omega) (by omega)
    · rw [if_pos h]
      simp only [Bool.false_eq_true, false_iff, not_forall]
      exact ⟨i, le_refl i, by omega, h⟩

/-- C48: `==` holds exactly when the characters agree. -/
theorem C48_eq (a b : FStr) : a.eq b = true ↔ a.toList = b.toList := by
  unfold FStr.eq
  by_cases hn : a.n = b.n
  · rw [if_neg (by simpa using hn), eqLoop_spec]
    unfold FStr.toList
    rw [← hn]
    constructor
    · intro h
      apply List.map_congr_left
      intro j hj
      rw [List.mem_range] at hj
      exact h j (Nat.zero_le j) (by omega)
    · intro h j _ hj
      have := List.map_inj_left.mp h j (by rw [List.mem_range]; omega)
      exact this
  · rw [if_pos hn]
    simp only [Bool.false_eq_true, false_iff]
    intro h
    have := congrArg List.length h
    rw [toList_length, toList_length] at this
    exact hn this

/-- C48: concatenation is associative. -/
theorem C48_concat_assoc (a b c : FStr) : ((a.concat b).concat c).eq (a.concat (b.concat c)) = true := by
  rw [C48_eq, (C48_concat _ _).1, (C48_concat _ _).1, (C48_concat _ _).1, (C48_concat _ _).1, List.append_assoc]

theorem cmpLoop_spec (a b : FStr) : ∀ k l i,
    let x := (List.range' i k).map a.data
    let y := (List.range' i l).map b.data
    (cmpLoop a b k l i = .lt ↔ x < y) ∧ (cmpLoop a b k l i = .eq ↔ x = y) ∧ (cmpLoop a b k l i = .gt ↔ y < x) := by
  intro k
  induction k with
  | zero =>
    intro l i
    cases l with
    | zero => simp [cmpLoop]
    | succ l => simp [cmpLoop, List.range'_succ]
  | succ k ih =>
    intro l i
    cases l with
    | zero => simp [cmpLoop, List.range'_succ]
    | succ l =>
      obtain ⟨h1, h2, h3⟩ := ih l (i + 1)
      simp only [cmpLoop, List.range'_succ, List.map_cons, List.cons_lt_cons_iff, List.cons.injEq]
      rcases lt_trichotomy (a.data i) (b.data i) with h | h | h
      · rw [if_pos h]
        refine ⟨⟨fun _ => Or.inl h, fun _ => rfl⟩, ⟨fun e => by simp at e, fun e => absurd e.1 h.ne⟩,
          ⟨fun e => by simp at e, fun e => ?_⟩⟩
        rcases e with e | e
        · exact absurd e (by omega)
        · exact absurd e.1 (by omega)
      · rw [if_neg (by omega), if_neg (by omega), h1, h2, h3]
        refine ⟨⟨fun e => Or.inr ⟨h, e⟩, fun e => ?_⟩, ⟨fun e => ⟨h, e⟩, fun e => e.2⟩,
          ⟨fun e => Or.inr ⟨h.symm, e⟩, fun e => ?_⟩⟩
        · rcases e with e | e
          · omega
          · exact e.2
        · rcases e with e | e
          · omega
          · exact e.2
      · rw [if_neg (by omega), if_pos h]
        refine ⟨⟨fun e => by simp at e, fun e => ?_⟩, ⟨fun e => by simp at e, fun e => absurd e.1 h.ne'⟩,
          ⟨fun _ => Or.inl h, fun _ => rfl⟩⟩
        rcases e with e | e
        · omega
        · exact absurd e.1 (by omega)

theorem toList_range' (a : FStr) : a.toList = (List.range' 0 a.n).map a.data := by
  unfold FStr.toList; rw [List.range_eq_range']

/-- C48: `<=>` is the lexicographic order of the characters, consistent with `==`. -/
theorem C48_compare (a b : FStr) :
    (a.cmp b = .lt ↔ a.toList < b.toList) ∧ (a.cmp b = .eq ↔ a.eq b = true) ∧ (a.cmp b = .gt ↔ b.toList < a.toList) := by
  have h := cmpLoop_spec a b a.n b.n 0
  simp only [← toList_range'] at h
  refine ⟨h.1, ?_, h.2.2⟩
  rw [C48_eq]; exact h.2.1

/-- C48: `<=>` is a total order: antisymmetric, transitive, and compatible with equality. -/
theorem C48_total_order (a b c : FStr) :
    b.cmp a = (a.cmp b).swap ∧ (a.cmp b = .lt → b.cmp c = .lt → a.cmp c = .lt) ∧ (a.cmp b = .eq → a.cmp c = b.cmp c) := by
  have hab := C48_compare a b
  have hba := C48_compare b a
  have hbc := C48_compare b c
  have hac := C48_compare a c
  refine ⟨?_, fun h1 h2 => hac.1.mpr (lt_trans (hab.1.mp h1) (hbc.1.mp h2)), fun h => ?_⟩
  · cases h : a.cmp b with
    | lt => exact hba.2.2.mpr (hab.1.mp h)
    | eq => rw [hba.2.1.mpr]; rfl; rw [C48_eq]; exact ((C48_eq a b).mp (hab.2.1.mp h)).symm
    | gt => exact hba.1.mpr (hab.2.2.mp h)
  · have e := (C48_eq a b).mp (hab.2.1.mp h)
    cases h' : b.cmp c with
    | lt => exact hac.1.mpr (by rw [e]; exact hbc.1.mp h')
    | eq => exact hac.2.1.mpr ((C48_eq a c).mpr (by rw [e]; exact (C48_eq b c).mp (hbc.2.1.mp h')))
    | gt => exact hac.2.2.mpr (by rw [e]; exact hbc.2.2.mp h')

/-- "ab" < "b", "ab" < "abc", "ab" + "c" == "abc" (and != "abd"), and characters above 127. -/
example : ((fstrOfChar 97).concat (fstrOfChar 98)).cmp (fstrOfChar 98) = .lt ∧
    ((fstrOfChar 97).concat (fstrOfChar 98)).cmp (((fstrOfChar 97).concat (fstrOfChar 98)).concat (fstrOfChar 99)) = .lt ∧
    (((fstrOfChar 97).concat (fstrOfChar 98)).concat (fstrOfChar 99)).eq
      ((fstrOfChar 97).concat ((fstrOfChar 98).concat (fstrOfChar 99))) = true ∧
    (((fstrOfChar 97).concat (fstrOfChar 98)).concat (fstrOfChar 100)).eq
      ((fstrOfChar 97).concat ((fstrOfChar 98).concat (fstrOfChar 99))) = false ∧
    (fstrOfChar (-62)).cmp (fstrOfChar 65) = .lt := by decide +kernel

/-! ### Symbol texts -/

theorem validateAscii_spec (s : FStr) : ∀ k i, validateAscii s k i = .ok () ↔ ∀ j, i ≤ j → j < i + k → 0 ≤ s.data j ∧ s.data j < 128 := by
  intro k
  induction k with
  | zero => intro i; simp only [validateAscii, true_iff]; intro j h1 h2; omega
  | succ k ih =>
    intro i
    simp only [validateAscii]
    by_cases h : 0 ≤ s.data i ∧ s.data i < 128
    · rw [if_pos h, ih]
      constructor
      · intro hh j h1 h2
        rcases Nat.eq_or_lt_of_le h1 with rfl | h3
        · exact h
        · exact hh j (by omega) (by omega)
      · intro hh j h1 h2; exact hh j (by omega) (by omega)
    · rw [if_neg h]
      simp only [reduceCtorEq, false_iff, not_forall]
      exact ⟨i, le_refl i, by omega, h⟩

/-- Every character of the ASCII version is an ASCII character. -/
def SymText.Valid (t : SymText) : Prop := ∀ c ∈ t.ascii.toList, 0 ≤ c ∧ c < 128

theorem validateAscii_iff (s : FStr) : validateAscii s s.n 0 = .ok () ↔ ∀ c ∈ s.toList, 0 ≤ c ∧ c < 128 := by
  rw [validateAscii_spec]
  unfold FStr.toList
  simp only [List.mem_map, List.mem_range, forall_exists_index, and_imp, forall_apply_eq_imp_iff₂]
  constructor
  · intro h j hj; exact h j (Nat.zero_le j) (by omega)
  · intro h j _ hj; exact h j (by omega)

/-- C48: a symbol text is accepted exactly when its second version is ASCII, and concatenation of accepted
texts is accepted and joins both versions. -/
theorem C48_symbol_text (s a : FStr) (x y : SymText) :
    ((∃ t, mkSymText s a = .ok t) ↔ ∀ c ∈ a.toList, 0 ≤ c ∧ c < 128) ∧
    (x.Valid → y.Valid → ∃ t, x.concat y = .ok t ∧ t.Valid ∧ t.standard.toList = x.standard.toList ++ y.standard.toList ∧
      t.ascii.toList = x.ascii.toList ++ y.ascii.toList) := by
  constructor
  · rw [← validateAscii_iff]
    unfold mkSymText
    cases h : validateAscii a a.n 0 with
    | error e => simp
    | ok u => simp
  · intro hx hy
    have hv : ∀ c ∈ (x.ascii.concat y.ascii).toList, 0 ≤ c ∧ c < 128 := by
      rw [(C48_concat _ _).1]
      intro c hc
      rcases List.mem_append.mp hc with h | h
      · exact hx c h
      · exact hy c h
    refine ⟨⟨x.standard.concat y.standard, x.ascii.concat y.ascii⟩, ?_, hv, (C48_concat _ _).1, (C48_concat _ _).1⟩
    unfold SymText.concat mkSymText
    rw [(validateAscii_iff _).mpr hv]; rfl

/-- C48: symbol texts are ordered by the standard version, then by the ASCII version, consistently with `==`. -/
theorem C48_symbol_compare (a b : SymText) :
    (a.cmp b = .lt ↔ toLex (a.standard.toList, a.ascii.toList) < toLex (b.standard.toList, b.ascii.toList)) ∧
    (a.cmp b = .eq ↔ a.eq b = true) ∧
    (a.cmp b = .gt ↔ toLex (b.standard.toList, b.ascii.toList) < toLex (a.standard.toList, a.ascii.toList)) := by
  have h1 := C48_compare a.standard b.standard
  have h2 := C48_compare a.ascii b.ascii
  unfold SymText.cmp SymText.eq
  simp only [Prod.Lex.toLex_lt_toLex, Bool.and_eq_true]
  by_cases h : a.standard.cmp b.standard = .eq
  · rw [if_neg (by simpa using h), h2.1, h2.2.1, h2.2.2]
    have e := h1.2.1.mp h
    have e' := (C48_eq _ _).mp e
    simp only [e', e, lt_irrefl, true_and, false_or]
  · rw [if_pos h]
    have hne : a.standard.toList ≠ b.standard.toList := fun e => h (h1.2.1.mpr ((C48_eq _ _).mpr e))
    rw [h1.1, h1.2.1, h1.2.2]
    refine ⟨⟨fun e => Or.inl e, fun e => ?_⟩, ⟨fun e => absurd (h1.2.1.mpr e) h, fun e => e.1⟩, ⟨fun e => Or.inl e, fun e => ?_⟩⟩
    · rcases e with e | e
      · exact e
      · exact absurd e.1 hne
    · rcases e with e | e
      · exact e
      · exact absurd e.1.symm hne

/-- µ (as two bytes of UTF-8, signed) with ASCII version u, followed by s. -/
example : (⟨(fstrOfChar (-62)).concat (fstrOfChar (-75)), fstrOfChar 117⟩ : SymText).Valid ∧
    (⟨(fstrOfChar (-62)).concat (fstrOfChar (-75)), fstrOfChar 117⟩ : SymText).cmp ⟨fstrOfChar 115, fstrOfChar 115⟩ = .lt := by
  constructor
  · intro c hc
    simp [fstrOfChar, FStr.toList, List.range_succ] at hc
    subst hc; decide
  · decide +kernel

end Verif
