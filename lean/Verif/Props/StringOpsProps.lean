import Verif.StringOps
import Verif.Props.FixedStringProps

/-!
# C86: strings and symbol texts from characters, literals and each other

`fixed_string.h`, `fixed_string_io.h` and `symbol_text.h`.
-/

namespace Verif

set_option Elab.async false

/-- The terminator is in its place. -/
def FStr.Terminated (s : FStr) : Prop := s.data s.n = 0

/-- C86: an array makes a string of all its characters but the last, whatever the last is; the result is terminated. -/
theorem C86_array (len : Nat) (txt : Nat → Int) (h : 0 < len) :
    ∃ s, deduceFStr len txt = .ok s ∧ s.size = len - 1 ∧ s.toList = (List.range (len - 1)).map txt ∧ s.Terminated := by
  refine ⟨_, by unfold deduceFStr; rw [if_neg (by omega)], rfl, ?_, ?_⟩
  · unfold FStr.toList
    apply List.map_congr_left
    intro j hj
    rw [List.mem_range] at hj
    rw [fstrOfArray_data]; exact if_pos hj
  · unfold FStr.Terminated
    rw [fstrOfArray_data, if_neg (by exact Nat.lt_irrefl _)]

/-- The literal "min", an array of four characters. -/
def exMin : Nat → Int := fun j => [109, 105, 110, 0].getD j 0

example : ∃ s, deduceFStr 4 exMin = .ok s ∧ s.toList = [109, 105, 110] :=
  let ⟨s, h, _, h', _⟩ := C86_array 4 exMin (by decide)
  ⟨s, h, h'⟩

/-- C86: an array without a terminator loses its last character: `{'m', 'i', 'n'}` makes the string "mi". -/
theorem C86_array_unterminated : ∃ len txt, (∀ j < len, txt j ≠ 0) ∧
    ∃ s, deduceFStr len txt = .ok s ∧ s.toList ≠ (List.range len).map txt :=
  ⟨3, exMin, by decide, _, rfl, by decide⟩

/-- C86: a string made by an array or by a concatenation is terminated; one of a character is, unless its size is zero. -/
theorem C86_terminated (n : Nat) (txt : Nat → Int) (a b : FStr) (c : Int) :
    (fstrOfArray n txt).Terminated ∧ (a.concat b).Terminated ∧ ((fstrOfCharN n c).Terminated ↔ (n ≠ 0 ∨ c = 0)) := by
  refine ⟨?_, ?_, ?_⟩
  · unfold FStr.Terminated; rw [fstrOfArray_data, if_neg (by exact Nat.lt_irrefl _)]
  · unfold FStr.Terminated FStr.concat; rw [fstrOfArray_data, if_neg (by exact Nat.lt_irrefl _)]
  · unfold FStr.Terminated fstrOfCharN
    by_cases h : n = 0
    · subst h; simp
    · simp [h]

theorem range_map_shift (f : Nat → Int) (k i : Nat) :
    (List.range (k + 1)).map (fun j => f (i + j)) = f i :: (List.range k).map (fun j => f (i + 1 + j)) := by
  rw [List.range_succ_eq_map]
  simp only [List.map_cons, List.map_map, Nat.add_zero, List.cons.injEq, true_and]
  apply List.map_congr_left
  intro j _
  simp only [Function.comp_apply]
  congr 1
  omega

theorem iterFrom_ok (s : FStr) : ∀ k i, i + k ≤ s.n + 1 →
    s.iterFrom k i = .ok ((List.range k).map fun j => s.data (i + j)) := by
  intro k
  induction k with
  | zero => intro i _; rfl
  | succ k ih =>
    intro i h
    rw [range_map_shift, FStr.iterFrom]
    unfold FStr.index
    rw [if_pos (by omega), ih (i + 1) (by omega)]
    rfl

/-- C86: an iteration over a constant string reads its characters, in order and within bounds; a string is empty exactly when it
has no character; the subscript gives the characters and the terminator, and nothing else. -/
theorem C86_access (s : FStr) (i : Nat) :
    s.iter = .ok s.toList ∧ (s.empty = true ↔ s.toList = []) ∧ s.size = s.toList.length ∧
    (∀ c, s.toList[i]? = some c → s.index i = .ok c) ∧
    (s.Terminated → s.index s.size = .ok 0) ∧ ((∃ c, s.index i = .ok c) ↔ i ≤ s.toList.length) := by
  have hl : s.toList.length = s.n := by simp [FStr.toList]
  refine ⟨?_, ?_, hl.symm, ?_, ?_, ?_⟩
  · unfold FStr.iter FStr.size
    rw [iterFrom_ok s s.n 0 (by omega)]
    simp only [Nat.zero_add]
    rfl
  · rw [← List.length_eq_zero_iff, hl]; simp [FStr.empty]
  · intro c hc
    unfold FStr.toList at hc
    simp only [List.getElem?_map, Option.map_eq_some_iff] at hc
    obtain ⟨j, hj, rfl⟩ := hc
    obtain ⟨h1, h2⟩ := List.getElem?_eq_some_iff.mp hj
    simp only [List.length_range] at h1
    simp only [List.getElem_range] at h2
    subst h2
    unfold FStr.index
    rw [if_pos (by omega)]
  · intro h
    unfold FStr.index FStr.size
    rw [if_pos (le_refl _), h]
  · rw [hl]
    unfold FStr.index
    by_cases h : i ≤ s.n
    · rw [if_pos h]; simp [h]
    · rw [if_neg h]; simp [h]

example : (fstrOfArray 3 exMin).iter = .ok [109, 105, 110] ∧ (fstrOfArray 3 exMin).Terminated :=
  ⟨(C86_access (fstrOfArray 3 exMin) 0).1, (C86_terminated 3 exMin (fstrOfChar 0) (fstrOfChar 0) 0).1⟩

/-- C86: `begin()` and `end()` compile for constant strings only: the overloads for others return `CharT*` from `const CharT*`. -/
theorem C86_iteration_constant (constObject : Bool) : beginCompiles constObject = true ↔ constObject = true := by
  cases constObject <;> decide

theorem streamFrom_ok (s : FStr) (ht : s.data s.n = 0) : ∀ k i, i + k = s.n + 1 → 0 < k →
    streamFrom s k i = .ok (((List.range (k - 1)).map fun j => s.data (i + j)).takeWhile (· ≠ 0)) := by
  intro k
  induction k with
  | zero => intro i _ h; omega
  | succ k ih =>
    intro i h _
    rw [streamFrom]
    simp only [Nat.add_sub_cancel]
    by_cases hz : s.data i = 0
    · rw [if_pos hz]
      cases k with
      | zero => rfl
      | succ k => rw [range_map_shift]; simp [hz]
    · rw [if_neg hz]
      cases k with
      | zero => exact absurd (by rw [show i = s.n by omega]; exact ht) hz
      | succ k =>
        rw [ih (i + 1) (by omega) (by omega), range_map_shift]
        simp only [Nat.add_sub_cancel]
        rw [List.takeWhile_cons_of_pos (by simpa using hz)]
        rfl

theorem takeWhile_all (l : List Int) (h : ∀ c ∈ l, c ≠ 0) : l.takeWhile (· ≠ 0) = l := by
  induction l with
  | nil => rfl
  | cons a l ih =>
    rw [List.takeWhile_cons_of_pos (by simpa using h a (by simp)), ih fun c hc => h c (by simp [hc])]

/-- C86: the output of a terminated string is what comes before its first zero; it is the whole string exactly when no character
of it is zero. -/
theorem C86_stream_partial (s : FStr) (ht : s.Terminated) :
    s.stream = .ok (s.toList.takeWhile (· ≠ 0)) ∧ (s.stream = .ok s.toList ↔ ∀ c ∈ s.toList, c ≠ 0) := by
  have h : s.stream = .ok (s.toList.takeWhile (· ≠ 0)) := by
    unfold FStr.stream
    rw [streamFrom_ok s ht (s.n + 1) 0 (by omega) (by omega)]
    simp only [Nat.add_sub_cancel, Nat.zero_add]
    rfl
  refine ⟨h, ?_⟩
  rw [h]
  constructor
  · intro e c hc
    rw [← Except.ok.inj e] at hc
    simpa using List.all_eq_true.mp (List.all_takeWhile) c hc
  · intro hh
    congr 1
    exact takeWhile_all _ hh

example : (fstrOfArray 3 exMin).stream = .ok [109, 105, 110] :=
  ((C86_stream_partial (fstrOfArray 3 exMin) (C86_terminated 3 exMin (fstrOfChar 0) (fstrOfChar 0) 0).1).2.mpr (by decide))

/-- C86: the output of a string with a zero inside is cut off, though comparison and concatenation see all of it: "m\0in". -/
theorem C86_stream_cut : ∃ s : FStr, s.Terminated ∧ s.stream ≠ .ok s.toList ∧ ∃ t : FStr, t.stream = s.stream ∧ s.eq t = false :=
  ⟨fstrOfArray 4 fun j => [109, 0, 105, 110].getD j 0, by unfold FStr.Terminated; decide, by decide, fstrOfChar 109, by decide, by decide⟩

/-- C86: a string of given size made of one character is that character followed by zeros; of size one it is the character. -/
theorem C86_char (n : Nat) (c : Int) :
    (fstrOfCharN (n + 1) c).toList = c :: List.replicate n 0 ∧ (fstrOfCharN 1 c).toList = (fstrOfChar c).toList ∧
    (c ≠ 0 → (fstrOfCharN (n + 1) c).stream = .ok [c]) := by
  have h1 : (fstrOfCharN (n + 1) c).toList = c :: List.replicate n 0 := by
    unfold FStr.toList fstrOfCharN
    rw [List.range_succ_eq_map]
    simp only [List.map_cons, List.map_map, if_true, List.cons.injEq, true_and]
    rw [List.eq_replicate_iff]
    simp
  refine ⟨h1, rfl, ?_⟩
  intro hc
  rw [(C86_stream_partial _ (((C86_terminated (n + 1) (fun _ => 0) (fstrOfChar 0) (fstrOfChar 0) c).2.2).mpr (Or.inl (by omega)))).1, h1]
  rw [List.takeWhile_cons_of_pos (by simpa using hc)]
  cases n with
  | zero => rfl
  | succ n => rw [List.replicate_succ, List.takeWhile_cons_of_neg (by simp)]

example : (fstrOfCharN 3 109).stream = .ok [109] ∧ (fstrOfCharN 3 109).toList = [109, 0, 0] :=
  ⟨(C86_char 2 109).2.2 (by decide), (C86_char 2 109).1⟩

/-- C86: an empty string made of a character overwrites the terminator; its output reads beyond the array. -/
theorem C86_char_empty (c : Int) (h : c ≠ 0) :
    (fstrOfCharN 0 c).toList = [] ∧ (fstrOfCharN 0 c).stream = .error .precondition := by
  refine ⟨rfl, ?_⟩
  unfold FStr.stream
  rw [streamFrom, if_neg (by simpa [fstrOfCharN] using h)]
  rfl

/-- C86: a string of at least one character equals a character exactly when that is followed by nothing but zeros. -/
theorem C86_equal_char_partial (s : FStr) (c : Int) (h : s.size ≠ 0) :
    s.eqChar c = true ↔ s.toList = c :: List.replicate (s.size - 1) 0 := by
  unfold FStr.eqChar
  rw [C48_eq]
  obtain ⟨m, hm⟩ : ∃ m, s.n = m + 1 := Nat.exists_eq_succ_of_ne_zero h
  rw [show s.size - 1 = m by unfold FStr.size; omega, hm, (C86_char m c).1]

example : (fstrOfChar 109).eqChar 109 = true ∧ (fstrOfArray 3 exMin).eqChar 109 = false := by decide

/-- C86: the empty string equals every character. -/
theorem C86_empty_equals_char (s : FStr) (h : s.toList = []) (c : Int) : s.eqChar c = true ∧ s.toList ≠ [c] := by
  have hn : s.n = 0 := by simpa [FStr.toList] using h
  refine ⟨?_, by rw [h]; simp⟩
  unfold FStr.eqChar FStr.eq
  rw [if_neg (by simp [fstrOfCharN])]
  rw [hn]; rfl

example : (fstrOfArray 0 fun _ => 0).eqChar 109 = true := (C86_empty_equals_char _ rfl 109).1

/-- C86: a string can be compared with an array of one more element only, and then equals it when it is the characters of the array
but the last. -/
theorem C86_equal_array (s : FStr) (len : Nat) (txt : Nat → Int) :
    ((∃ b, s.eqArray len txt = .ok b) ↔ len = s.size + 1) ∧
    (s.eqArray len txt = .ok true ↔ len = s.size + 1 ∧ s.toList = (List.range (len - 1)).map txt) := by
  unfold FStr.eqArray FStr.size
  by_cases h : len = s.n + 1
  · subst h
    rw [if_pos rfl]
    refine ⟨by simp, ?_⟩
    simp only [Except.ok.injEq, true_and, Nat.add_sub_cancel]
    rw [C48_eq]
    have := (C86_array (s.n + 1) txt (by omega))
    obtain ⟨t, ht, _, hl, _⟩ := this
    unfold deduceFStr at ht
    rw [if_neg (by omega)] at ht
    have ht' := Except.ok.inj ht
    simp only [Nat.add_sub_cancel] at ht' hl
    rw [ht', hl]
  · rw [if_neg h]; simp [h]

example : (fstrOfArray 3 exMin).eqArray 4 exMin = .ok true := by decide

/-! ### Symbol texts -/

theorem toChar_range (c : Int) : -128 ≤ toChar c ∧ toChar c < 128 := by unfold toChar; omega

theorem toChar_ascii (c : Int) : Ascii (toChar c) ↔ c % 256 < 128 := by unfold Ascii toChar; omega

theorem toChar_self (c : Int) (h : -128 ≤ c ∧ c < 128) : toChar c = c := by unfold toChar; omega

theorem validateAsciiChar_ok (c : Int) : (∃ u, validateAsciiChar c = .ok u) ↔ Ascii c := by
  unfold validateAsciiChar Ascii
  by_cases h : 0 ≤ c ∧ c < 128
  · rw [if_pos h]; simp [h]
  · rw [if_neg h]; simp [h]

theorem mkSymText_ok (s a : FStr) (t : SymText) : mkSymText s a = .ok t ↔ ((∀ c ∈ a.toList, Ascii c) ∧ t = ⟨s, a⟩) := by
  have h := (C48_symbol_text s a ⟨s, a⟩ ⟨s, a⟩).1
  constructor
  · intro e
    refine ⟨h.mp ⟨t, e⟩, ?_⟩
    unfold mkSymText at e
    cases hv : validateAscii a a.n 0 with
    | error x => rw [hv] at e; simp at e
    | ok u => rw [hv] at e; exact (Except.ok.inj e).symm
  · rintro ⟨e, rfl⟩
    obtain ⟨t, ht⟩ := h.mpr e
    rw [ht]
    unfold mkSymText at ht
    cases hv : validateAscii a a.n 0 with
    | error x => rw [hv] at ht; simp at ht
    | ok u => rw [hv] at ht; exact ht.symm

theorem fstrOfChar_toList (c : Int) : (fstrOfChar c).toList = [c] := rfl

/-- C86: what an operand contributes: if accepted, its characters in both versions; accepted exactly when the second version is ASCII. -/
theorem C86_operand (x : TextArg) (hc : ∀ c, x = .chr c → -128 ≤ c ∧ c < 128) (ha : ∀ len txt, x = .arr len txt → 0 < len)
    (hs : ∀ y, x = .sym y → y.Valid) :
    ((∃ t, x.toSym = .ok t) ↔ ∀ c ∈ x.chars.2, Ascii c) ∧
    ∀ t, x.toSym = .ok t → (t.standard.toList, t.ascii.toList) = x.chars ∧ t.Valid := by
  cases x with
  | sym y =>
    refine ⟨⟨fun _ => hs y rfl, fun _ => ⟨y, rfl⟩⟩, ?_⟩
    intro t ht
    cases ht
    exact ⟨rfl, hs y rfl⟩
  | str s =>
    refine ⟨(C48_symbol_text s s ⟨s, s⟩ ⟨s, s⟩).1, ?_⟩
    intro t ht
    obtain ⟨h, rfl⟩ := (mkSymText_ok _ _ _).mp ht
    exact ⟨rfl, h⟩
  | arr len txt =>
    obtain ⟨s, h1, _, h2, _⟩ := C86_array len txt (ha len txt rfl)
    have e : TextArg.toSym (.arr len txt) = mkSymText s s := by
      show symOfArray len txt = _
      unfold symOfArray
      rw [h1]; rfl
    rw [e]
    refine ⟨?_, ?_⟩
    · rw [(C48_symbol_text s s ⟨s, s⟩ ⟨s, s⟩).1, h2]; rfl
    · intro t ht
      obtain ⟨h, rfl⟩ := (mkSymText_ok _ _ _).mp ht
      refine ⟨?_, h⟩
      show (s.toList, s.toList) = _
      rw [h2]; rfl
  | chr c =>
    have hr := toChar_self c (hc c rfl)
    have e : TextArg.toSym (.chr c) = (do validateAsciiChar c; .ok ⟨fstrOfChar c, fstrOfChar c⟩) := by
      show symOfChar c = _
      unfold symOfChar
      rw [hr]
    rw [e]
    unfold validateAsciiChar
    by_cases h : 0 ≤ c ∧ c < 128
    · rw [if_pos h]
      refine ⟨⟨fun _ => by simpa [TextArg.chars, Ascii] using h, fun _ => ⟨_, rfl⟩⟩, ?_⟩
      intro t ht
      cases ht
      refine ⟨rfl, ?_⟩
      intro d hd
      rw [fstrOfChar_toList, List.mem_singleton] at hd
      subst hd; exact h
    · rw [if_neg h]
      refine ⟨⟨fun ⟨_, ht⟩ => by simp at ht, fun hh => absurd (hh c (by simp [TextArg.chars])) h⟩, ?_⟩
      intro t ht
      simp at ht

/-- C86: `sym + x` and `x + sym`, for a symbol text, a string, an array of characters or a `char`, are accepted exactly when the
second version of `x` is ASCII, and join the characters of both versions in the order written. -/
theorem C86_plus (a : SymText) (hv : a.Valid) (x : TextArg) (hc : ∀ c, x = .chr c → -128 ≤ c ∧ c < 128)
    (ha : ∀ len txt, x = .arr len txt → 0 < len) (hs : ∀ y, x = .sym y → y.Valid) :
    ((∃ t, a.plus x = .ok t) ↔ ∀ c ∈ x.chars.2, Ascii c) ∧ ((∃ t, SymText.plusLeft x a = .ok t) ↔ ∀ c ∈ x.chars.2, Ascii c) ∧
    (∀ t, a.plus x = .ok t → t.standard.toList = a.standard.toList ++ x.chars.1 ∧ t.ascii.toList = a.ascii.toList ++ x.chars.2 ∧
      t.Valid) ∧
    (∀ t, SymText.plusLeft x a = .ok t → t.standard.toList = x.chars.1 ++ a.standard.toList ∧
      t.ascii.toList = x.chars.2 ++ a.ascii.toList ∧ t.Valid) := by
  obtain ⟨h1, h2⟩ := C86_operand x hc ha hs
  unfold SymText.plus SymText.plusLeft
  cases e : x.toSym with
  | error err =>
    rw [e] at h1
    have hn : ¬ ∀ c ∈ x.chars.2, Ascii c := fun hh => by obtain ⟨t, ht⟩ := h1.mpr hh; simp at ht
    simp [error_bind, hn]
  | ok b =>
    obtain ⟨hb, hbv⟩ := h2 b e
    have hy : ∀ c ∈ x.chars.2, Ascii c := h1.mp ⟨b, e⟩
    obtain ⟨t, ht, htv, hts, hta⟩ := (C48_symbol_text a.standard a.ascii a b).2 hv hbv
    obtain ⟨u, hu, huv, hus, hua⟩ := (C48_symbol_text a.standard a.ascii b a).2 hbv hv
    simp only [ok_bind, ht, hu]
    have q1 : b.standard.toList = x.chars.1 := congrArg Prod.fst hb
    have q2 : b.ascii.toList = x.chars.2 := congrArg Prod.snd hb
    rw [q1] at hts hus
    rw [q2] at hta hua
    refine ⟨⟨fun _ => hy, fun _ => ⟨t, rfl⟩⟩, ⟨fun _ => hy, fun _ => ⟨u, rfl⟩⟩, ?_, ?_⟩
    · intro t' e'; cases e'; exact ⟨hts, hta, htv⟩
    · intro t' e'; cases e'; exact ⟨hus, hua, huv⟩

/-- µ in UTF-8 with the ASCII version u. -/
def exMicro : SymText := ⟨(fstrOfChar (-62)).concat (fstrOfChar (-75)), fstrOfChar 117⟩

theorem exMicro_valid : exMicro.Valid := by
  intro c hc
  have : c = 117 := by simpa [exMicro, fstrOfChar_toList] using hc
  subst this; decide

/-- µ + "min" and 'k' + µ. -/
example : (∃ t, exMicro.plus (.arr 4 exMin) = .ok t ∧ t.standard.toList = [-62, -75, 109, 105, 110] ∧ t.ascii.toList = [117, 109, 105, 110]) ∧
    (∃ t, SymText.plusLeft (.chr 107) exMicro = .ok t ∧ t.ascii.toList = [107, 117]) := by
  constructor
  · obtain ⟨t, ht⟩ := (C86_plus exMicro exMicro_valid (.arr 4 exMin) (by simp) (by intro l t h; cases h; decide) (by simp)).1.mpr
      (by unfold Ascii; decide)
    obtain ⟨h1, h2, _⟩ := (C86_plus exMicro exMicro_valid (.arr 4 exMin) (by simp) (by intro l t h; cases h; decide) (by simp)).2.2.1 t ht
    exact ⟨t, ht, by rw [h1]; decide, by rw [h2]; decide⟩
  · obtain ⟨t, ht⟩ := (C86_plus exMicro exMicro_valid (.chr 107) (by intro c h; cases h; decide) (by simp) (by simp)).2.1.mpr
      (by unfold Ascii; decide)
    obtain ⟨_, h2, _⟩ := (C86_plus exMicro exMicro_valid (.chr 107) (by intro c h; cases h; decide) (by simp) (by simp)).2.2.2 t ht
    exact ⟨t, ht, by rw [h2]; decide⟩

/-- C86: a symbol text of two characters or two arrays keeps the first as it is and accepts it exactly when the second is ASCII. -/
theorem C86_pair (s a : Int) (n m : Nat) (txt txt' : Nat → Int) :
    ((∃ t, symOfChars s a = .ok t) ↔ Ascii a) ∧
    (∀ t, symOfChars s a = .ok t → t.standard.toList = [s] ∧ t.ascii.toList = [a]) ∧
    ((∃ t, symOfArrays (n + 1) txt (m + 1) txt' = .ok t) ↔ ∀ j < m, Ascii (txt' j)) ∧
    (∀ t, symOfArrays (n + 1) txt (m + 1) txt' = .ok t →
      t.standard.toList = (List.range n).map txt ∧ t.ascii.toList = (List.range m).map txt') := by
  obtain ⟨p, hp, _, hpl, _⟩ := C86_array (n + 1) txt (by omega)
  obtain ⟨q, hq, _, hql, _⟩ := C86_array (m + 1) txt' (by omega)
  simp only [Nat.add_sub_cancel] at hpl hql
  have e : symOfArrays (n + 1) txt (m + 1) txt' = mkSymText p q := by unfold symOfArrays; rw [hp, ok_bind, hq, ok_bind]
  rw [e]
  refine ⟨?_, ?_, ?_, ?_⟩
  · unfold symOfChars validateAsciiChar Ascii
    by_cases h : 0 ≤ a ∧ a < 128
    · rw [if_pos h]; exact ⟨fun _ => h, fun _ => ⟨_, rfl⟩⟩
    · rw [if_neg h]; exact ⟨fun ⟨_, ht⟩ => by simp at ht, fun hh => absurd hh h⟩
  · intro t ht
    unfold symOfChars at ht
    cases hv : validateAsciiChar a with
    | error x => rw [hv] at ht; simp at ht
    | ok u => rw [hv] at ht; cases ht; exact ⟨rfl, rfl⟩
  · rw [(C48_symbol_text p q ⟨p, q⟩ ⟨p, q⟩).1, hql]
    simp only [List.mem_map, List.mem_range, forall_exists_index, and_imp, forall_apply_eq_imp_iff₂]
    rfl
  · intro t ht
    obtain ⟨_, rfl⟩ := (mkSymText_ok _ _ _).mp ht
    exact ⟨hpl, hql⟩

example : ∃ t, symOfChars 937 79 = .ok t ∧ t.standard.toList = [937] := by
  obtain ⟨t, ht⟩ := (C86_pair 937 79 0 0 (fun _ => 0) (fun _ => 0)).1.mpr (by unfold Ascii; decide)
  exact ⟨t, ht, ((C86_pair 937 79 0 0 (fun _ => 0) (fun _ => 0)).2.1 t ht).1⟩

/-- C86: a character of a wider type is accepted when its last eight bits are ASCII, and those are what is added. -/
theorem C86_wide_char (a : SymText) (hv : a.Valid) (c : Int) :
    ((∃ t, a.plus (.chr c) = .ok t) ↔ c % 256 < 128) ∧
    ∀ t, a.plus (.chr c) = .ok t → t.standard.toList = a.standard.toList ++ [c % 256] ∧ t.ascii.toList = a.ascii.toList ++ [c % 256] := by
  have e : a.plus (.chr c) = a.plus (.chr (toChar c)) := by
    have h : symOfChar c = symOfChar (toChar c) := by unfold symOfChar; rw [toChar_self (toChar c) (toChar_range c)]
    show (symOfChar c >>= _) = (symOfChar (toChar c) >>= _)
    rw [h]
  have h := C86_plus a hv (.chr (toChar c)) (by intro d hd; cases hd; exact toChar_range c) (by simp) (by simp)
  have hch : (∀ d ∈ (TextArg.chr (toChar c)).chars.2, Ascii d) ↔ c % 256 < 128 := by
    rw [← toChar_ascii]; simp [TextArg.chars]
  rw [e]
  refine ⟨h.1.trans hch, ?_⟩
  intro t ht
  obtain ⟨h1, h2, _⟩ := h.2.2.1 t ht
  have h3 := (h.1.trans hch).mp ⟨t, ht⟩
  have h4 : toChar c = c % 256 := by unfold toChar; omega
  exact ⟨by rw [h1]; simp [TextArg.chars, h4], by rw [h2]; simp [TextArg.chars, h4]⟩

/-- C86: a symbol text of a wider character type silently changes characters: adding `u'Ł'` (U+0141) adds an `A`. -/
theorem C86_wide_char_changed : ∃ (a : SymText) (c : Int) (t : SymText), a.Valid ∧ ¬ Ascii c ∧ a.plus (.chr c) = .ok t ∧
    t.standard.toList ≠ a.standard.toList ++ [c] ∧ t.standard.toList = a.standard.toList ++ [65] := by
  obtain ⟨t, ht⟩ := (C86_wide_char exMicro exMicro_valid 0x141).1.mpr (by decide)
  refine ⟨exMicro, 0x141, t, exMicro_valid, by unfold Ascii; decide, ht, ?_, ?_⟩
  · rw [((C86_wide_char exMicro exMicro_valid 0x141).2 t ht).1]; decide
  · rw [((C86_wide_char exMicro exMicro_valid 0x141).2 t ht).1]; decide

end Verif
