import Verif.Text
import Verif.Props.RatioProps
import Mathlib.Data.List.Basic

/-!
# Properties of unit symbols as text (C44, C45, C46, C47, C56)

The specification of a number text is a reader: `readNat digits` reads decimal digits from a table,
`readInt` an optional minus sign first.
-/

namespace Verif

/-! ## Specification vocabulary -/

/-- Read a non-empty text of decimal digits (specification). -/
def readNat (digits : List Char) (l : List Char) : Option Nat :=
  if l = [] then none else l.foldlM (fun acc c => (digits.idxOf? c).map (10 * acc + ·)) 0

/-- Read decimal digits after an optional minus sign (specification). -/
def readInt (digits : List Char) (minus : Char) : List Char → Option Int
  | [] => none
  | c :: l => if c = minus then (readNat digits l).map (fun n => -(n : Int)) else (readNat digits (c :: l)).map fun n => (n : Int)

/-! ## Decimal digits -/

/-- The decimal digits of a number, most significant first. -/
def decs (n : Nat) : List Nat := if n < 10 then [n] else decs (n / 10) ++ decs (n % 10)
termination_by n
decreasing_by all_goals omega

theorem decs_lt {n : Nat} (h : n < 10) : decs n = [n] := by rw [decs, if_pos h]

theorem decs_ge {n : Nat} (h : ¬ n < 10) : decs n = decs (n / 10) ++ [n % 10] := by
  rw [decs, if_neg h, decs_lt (Nat.mod_lt n (by omega))]

theorem superNat_eq (n : Nat) : superNat n = ⟨(decs n).map superDigit, (decs n).map asciiDigit⟩ := by
  induction n using Nat.strong_induction_on with
  | _ n ih =>
    rw [superNat]
    by_cases h : n < 10
    · rw [if_pos h, decs_lt h]; rfl
    · rw [if_neg h, decs, if_neg h, ih _ (by omega), ih _ (by omega), List.map_append, List.map_append]; rfl

theorem regularNat_eq (n : Nat) : regularNat n = .both ((decs n).map asciiDigit) := by
  induction n using Nat.strong_induction_on with
  | _ n ih =>
    rw [regularNat]
    by_cases h : n < 10
    · rw [if_pos h, decs_lt h]; rfl
    · rw [if_neg h, decs, if_neg h, ih _ (by omega), ih _ (by omega), List.map_append]; rfl

theorem decs_all (n : Nat) : ∀ d ∈ decs n, d < 10 := by
  induction n using Nat.strong_induction_on with
  | _ n ih =>
    by_cases h : n < 10
    · rw [decs_lt h]; simpa using h
    · rw [decs_ge h]
      intro d hd
      rcases List.mem_append.mp hd with hd | hd
      · exact ih _ (by omega) d hd
      · simp at hd; omega

theorem decs_ne_nil (n : Nat) : decs n ≠ [] := by
  by_cases h : n < 10
  · rw [decs_lt h]; simp
  · rw [decs_ge h]; simp

theorem asciiDigit_eq : ∀ d, d < 10 → asciiDigit d = d.digitChar := by decide

/-- `asciiDigit` written with the digits is what Lean's own decimal printer produces. -/
theorem decs_toDigits (n : Nat) : (decs n).map asciiDigit = Nat.toDigits 10 n := by
  induction n using Nat.strong_induction_on with
  | _ n ih =>
    by_cases h : n < 10
    · rw [decs_lt h, Nat.toDigits_of_lt_base h, List.map_singleton, asciiDigit_eq n h]
    · rw [decs_ge h, List.map_append, ih _ (by omega), Nat.toDigits_of_base_le (b := 10) (n := n) (by omega) (by omega),
        List.map_singleton, asciiDigit_eq _ (Nat.mod_lt n (by omega))]

theorem read_fold {tbl : List Char} {f : Nat → Char} (hf : ∀ d, d < 10 → tbl.idxOf? (f d) = some d) (n : Nat) :
    ((decs n).map f).foldlM (fun acc c => (tbl.idxOf? c).map (10 * acc + ·)) 0 = some n := by
  induction n using Nat.strong_induction_on with
  | _ n ih =>
    by_cases h : n < 10
    · rw [decs_lt h]; simp [hf n h]
    · rw [decs_ge h, List.map_append, List.foldlM_append, ih _ (by omega)]
      have : n % 10 < 10 := Nat.mod_lt n (by omega)
      simp [hf _ this]
      omega

theorem readNat_decs {tbl : List Char} {f : Nat → Char} (hf : ∀ d, d < 10 → tbl.idxOf? (f d) = some d) (n : Nat) :
    readNat tbl ((decs n).map f) = some n := by
  unfold readNat
  rw [if_neg (by simp [decs_ne_nil]), read_fold hf]

theorem super_idx : ∀ d, d < 10 → superDigits.idxOf? (superDigit d) = some d := by decide

theorem ascii_idx : ∀ d, d < 10 → asciiDigits.idxOf? (asciiDigit d) = some d := by decide

theorem readInt_nonneg {tbl : List Char} {minus : Char} {f : Nat → Char}
    (hf : ∀ d, d < 10 → tbl.idxOf? (f d) = some d) (hm : ∀ d, d < 10 → f d ≠ minus) (n : Nat) :
    readInt tbl minus ((decs n).map f) = some (n : Int) := by
  have h := readNat_decs hf n
  have hd := decs_all n
  revert h hd
  generalize decs n = l
  intro h hd
  cases l with
  | nil => simp [readNat] at h
  | cons c l =>
    simp only [List.map_cons, readInt] at h ⊢
    rw [if_neg (hm c (hd c (by simp))), h]; rfl

theorem readInt_neg {tbl : List Char} {minus : Char} {f : Nat → Char}
    (hf : ∀ d, d < 10 → tbl.idxOf? (f d) = some d) (n : Nat) :
    readInt tbl minus (minus :: (decs n).map f) = some (-(n : Int)) := by
  simp only [readInt, if_pos, readNat_decs hf]; rfl

theorem neg64_of_neg {v : Int} (hv : I64 v) (hm : v ≠ intMin) : neg64 v = .ok (-v) := by
  unfold neg64 chk; rw [if_pos]; exact I64_neg hv hm

theorem superscriptHelper_eq {v : Int} (hv : I64 v) (hm : v ≠ intMin) :
    superscriptHelper v = .ok (if v < 0 then ⟨'⁻' :: (decs v.natAbs).map superDigit, '-' :: (decs v.natAbs).map asciiDigit⟩
      else ⟨(decs v.natAbs).map superDigit, (decs v.natAbs).map asciiDigit⟩) := by
  unfold superscriptHelper
  by_cases h : v < 0
  · rw [if_pos h, if_pos h, neg64_of_neg hv hm, ok_bind, superNat_eq]
    have : (-v).toNat = v.natAbs := by omega
    rw [this]; rfl
  · rw [if_neg h, if_neg h, superNat_eq]
    have : v.toNat = v.natAbs := by omega
    rw [this]

theorem superscript_eq {v : Int} (hv : I64 v) (hm : v ≠ intMin) :
    superscript v = .ok (if v < 0 then ⟨'⁻' :: (decs v.natAbs).map superDigit, '^' :: '-' :: (decs v.natAbs).map asciiDigit⟩
      else ⟨(decs v.natAbs).map superDigit, '^' :: (decs v.natAbs).map asciiDigit⟩) := by
  unfold superscript
  rw [superscriptHelper_eq hv hm, ok_bind]
  split <;> rfl

theorem regular_nonneg {v : Int} (h : 0 ≤ v) : regular v = .ok (.both ((decs v.natAbs).map asciiDigit)) := by
  unfold regular
  rw [if_neg (by omega), regularNat_eq]
  have : v.toNat = v.natAbs := by omega
  rw [this]

/-! ## C45 -/

/-- C45: the superscript text of every representable exponent except the least one reads back as the
exponent, in both versions. -/
theorem C45_superscript {v : Int} (hv : I64 v) (hm : v ≠ intMin) :
    ∃ t a, superscript v = .ok t ∧ t.ascii = '^' :: a ∧ readInt superDigits '⁻' t.std = some v ∧
      readInt asciiDigits '-' a = some v := by
  rw [superscript_eq hv hm]
  by_cases h : v < 0
  · simp only [if_pos h]
    refine ⟨_, _, rfl, rfl, ?_, ?_⟩
    · rw [readInt_neg super_idx]; congr 1; omega
    · rw [readInt_neg ascii_idx]; congr 1; omega
  · simp only [if_neg h]
    refine ⟨_, _, rfl, rfl, ?_, ?_⟩
    · rw [readInt_nonneg super_idx (by decide)]; congr 1; omega
    · rw [readInt_nonneg ascii_idx (by decide)]; congr 1; omega

example : superscript (-120) = .ok ⟨['⁻', '¹', '²', '⁰'], ['^', '-', '1', '2', '0']⟩ := by decide +kernel

/-- C45: the text of a non-negative number is its decimal representation without leading zeros, in both
versions.  Partial: for negative numbers see `C45_regular_negative` below. -/
theorem C45_regular_partial (n : Nat) :
    regular n = .ok (.both (Nat.toDigits 10 n)) ∧ readInt asciiDigits '-' (Nat.toDigits 10 n) = some (n : Int) := by
  rw [← decs_toDigits, regular_nonneg (by omega)]
  refine ⟨rfl, ?_⟩
  rw [readInt_nonneg ascii_idx (by decide)]

example : regular 1024 = .ok ⟨['1', '0', '2', '4'], ['1', '0', '2', '4']⟩ := by decide +kernel

/-- C45 fails in the standard version for every negative number: `regular` takes the digits from
`superscript_helper`, so that the text is not a decimal number; the ASCII version is right. -/
theorem C45_regular_negative {v : Int} (h : v < 0) (hv : I64 v) (hm : v ≠ intMin) :
    ∃ t, regular v = .ok t ∧ readInt asciiDigits '-' t.ascii = some v ∧ readInt asciiDigits '-' t.std = none := by
  unfold regular
  rw [if_pos h, neg64_of_neg hv hm, ok_bind, superscriptHelper_eq (I64_neg hv hm) (by unfold intMin; omega),
    if_neg (by omega), ok_bind]
  refine ⟨_, rfl, ?_, ?_⟩
  · show readInt asciiDigits '-' ('-' :: List.map asciiDigit (decs (-v).natAbs)) = _
    rw [readInt_neg ascii_idx]; congr 1; omega
  · show readInt asciiDigits '-' ('-' :: List.map superDigit (decs (-v).natAbs)) = _
    have hd := decs_all (-v).natAbs
    have hn := decs_ne_nil (-v).natAbs
    revert hd hn
    generalize decs (-v).natAbs = l
    intro hd hn
    cases l with
    | nil => exact absurd rfl hn
    | cons c l =>
      have hc : ∀ d, d < 10 → asciiDigits.idxOf? (superDigit d) = none := by decide
      simp only [readInt, if_pos, readNat, List.map_cons, List.foldlM_cons, hc c (hd c (by simp))]
      rfl

example : regular (-3) = .ok ⟨['-', '³'], ['-', '3']⟩ := by decide +kernel

/-- The least `intmax_t` is rejected (its negation overflows in a constant expression). -/
theorem C45_least_rejected : superscript intMin = .error .overflow ∧ regular intMin = .error .overflow := by
  decide +kernel

/-! ## Injectivity of number texts -/

theorem map_decs_inj {tbl : List Char} {f : Nat → Char} (hf : ∀ d, d < 10 → tbl.idxOf? (f d) = some d) {m n : Nat}
    (h : (decs m).map f = (decs n).map f) : m = n := by
  have h1 := readNat_decs hf m
  rw [h, readNat_decs hf n] at h1
  exact (Option.some.inj h1).symm

/-- Splitting at the first character outside a class. -/
theorem span_inj (P : Char → Prop) : ∀ {l1 l2 r1 r2 : List Char}, l1 ++ r1 = l2 ++ r2 → (∀ c ∈ l1, P c) → (∀ c ∈ l2, P c) →
    (∀ c ∈ r1.head?, ¬ P c) → (∀ c ∈ r2.head?, ¬ P c) → l1 = l2 ∧ r1 = r2
  | [], [], _, _, h, _, _, _, _ => ⟨rfl, h⟩
  | [], b :: l2, r1, r2, h, _, h2, h3, _ => by
    exfalso
    simp only [List.nil_append] at h
    subst h
    exact h3 b (by simp) (h2 b (by simp))
  | a :: l1, [], r1, r2, h, h1, _, _, h4 => by
    exfalso
    simp only [List.nil_append] at h
    subst h
    exact h4 a (by simp) (h1 a (by simp))
  | a :: l1, b :: l2, r1, r2, h, h1, h2, h3, h4 => by
    simp only [List.cons_append, List.cons.injEq] at h
    obtain ⟨e1, e2⟩ := span_inj P h.2 (fun c hc => h1 c (by simp [hc])) (fun c hc => h2 c (by simp [hc])) h3 h4
    exact ⟨by rw [h.1, e1], e2⟩

theorem map_decs_mem {f : Nat → Char} {n : Nat} {tbl : List Char} (hf : ∀ d, d < 10 → f d ∈ tbl) : ∀ c ∈ (decs n).map f, c ∈ tbl := by
  intro c hc
  obtain ⟨d, hd, rfl⟩ := List.mem_map.mp hc
  exact hf d (decs_all n d hd)

theorem ascii_mem : ∀ d, d < 10 → asciiDigit d ∈ asciiDigits := by decide
theorem super_mem : ∀ d, d < 10 → superDigit d ∈ superDigits := by decide

/-- Two number texts followed by something that does not begin with a digit. -/
theorem digits_inj {m n : Nat} {r1 r2 : List Char} (h : (decs m).map asciiDigit ++ r1 = (decs n).map asciiDigit ++ r2)
    (h1 : ∀ c ∈ r1.head?, c ∉ asciiDigits) (h2 : ∀ c ∈ r2.head?, c ∉ asciiDigits) : m = n ∧ r1 = r2 := by
  obtain ⟨e1, e2⟩ := span_inj (· ∈ asciiDigits) h (map_decs_mem ascii_mem) (map_decs_mem ascii_mem) h1 h2
  exact ⟨map_decs_inj ascii_idx e1, e2⟩

/-- Two superscript texts (standard version) followed by something that does not go on with them. -/
theorem superscript_std_inj {v w : Int} {s t : SText} {r1 r2 : List Char} (hv : I64 v) (hm : v ≠ intMin) (hw : I64 w) (hn : w ≠ intMin)
    (hs : superscript v = .ok s) (ht : superscript w = .ok t) (h : s.std ++ r1 = t.std ++ r2)
    (h1 : ∀ c ∈ r1.head?, c ∉ '⁻' :: superDigits) (h2 : ∀ c ∈ r2.head?, c ∉ '⁻' :: superDigits) : v = w ∧ r1 = r2 := by
  obtain ⟨s', _, e1, -, e2, -⟩ := C45_superscript hv hm
  obtain ⟨t', _, e3, -, e4, -⟩ := C45_superscript hw hn
  obtain rfl : s = s' := by rw [hs] at e1; exact Except.ok.inj e1
  obtain rfl : t = t' := by rw [ht] at e3; exact Except.ok.inj e3
  have key : ∀ {v : Int} {s : SText}, I64 v → v ≠ intMin → superscript v = .ok s → ∀ c ∈ s.std, c ∈ '⁻' :: superDigits := by
    intro v s hv hm hs c hc
    rw [superscript_eq hv hm, Except.ok.injEq] at hs
    subst hs
    split at hc
    · rcases List.mem_cons.mp hc with rfl | hc
      · simp
      · exact List.mem_cons_of_mem _ (map_decs_mem super_mem c hc)
    · exact List.mem_cons_of_mem _ (map_decs_mem super_mem c hc)
  obtain ⟨e5, e6⟩ := span_inj (· ∈ '⁻' :: superDigits) h (key hv hm hs) (key hw hn ht) h1 h2
  rw [e5, e4] at e2
  exact ⟨(Option.some.inj e2).symm, e6⟩

/-- Two superscript texts (ASCII version) followed by something that does not go on with them. -/
theorem superscript_ascii_inj {v w : Int} {s t : SText} {r1 r2 : List Char} (hv : I64 v) (hm : v ≠ intMin) (hw : I64 w) (hn : w ≠ intMin)
    (hs : superscript v = .ok s) (ht : superscript w = .ok t) (h : s.ascii ++ r1 = t.ascii ++ r2)
    (h1 : ∀ c ∈ r1.head?, c ∉ '^' :: '-' :: asciiDigits) (h2 : ∀ c ∈ r2.head?, c ∉ '^' :: '-' :: asciiDigits) : v = w ∧ r1 = r2 := by
  obtain ⟨s', a, e1, a1, -, e2⟩ := C45_superscript hv hm
  obtain ⟨t', b, e3, b1, -, e4⟩ := C45_superscript hw hn
  obtain rfl : s = s' := by rw [hs] at e1; exact Except.ok.inj e1
  obtain rfl : t = t' := by rw [ht] at e3; exact Except.ok.inj e3
  have key : ∀ {v : Int} {s : SText}, I64 v → v ≠ intMin → superscript v = .ok s → ∀ c ∈ s.ascii, c ∈ '^' :: '-' :: asciiDigits := by
    intro v s hv hm hs c hc
    rw [superscript_eq hv hm, Except.ok.injEq] at hs
    subst hs
    split at hc
    · simp only [List.mem_cons] at hc ⊢
      rcases hc with hc | hc | hc
      · exact Or.inl hc
      · exact Or.inr (Or.inl hc)
      · exact Or.inr (Or.inr (map_decs_mem ascii_mem c hc))
    · simp only [List.mem_cons] at hc ⊢
      rcases hc with hc | hc
      · exact Or.inl hc
      · exact Or.inr (Or.inr (map_decs_mem ascii_mem c hc))
  obtain ⟨e5, e6⟩ := span_inj (· ∈ '^' :: '-' :: asciiDigits) h (key hv hm hs) (key hw hn ht) h1 h2
  rw [a1, b1, List.cons.injEq] at e5
  rw [e5.2, e4] at e2
  exact ⟨(Option.some.inj e2).symm, e6⟩

/-! ## C44 -/

/-- Either version of a text. -/
def SText.get (t : SText) : Bool → List Char
  | true => t.std
  | false => t.ascii

theorem SText.get_append (a b : SText) (v : Bool) : (a ++ b).get v = a.get v ++ b.get v := by cases v <;> rfl

theorem SText.get_both (l : List Char) (v : Bool) : (SText.both l).get v = l := by cases v <;> rfl

/-- What is printed after a symbol: nothing, a root, or a superscript number. -/
inductive Shape where
  | none
  | root (n d : Nat)
  | sup (v : Int)
deriving DecidableEq

/-- A number that can be printed. -/
def Printable (v : Int) : Prop := I64 v ∧ v ≠ intMin

/-- The text of a superscript number. -/
def supText (v : Int) : SText :=
  if v < 0 then ⟨'⁻' :: (decs v.natAbs).map superDigit, '^' :: '-' :: (decs v.natAbs).map asciiDigit⟩
  else ⟨(decs v.natAbs).map superDigit, '^' :: (decs v.natAbs).map asciiDigit⟩

/-- The text of a shape. -/
def Shape.text : Shape → SText
  | .none => .both []
  | .root n d => .both (['^', '('] ++ ((decs n).map asciiDigit ++ ('/' :: ((decs d).map asciiDigit ++ [')']))))
  | .sup v => supText v

/-- The shape printed for an exponent. -/
def shapeOf (num den : Int) (negCount : Nat) : Shape :=
  if den ≠ 1 then .root num.natAbs den.natAbs
  else if num = 1 then .none
  else if negCount > 1 then .sup num
  else if num = -1 then .none
  else .sup num.natAbs

theorem absMax_eq {v : Int} (h : Printable v) : absMax v = .ok (v.natAbs : Int) := by
  unfold absMax
  split
  · rw [neg64_of_neg h.1 h.2]; congr 1; omega
  · congr 1; omega

theorem Printable.natAbs {v : Int} (h : Printable v) : Printable (v.natAbs : Int) := by
  obtain ⟨h1, h2⟩ := h
  unfold Printable I64 intMin intMax at *
  omega

theorem append_assoc' (a b c : SText) : a ++ b ++ c = a ++ (b ++ c) := by
  show (⟨a.std ++ b.std ++ c.std, a.ascii ++ b.ascii ++ c.ascii⟩ : SText) = ⟨a.std ++ (b.std ++ c.std), a.ascii ++ (b.ascii ++ c.ascii)⟩
  rw [List.append_assoc, List.append_assoc]

theorem append_both_nil (a : SText) : a ++ SText.both [] = a := by
  show (⟨a.std ++ [], a.ascii ++ []⟩ : SText) = a
  rw [List.append_nil, List.append_nil]

theorem both_append (a b : List Char) : SText.both a ++ SText.both b = SText.both (a ++ b) := rfl

/-- The three parts of an exponent text. -/
theorem expText_eq {num den : Int} (hn : Printable num) (hd : 0 < den) (sym : SText) (negCount idx : Nat) :
    expText num den sym negCount idx =
      .ok (operatorText (decide (num < 0)) negCount idx ++ sym ++ (shapeOf num den negCount).text) := by
  unfold expText shapeOf
  simp only
  by_cases h1 : den = 1
  · simp only [ne_eq, h1, not_true_eq_false, if_false]
    by_cases h2 : num = 1
    · simp only [h2, not_true_eq_false, if_false, if_true, Shape.text, append_both_nil]
    · simp only [h2, not_false_eq_true, if_true, if_false]
      by_cases h3 : negCount > 1
      · rw [if_pos h3, if_pos h3, superscript_eq hn.1 hn.2, ok_bind]; rfl
      · rw [if_neg h3, if_neg h3]
        by_cases h4 : num = -1
        · simp only [h4, not_true_eq_false, if_false, if_true, Shape.text, append_both_nil]
        · rw [if_pos h4, if_neg h4, absMax_eq hn, ok_bind, superscript_eq hn.natAbs.1 hn.natAbs.2, ok_bind]; rfl
  · rw [if_pos h1, if_pos h1, absMax_eq hn, ok_bind, regular_nonneg (by omega), ok_bind, regular_nonneg (by omega), ok_bind]
    simp only [Shape.text, append_assoc', both_append, Int.natAbs_natCast, List.append_assoc, List.cons_append, List.nil_append]

/-- A shape whose numbers can be printed. -/
def Shape.OK : Shape → Prop
  | .sup v => Printable v
  | _ => True

theorem supText_eq {v : Int} (h : Printable v) : superscript v = .ok (supText v) := superscript_eq h.1 h.2

/-- What may follow an exponent: nothing, or the separator of the next factor. -/
def SepHead (l : List Char) : Prop := ∀ c ∈ l.head?, c = ' ' ∨ c = '/'

theorem shape_head_ne_root {v : Int} {ver : Bool} {r l : List Char} : (supText v).get ver ++ r ≠ '^' :: '(' :: l := by
  have hd := decs_all v.natAbs
  have hn := decs_ne_nil v.natAbs
  unfold supText
  revert hd hn
  generalize decs v.natAbs = ds
  intro hd hn
  cases ds with
  | nil => exact absurd rfl hn
  | cons d ds =>
    have hd10 := hd d (by simp)
    have e1 : superDigit d ≠ '^' := by clear hd hn; revert d; decide
    have e2 : asciiDigit d ≠ '(' := by clear hd hn e1; revert d; decide
    cases ver <;> split <;> simp [SText.get, e1, e2]

theorem supText_ne_nil (v : Int) (ver : Bool) : (supText v).get ver ≠ [] := by
  have hn := decs_ne_nil v.natAbs
  unfold supText
  cases ver <;> split <;> simp [SText.get, hn]

theorem supText_head (v : Int) (ver : Bool) (r : List Char) : ¬ SepHead ((supText v).get ver ++ r) := by
  have hd := decs_all v.natAbs
  have hn := decs_ne_nil v.natAbs
  unfold supText
  revert hd hn
  generalize decs v.natAbs = ds
  intro hd hn
  cases ds with
  | nil => exact absurd rfl hn
  | cons d ds =>
    have hd10 := hd d (by simp)
    have e1 : ¬ (superDigit d = ' ' ∨ superDigit d = '/') := by clear hd hn; revert d; decide
    cases ver <;> split <;> simp [SText.get, SepHead, e1]

theorem SepHead.super {r : List Char} (h : SepHead r) : ∀ c ∈ r.head?, c ∉ '⁻' :: superDigits := by
  intro c hc
  rcases h c hc with rfl | rfl <;> decide

theorem SepHead.ascii {r : List Char} (h : SepHead r) : ∀ c ∈ r.head?, c ∉ '^' :: '-' :: asciiDigits := by
  intro c hc
  rcases h c hc with rfl | rfl <;> decide

/-- The text of a shape, followed by a separator or nothing, determines the shape. -/
theorem shape_inj {a b : Shape} {ver : Bool} {r1 r2 : List Char} (ha : a.OK) (hb : b.OK) (h1 : SepHead r1) (h2 : SepHead r2)
    (h : a.text.get ver ++ r1 = b.text.get ver ++ r2) : a = b ∧ r1 = r2 := by
  have noneRoot : ∀ {n d : Nat} {r r' : List Char}, SepHead r → (Shape.none.text.get ver ++ r ≠ (Shape.root n d).text.get ver ++ r') := by
    intro n d r r' hr e
    simp only [Shape.text, SText.get_both, List.nil_append] at e
    subst e
    rcases hr '^' (by simp) with h | h <;> exact absurd h (by decide)
  have noneSup : ∀ {v : Int} {r r' : List Char}, SepHead r → (Shape.none.text.get ver ++ r ≠ (Shape.sup v).text.get ver ++ r') := by
    intro v r r' hr e
    simp only [Shape.text, SText.get_both, List.nil_append] at e
    subst e
    exact supText_head v ver r' hr
  have rootSup : ∀ {n d : Nat} {v : Int} {r r' : List Char}, (Shape.root n d).text.get ver ++ r ≠ (Shape.sup v).text.get ver ++ r' := by
    intro n d v r r' e
    simp only [Shape.text, SText.get_both, List.cons_append, List.nil_append] at e
    exact shape_head_ne_root e.symm
  cases a with
  | none =>
    cases b with
    | none => simp only [Shape.text, SText.get_both, List.nil_append] at h; exact ⟨rfl, h⟩
    | root n d => exact absurd h (noneRoot h1)
    | sup v => exact absurd h (noneSup h1)
  | root n d =>
    cases b with
    | none => exact absurd h.symm (noneRoot h2)
    | root n' d' =>
      simp only [Shape.text, SText.get_both, List.cons_append, List.nil_append, List.cons.injEq, true_and, List.append_assoc] at h
      obtain ⟨e1, e2⟩ := digits_inj h (by simp [asciiDigits]) (by simp [asciiDigits])
      rw [List.cons.injEq] at e2
      obtain ⟨e3, e4⟩ := digits_inj e2.2 (by simp [asciiDigits]) (by simp [asciiDigits])
      rw [List.cons.injEq] at e4
      exact ⟨by rw [e1, e3], e4.2⟩
    | sup v => exact absurd h rootSup
  | sup v =>
    cases b with
    | none => exact absurd h.symm (noneSup h2)
    | root n d => exact absurd h.symm rootSup
    | sup w =>
      cases ver with
      | true =>
        obtain ⟨e1, e2⟩ := superscript_std_inj ha.1 ha.2 hb.1 hb.2 (supText_eq ha) (supText_eq hb) h h1.super h2.super
        exact ⟨by rw [e1], e2⟩
      | false =>
        obtain ⟨e1, e2⟩ := superscript_ascii_inj ha.1 ha.2 hb.1 hb.2 (supText_eq ha) (supText_eq hb) h h1.ascii h2.ascii
        exact ⟨by rw [e1], e2⟩

theorem shapeOf_ok {num den : Int} (h : Printable num) (n : Nat) : (shapeOf num den n).OK := by
  unfold shapeOf
  repeat' split
  all_goals first | trivial | exact h | exact h.natAbs

/-- What the shape says about the exponent when the numbers of negative exponents are both one or both
different from one. -/
theorem shapeOf_inj {n1 d1 n2 d2 : Int} {k1 k2 : Nat} (hd1 : 0 < d1) (hd2 : 0 < d2) (hk1 : n1 < 0 → 1 ≤ k1) (hk2 : n2 < 0 → 1 ≤ k2)
    (hk : k1 = 1 ↔ k2 = 1) (h : shapeOf n1 d1 k1 = shapeOf n2 d2 k2) :
    d1 = d2 ∧ |n1| = |n2| ∧ (d1 = 1 → k1 ≠ 1 → n1 = n2) := by
  unfold shapeOf at h
  by_cases a1 : d1 = 1
  · by_cases a2 : d2 = 1
    · simp only [ne_eq, a1, a2, not_true_eq_false, if_false] at h
      subst a1 a2
      refine ⟨rfl, ?_, fun _ hk' => ?_⟩
      · rw [Int.abs_eq_natAbs, Int.abs_eq_natAbs]
        repeat' split at h
        all_goals first
          | (cases h; done)
          | (simp only [Shape.sup.injEq] at h; omega)
      · have hk'' : k2 ≠ 1 := fun e => hk' (hk.mpr e)
        repeat' split at h
        all_goals first
          | (cases h; done)
          | (simp only [Shape.sup.injEq] at h; omega)
    · exfalso
      simp only [ne_eq, a1, a2, not_true_eq_false, not_false_eq_true, if_false, if_true] at h
      repeat' split at h
      all_goals cases h
  · by_cases a2 : d2 = 1
    · exfalso
      simp only [ne_eq, a1, a2, not_true_eq_false, not_false_eq_true, if_false, if_true] at h
      repeat' split at h
      all_goals cases h
    · simp only [ne_eq, a1, a2, not_false_eq_true, if_true, Shape.root.injEq] at h
      refine ⟨by omega, ?_, fun e => absurd e a1⟩
      rw [Int.abs_eq_natAbs, Int.abs_eq_natAbs, h.1]

/-- The position argument for the first factor: a text cannot be both a symbol with an exponent and
`x y` in front of the same symbol with an exponent, unless the exponent text begins with `x` or `y`. -/
theorem shift_head {x y : Char} : ∀ {S e1 e2 : List Char}, S ++ e2 = x :: y :: (S ++ e1) → ∃ c ∈ e2.head?, c = x ∨ c = y
  | [], e1, e2, h => by
    simp only [List.nil_append] at h
    exact ⟨x, by rw [h]; simp, Or.inl rfl⟩
  | [c], e1, e2, h => by
    simp only [List.cons_append, List.nil_append, List.cons.injEq] at h
    exact ⟨y, by rw [h.2]; simp, Or.inr rfl⟩
  | c :: d :: S, e1, e2, h => by
    simp only [List.cons_append, List.cons.injEq] at h
    obtain ⟨rfl, rfl, h⟩ := h
    exact shift_head h

theorem shape_text_head {a : Shape} {ver : Bool} : ∀ c ∈ (a.text.get ver).head?, c ≠ '1' ∧ c ≠ '/' := by
  intro c hc
  cases a with
  | none => simp [Shape.text, SText.get_both] at hc
  | root n d => simp [Shape.text, SText.get_both] at hc; subst hc; decide
  | sup v =>
    have hd := decs_all v.natAbs
    have hn := decs_ne_nil v.natAbs
    simp only [Shape.text, supText] at hc
    revert hd hn hc
    generalize decs v.natAbs = ds
    intro hc hd hn
    cases ds with
    | nil => exact absurd rfl hn
    | cons d ds =>
      have hd10 := hd d (by simp)
      have e1 : superDigit d ≠ '1' ∧ superDigit d ≠ '/' := by clear hd hn hc; revert d; decide
      cases ver <;> split at hc <;> simp [SText.get] at hc <;> subst hc <;> first | exact e1 | decide

/-- The exponent of a factor is printable, has a positive denominator, and is counted among the negative
ones if it is negative. -/
structure Factor.OK (f : Factor) : Prop where
  num : Printable f.num
  den : 0 < f.den

/-- C44: in the same position (symbol, index and number of negative exponents), the text of an exponent
determines its denominator and its absolute value, and also its sign if it is an integer or if at most one
exponent is negative.  This holds for the standard and for the ASCII text.
Partial: the sign of a root is lost when several exponents are negative, `C44_sign_of_root_lost`. -/
theorem C44_exponent_partial {f g : Factor} (hf : f.OK) (hg : g.OK) (hs : f.sym = g.sym) {negCount idx : Nat}
    (hnf : f.num < 0 → 1 ≤ negCount) (hng : g.num < 0 → 1 ≤ negCount) (ver : Bool) {t u : SText}
    (ht : expText f.num f.den f.sym negCount idx = .ok t) (hu : expText g.num g.den g.sym negCount idx = .ok u)
    (h : t.get ver = u.get ver) :
    f.den = g.den ∧ |f.num| = |g.num| ∧ (f.den = 1 ∨ negCount ≤ 1 → f.num = g.num) := by
  rw [expText_eq hf.num hf.den, Except.ok.injEq] at ht
  rw [expText_eq hg.num hg.den, Except.ok.injEq] at hu
  rw [← ht, ← hu, ← hs] at h
  simp only [SText.get_append, List.append_assoc] at h
  -- the operators agree
  have hop : (decide (f.num < 0) && negCount == 1) = (decide (g.num < 0) && negCount == 1) ∧
      f.sym.get ver ++ (shapeOf f.num f.den negCount).text.get ver = f.sym.get ver ++ (shapeOf g.num g.den negCount).text.get ver := by
    unfold operatorText at h
    cases hb1 : (decide (f.num < 0) && negCount == 1) <;> cases hb2 : (decide (g.num < 0) && negCount == 1) <;>
      rw [hb1, hb2] at h <;> by_cases hi : idx = 0 <;> simp only [hi, if_true, if_false, Bool.false_eq_true] at h
    · exact ⟨rfl, by simpa [SText.get_both] using h⟩
    · exact ⟨rfl, List.append_cancel_left h⟩
    · simp only [SText.get_both, List.nil_append, List.cons_append] at h
      obtain ⟨c, hc, hc'⟩ := shift_head h
      have := shape_text_head c hc
      rcases hc' with rfl | rfl
      · exact absurd rfl this.1
      · exact absurd rfl this.2
    · exfalso; cases ver <;> simp [SText.get, SText.both] at h
    · simp only [SText.get_both, List.nil_append, List.cons_append] at h
      obtain ⟨c, hc, hc'⟩ := shift_head h.symm
      have := shape_text_head c hc
      rcases hc' with rfl | rfl
      · exact absurd rfl this.1
      · exact absurd rfl this.2
    · exfalso; cases ver <;> simp [SText.get, SText.both] at h
    · exact ⟨rfl, by simpa [SText.get_both] using h⟩
    · exact ⟨rfl, List.append_cancel_left h⟩
  obtain ⟨hop, h⟩ := hop
  have h' := List.append_cancel_left h
  obtain ⟨hshape, -⟩ := shape_inj (r1 := []) (r2 := []) (shapeOf_ok hf.num negCount) (shapeOf_ok hg.num negCount)
    (by simp [SepHead]) (by simp [SepHead]) (by rw [List.append_nil, List.append_nil]; exact h')
  obtain ⟨e1, e2, e3⟩ := shapeOf_inj hf.den hg.den hnf hng Iff.rfl hshape
  refine ⟨e1, e2, fun hc => ?_⟩
  by_cases hk : negCount = 1
  · rw [hk] at hop
    simp only [beq_self_eq_true, Bool.and_true, decide_eq_decide] at hop
    rcases abs_eq_abs.mp e2 with e | e <;> omega
  · rcases hc with hc | hc
    · exact e3 hc hk
    · have h0 : negCount = 0 := by omega
      have a1 : 0 ≤ f.num := by by_contra hh; have := hnf (by omega); omega
      have a2 : 0 ≤ g.num := by by_contra hh; have := hng (by omega); omega
      rw [abs_of_nonneg a1, abs_of_nonneg a2] at e2
      exact e2

/-- m² and m⁻² are told apart when they are one of two negative exponents, and 1/s from s. -/
example : expText 2 1 (.both ['m']) 2 0 = .ok ⟨['m', '²'], ['m', '^', '2']⟩ ∧
    expText (-2) 1 (.both ['m']) 2 0 = .ok ⟨['m', '⁻', '²'], ['m', '^', '-', '2']⟩ ∧
    expText (-1) 1 (.both ['s']) 1 0 = .ok (.both ['1', '/', 's']) ∧
    expText (-1) 2 (.both ['s']) 1 1 = .ok (.both ['/', 's', '^', '(', '1', '/', '2', ')']) ∧
    (⟨.both ['m'], -2, 1⟩ : Factor).OK := by
  refine ⟨by decide +kernel, by decide +kernel, by decide +kernel, by decide +kernel, ⟨?_, ?_⟩, ?_⟩ <;>
    simp [I64, intMin, intMax]

/-- C44 fails: the sign of a root is lost when more than one exponent is negative, so that a unit and its
inverse can have the same symbol. -/
theorem C44_sign_of_root_lost :
    expText 1 2 (.both ['m']) 2 0 = expText (-1) 2 (.both ['m']) 2 0 ∧
    derivedSymbolText [⟨.both ['m'], 1, 2⟩, ⟨.both ['s'], 1, 2⟩] = derivedSymbolText [⟨.both ['m'], -1, 2⟩, ⟨.both ['s'], -1, 2⟩] ∧
    derivedSymbolText [⟨.both ['m'], 1, 2⟩, ⟨.both ['s'], 1, 2⟩] = .ok ⟨"m^(1/2) ⋅ s^(1/2)".toList, "m^(1/2) s^(1/2)".toList⟩ := by
  decide +kernel

/-! ### Whole symbols -/

/-- A symbol that a reader can tell from the leading `1/`. -/
def SText.Plain (s : SText) : Prop := ∀ ver, s.get ver ≠ [] ∧ (s.get ver).head? ≠ some '1'

/-- Whether a factor is printed after a slash. -/
def Factor.divides (k : Nat) (f : Factor) : Bool := decide (f.num < 0) && k == 1

theorem factorsText_sepHead {k idx : Nat} (hidx : idx ≠ 0) {fs : List Factor} (hfs : ∀ f ∈ fs, f.OK) {t : SText} (ver : Bool)
    (h : factorsText k idx fs = .ok t) : SepHead (t.get ver) := by
  cases fs with
  | nil =>
    simp only [factorsText, Except.ok.injEq] at h
    subst h
    simp [SepHead, SText.get_both]
  | cons f fs =>
    have hf := hfs f (by simp)
    simp only [factorsText] at h
    rw [expText_eq hf.num hf.den, ok_bind] at h
    obtain ⟨ts, -, h⟩ := bind_ok.mp h
    simp only [Except.ok.injEq] at h
    subst h
    simp only [SText.get_append, List.append_assoc]
    unfold operatorText
    rw [if_neg hidx]
    split
    · simp [SepHead, SText.get_both]
    · cases ver <;> simp [SepHead, SText.get]

/-- Equal texts of factors with the same symbols have equal separators and exponent shapes. -/
theorem factorsText_shapes {k1 k2 : Nat} (ver : Bool) : ∀ {fs gs : List Factor} {idx : Nat} {t u : SText},
    (∀ f ∈ fs, f.OK) → (∀ g ∈ gs, g.OK) → fs.map (·.sym) = gs.map (·.sym) → (∀ f ∈ fs, f.sym.Plain) →
    factorsText k1 idx fs = .ok t → factorsText k2 idx gs = .ok u → t.get ver = u.get ver →
    List.Forall₂ (fun f g => f.divides k1 = g.divides k2 ∧ shapeOf f.num f.den k1 = shapeOf g.num g.den k2) fs gs
  | [], [], _, _, _, _, _, _, _, _, _, _ => .nil
  | [], _ :: _, _, _, _, _, _, h, _, _, _, _ => by simp at h
  | _ :: _, [], _, _, _, _, _, h, _, _, _, _ => by simp at h
  | f :: fs, g :: gs, idx, t, u, hf, hg, hs, hp, ht, hu, h => by
    have hf1 := hf f (by simp)
    have hg1 := hg g (by simp)
    simp only [List.map_cons, List.cons.injEq] at hs
    simp only [factorsText] at ht hu
    rw [expText_eq hf1.num hf1.den, ok_bind] at ht
    rw [expText_eq hg1.num hg1.den, ok_bind] at hu
    obtain ⟨ts, hts, ht⟩ := bind_ok.mp ht
    obtain ⟨us, hus, hu⟩ := bind_ok.mp hu
    simp only [Except.ok.injEq] at ht hu
    subst ht hu
    simp only [SText.get_append, List.append_assoc] at h
    rw [← hs.1] at h
    have h1 := factorsText_sepHead (Nat.succ_ne_zero idx) (fun x hx => hf x (by simp [hx])) ver hts
    have h2 := factorsText_sepHead (Nat.succ_ne_zero idx) (fun x hx => hg x (by simp [hx])) ver hus
    obtain ⟨hp1, hp2⟩ := hp f (by simp) ver
    have hop : f.divides k1 = g.divides k2 ∧
        (shapeOf f.num f.den k1).text.get ver ++ ts.get ver = (shapeOf g.num g.den k2).text.get ver ++ us.get ver := by
      unfold operatorText at h
      unfold Factor.divides
      cases hb1 : (decide (f.num < 0) && k1 == 1) <;> cases hb2 : (decide (g.num < 0) && k2 == 1) <;>
        rw [hb1, hb2] at h <;> by_cases hi : idx = 0 <;> simp only [hi, if_true, if_false, Bool.false_eq_true] at h
      · simp only [SText.get_both, List.nil_append] at h
        exact ⟨rfl, List.append_cancel_left h⟩
      · exact ⟨rfl, List.append_cancel_left (List.append_cancel_left h)⟩
      · exfalso
        cases hS : f.sym.get ver with
        | nil => exact hp1 hS
        | cons c S => rw [hS] at h hp2; simp [SText.get_both] at h hp2; exact hp2 h.1
      · exfalso; cases ver <;> simp [SText.get, SText.both] at h
      · exfalso
        cases hS : f.sym.get ver with
        | nil => exact hp1 hS
        | cons c S => rw [hS] at h hp2; simp [SText.get_both] at h hp2; exact hp2 h.1.symm
      · exfalso; cases ver <;> simp [SText.get, SText.both] at h
      · exact ⟨rfl, List.append_cancel_left (List.append_cancel_left h)⟩
      · exact ⟨rfl, List.append_cancel_left (List.append_cancel_left h)⟩
    obtain ⟨e1, e2⟩ := shape_inj (shapeOf_ok hf1.num k1) (shapeOf_ok hg1.num k2) h1 h2 hop.2
    exact .cons ⟨hop.1, e1⟩ (factorsText_shapes ver (fun x hx => hf x (by simp [hx])) (fun x hx => hg x (by simp [hx]))
      hs.2 (fun x hx => hp x (by simp [hx])) hts hus e2)

theorem negExpCount_pos {fs : List Factor} {f : Factor} (hf : f ∈ fs) (hn : f.num < 0) : 1 ≤ negExpCount fs := by
  unfold negExpCount
  have : (if f.num < 0 then 1 else 0) ∈ fs.map fun f => if f.num < 0 then 1 else 0 := List.mem_map.mpr ⟨f, hf, rfl⟩
  rw [if_pos hn] at this
  exact List.single_le_sum (by simp) 1 this

theorem exists_neg_of_count {fs : List Factor} (h : negExpCount fs ≠ 0) : ∃ f ∈ fs, f.num < 0 := by
  by_contra hh
  push Not at hh
  apply h
  unfold negExpCount
  rw [List.sum_eq_zero_iff]
  intro x hx
  obtain ⟨f, hf, rfl⟩ := List.mem_map.mp hx
  rw [if_neg (by have := hh f hf; omega)]

theorem forall2_divides {k1 k2 : Nat} {fs gs : List Factor}
    (h : List.Forall₂ (fun f g : Factor => f.divides k1 = g.divides k2 ∧ shapeOf f.num f.den k1 = shapeOf g.num g.den k2) fs gs)
    (h1 : ∃ f ∈ fs, f.num < 0) (hk : k1 = 1) : k2 = 1 := by
  induction h with
  | nil => obtain ⟨f, hf, -⟩ := h1; cases hf
  | cons hd tl ih =>
    obtain ⟨f, hf, hn⟩ := h1
    rcases List.mem_cons.mp hf with rfl | hf
    · have := hd.1
      simp only [Factor.divides, hk, beq_self_eq_true, Bool.and_true, hn, decide_true] at this
      have h3 := this.symm
      simp only [Bool.and_eq_true, beq_iff_eq] at h3
      exact h3.2
    · exact ih ⟨f, hf, hn⟩

/-- C44 for whole symbols: two products of powers of the same units in the same order that print the same
text (standard or ASCII) have the same denominators and absolute values of exponents and the same integral
exponents, and they are the same product if there is not more than one negative exponent in either.
Partial: signs of roots can be lost otherwise, `C44_sign_of_root_lost`. -/
theorem C44_symbol_partial {fs gs : List Factor} (hf : ∀ f ∈ fs, f.OK) (hg : ∀ g ∈ gs, g.OK) (hs : fs.map (·.sym) = gs.map (·.sym))
    (hp : ∀ f ∈ fs, f.sym.Plain) (ver : Bool) {t u : SText} (ht : derivedSymbolText fs = .ok t) (hu : derivedSymbolText gs = .ok u)
    (h : t.get ver = u.get ver) :
    List.Forall₂ (fun f g => f.den = g.den ∧ |f.num| = |g.num| ∧ (f.den = 1 → f.num = g.num)) fs gs ∧
    (negExpCount fs ≤ 1 → negExpCount gs ≤ 1 → fs = gs) := by
  unfold derivedSymbolText at ht hu
  by_cases hnf : fs = []
  · rw [if_pos hnf] at ht; cases ht
  by_cases hng : gs = []
  · rw [if_pos hng] at hu; cases hu
  rw [if_neg hnf] at ht
  rw [if_neg hng] at hu
  have key := factorsText_shapes ver hf hg hs hp ht hu h
  have hk : negExpCount fs = 1 ↔ negExpCount gs = 1 := by
    constructor
    · intro e
      exact forall2_divides key (exists_neg_of_count (by omega)) e
    · intro e
      have key' := List.Forall₂.flip key
      have key'' : List.Forall₂ (fun f g : Factor => f.divides (negExpCount gs) = g.divides (negExpCount fs) ∧
          shapeOf f.num f.den (negExpCount gs) = shapeOf g.num g.den (negExpCount fs)) gs fs :=
        key'.imp fun _ _ h => ⟨h.1.symm, h.2.symm⟩
      exact forall2_divides key'' (exists_neg_of_count (by omega)) e
  have key2 : List.Forall₂ (fun f g => f.den = g.den ∧ |f.num| = |g.num| ∧ (f.den = 1 → f.num = g.num) ∧
      (negExpCount fs ≤ 1 → negExpCount gs ≤ 1 → f.num = g.num)) fs gs := by
    have hff : ∀ f ∈ fs, f.OK ∧ (f.num < 0 → 1 ≤ negExpCount fs) := fun f h => ⟨hf f h, negExpCount_pos h⟩
    have hgg : ∀ f ∈ gs, f.OK ∧ (f.num < 0 → 1 ≤ negExpCount gs) := fun f h => ⟨hg f h, negExpCount_pos h⟩
    revert key hff hgg hk
    generalize negExpCount fs = k1
    generalize negExpCount gs = k2
    clear ht hu hnf hng h hs hp hf hg
    intro key hk hff hgg
    induction key with
    | nil => exact .nil
    | @cons f g fs gs hd tl ih =>
      obtain ⟨o1, n1⟩ := hff f (by simp)
      obtain ⟨o2, n2⟩ := hgg g (by simp)
      obtain ⟨e1, e2, e3⟩ := shapeOf_inj o1.den o2.den n1 n2 hk hd.2
      have hdiv := hd.1
      unfold Factor.divides at hdiv
      have e4 : k1 = 1 → f.num = g.num := by
        intro e
        have e' := hk.mp e
        rw [e, e'] at hdiv
        simp only [beq_self_eq_true, Bool.and_true, decide_eq_decide] at hdiv
        rcases abs_eq_abs.mp e2 with e | e <;> omega
      refine .cons ⟨e1, e2, fun h1 => ?_, fun hk1 hk2 => ?_⟩
        (ih (fun x hx => hff x (by simp [hx])) (fun x hx => hgg x (by simp [hx])))
      · by_cases hk1 : k1 = 1
        · exact e4 hk1
        · exact e3 h1 hk1
      · by_cases hk3 : k1 = 1
        · exact e4 hk3
        · have a1 : 0 ≤ f.num := by by_contra hh; have := n1 (by omega); omega
          have a2 : 0 ≤ g.num := by
            by_contra hh
            have := n2 (by omega)
            exact hk3 (hk.mpr (by omega))
          rw [abs_of_nonneg a1, abs_of_nonneg a2] at e2
          exact e2
  refine ⟨key2.imp fun _ _ h => ⟨h.1, h.2.1, h.2.2.1⟩, fun h1 h2 => ?_⟩
  have key3 : List.Forall₂ (fun f g : Factor => f.den = g.den ∧ f.num = g.num) fs gs :=
    key2.imp fun _ _ h => ⟨h.1, h.2.2.2 h1 h2⟩
  clear key2 key ht hu hnf hng h hk h1 h2 hf hg hp
  induction key3 with
  | nil => rfl
  | @cons f g fs gs hd tl ih =>
    simp only [List.map_cons, List.cons.injEq] at hs
    rw [ih hs.2]
    congr 1
    cases f; cases g
    simp only at hd hs
    rw [hd.1, hd.2, hs.1]

/-- kg ⋅ m/s² and 1/s ⋅ m. -/
example : derivedSymbolText [⟨.both ['k', 'g'], 1, 1⟩, ⟨.both ['m'], 1, 1⟩, ⟨.both ['s'], -2, 1⟩] =
      .ok ⟨"kg ⋅ m/s²".toList, "kg m/s^2".toList⟩ ∧
    derivedSymbolText [⟨.both ['s'], -1, 1⟩, ⟨.both ['m'], 1, 1⟩] = .ok ⟨"1/s ⋅ m".toList, "1/s m".toList⟩ ∧
    derivedSymbolText [⟨.both ['s'], -1, 1⟩, ⟨.both ['m'], -2, 1⟩] = .ok ⟨"s⁻¹ ⋅ m⁻²".toList, "s^-1 m^-2".toList⟩ ∧
    (SText.both ['k', 'g']).Plain := by
  refine ⟨by decide +kernel, by decide +kernel, by decide +kernel, fun ver => ?_⟩
  cases ver <;> simp [SText.get, SText.both]

end Verif
