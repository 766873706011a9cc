import Verif.Format
import Verif.Props.TextProps

/-!
# Properties of formatted and stream output (C49, C50, C51)

The specification of a format specification is an abstract syntax tree of the documented grammar
(src/core-fmt/include/units/format.h:40-54) with its text, `Spec.render`.
-/

namespace Verif

/-! ## The documented grammar -/

/-- `units-rep-modifier ::= [sign] [#] [precision] [L] [units-rep-type]`. -/
structure RepMod where
  sign : Option Char
  alt : Bool
  precision : Option (List Char)
  locale : Bool
  type : Option Char
deriving DecidableEq

/-- An element of `units-specs`: `conversion-spec` or `literal-char`. -/
inductive Item where
  | value (m : RepMod)
  | unit (ascii : Bool)
  | newline
  | tab
  | percent
  | lit (c : Char)
deriving DecidableEq

/-- `units-format-spec ::= [fill-and-align] [width] [units-specs]`. -/
structure Spec where
  fill : Option Char
  align : Align
  width : List Char
  items : List Item
deriving DecidableEq

/-- The number written by a string of digits. -/
def decValue (l : List Char) : Nat := digitsValue 0 l

/-- The characters allowed as rep type. -/
structure RepMod.OK (fp : Bool) (m : RepMod) : Prop where
  sign : ∀ c ∈ m.sign, c = '+' ∨ c = '-' ∨ c = ' '
  precision : ∀ l ∈ m.precision, fp = true ∧ l ≠ [] ∧ (∀ c ∈ l, c ∈ asciiDigits) ∧ decValue l ≤ 2147483647
  type : ∀ c ∈ m.type, c ∈ ['a', 'A', 'b', 'B', 'd', 'e', 'E', 'f', 'F', 'g', 'G', 'o', 'x', 'X']

/-- Text of a rep modifier. -/
def RepMod.render (m : RepMod) : List Char :=
  m.sign.toList ++ ((if m.alt then ['#'] else []) ++ ((match m.precision with | some l => '.' :: l | .none => []) ++
    ((if m.locale then ['L'] else []) ++ m.type.toList)))

/-- Text of a conversion after the percent sign. -/
def Item.body : Item → List Char
  | .value m => m.render ++ ['Q']
  | .unit a => if a then ['A', 'q'] else ['q']
  | .newline => ['n']
  | .tab => ['t']
  | .percent => ['%']
  | .lit _ => []

/-- Text of an element. -/
def Item.render : Item → List Char
  | .lit c => [c]
  | i => '%' :: i.body

/-- Elements of the grammar. -/
def Item.OK (fp : Bool) : Item → Prop
  | .value m => m.OK fp
  | .lit c => c ≠ '{' ∧ c ≠ '}' ∧ c ≠ '%'
  | _ => True

/-- The character of an alignment. -/
def alignText : Align → List Char
  | .left => ['<']
  | .right => ['>']
  | .center => ['^']
  | .none => []

/-- Text of a list of elements. -/
def renderItems (is : List Item) : List Char := is.flatMap Item.render

/-- Text of a specification. -/
def Spec.render (s : Spec) : List Char := s.fill.toList ++ (alignText s.align ++ (s.width ++ renderItems s.items))

/-- Specifications of the grammar: a fill character comes with an alignment, and `units-specs` begin with a
conversion. -/
structure Spec.OK (fp : Bool) (s : Spec) : Prop where
  fill : ∀ c ∈ s.fill, s.align ≠ .none ∧ c ≠ '{' ∧ c ≠ '}'
  width : (∀ c ∈ s.width, c ∈ asciiDigits) ∧ decValue s.width ≤ 2147483647
  items : ∀ i ∈ s.items, i.OK fp
  first : ∀ c, s.items.head? ≠ some (.lit c)

/-- The language of the documented grammar. -/
def InGrammar (fp : Bool) (t : List Char) : Prop := ∃ s : Spec, s.OK fp ∧ s.render = t

/-- What the modifiers of all `%Q` together ask for: the last one wins, field by field. -/
def RepMod.over (m : RepMod) (s : RepSpecs) : RepSpecs :=
  { sign := m.sign.orElse fun _ => s.sign, precision := (m.precision.map decValue).orElse (fun _ => s.precision),
    type := m.type.orElse fun _ => s.type, alt := m.alt || s.alt, useLocale := m.locale || s.useLocale }

/-- The specs one modifier asks for. -/
def RepMod.specs (m : RepMod) : RepSpecs := ⟨m.sign, m.precision.map decValue, m.type, m.alt, m.locale⟩

/-! ## Reading back -/

theorem isDigit_iff {c : Char} : isDigit c = true ↔ c ∈ asciiDigits := by simp [isDigit]

theorem parseNonneg_append {l r : List Char} (hl : ∀ c ∈ l, c ∈ asciiDigits) (hv : decValue l ≤ 2147483647)
    (hr : ∀ c ∈ r.head?, c ∉ asciiDigits) : parseNonneg (l ++ r) = .ok (decValue l, r) := by
  have h1 : (l ++ r).takeWhile isDigit = l := by
    rw [List.takeWhile_append_of_pos (fun c hc => isDigit_iff.mpr (hl c hc))]
    cases r with
    | nil => simp
    | cons c r =>
      have hc : isDigit c = false := by
        rw [Bool.eq_false_iff]; intro h; exact hr c (by simp) (isDigit_iff.mp h)
      rw [List.takeWhile_cons_of_neg (by simp [hc]), List.append_nil]
  have h2 : (l ++ r).dropWhile isDigit = r := by
    rw [List.dropWhile_append_of_pos (fun c hc => isDigit_iff.mpr (hl c hc))]
    cases r with
    | nil => simp
    | cons c r =>
      have hc : isDigit c = false := by
        rw [Bool.eq_false_iff]; intro h; exact hr c (by simp) (isDigit_iff.mp h)
      rw [List.dropWhile_cons_of_neg (by simp [hc])]
  unfold parseNonneg
  simp only [h1, h2]
  rw [show digitsValue 0 l = decValue l from rfl, if_pos hv]

theorem type_facts : ∀ c ∈ validRepTypes, c ≠ '}' ∧ c ≠ '%' ∧ c ≠ 'L' ∧ c ≠ '.' ∧ c ≠ '#' ∧ c ≠ '+' ∧ c ≠ '-' ∧ c ≠ ' ' ∧ c ≠ 'Q' ∧ c ≠ 'q' ∧
    c ∉ asciiDigits ∧ c ≠ 'n' ∧ c ≠ 't' ∧ alignOf c = .none := by decide

theorem parseRepType_render {s : RepSpecs} {m : RepMod} {fp : Bool} (h : m.OK fp) :
    parseRepType s m.type.toList = .ok { s with type := m.type.orElse fun _ => s.type } := by
  cases ht : m.type with
  | none => rfl
  | some c =>
    have hc : c ∈ validRepTypes := h.type c (by simp [ht])
    have := type_facts c hc
    simp only [Option.toList, parseRepType]
    rw [if_pos ⟨this.1, this.2.1⟩, if_pos (by simpa using hc)]
    rfl

theorem parseRepLocale_of_ne {s : RepSpecs} {l : List Char} (h : l.head? ≠ some 'L') : parseRepLocale s l = parseRepType s l := by
  unfold parseRepLocale
  split
  · simp at h
  · rfl

theorem parseRepPrecision_of_ne {fp : Bool} {s : RepSpecs} {l : List Char} (h : l.head? ≠ some '.') :
    parseRepPrecision fp s l = parseRepLocale s l := by
  unfold parseRepPrecision
  split
  · simp at h
  · rfl

theorem parseRepAlt_of_ne {fp : Bool} {s : RepSpecs} {l : List Char} (h : l.head? ≠ some '#') :
    parseRepAlt fp s l = parseRepPrecision fp s l := by
  unfold parseRepAlt
  split
  · simp at h
  · rfl

theorem type_head {m : RepMod} {fp : Bool} (h : m.OK fp) : ∀ c ∈ m.type.toList.head?, c ∈ validRepTypes := by
  intro c hc
  cases ht : m.type with
  | none => simp [ht] at hc
  | some d =>
    simp [ht] at hc
    subst hc
    exact h.type d (by simp [ht])

/-- The part of a modifier from the locale on. -/
def RepMod.tail3 (m : RepMod) : List Char := (if m.locale then ['L'] else []) ++ m.type.toList
/-- The part of a modifier from the precision on. -/
def RepMod.tail2 (m : RepMod) : List Char := (match m.precision with | some l => '.' :: l | .none => []) ++ m.tail3
/-- The part of a modifier from `#` on. -/
def RepMod.tail1 (m : RepMod) : List Char := (if m.alt then ['#'] else []) ++ m.tail2

theorem render_eq (m : RepMod) : m.render = m.sign.toList ++ m.tail1 := rfl

theorem tail3_head {m : RepMod} {fp : Bool} (h : m.OK fp) : ∀ c ∈ m.tail3.head?, c = 'L' ∨ c ∈ validRepTypes := by
  intro c hc
  unfold RepMod.tail3 at hc
  split at hc
  · simp at hc; exact Or.inl hc.symm
  · exact Or.inr (type_head h c (by simpa using hc))

theorem tail2_head' {m : RepMod} {fp : Bool} (h : m.OK fp) : ∀ c ∈ m.tail2.head?, c = '.' ∨ c = 'L' ∨ c ∈ validRepTypes := by
  intro c hc
  unfold RepMod.tail2 at hc
  cases hp : m.precision with
  | none => rw [hp] at hc; exact Or.inr (tail3_head h c (by simpa using hc))
  | some l => rw [hp] at hc; simp at hc; exact Or.inl hc.symm

theorem tail1_head' {m : RepMod} {fp : Bool} (h : m.OK fp) : ∀ c ∈ m.tail1.head?, c = '#' ∨ c = '.' ∨ c = 'L' ∨ c ∈ validRepTypes := by
  intro c hc
  unfold RepMod.tail1 at hc
  split at hc
  · simp at hc; exact Or.inl hc.symm
  · exact Or.inr (tail2_head' h c (by simpa using hc))

theorem parseRepLocale_render {s : RepSpecs} {m : RepMod} {fp : Bool} (h : m.OK fp) :
    parseRepLocale s m.tail3 = .ok { s with useLocale := m.locale || s.useLocale, type := m.type.orElse fun _ => s.type } := by
  unfold RepMod.tail3
  cases hl : m.locale with
  | true =>
    rw [if_pos rfl]
    show parseRepType { s with useLocale := true } m.type.toList = _
    rw [parseRepType_render h]; rfl
  | false =>
    rw [if_neg (by simp), List.nil_append, parseRepLocale_of_ne, parseRepType_render h]
    · simp
    · intro hc
      have := type_facts _ (type_head h 'L' hc)
      exact this.2.2.1 rfl

theorem parseRepPrecision_render {s : RepSpecs} {m : RepMod} {fp : Bool} (h : m.OK fp) :
    parseRepPrecision fp s m.tail2 = .ok { s with precision := (m.precision.map decValue).orElse (fun _ => s.precision), useLocale := m.locale || s.useLocale, type := m.type.orElse fun _ => s.type } := by
  unfold RepMod.tail2
  cases hp : m.precision with
  | none =>
    simp only [List.nil_append]
    rw [parseRepPrecision_of_ne, parseRepLocale_render h]
    · rfl
    · intro hc
      rcases tail3_head h '.' hc with e | e
      · exact absurd e (by decide)
      · exact absurd rfl (type_facts _ e).2.2.2.1
  | some l =>
    obtain ⟨h1, h2, h3, h4⟩ := h.precision l (by simp [hp])
    simp only [List.cons_append, parseRepPrecision, h1, if_true]
    have hpp : parsePrecision (l ++ m.tail3) = .ok (decValue l, m.tail3) := by
      cases l with
      | nil => exact absurd rfl h2
      | cons c l =>
        simp only [List.cons_append, parsePrecision]
        rw [if_pos (isDigit_iff.mpr (h3 c (by simp)))]
        exact parseNonneg_append (l := c :: l) h3 h4 (fun d hd => by
          rcases tail3_head h d hd with e | e
          · rw [e]; decide
          · exact (type_facts _ e).2.2.2.2.2.2.2.2.2.2.1)
    rw [hpp, ok_bind]
    simp only
    rw [parseRepLocale_render h]; rfl

theorem parseRepAlt_render {s : RepSpecs} {m : RepMod} {fp : Bool} (h : m.OK fp) :
    parseRepAlt fp s m.tail1 = .ok { s with alt := m.alt || s.alt, precision := (m.precision.map decValue).orElse (fun _ => s.precision), useLocale := m.locale || s.useLocale, type := m.type.orElse fun _ => s.type } := by
  unfold RepMod.tail1
  cases ha : m.alt with
  | true =>
    rw [if_pos rfl]
    show parseRepPrecision fp { s with alt := true } m.tail2 = _
    rw [parseRepPrecision_render h]; rfl
  | false =>
    rw [if_neg (by simp), List.nil_append, parseRepAlt_of_ne, parseRepPrecision_render h]
    · simp
    · intro hc
      rcases tail2_head' h '#' hc with e | e | e
      · exact absurd e (by decide)
      · exact absurd e (by decide)
      · exact absurd rfl (type_facts _ e).2.2.2.2.1

theorem parseUnitsRep_of_ne {fp : Bool} {s : RepSpecs} {l : List Char} (h : ∀ c ∈ l.head?, c ≠ '+' ∧ c ≠ '-' ∧ c ≠ ' ') :
    parseUnitsRep fp s l = parseRepAlt fp s l := by
  unfold parseUnitsRep
  split
  · exact absurd rfl (h _ rfl).1
  · exact absurd rfl (h _ rfl).2.1
  · exact absurd rfl (h _ rfl).2.2
  · rfl

/-- Every modifier of the grammar is understood. -/
theorem parseUnitsRep_render {s : RepSpecs} {m : RepMod} {fp : Bool} (h : m.OK fp) :
    parseUnitsRep fp s m.render = .ok (m.over s) := by
  rw [render_eq]
  cases hs : m.sign with
  | none =>
    show parseUnitsRep fp s m.tail1 = _
    rw [parseUnitsRep_of_ne, parseRepAlt_render h]
    · simp [RepMod.over, hs]
    · intro c hc
      rcases tail1_head' h c hc with e | e | e | e
      · rw [e]; decide
      · rw [e]; decide
      · rw [e]; decide
      · have := type_facts _ e
        exact ⟨this.2.2.2.2.2.1, this.2.2.2.2.2.2.1, this.2.2.2.2.2.2.2.1⟩
  | some c =>
    have key : parseUnitsRep fp s (c :: m.tail1) = parseRepAlt fp { s with sign := some c } m.tail1 := by
      rcases h.sign c (by simp [hs]) with rfl | rfl | rfl <;> rfl
    show parseUnitsRep fp s (c :: m.tail1) = _
    rw [key, parseRepAlt_render h]
    simp [RepMod.over, hs]

/-- Modifiers contain none of the two letters that end a conversion. -/
theorem render_noQ {m : RepMod} {fp : Bool} (h : m.OK fp) : ∀ c ∈ m.render, c ≠ 'Q' ∧ c ≠ 'q' := by
  intro c hc
  unfold RepMod.render at hc
  simp only [List.mem_append] at hc
  rcases hc with hc | hc | hc | hc | hc
  · have : c ∈ m.sign := by simpa using hc
    rcases h.sign c this with rfl | rfl | rfl <;> decide
  · split at hc <;> simp at hc; subst hc; decide
  · cases hp : m.precision with
    | none => simp [hp] at hc
    | some l =>
      simp [hp] at hc
      rcases hc with rfl | hc
      · decide
      · have := (h.precision l (by simp [hp])).2.2.1 c hc
        constructor <;> rintro rfl <;> exact absurd this (by decide)
  · split at hc <;> simp at hc; subst hc; decide
  · have : c ∈ m.type := by simpa using hc
    have := type_facts c (h.type c this)
    exact ⟨this.2.2.2.2.2.2.2.2.1, this.2.2.2.2.2.2.2.2.2.1⟩

theorem findQ_append : ∀ {l : List Char} {x : Char} {r : List Char}, (∀ c ∈ l, c ≠ 'Q' ∧ c ≠ 'q') → (x = 'Q' ∨ x = 'q') →
    findQ (l ++ x :: r) = some (l, x, r)
  | [], x, r, _, hx => by simp [findQ, hx]
  | c :: l, x, r, hl, hx => by
    have hc := hl c (by simp)
    simp only [List.cons_append, findQ]
    rw [if_neg (by simp [hc.1, hc.2]), findQ_append (fun d hd => hl d (by simp [hd])) hx]
    rfl

/-- The first character of a conversion body. -/
theorem render_head {m : RepMod} {fp : Bool} (h : m.OK fp) : ∀ c ∈ (m.render ++ ['Q']).head?,
    c ≠ '%' ∧ c ≠ 'n' ∧ c ≠ 't' ∧ alignOf c = .none := by
  intro c hc
  rw [render_eq] at hc
  cases hs : m.sign with
  | some d =>
    simp [hs] at hc
    subst hc
    rcases h.sign d (by simp [hs]) with rfl | rfl | rfl <;> decide
  | none =>
    simp only [hs, Option.toList, List.nil_append] at hc
    cases ht : m.tail1 with
    | nil => simp [ht] at hc; subst hc; decide
    | cons d l =>
      simp [ht] at hc
      subst hc
      rcases tail1_head' h d (by simp [ht]) with e | e | e | e
      · subst e; decide
      · subst e; decide
      · subst e; decide
      · have := type_facts _ e
        exact ⟨this.2.1, this.2.2.2.2.2.2.2.2.2.2.2.1, this.2.2.2.2.2.2.2.2.2.2.2.2.1, this.2.2.2.2.2.2.2.2.2.2.2.2.2⟩

/-! ## The calls made on the handler -/

/-- The calls for a list of elements, when `acc` is the literal text before them. -/
def evs : List Char → List Item → List Event
  | acc, [] => flush acc
  | acc, .lit c :: is => evs (acc ++ [c]) is
  | acc, .value m :: is => flush acc ++ .value m.render :: evs [] is
  | acc, .unit a :: is => flush acc ++ .unit (if a then 'A' else 'q') :: evs [] is
  | acc, .newline :: is => flush acc ++ .text ['\n'] :: evs [] is
  | acc, .tab :: is => flush acc ++ .text ['\t'] :: evs [] is
  | acc, .percent :: is => flush acc ++ .text ['%'] :: evs [] is

theorem parseUnitsFormat_lit {acc p : List Char} {c : Char} (h1 : c ≠ '}') (h2 : c ≠ '%') :
    parseUnitsFormat acc (c :: p) = parseUnitsFormat (acc ++ [c]) p := by
  rw [parseUnitsFormat.eq_def]; simp only; rw [if_neg h1, if_pos h2]

theorem parseUnitsFormat_close {acc p : List Char} : parseUnitsFormat acc ('}' :: p) = .ok (flush acc, '}' :: p) := by
  rw [parseUnitsFormat.eq_def]; simp only [if_true]

theorem parseUnitsFormat_nil {acc : List Char} : parseUnitsFormat acc [] = .ok (flush acc, []) := by
  rw [parseUnitsFormat]

theorem parseUnitsFormat_percent {acc p : List Char} : parseUnitsFormat acc ('%' :: '%' :: p) = (do
    let (es, r) ← parseUnitsFormat [] p
    .ok (flush acc ++ .text ['%'] :: es, r)) := by
  rw [parseUnitsFormat, if_neg (by decide), if_neg (by decide)]
  simp only [if_pos]

theorem parseUnitsFormat_newline {acc p : List Char} : parseUnitsFormat acc ('%' :: 'n' :: p) = (do
    let (es, r) ← parseUnitsFormat [] p
    .ok (flush acc ++ .text ['\n'] :: es, r)) := by
  rw [parseUnitsFormat, if_neg (by decide), if_neg (by decide)]
  simp only
  rw [if_neg (by decide)]
  simp only [if_pos]

theorem parseUnitsFormat_tab {acc p : List Char} : parseUnitsFormat acc ('%' :: 't' :: p) = (do
    let (es, r) ← parseUnitsFormat [] p
    .ok (flush acc ++ .text ['\t'] :: es, r)) := by
  rw [parseUnitsFormat, if_neg (by decide), if_neg (by decide)]
  simp only
  rw [if_neg (by decide), if_neg (by decide)]
  simp only [if_pos]

theorem parseUnitsFormat_conv {acc p a b : List Char} {d x : Char} (h1 : d ≠ '%') (h2 : d ≠ 'n') (h3 : d ≠ 't')
    (hq : findQ (d :: p) = some (a, x, b)) : parseUnitsFormat acc ('%' :: d :: p) = (do
    let (es, r) ← parseUnitsFormat [] b
    .ok (flush acc ++ (if x = 'Q' then Event.value a else .unit d) :: es, r)) := by
  rw [parseUnitsFormat, if_neg (by decide), if_neg (by decide)]
  simp only
  rw [if_neg h1, if_neg h2, if_neg h3]
  split
  · rename_i h; rw [hq] at h; cases h
  · rename_i a' x' b' h
    rw [hq] at h
    simp only [Option.some.injEq, Prod.mk.injEq] at h
    obtain ⟨rfl, rfl, rfl⟩ := h
    rfl

theorem parse_render_tail {fp : Bool} {stop : List Char} (hstop : stop = [] ∨ ∃ r, stop = '}' :: r) :
    ∀ {is : List Item} {acc : List Char}, (∀ i ∈ is, i.OK fp) →
    parseUnitsFormat acc (renderItems is ++ stop) = .ok (evs acc is, stop)
  | [], acc, _ => by
    simp only [renderItems, List.flatMap_nil, List.nil_append, evs]
    rcases hstop with rfl | ⟨r, rfl⟩
    · exact parseUnitsFormat_nil
    · exact parseUnitsFormat_close
  | i :: is, acc, h => by
    have hi := h i (by simp)
    have ih := fun acc => parse_render_tail hstop (is := is) (acc := acc) (fun j hj => h j (by simp [hj]))
    have hr : renderItems (i :: is) ++ stop = i.render ++ (renderItems is ++ stop) := by
      simp [renderItems]
    rw [hr]
    cases i with
    | lit c =>
      simp only [Item.render, List.cons_append, List.nil_append, evs]
      rw [parseUnitsFormat_lit hi.2.1 hi.2.2, ih]
    | newline =>
      simp only [Item.render, Item.body, List.cons_append, List.nil_append, evs]
      rw [parseUnitsFormat_newline, ih]; rfl
    | tab =>
      simp only [Item.render, Item.body, List.cons_append, List.nil_append, evs]
      rw [parseUnitsFormat_tab, ih]; rfl
    | percent =>
      simp only [Item.render, Item.body, List.cons_append, List.nil_append, evs]
      rw [parseUnitsFormat_percent, ih]; rfl
    | unit a =>
      simp only [Item.render, Item.body, List.cons_append, evs]
      cases a with
      | true =>
        simp only [if_true, List.cons_append, List.nil_append]
        rw [parseUnitsFormat_conv (a := ['A']) (x := 'q') (b := renderItems is ++ stop) (by decide) (by decide) (by decide)
          (show findQ ('A' :: 'q' :: (renderItems is ++ stop)) = _ from findQ_append (l := ['A']) (by decide) (Or.inr rfl)), ih]
        rfl
      | false =>
        simp only [if_false, Bool.false_eq_true, List.cons_append, List.nil_append]
        rw [parseUnitsFormat_conv (a := []) (x := 'q') (b := renderItems is ++ stop) (by decide) (by decide) (by decide)
          (show findQ ('q' :: (renderItems is ++ stop)) = _ from findQ_append (l := []) (by decide) (Or.inr rfl)), ih]
        rfl
    | value m =>
      simp only [Item.render, Item.body, List.cons_append, evs]
      have hh := render_head hi
      have hq : findQ ((m.render ++ ['Q']) ++ (renderItems is ++ stop)) = some (m.render, 'Q', renderItems is ++ stop) := by
        rw [List.append_assoc]
        exact findQ_append (render_noQ hi) (Or.inl rfl)
      revert hh hq
      cases hb : m.render ++ ['Q'] with
      | nil => simp at hb
      | cons d p =>
        intro hh hq
        obtain ⟨g1, g2, g3, -⟩ := hh d (by simp)
        simp only [List.cons_append] at hq ⊢
        rw [parseUnitsFormat_conv g1 g2 g3 hq, ih]
        rfl

theorem onParseAll_append {fp : Bool} : ∀ {es fs : List Event} {s : FmtState},
    onParseAll fp s (es ++ fs) = (do let s' ← onParseAll fp s es; onParseAll fp s' fs)
  | [], fs, s => by simp [onParseAll]
  | e :: es, fs, s => by
    simp only [List.cons_append, onParseAll]
    cases h : onParse fp s e with
    | error e => rfl
    | ok s' => simp only [ok_bind]; exact onParseAll_append

theorem onParseAll_flush {fp : Bool} {acc : List Char} {s : FmtState} : onParseAll fp s (flush acc) = .ok s := by
  unfold flush
  split <;> rfl

/-- What the elements do to the formatter. -/
def Item.apply (s : FmtState) : Item → FmtState
  | .value m => { s with rep := m.over s.rep, quantityValue := true }
  | .unit a => { s with modifier := if a then some 'A' else s.modifier, quantityUnit := true }
  | _ => s

theorem over_empty {m : RepMod} (h : m.render = []) (s : RepSpecs) : m.over s = s := by
  unfold RepMod.render at h
  simp only [List.append_eq_nil_iff] at h
  obtain ⟨h1, h2, h3, h4, h5⟩ := h
  have e1 : m.sign = .none := by cases hs : m.sign <;> simp [hs] at h1 ⊢
  have e2 : m.alt = false := by cases hs : m.alt <;> simp [hs] at h2 ⊢
  have e3 : m.precision = .none := by cases hs : m.precision <;> simp [hs] at h3 ⊢
  have e4 : m.locale = false := by cases hs : m.locale <;> simp [hs] at h4 ⊢
  have e5 : m.type = .none := by cases hs : m.type <;> simp [hs] at h5 ⊢
  simp [RepMod.over, e1, e2, e3, e4, e5]

theorem onParseAll_evs {fp : Bool} : ∀ {is : List Item} {acc : List Char} {s : FmtState}, (∀ i ∈ is, i.OK fp) →
    onParseAll fp s (evs acc is) = .ok (is.foldl Item.apply s)
  | [], acc, s, _ => by simp only [evs, List.foldl_nil]; exact onParseAll_flush
  | i :: is, acc, s, h => by
    have hi := h i (by simp)
    have ih := fun (acc : List Char) (s : FmtState) => onParseAll_evs (is := is) (acc := acc) (s := s) (fun j hj => h j (by simp [hj]))
    cases i with
    | lit c => simp only [evs, List.foldl_cons, Item.apply]; exact ih _ _
    | newline => simp only [evs, List.foldl_cons, Item.apply, onParseAll_append, onParseAll_flush, ok_bind, onParseAll, onParse]; exact ih _ _
    | tab => simp only [evs, List.foldl_cons, Item.apply, onParseAll_append, onParseAll_flush, ok_bind, onParseAll, onParse]; exact ih _ _
    | percent => simp only [evs, List.foldl_cons, Item.apply, onParseAll_append, onParseAll_flush, ok_bind, onParseAll, onParse]; exact ih _ _
    | unit a =>
      simp only [evs, List.foldl_cons, Item.apply, onParseAll_append, onParseAll_flush, ok_bind, onParseAll, onParse]
      rw [ih]
      cases a <;> simp
    | value m =>
      simp only [evs, List.foldl_cons, Item.apply, onParseAll_append, onParseAll_flush, ok_bind, onParseAll, onParse]
      by_cases he : m.render = []
      · rw [if_neg (by simpa using he), ok_bind, ih, over_empty he]
      · rw [if_pos he, parseUnitsRep_render hi, ok_bind, ok_bind, ih]

/-! ## Output -/

/-- What one element prints when the number is formatted as asked for by `rep` (specification). -/
def Item.out (env : FmtEnv) (rep : RepSpecs) (ascii : Bool) : Item → C (List Char)
  | .value _ => env.number (repFormatString env.fp rep)
  | .unit _ => .ok (if ascii then env.symbol.ascii else env.symbol.std)
  | .newline => .ok ['\n']
  | .tab => .ok ['\t']
  | .percent => .ok ['%']
  | .lit c => .ok [c]

/-- The concatenation, in order (specification). -/
def bodyOut (env : FmtEnv) (rep : RepSpecs) (ascii : Bool) : List Item → C (List Char)
  | [] => .ok []
  | i :: is => do
    let t ← i.out env rep ascii
    let ts ← bodyOut env rep ascii is
    .ok (t ++ ts)

theorem onFormatAll_append {env : FmtEnv} {s : FmtState} : ∀ {es fs : List Event},
    onFormatAll env s (es ++ fs) = (do let a ← onFormatAll env s es; let b ← onFormatAll env s fs; .ok (a ++ b))
  | [], fs => by
    simp only [List.nil_append, onFormatAll, ok_bind]
    cases onFormatAll env s fs <;> rfl
  | e :: es, fs => by
    simp only [List.cons_append, onFormatAll]
    rw [onFormatAll_append]
    cases onFormat env s e with
    | error e => rfl
    | ok t =>
      cases onFormatAll env s es with
      | error e => rfl
      | ok ts =>
        cases onFormatAll env s fs with
        | error e => rfl
        | ok us => simp

theorem onFormatAll_flush {env : FmtEnv} {s : FmtState} {acc : List Char} : onFormatAll env s (flush acc) = .ok acc := by
  unfold flush
  split
  · rename_i h; subst h; rfl
  · simp [onFormatAll, onFormat]

theorem onFormatAll_evs {env : FmtEnv} {s : FmtState} : ∀ {is : List Item} {acc : List Char},
    onFormatAll env s (evs acc is) = (do let b ← bodyOut env s.rep (decide (s.modifier = some 'A')) is; .ok (acc ++ b))
  | [], acc => by simp [evs, bodyOut, onFormatAll_flush]
  | i :: is, acc => by
    have ih := fun acc => onFormatAll_evs (env := env) (s := s) (is := is) (acc := acc)
    cases i with
    | lit c =>
      simp only [evs, bodyOut, Item.out, ok_bind]
      rw [ih]
      cases bodyOut env s.rep (decide (s.modifier = some 'A')) is <;> simp
    | newline =>
      simp only [evs, bodyOut, Item.out, ok_bind, onFormatAll_append, onFormatAll_flush, onFormatAll, onFormat, ih]
      cases bodyOut env s.rep (decide (s.modifier = some 'A')) is <;> simp
    | tab =>
      simp only [evs, bodyOut, Item.out, ok_bind, onFormatAll_append, onFormatAll_flush, onFormatAll, onFormat, ih]
      cases bodyOut env s.rep (decide (s.modifier = some 'A')) is <;> simp
    | percent =>
      simp only [evs, bodyOut, Item.out, ok_bind, onFormatAll_append, onFormatAll_flush, onFormatAll, onFormat, ih]
      cases bodyOut env s.rep (decide (s.modifier = some 'A')) is <;> simp
    | unit a =>
      simp only [evs, bodyOut, Item.out, ok_bind, onFormatAll_append, onFormatAll_flush, onFormatAll, onFormat, ih]
      by_cases hA : s.modifier = some 'A'
      · simp only [hA, if_true, decide_true, ok_bind]
        cases bodyOut env s.rep true is <;> simp
      · simp only [hA, if_false, decide_false, ok_bind]
        cases bodyOut env s.rep false is <;> simp
    | value m =>
      simp only [evs, bodyOut, Item.out, onFormatAll_append, onFormatAll_flush, onFormatAll, onFormat, ih, ok_bind]
      cases env.number (repFormatString env.fp s.rep) with
      | error e => rfl
      | ok t =>
        simp only [ok_bind]
        cases bodyOut env s.rep (decide (s.modifier = some 'A')) is <;> simp

/-! ## Whole specifications -/

theorem alignOf_digit {c : Char} (h : c ∈ asciiDigits) : alignOf c = .none ∧ c ≠ '}' ∧ c ≠ '{' ∧ c ≠ '%' := by
  revert c; decide

theorem alignText_of_ne {a : Align} (h : a ≠ .none) : ∃ c, alignText a = [c] ∧ alignOf c = a ∧ c ≠ '}' := by
  cases a with
  | none => exact absurd rfl h
  | left => exact ⟨'<', rfl, rfl, by decide⟩
  | right => exact ⟨'>', rfl, rfl, by decide⟩
  | center => exact ⟨'^', rfl, rfl, by decide⟩

/-- Elements of the grammar begin with a percent sign followed by something that is not an alignment. -/
theorem items_head {fp : Bool} {is : List Item} (h : ∀ i ∈ is, i.OK fp) (hf : ∀ c, is.head? ≠ some (.lit c)) (hne : is ≠ []) :
    ∃ d r, renderItems is = '%' :: d :: r ∧ alignOf d = .none := by
  cases is with
  | nil => exact absurd rfl hne
  | cons i is =>
    have hi := h i (by simp)
    have key : ∀ (b : List Char), i.render = '%' :: b → (∃ d, d ∈ b.head? ∧ alignOf d = .none) →
        ∃ d r, renderItems (i :: is) = '%' :: d :: r ∧ alignOf d = .none := by
      intro b hb ⟨d, hd, ha⟩
      cases b with
      | nil => simp at hd
      | cons e b =>
        simp at hd; subst hd
        exact ⟨e, b ++ renderItems is, by simp [renderItems, hb], ha⟩
    cases i with
    | lit c => exact absurd rfl (hf c)
    | newline => exact key ['n'] rfl ⟨'n', rfl, by decide⟩
    | tab => exact key ['t'] rfl ⟨'t', rfl, by decide⟩
    | percent => exact key ['%'] rfl ⟨'%', rfl, by decide⟩
    | unit a =>
      cases a with
      | true => exact key ['A', 'q'] rfl ⟨'A', rfl, by decide⟩
      | false => exact key ['q'] rfl ⟨'q', rfl, by decide⟩
    | value m =>
      refine key (m.render ++ ['Q']) rfl ?_
      have hh := render_head hi
      cases hb : m.render ++ ['Q'] with
      | nil => simp at hb
      | cons d p => exact ⟨d, rfl, (hh d (by simp [hb])).2.2.2⟩

/-- What follows fill and alignment does not begin with an alignment, nor does its rest. -/
theorem tail_head {fp : Bool} {s : Spec} (h : s.OK fp) :
    (∃ c, s.width ++ renderItems s.items ++ ['}'] = [c] ∧ c = '}') ∨
    ∃ c d r, s.width ++ renderItems s.items ++ ['}'] = c :: d :: r ∧ alignOf c = .none ∧ alignOf d = .none ∧ c ≠ '}' := by
  have hi : renderItems s.items ++ ['}'] = ['}'] ∨ ∃ d r, renderItems s.items ++ ['}'] = '%' :: d :: r ∧ alignOf d = .none := by
    by_cases he : s.items = []
    · left; simp [he, renderItems]
    · obtain ⟨d, r, e, ha⟩ := items_head h.items h.first he
      exact Or.inr ⟨d, r ++ ['}'], by simp [e], ha⟩
  have hw := h.width.1
  rw [List.append_assoc]
  match hws : s.width with
  | [] =>
    rcases hi with e | ⟨d, r, e, ha⟩
    · left; exact ⟨'}', by simp [e]⟩
    · right; exact ⟨'%', d, r, by simp [e], by decide, ha, by decide⟩
  | [a] =>
    have ha := alignOf_digit (hw a (by simp [hws]))
    right
    rcases hi with e | ⟨d, r, e, -⟩
    · exact ⟨a, '}', [], by simp [e], ha.1, by decide, ha.2.1⟩
    · exact ⟨a, '%', d :: r, by simp [e], ha.1, by decide, ha.2.1⟩
  | a :: b :: w =>
    have ha := alignOf_digit (hw a (by simp [hws]))
    have hb := alignOf_digit (hw b (by simp [hws]))
    right
    exact ⟨a, b, w ++ (renderItems s.items ++ ['}']), by simp, ha.1, hb.1, ha.2.1⟩

theorem parseAlign_render {fp : Bool} {s : Spec} (h : s.OK fp) :
    parseAlign (s.render ++ ['}']) = .ok (s.fill, s.align, s.width ++ renderItems s.items ++ ['}']) := by
  have hr : s.render ++ ['}'] = s.fill.toList ++ (alignText s.align ++ (s.width ++ renderItems s.items ++ ['}'])) := by
    simp [Spec.render]
  rw [hr]
  have ht := tail_head h
  revert ht
  generalize s.width ++ renderItems s.items ++ ['}'] = t
  intro ht
  cases hf : s.fill with
  | some f =>
    obtain ⟨h1, h2, h3⟩ := h.fill f (by simp [hf])
    obtain ⟨c, e1, e2, -⟩ := alignText_of_ne h1
    simp only [Option.toList, e1, List.cons_append, List.nil_append, parseAlign]
    rw [e2, if_pos h1, if_neg h2]
  | none =>
    simp only [Option.toList, List.nil_append]
    by_cases ha : s.align = .none
    · rw [ha]
      simp only [alignText, List.nil_append]
      rcases ht with ⟨c, rfl, rfl⟩ | ⟨c, d, r, rfl, h1, h2, -⟩
      · rfl
      · simp only [parseAlign]
        rw [h1, h2]; rfl
    · obtain ⟨c, e1, e2, -⟩ := alignText_of_ne ha
      simp only [e1, List.cons_append, List.nil_append]
      rcases ht with ⟨d, rfl, rfl⟩ | ⟨d, e, r, rfl, h1, h2, -⟩
      · simp only [parseAlign]
        rw [e2, if_neg (by decide), if_pos ha]
      · simp only [parseAlign]
        rw [e2, h1, if_neg (by decide), if_pos ha]

theorem parseWidth_render {fp : Bool} {s : Spec} (h : s.OK fp) :
    parseWidth (s.width ++ renderItems s.items ++ ['}']) =
      .ok (if s.width = [] then .none else some (decValue s.width), renderItems s.items ++ ['}']) := by
  have hi : ∀ c ∈ (renderItems s.items ++ ['}']).head?, c ∉ asciiDigits ∧ c ≠ '{' := by
    intro c hc
    by_cases he : s.items = []
    · simp [he, renderItems] at hc; subst hc; decide
    · obtain ⟨d, r, e, ha⟩ := items_head h.items h.first he
      simp [e] at hc; subst hc; decide
  rw [List.append_assoc]
  cases hw : s.width with
  | nil =>
    simp only [List.nil_append, if_true]
    cases ht : renderItems s.items ++ ['}'] with
    | nil => simp at ht
    | cons c l =>
      obtain ⟨h1, h2⟩ := hi c (by simp [ht])
      simp only [parseWidth]
      rw [if_neg (by rw [isDigit_iff]; exact h1), if_neg h2]
  | cons c l =>
    have hd := h.width
    rw [hw] at hd
    simp only [List.cons_append, parseWidth]
    rw [if_pos (isDigit_iff.mpr (hd.1 c (by simp)))]
    have := parseNonneg_append (l := c :: l) (r := renderItems s.items ++ ['}']) hd.1 hd.2 (fun d hd => (hi d hd).1)
    rw [List.cons_append] at this
    rw [this]
    rfl

theorem render_eq_nil {fp : Bool} {s : Spec} (h : s.OK fp) : (s.render ++ ['}']).head? = some '}' ↔
    s = ⟨.none, .none, [], []⟩ := by
  constructor
  · intro he
    have hr : s.render ++ ['}'] = s.fill.toList ++ (alignText s.align ++ (s.width ++ renderItems s.items ++ ['}'])) := by
      simp [Spec.render]
    rw [hr] at he
    cases hf : s.fill with
    | some f =>
      obtain ⟨h1, h2, h3⟩ := h.fill f (by simp [hf])
      simp [hf] at he
      exact absurd he h3
    | none =>
      simp only [hf, Option.toList, List.nil_append] at he
      by_cases ha : s.align = .none
      · simp only [ha, alignText, List.nil_append] at he
        rcases tail_head h with ⟨c, e, -⟩ | ⟨c, d, r, e, -, -, h3⟩
        · have hl : (s.width ++ renderItems s.items ++ ['}']).length = 1 := by rw [e]; rfl
          simp only [List.length_append, List.length_cons, List.length_nil] at hl
          have hw : s.width = [] := List.length_eq_zero_iff.mp (by omega)
          have hi : renderItems s.items = [] := List.length_eq_zero_iff.mp (by omega)
          have hit : s.items = [] := by
            by_contra hne
            obtain ⟨d, r, e, -⟩ := items_head h.items h.first hne
            rw [hi] at e; cases e
          cases s
          simp_all
        · rw [e] at he
          simp at he
          exact absurd he h3
      · obtain ⟨c, e1, e2, e3⟩ := alignText_of_ne ha
        simp [e1] at he
        exact absurd he e3
  · rintro rfl; rfl

/-- The state of the formatter before the elements are read. -/
def Spec.state0 (s : Spec) : FmtState := { global := ⟨s.fill.getD ' ', s.align, decValue s.width⟩ }

/-- Whether an element is `%q`. -/
def Item.isUnit : Item → Bool
  | .unit _ => true
  | _ => false
/-- Whether an element is `%Q`. -/
def Item.isValue : Item → Bool
  | .value _ => true
  | _ => false

/-- The alignment used: to the right when none is given, unless only the unit is printed. -/
def Spec.usedAlign (s : Spec) : Align :=
  if s.align = .none ∧ (¬ s.items.any Item.isUnit ∨ s.items.any Item.isValue) then .right else s.align

theorem apply_global {s : FmtState} : ∀ {is : List Item}, (is.foldl Item.apply s).global = s.global
  | [] => rfl
  | i :: is => by
    rw [List.foldl_cons, apply_global]
    cases i <;> rfl

theorem apply_value : ∀ {is : List Item} {s : FmtState}, (is.foldl Item.apply s).quantityValue = true ↔
    s.quantityValue = true ∨ is.any Item.isValue
  | [], s => by simp
  | i :: is, s => by
    rw [List.foldl_cons, apply_value]
    cases i <;> simp [Item.apply, Item.isValue]

theorem apply_unit : ∀ {is : List Item} {s : FmtState}, (is.foldl Item.apply s).quantityUnit = true ↔
    s.quantityUnit = true ∨ is.any Item.isUnit
  | [], s => by simp
  | i :: is, s => by
    rw [List.foldl_cons, apply_unit]
    cases i <;> simp [Item.apply, Item.isUnit]

theorem apply_modifier : ∀ {is : List Item} {s : FmtState}, (is.foldl Item.apply s).modifier = some 'A' ↔
    s.modifier = some 'A' ∨ Item.unit true ∈ is
  | [], s => by simp
  | i :: is, s => by
    rw [List.foldl_cons, apply_modifier]
    cases i with
    | unit a => cases a <;> simp [Item.apply]
    | _ => simp [Item.apply]

/-- What all `%Q` of a specification together ask for. -/
def repAll (is : List Item) : RepSpecs := is.foldl (fun r i => match i with | .value m => m.over r | _ => r) {}

theorem apply_rep : ∀ {is : List Item} {s : FmtState}, (is.foldl Item.apply s).rep =
    is.foldl (fun r i => match i with | .value m => m.over r | _ => r) s.rep
  | [], s => rfl
  | i :: is, s => by
    rw [List.foldl_cons, List.foldl_cons, apply_rep]
    cases i <;> rfl

/-- Every specification of the grammar is accepted up to the closing brace. -/
theorem fmtParse_render {fp : Bool} {s : Spec} (h : s.OK fp) (hne : s ≠ ⟨.none, .none, [], []⟩) :
    ∃ st, fmtParse fp (s.render ++ ['}']) = .ok (st, renderItems s.items, ['}']) ∧
      st.global = ⟨s.fill.getD ' ', s.usedAlign, decValue s.width⟩ ∧ st.rep = repAll s.items ∧
      (st.modifier = some 'A' ↔ Item.unit true ∈ s.items) := by
  have hh : ¬ ((s.render ++ ['}']).head? = .none ∨ (s.render ++ ['}']).head? = some '}') := by
    rintro (e | e)
    · simp at e
    · exact hne ((render_eq_nil h).mp e)
  unfold fmtParse
  rw [if_neg hh, parseAlign_render h, ok_bind]
  simp only
  rw [if_neg (by simp), parseWidth_render h, ok_bind]
  simp only
  rw [if_neg (by simp), parse_render_tail (Or.inr ⟨[], rfl⟩) h.items, ok_bind]
  simp only
  rw [onParseAll_evs h.items, ok_bind]
  have hw : (if s.width = [] then Option.none else some (decValue s.width)).getD 0 = decValue s.width := by
    split
    · rename_i he; rw [he]; rfl
    · rfl
  rw [hw]
  have ht : (renderItems s.items ++ ['}']).take ((renderItems s.items ++ ['}']).length - ['}'].length) = renderItems s.items := by
    simp
  rw [ht]
  rw [show ({ global := ⟨s.fill.getD ' ', s.align, decValue s.width⟩ } : FmtState) = s.state0 from rfl]
  refine ⟨_, rfl, ?_, ?_, ?_⟩
  · have h1 := apply_value (is := s.items) (s := s.state0)
    have h2 := apply_unit (is := s.items) (s := s.state0)
    have h3 := apply_global (is := s.items) (s := s.state0)
    have h4 : (¬ (s.items.foldl Item.apply s.state0).quantityUnit = true ∨
        (s.items.foldl Item.apply s.state0).quantityValue = true) ↔
        (¬ s.items.any Item.isUnit ∨ s.items.any Item.isValue) := by
      rw [h1, h2]
      simp [Spec.state0]
    have h5 : (s.items.foldl Item.apply s.state0).global.align = s.align := by rw [h3]; rfl
    unfold Spec.usedAlign
    by_cases hc : s.align = .none ∧ (¬ s.items.any Item.isUnit ∨ s.items.any Item.isValue)
    · rw [if_pos hc, if_pos ⟨h5.trans hc.1, h4.mpr hc.2⟩]
      simp only [h3]; rfl
    · rw [if_neg hc, if_neg (fun hx => hc ⟨h5.symm.trans hx.1, h4.mp hx.2⟩), h3]; rfl
  · have h1 := apply_rep (is := s.items) (s := s.state0)
    split <;> exact h1
  · have h1 := apply_modifier (is := s.items) (s := s.state0)
    rw [show (s.state0.modifier = some 'A' ∨ Item.unit true ∈ s.items) ↔ Item.unit true ∈ s.items by simp [Spec.state0]] at h1
    split <;> exact h1

/-! ## Padding -/

theorem digitsValue_append (a : Nat) (l : List Char) (c : Char) :
    digitsValue a (l ++ [c]) = 10 * digitsValue a l + asciiDigits.idxOf c := by
  simp [digitsValue]

theorem digits_toDigits : ∀ n : Nat, (∀ c ∈ Nat.toDigits 10 n, c ∈ asciiDigits) ∧ decValue (Nat.toDigits 10 n) = n ∧
    Nat.toDigits 10 n ≠ [] := by
  have hd : ∀ d < 10, asciiDigit d ∈ asciiDigits ∧ asciiDigits.idxOf (asciiDigit d) = d := by decide
  intro n
  rw [← decs_toDigits]
  refine ⟨?_, ?_, by simpa using decs_ne_nil n⟩
  · intro c hc
    simp only [List.mem_map] at hc
    obtain ⟨d, h1, rfl⟩ := hc
    exact (hd d (decs_all n d h1)).1
  · induction n using Nat.strong_induction_on with
    | _ n ih =>
      by_cases h : n < 10
      · rw [decs_lt h]
        simp [decValue, digitsValue, (hd n h).2]
      · rw [decs_ge h, List.map_append, List.map_singleton]
        unfold decValue
        rw [digitsValue_append, show digitsValue 0 ((decs (n / 10)).map asciiDigit) = n / 10 from ih (n / 10) (by omega),
          (hd (n % 10) (by omega)).2]
        omega

theorem global_eq (g : GlobalSpecs) : globalFormatString g = (if g.fill ≠ ' ' then [g.fill] else []) ++ alignText g.align ++
    (if g.width ≥ 1 then Nat.toDigits 10 g.width else []) := by
  obtain ⟨f, a, w⟩ := g
  cases a <;> rfl

/-- The format string handed to fmt for the whole text says what was asked for. -/
theorem fmtString_global {dw : List Char → Nat} {g : GlobalSpecs} {t : List Char} (hf : g.fill ≠ '{')
    (ha : g.align = .none → g.fill = ' ') (hw : g.width ≤ 2147483647) :
    fmtString dw (globalFormatString g) t = .ok (padText dw g t) := by
  obtain ⟨d1, d2, d3⟩ := digits_toDigits g.width
  have hd : ∃ l, (if g.width ≥ 1 then Nat.toDigits 10 g.width else []) = l ∧ (∀ c ∈ l, c ∈ asciiDigits) ∧
      decValue l = g.width ∧ (l = [] ↔ g.width = 0) := by
    refine ⟨_, rfl, ?_, ?_, ?_⟩
    · split
      · exact d1
      · simp
    · split
      · exact d2
      · simp [decValue, digitsValue]; omega
    · split
      · simp [d3]; omega
      · simp; omega
  obtain ⟨l, hl, h1, h2, h3⟩ := hd
  have hwid : ∀ a f, (do
      let (w, s2) ← (if l = [] then (.ok (.none, []) : C (Option Nat × List Char)) else parseWidth l)
      if s2 = [] then .ok (padText dw ⟨f, a, w.getD 0⟩ t) else .error .rejected : C (List Char)) =
        .ok (padText dw ⟨f, a, g.width⟩ t) := by
    intro a f
    by_cases he : l = []
    · rw [if_pos he, ok_bind, h3.mp he]; rfl
    · rw [if_neg he]
      cases l with
      | nil => exact absurd rfl he
      | cons c l =>
        have := parseNonneg_append (l := c :: l) (r := []) h1 (by omega) (by simp)
        rw [List.append_nil, h2] at this
        simp only [parseWidth]
        rw [if_pos (isDigit_iff.mpr (h1 c (by simp))), this]
        rfl
  unfold fmtString
  rw [global_eq, hl]
  by_cases hsp : g.fill = ' '
  · rw [if_neg (show ¬ g.fill ≠ ' ' from fun h => h hsp), List.nil_append]
    by_cases hn : g.align = .none
    · rw [hn, show alignText .none = [] from rfl, List.nil_append]
      by_cases he : l = []
      · rw [if_pos he]
        have := h3.mp he
        unfold padText
        rw [hn, this]; simp
      · rw [if_neg he]
        have hp : parseAlign l = .ok (.none, .none, l) := by
          match l, h1, he with
          | [], _, he => exact absurd rfl he
          | [c], h1, _ =>
            have := (alignOf_digit (h1 c (by simp))).1
            simp [parseAlign, this]
          | c :: d :: l, h1, _ =>
            have := (alignOf_digit (h1 c (by simp))).1
            have := (alignOf_digit (h1 d (by simp))).1
            simp [parseAlign, *]
        rw [hp, ok_bind]
        simp only [Option.getD_none]
        rw [hwid]
        cases g; simp_all
    · obtain ⟨c, e1, e2, -⟩ := alignText_of_ne hn
      rw [e1, if_neg (by simp)]
      have hp : parseAlign ([c] ++ l) = .ok (.none, g.align, l) := by
        match l, h1 with
        | [], _ => simp [parseAlign, e2, hn]
        | d :: l, h1 =>
          have := (alignOf_digit (h1 d (by simp))).1
          simp [parseAlign, this, e2, hn]
      rw [hp, ok_bind]
      simp only [Option.getD_none]
      rw [hwid]
      cases g; simp_all
  · have hn : g.align ≠ .none := fun hc => hsp (ha hc)
    obtain ⟨c, e1, e2, -⟩ := alignText_of_ne hn
    rw [if_pos (show g.fill ≠ ' ' from hsp), e1, if_neg (by simp)]
    have hp : parseAlign ([g.fill] ++ [c] ++ l) = .ok (some g.fill, g.align, l) := by
      simp [parseAlign, e2, hn, hf]
    rw [hp, ok_bind]
    simp only [Option.getD_some]
    rw [hwid]

/-! ## The properties -/

/-- What a specification prints before padding (specification): its elements one after another, or number, space
and symbol when there are none. -/
def Spec.body (env : FmtEnv) (s : Spec) (rep : RepSpecs) (ascii : Bool) : C (List Char) :=
  if s.items = [] then do
    let n ← env.number (repFormatString env.fp rep)
    .ok (n ++ (if env.symbol.std = [] then [] else ' ' :: env.symbol.std))
  else bodyOut env rep ascii s.items

/-- The output of every specification of the grammar. -/
theorem fmtQuantity_render {env : FmtEnv} {s : Spec} (h : s.OK env.fp) :
    fmtQuantity env s.render = (do
      let t ← s.body env (repAll s.items) (decide (Item.unit true ∈ s.items))
      .ok (padText env.dispWidth ⟨s.fill.getD ' ', s.usedAlign, decValue s.width⟩ t)) := by
  have hdef : ∀ st : FmtState, st.rep = {} → (do
      let n ← env.number (repFormatString env.fp st.rep)
      .ok (if env.symbol.std.length > 0 then n ++ ' ' :: env.symbol.std else n) : C (List Char)) = (do
      let n ← env.number (repFormatString env.fp {})
      .ok (n ++ (if env.symbol.std = [] then [] else ' ' :: env.symbol.std))) := by
    intro st hst
    rw [hst]
    cases env.symbol.std with
    | nil => simp
    | cons c l => simp
  by_cases hne : s = ⟨.none, .none, [], []⟩
  · subst hne
    unfold fmtQuantity Spec.body
    rw [if_pos rfl, show (Spec.render ⟨.none, .none, [], []⟩ ++ ['}']) = ['}'] from rfl]
    rw [show fmtParse env.fp ['}'] = .ok ({}, [], ['}']) from rfl, ok_bind]
    simp only [if_true]
    unfold fmtFormat
    simp only [List.head?_nil, true_or, if_true]
    rw [hdef {} rfl]
    show _ = (do let t ← (do let n ← env.number (repFormatString env.fp {}); _); _)
    cases env.number (repFormatString env.fp {}) with
    | error e => rfl
    | ok n =>
      simp only [ok_bind]
      rw [fmtString_global (by decide) (fun _ => rfl) (by decide)]
      simp [padText, decValue, digitsValue, Spec.usedAlign]
  · obtain ⟨st, e1, e2, e3, e4⟩ := fmtParse_render h hne
    unfold fmtQuantity
    rw [e1, ok_bind]
    simp only [if_true]
    unfold fmtFormat
    have hg : ∀ t, fmtString env.dispWidth (globalFormatString st.global) t =
        .ok (padText env.dispWidth ⟨s.fill.getD ' ', s.usedAlign, decValue s.width⟩ t) := by
      intro t
      rw [e2]
      refine fmtString_global ?_ ?_ h.width.2
      · cases hf : s.fill with
        | none => simp
        | some f => exact (h.fill f (by simp [hf])).2.1
      · intro hc
        cases hf : s.fill with
        | none => rfl
        | some f =>
          exfalso
          have h1 := (h.fill f (by simp [hf])).1
          unfold Spec.usedAlign at hc
          simp only at hc
          rw [if_neg (fun hx => h1 hx.1)] at hc
          exact h1 hc
    unfold Spec.body
    by_cases hi : s.items = []
    · have : renderItems s.items = [] := by simp [hi, renderItems]
      rw [this]
      simp only [List.head?_nil, true_or, if_true]
      rw [if_pos hi, hdef st (by rw [e3, hi]; rfl), hi]
      show _ = (do let t ← (do let n ← env.number (repFormatString env.fp {}); _); _)
      cases env.number (repFormatString env.fp {}) with
      | error e => rfl
      | ok n => simp only [ok_bind]; rw [hg]
    · obtain ⟨d, r, e, -⟩ := items_head h.items h.first hi
      rw [if_neg (by rw [e]; simp), if_neg hi]
      have hp := parse_render_tail (Or.inl rfl) (acc := []) h.items
      rw [List.append_nil] at hp
      rw [hp, ok_bind]
      simp only
      rw [onFormatAll_evs, e3]
      have : decide (st.modifier = some 'A') = decide (Item.unit true ∈ s.items) := by
        simp only [decide_eq_decide]; exact e4
      rw [this]
      cases bodyOut env (repAll s.items) (decide (Item.unit true ∈ s.items)) s.items with
      | error e => rfl
      | ok b => simp only [ok_bind, List.nil_append]; rw [hg]

/-- C49, one direction: every specification of the documented grammar is accepted, up to its closing brace,
whatever follows it there. -/
theorem C49_grammar_accepted_partial {fp : Bool} {t : List Char} (h : InGrammar fp t) :
    ∃ st fs, fmtParse fp (t ++ ['}']) = .ok (st, fs, ['}']) := by
  obtain ⟨s, hs, rfl⟩ := h
  by_cases hne : s = ⟨.none, .none, [], []⟩
  · subst hne; exact ⟨{}, [], rfl⟩
  · obtain ⟨st, e, -⟩ := fmtParse_render hs hne
    exact ⟨st, _, e⟩

/-- The specification `*^20%+#.3LeQ %Aq%n`: fill, alignment, width, a number with all modifiers, text and an ASCII unit. -/
def exSpec : Spec := ⟨some '*', .center, ['2', '0'], [.value ⟨some '+', true, some ['3'], true, some 'e'⟩, .lit ' ', .unit true, .newline]⟩

theorem exSpec_ok : exSpec.OK true where
  fill := by intro c hc; simp [exSpec] at hc; subst hc; decide
  width := by decide
  items := by
    intro i hi
    simp only [exSpec, List.mem_cons, List.not_mem_nil, or_false] at hi
    rcases hi with rfl | rfl | rfl | rfl
    · refine ⟨?_, ?_, ?_⟩
      · intro c hc; simp at hc; subst hc; decide
      · intro l hl; simp at hl; subst hl; decide
      · intro c hc; simp at hc; subst hc; decide
    · exact ⟨by decide, by decide, by decide⟩
    · trivial
    · trivial
  first := by intro c hc; cases hc

example : InGrammar true "*^20%+#.3LeQ %Aq%n".toList := ⟨exSpec, exSpec_ok, by decide⟩

/-- The shape of a text of the grammar that begins with a percent sign. -/
theorem inGrammar_percent {fp : Bool} {d : Char} {r : List Char} (h : InGrammar fp ('%' :: d :: r)) (hd : alignOf d = .none) :
    d = 'q' ∨ d = 'n' ∨ d = 't' ∨ d = '%' ∨ (d = 'A' ∧ ∃ r', r = 'q' :: r') ∨
      ∃ m : RepMod, m.OK fp ∧ ∃ r', d :: r = m.render ++ 'Q' :: r' := by
  obtain ⟨s, hs, he⟩ := h
  unfold Spec.render at he
  cases hf : s.fill with
  | some f =>
    obtain ⟨c, e1, e2, -⟩ := alignText_of_ne (hs.fill f (by simp [hf])).1
    simp [hf, e1] at he
    rw [← he.2.1, e2] at hd
    exact absurd hd (hs.fill f (by simp [hf])).1
  | none =>
    simp only [hf, Option.toList, List.nil_append] at he
    by_cases ha : s.align = .none
    · simp only [ha, alignText, List.nil_append] at he
      cases hw : s.width with
      | cons c w =>
        simp [hw] at he
        have := hs.width.1 c (by simp [hw])
        rw [he.1] at this
        exact absurd this (by decide)
      | nil =>
        simp only [hw, List.nil_append] at he
        cases hi : s.items with
        | nil => simp [hi, renderItems] at he
        | cons i is =>
          have hio := hs.items i (by simp [hi])
          simp only [hi, renderItems, List.flatMap_cons] at he
          cases i with
          | lit c => exact absurd (by simp [hi]) (hs.first c)
          | newline => simp [Item.render, Item.body] at he; simp [← he.1]
          | tab => simp [Item.render, Item.body] at he; simp [← he.1]
          | percent => simp [Item.render, Item.body] at he; simp [← he.1]
          | unit a =>
            cases a
            · simp [Item.render, Item.body] at he; simp [← he.1]
            · simp [Item.render, Item.body] at he
              right; right; right; right; left
              exact ⟨he.1.symm, _, he.2.symm⟩
          | value m =>
            simp [Item.render, Item.body] at he
            right; right; right; right; right
            exact ⟨m, hio, _, he.symm⟩
    · obtain ⟨c, e1, e2, -⟩ := alignText_of_ne ha
      simp [e1] at he
      rw [he.1] at e2
      exact absurd e2.symm ha

theorem accepted_of {fp : Bool} {t : List Char}
    (h : (match fmtParse fp t with | .ok (_, _, r) => decide (r = ['}']) | .error _ => false) = true) :
    ∃ st fs, fmtParse fp t = .ok (st, fs, ['}']) := by
  revert h
  cases fmtParse fp t with
  | error e => intro h; cases h
  | ok v =>
    obtain ⟨st, fs, r⟩ := v
    intro h
    simp only [decide_eq_true_eq] at h
    subst h
    exact ⟨st, fs, rfl⟩

/-- C49 fails in the other direction: the unit conversion accepts any modifier letter (and ignores it), the number
conversion ignores what follows its type, and literal text may come first although the grammar wants a conversion. -/
theorem C49_outside_accepted :
    (¬ InGrammar true "%Zq".toList ∧ ∃ st fs, fmtParse true ("%Zq".toList ++ ['}']) = .ok (st, fs, ['}'])) ∧
    (¬ InGrammar true "%dxyzQ".toList ∧ ∃ st fs, fmtParse true ("%dxyzQ".toList ++ ['}']) = .ok (st, fs, ['}'])) ∧
    (¬ InGrammar true "x%Q".toList ∧ ∃ st fs, fmtParse true ("x%Q".toList ++ ['}']) = .ok (st, fs, ['}'])) ∧
    (¬ InGrammar true "%}Q".toList ∧ ∃ st fs, fmtParse true ("%}Q".toList ++ ['}']) = .ok (st, fs, ['}'])) := by
  refine ⟨⟨?_, ?_⟩, ⟨?_, ?_⟩, ⟨?_, ?_⟩, ⟨?_, ?_⟩⟩
  · intro h
    rcases inGrammar_percent (d := 'Z') (r := ['q']) h (by decide) with e | e | e | e | e | ⟨m, -, r', e⟩
    · exact absurd e (by decide)
    · exact absurd e (by decide)
    · exact absurd e (by decide)
    · exact absurd e (by decide)
    · exact absurd e.1 (by decide)
    · have : 'Q' ∈ ['Z', 'q'] := by rw [e]; simp
      exact absurd this (by decide)
  · exact accepted_of (by decide +kernel)
  · intro h
    rcases inGrammar_percent (d := 'd') (r := ['x', 'y', 'z', 'Q']) h (by decide) with e | e | e | e | e | ⟨m, hm, r', e⟩
    · exact absurd e (by decide)
    · exact absurd e (by decide)
    · exact absurd e (by decide)
    · exact absurd e (by decide)
    · exact absurd e.1 (by decide)
    · have hz : 'z' ∈ m.render ++ 'Q' :: r' := by rw [← e]; decide
      have hlen : m.render = ['d', 'x', 'y', 'z'] ∧ r' = [] := by
        have hq := render_noQ hm
        match hr : m.render with
        | [] => rw [hr] at e; simp at e
        | [a] => rw [hr] at e; simp at e
        | [a, b] => rw [hr] at e; simp at e
        | [a, b, c] => rw [hr] at e; simp at e
        | [a, b, c, d] => rw [hr] at e; simp at e; obtain ⟨rfl, rfl, rfl, rfl, rfl⟩ := e; exact ⟨rfl, rfl⟩
        | a :: b :: c :: d :: x :: l =>
          rw [hr] at e hq
          simp at e
      have hx := parseUnitsRep_render (s := {}) hm
      rw [hlen.1, show parseUnitsRep true {} ['d', 'x', 'y', 'z'] = .ok { ({} : RepSpecs) with type := some 'd' } from rfl] at hx
      have hx := Except.ok.inj hx
      have h1 : m.sign = .none := by
        have := congrArg RepSpecs.sign hx
        cases hs : m.sign with
        | none => rfl
        | some c => simp [RepMod.over, hs] at this
      have h2 : m.alt = false := by simpa [RepMod.over] using (congrArg RepSpecs.alt hx).symm
      have h3 : m.precision = .none := by
        have := congrArg RepSpecs.precision hx
        cases hs : m.precision with
        | none => rfl
        | some c => simp [RepMod.over, hs] at this
      have h4 : m.locale = false := by simpa [RepMod.over] using (congrArg RepSpecs.useLocale hx).symm
      have := hlen.1
      unfold RepMod.render at this
      rw [h1, h2, h3, h4] at this
      cases ht : m.type with
      | none => simp [ht] at this
      | some c => simp [ht] at this
  · exact accepted_of (by decide +kernel)
  · rintro ⟨s, hs, he⟩
    unfold Spec.render at he
    cases hf : s.fill with
    | some f =>
      obtain ⟨c, e1, e2, -⟩ := alignText_of_ne (hs.fill f (by simp [hf])).1
      simp [hf, e1] at he
      rw [he.2.1] at e2
      exact (hs.fill f (by simp [hf])).1 e2.symm
    | none =>
      simp only [hf, Option.toList, List.nil_append] at he
      by_cases ha : s.align = .none
      · simp only [ha, alignText, List.nil_append] at he
        cases hw : s.width with
        | cons c w =>
          simp [hw] at he
          have := hs.width.1 c (by simp [hw])
          rw [he.1] at this
          exact absurd this (by decide)
        | nil =>
          simp only [hw, List.nil_append] at he
          by_cases hi : s.items = []
          · simp [hi, renderItems] at he
          · obtain ⟨d, r, e, -⟩ := items_head hs.items hs.first hi
            rw [e] at he
            simp at he
      · obtain ⟨c, e1, e2, -⟩ := alignText_of_ne ha
        simp [e1] at he
        rw [he.1] at e2
        exact ha e2.symm
  · exact accepted_of (by decide +kernel)
  · intro h
    rcases inGrammar_percent (d := '}') (r := ['Q']) h (by decide) with e | e | e | e | e | ⟨m, hm, r', e⟩
    · exact absurd e (by decide)
    · exact absurd e (by decide)
    · exact absurd e (by decide)
    · exact absurd e (by decide)
    · exact absurd e.1 (by decide)
    · cases hr : m.render with
      | nil => rw [hr] at e; simp at e
      | cons c l =>
        rw [hr] at e
        simp at e
        have := render_head hm
        have hh : c = '}' := e.1.symm
        have hx := parseUnitsRep_render (s := {}) hm
        rw [hr, hh, show parseUnitsRep true {} ('}' :: l) = .ok {} from rfl] at hx
        have hx := Except.ok.inj hx
        have h1 : m.sign = .none := by
          have := congrArg RepSpecs.sign hx
          cases hs : m.sign with
          | none => rfl
          | some c => simp [RepMod.over, hs] at this
        have h2 : m.alt = false := by simpa [RepMod.over] using (congrArg RepSpecs.alt hx).symm
        have h3 : m.precision = .none := by
          have := congrArg RepSpecs.precision hx
          cases hs : m.precision with
          | none => rfl
          | some c => simp [RepMod.over, hs] at this
        have h4 : m.locale = false := by simpa [RepMod.over] using (congrArg RepSpecs.useLocale hx).symm
        have h5 : m.type = .none := by
          have := congrArg RepSpecs.type hx
          cases hs : m.type with
          | none => rfl
          | some c => simp [RepMod.over, hs] at this
        unfold RepMod.render at hr
        rw [h1, h2, h3, h4, h5] at hr
        simp at hr
  · exact accepted_of (by decide +kernel)

/-- C49, rejections: a conversion that is never finished. -/
theorem C49_unfinished_rejected {d : Char} {r acc : List Char} (h1 : d ≠ '%') (h2 : d ≠ 'n') (h3 : d ≠ 't')
    (hq : ∀ c ∈ d :: r, c ≠ 'Q' ∧ c ≠ 'q') : parseUnitsFormat acc ('%' :: d :: r) = .error .rejected := by
  have hn : ∀ {l : List Char}, (∀ c ∈ l, c ≠ 'Q' ∧ c ≠ 'q') → findQ l = .none := by
    intro l
    induction l with
    | nil => intro _; rfl
    | cons c l ih =>
      intro h
      have hc := h c (by simp)
      simp only [findQ]
      rw [if_neg (by simp [hc.1, hc.2]), ih (fun d hd => h d (by simp [hd]))]; rfl
  rw [parseUnitsFormat, if_neg (by decide), if_neg (by decide)]
  simp only
  rw [if_neg h1, if_neg h2, if_neg h3]
  split
  · rfl
  · rename_i h; rw [hn hq] at h; cases h

example : fmtParse true "%5d}".toList = .error .rejected := by decide +kernel

/-- C49, rejections: a precision for a representation that is not a floating point type. -/
theorem C49_integral_precision_rejected {m : RepMod} {s : RepSpecs} (hs : ∀ c ∈ m.sign, c = '+' ∨ c = '-' ∨ c = ' ')
    (hp : m.precision ≠ .none) : parseUnitsRep false s m.render = .error .rejected := by
  obtain ⟨l, hl⟩ := Option.ne_none_iff_exists'.mp hp
  have h2 : ∀ s, parseRepAlt false s m.tail1 = .error .rejected := by
    intro s
    unfold RepMod.tail1 RepMod.tail2
    rw [hl]
    cases m.alt <;> rfl
  rw [render_eq]
  cases hsg : m.sign with
  | none =>
    show parseUnitsRep false s m.tail1 = _
    rw [parseUnitsRep_of_ne, h2]
    intro c hc
    unfold RepMod.tail1 RepMod.tail2 at hc
    rw [hl] at hc
    cases ha : m.alt <;> simp [ha] at hc <;> subst hc <;> decide
  | some c =>
    rcases hs c (by simp [hsg]) with rfl | rfl | rfl <;> exact h2 _

example : fmtParse false "%.2Q}".toList = .error .rejected := by decide +kernel

/-- C49, rejections: a type letter that is not one of the documented ones. -/
theorem C49_type_rejected {m : RepMod} {s : RepSpecs} {fp : Bool} {c : Char} {r : List Char} (h : m.OK fp) (ht : m.type = .none)
    (hc : c ∉ ['a', 'A', 'b', 'B', 'd', 'e', 'E', 'f', 'F', 'g', 'G', 'o', 'x', 'X'])
    (h1 : c ∉ ['+', '-', ' ', '#', '.', 'L', '}', '%']) (h2 : c ∉ asciiDigits) :
    parseUnitsRep fp s (m.render ++ c :: r) = .error .rejected := by
  simp only [List.mem_cons, List.not_mem_nil, or_false, not_or] at h1
  obtain ⟨c1, c2, c3, c4, c5, c6, c7, c8⟩ := h1
  have t0 : ∀ s, parseRepType s (c :: r) = .error .rejected := by
    intro s
    simp only [parseRepType]
    rw [if_pos ⟨c7, c8⟩, if_neg]
    intro hx
    exact hc (by simpa [validRepTypes] using hx)
  have e3 : m.tail3 = if m.locale then ['L'] else [] := by simp [RepMod.tail3, ht]
  have t3 : ∀ s, parseRepLocale s (m.tail3 ++ c :: r) = .error .rejected := by
    intro s
    rw [e3]
    cases m.locale with
    | true => exact t0 _
    | false =>
      show parseRepLocale s (c :: r) = _
      rw [parseRepLocale_of_ne (by simp [c6]), t0]
  have hd3 : ∀ d ∈ (m.tail3 ++ c :: r).head?, d = 'L' ∨ d = c := by
    intro d hd
    rw [e3] at hd
    cases hl : m.locale <;> simp [hl] at hd
    · exact Or.inr hd.symm
    · exact Or.inl hd.symm
  have t2 : ∀ s, parseRepPrecision fp s (m.tail2 ++ c :: r) = .error .rejected := by
    intro s
    unfold RepMod.tail2
    cases hp : m.precision with
    | none =>
      simp only [List.nil_append]
      rw [parseRepPrecision_of_ne, t3]
      intro hx
      rcases hd3 '.' hx with e | e
      · exact absurd e (by decide)
      · exact c5 e.symm
    | some l =>
      obtain ⟨g1, g2, g3, g4⟩ := h.precision l (by simp [hp])
      simp only [List.cons_append, parseRepPrecision, g1, if_true, List.append_assoc]
      have hpp : parsePrecision (l ++ (m.tail3 ++ c :: r)) = .ok (decValue l, m.tail3 ++ c :: r) := by
        cases l with
        | nil => exact absurd rfl g2
        | cons a l =>
          simp only [List.cons_append, parsePrecision]
          rw [if_pos (isDigit_iff.mpr (g3 a (by simp)))]
          exact parseNonneg_append (l := a :: l) g3 g4 (fun d hd => by
            rcases hd3 d hd with e | e
            · rw [e]; decide
            · rw [e]; exact h2)
      rw [hpp, ok_bind]
      exact t3 _
  have hd2 : ∀ d ∈ (m.tail2 ++ c :: r).head?, d = '.' ∨ d = 'L' ∨ d = c := by
    intro d hd
    unfold RepMod.tail2 at hd
    cases hp : m.precision with
    | none => rw [hp] at hd; exact Or.inr (hd3 d (by simpa using hd))
    | some l => rw [hp] at hd; simp at hd; exact Or.inl hd.symm
  have t1 : ∀ s, parseRepAlt fp s (m.tail1 ++ c :: r) = .error .rejected := by
    intro s
    unfold RepMod.tail1
    cases ha : m.alt with
    | true => exact t2 _
    | false =>
      show parseRepAlt fp s (m.tail2 ++ c :: r) = _
      rw [parseRepAlt_of_ne, t2]
      intro hx
      rcases hd2 '#' hx with e | e | e
      · exact absurd e (by decide)
      · exact absurd e (by decide)
      · exact c4 e.symm
  rw [render_eq]
  cases hs : m.sign with
  | none =>
    show parseUnitsRep fp s (m.tail1 ++ c :: r) = _
    rw [parseUnitsRep_of_ne, t1]
    intro d hd
    unfold RepMod.tail1 at hd
    cases ha : m.alt with
    | true => simp [ha] at hd; subst hd; decide
    | false =>
      simp only [ha, Bool.false_eq_true, if_false, List.nil_append] at hd
      rcases hd2 d hd with e | e | e
      · rw [e]; decide
      · rw [e]; decide
      · rw [e]; exact ⟨c1, c2, c3⟩
  | some d => rcases h.sign d (by simp [hs]) with rfl | rfl | rfl <;> exact t1 _

example : fmtParse true "%+.3LzQ}".toList = .error .rejected := by decide +kernel

/-- C50, part: for every specification of the grammar the output is the concatenation of the elements, padded
as asked for, where all numbers are formatted with one and the same rep specification and all units are printed
in one and the same version — so it is what was asked for when all `%Q` have the same modifier and all `%q` the
same flag.  (Missing for the full statement: that every `%Q` and `%q` follows its own modifier, which is false,
and the accepted texts outside the grammar.) -/
theorem C50_output_partial {env : FmtEnv} {s : Spec} (h : s.OK env.fp) (m : RepMod) (ascii : Bool)
    (hm : ∀ i ∈ s.items, ∀ m', i = .value m' → m' = m) (hu : ∀ i ∈ s.items, ∀ a, i = .unit a → a = ascii)
    (hd : s.items = [] → m = ⟨.none, false, .none, false, .none⟩) :
    fmtQuantity env s.render = (do
      let t ← s.body env m.specs ascii
      .ok (padText env.dispWidth ⟨s.fill.getD ' ', s.usedAlign, decValue s.width⟩ t)) := by
  rw [fmtQuantity_render h]
  have hover : m.over m.specs = m.specs := by
    unfold RepMod.over RepMod.specs
    cases m.sign <;> cases m.precision <;> cases m.type <;> simp
  have hover0 : m.over {} = m.specs := by
    unfold RepMod.over RepMod.specs
    cases m.sign <;> cases m.precision <;> cases m.type <;> simp
  have hrep : ∀ is : List Item, (∀ i ∈ is, ∀ m', i = .value m' → m' = m) → ∀ r : RepSpecs, (r = {} ∨ r = m.specs) →
      ((∃ i ∈ is, ∃ m', i = .value m') → is.foldl (fun r i => match i with | .value m => m.over r | _ => r) r = m.specs) ∧
      (r = m.specs → is.foldl (fun r i => match i with | .value m => m.over r | _ => r) r = m.specs) := by
    intro is
    induction is with
    | nil => intro _ r _; exact ⟨by simp, fun h => h⟩
    | cons i is ih =>
      intro hi r hr
      have ih' := ih (fun j hj => hi j (by simp [hj]))
      cases i with
      | value m' =>
        obtain rfl := hi _ (by simp) m' rfl
        have hr' : m'.over r = m'.specs := by rcases hr with rfl | rfl <;> assumption
        have := (ih' (m'.over r) (Or.inr hr')).2 hr'
        exact ⟨fun _ => this, fun _ => this⟩
      | unit _ => simpa using ih' r hr
      | newline => simpa using ih' r hr
      | tab => simpa using ih' r hr
      | percent => simpa using ih' r hr
      | lit _ => simpa using ih' r hr
  have hbody : s.body env (repAll s.items) (decide (Item.unit true ∈ s.items)) = s.body env m.specs ascii := by
    unfold Spec.body
    by_cases hi : s.items = []
    · rw [if_pos hi, if_pos hi, hi, hd hi]; rfl
    · rw [if_neg hi, if_neg hi]
      have hnum : (∃ i ∈ s.items, ∃ m', i = .value m') → repAll s.items = m.specs :=
        (hrep s.items hm {} (Or.inl rfl)).1
      have hun : (∃ i ∈ s.items, ∃ a, i = .unit a) → decide (Item.unit true ∈ s.items) = ascii := by
        rintro ⟨i, hi, a, rfl⟩
        have ha := hu _ hi a rfl
        subst ha
        cases a with
        | true => simpa using hi
        | false =>
          simp only [decide_eq_false_iff_not]
          intro hc
          exact absurd (hu _ hc true rfl) (by decide)
      generalize repAll s.items = r at *
      generalize decide (Item.unit true ∈ s.items) = b at *
      have : ∀ is : List Item, (∀ i ∈ is, i ∈ s.items) → bodyOut env r b is = bodyOut env m.specs ascii is := by
        intro is
        induction is with
        | nil => intro _; rfl
        | cons i is ih =>
          intro his
          have h1 : i.out env r b = i.out env m.specs ascii := by
            cases i with
            | value m' => simp only [Item.out]; rw [hnum ⟨_, his _ (by simp), m', rfl⟩]
            | unit a => simp only [Item.out]; rw [hun ⟨_, his _ (by simp), a, rfl⟩]
            | _ => rfl
          simp only [bodyOut]
          rw [h1, ih (fun j hj => his j (by simp [hj]))]
      exact this s.items (fun i hi => hi)
  rw [hbody]

/-- A formatter environment: a floating point number printed as its own format string between bars, metres with
an ASCII alternative. -/
def exFmtEnv : FmtEnv := ⟨true, fun l => .ok (('|' :: l) ++ ['|']), ⟨['µ', 'm'], ['u', 'm']⟩, List.length⟩

example : fmtQuantity exFmtEnv "*^20%+#.3LeQ %Aq%n".toList = .ok "**|{:+#.3eL}| um\n***".toList := by decide +kernel
example : fmtQuantity exFmtEnv [] = .ok "|{:g}| µm".toList := by decide +kernel
example : (∀ i ∈ exSpec.items, ∀ m', i = .value m' → m' = ⟨some '+', true, some ['3'], true, some 'e'⟩) ∧
    (∀ i ∈ exSpec.items, ∀ a, i = .unit a → a = true) := by
  simp [exSpec]

/-- C50 is violated by the code: with two `%Q` the modifier of the second one is also used for the first, and one
`%Aq` makes all units ASCII. -/
theorem C50_modifiers_shared :
    fmtQuantity exFmtEnv "%.1Q %.3Q".toList = .ok "|{:.3f}| |{:.3f}|".toList ∧
    fmtQuantity exFmtEnv "%eQ %+Q".toList = .ok "|{:+e}| |{:+e}|".toList ∧
    fmtQuantity exFmtEnv "%Aq %q".toList = .ok "um um".toList := by decide +kernel

/-- C50: the format string handed to fmt for the number contains exactly the requested sign, `#`, precision and
type (`f` with a precision and `g` without one when no type is given for a floating point type). -/
theorem C50_number_spec {m : RepMod} {fp : Bool} (h : m.OK fp) : ∃ ty : List Char,
    repFormatString fp m.specs = ['{', ':'] ++ m.sign.toList ++ (if m.alt then ['#'] else []) ++
      (match m.precision with | some l => '.' :: Nat.toDigits 10 (decValue l) | .none => []) ++ ty ++
      (if m.locale then ['L'] else []) ++ ['}'] ∧
    ty = (match m.type, m.precision, fp with
      | some c, _, _ => [c] | .none, some _, _ => ['f'] | .none, .none, true => ['g'] | .none, .none, false => []) ∧
    (∀ l, m.precision = some l → fp = true) := by
  refine ⟨_, ?_, rfl, fun l hl => (h.precision l (by simp [hl])).1⟩
  unfold repFormatString RepMod.specs repFormatString.decChars
  cases hp : m.precision <;> cases ht : m.type <;> cases fp <;> simp

example : repFormatString false (RepMod.specs ⟨some '-', true, .none, false, some 'x'⟩) = "{:-#x}".toList := by decide

/-- C51, width zero: number, space and symbol are appended with the stream's own formatting state (only the number
when the unit has no symbol); nothing else changes. -/
theorem C51_no_width {σ : Type} (init : σ) (os : OStream σ) (text : σ → List Char) (symbol : SText) (hw : os.width = 0) :
    streamOut init os text symbol = { os with out := os.out ++ text os.numFmt ++ (if symbol.std = [] then [] else ' ' :: symbol.std) } := by
  unfold streamOut toStream OStream.putNumber OStream.putString
  rw [if_neg (by simp [hw])]
  cases hs : symbol.std <;> simp [hw]

/-- C51, part: with a width the whole text, number and symbol together, is padded once with the stream's fill and adjustment, and
the width is reset.  (Missing: the number is formatted with the state of a new stream instead of the stream's own, so the
equation has the full meaning only when both give the same text; see `C51_precision_ignored`.) -/
theorem C51_width_partial {σ : Type} (init : σ) (os : OStream σ) (text : σ → List Char) (symbol : SText) (hw : os.width ≠ 0)
    (hn : text init = text os.numFmt) : ∃ whole pad,
    whole = text os.numFmt ++ (if symbol.std = [] then [] else ' ' :: symbol.std) ∧
    pad = List.replicate (os.width - whole.length) os.fill ∧
    streamOut init os text symbol = { os with width := 0, out := os.out ++ (if os.adjust = .left then whole ++ pad else pad ++ whole) } := by
  refine ⟨_, _, rfl, rfl, ?_⟩
  unfold streamOut toStream OStream.putNumber OStream.putString
  rw [if_pos hw]
  cases hs : symbol.std <;> simp [hn]

/-- A stream with precision 2, where a number is printed with as many sevens. -/
def exStream (w : Nat) : OStream Nat := ⟨2, '*', .left, w, ['x']⟩
/-- Printing a number with a precision. -/
def exText (p : Nat) : List Char := List.replicate p '7'

example : streamOut 6 (exStream 0) exText ⟨['m'], ['m']⟩ = { exStream 0 with out := "x77 m".toList } := by rfl
example : streamOut 2 (exStream 7) exText ⟨['m'], ['m']⟩ = { exStream 0 with out := "x77 m***".toList } := by rfl

/-- C51 is violated by the code: setting a width makes the stream's precision (flags, locale) be ignored. -/
theorem C51_precision_ignored :
    (streamOut 6 (exStream 0) exText ⟨['m'], ['m']⟩).out = "x77 m".toList ∧
    (streamOut 6 (exStream 9) exText ⟨['m'], ['m']⟩).out = "x777777 m*".toList := by constructor <;> rfl

end Verif
