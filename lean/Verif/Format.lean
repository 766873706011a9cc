import Verif.Text

/-!
# `units/format.h` and `units/quantity_io.h`: formatted and stream output

A format specification is a list of characters.  The functions of the library {fmt} that are called
(`parse_align`, `parse_width`, `parse_precision`, and the formatting of numbers and strings) are not part of the
repository: the first three are modelled after fmt 7.1.3, the formatting of numbers is a parameter.
Dynamic widths and precisions (`{}` inside the specification) are not modelled; they give the distinct
outcome `precondition`.
-/

namespace Verif

/-- `fmt::align_t`. -/
inductive Align where
  | none | left | right | center
deriving DecidableEq, Repr

/-- `global_format_specs`, src/core-fmt/include/units/format.h:86-93. -/
structure GlobalSpecs where
  fill : Char := ' '
  align : Align := .none
  width : Nat := 0
deriving DecidableEq, Repr

/-- `rep_format_specs`, src/core-fmt/include/units/format.h:95-103 (`none` for the initial values). -/
structure RepSpecs where
  sign : Option Char := .none
  precision : Option Nat := .none
  type : Option Char := .none
  alt : Bool := false
  useLocale : Bool := false
deriving DecidableEq, Repr

/-- The data members of the formatter that parsing sets: `global_specs`, `rep_specs`, `unit_specs.modifier`,
`quantity_value`, `quantity_unit`, src/core-fmt/include/units/format.h:340-344. -/
structure FmtState where
  global : GlobalSpecs := {}
  rep : RepSpecs := {}
  modifier : Option Char := .none
  quantityValue : Bool := false
  quantityUnit : Bool := false
deriving DecidableEq, Repr

/-- A call `parse_units_format` makes on its handler, src/core-fmt/include/units/format.h:159-212. -/
inductive Event where
  | text (cs : List Char)
  | value (spec : List Char)
  | unit (first : Char)
deriving DecidableEq, Repr

/-- fmt: the alignment a character stands for. -/
def alignOf (c : Char) : Align :=
  if c = '<' then .left else if c = '>' then .right else if c = '^' then .center else .none

/-- fmt: `parse_align`; the fill character (if given), the alignment, and the rest. -/
def parseAlign : List Char → C (Option Char × Align × List Char)
  | [] => .error .assertion
  | [a] => if alignOf a ≠ .none then .ok (.none, alignOf a, []) else .ok (.none, .none, [a])
  | a :: b :: rest =>
    if alignOf b ≠ .none then
      if a = '{' then .error .rejected else .ok (some a, alignOf b, rest)
    else if alignOf a ≠ .none then .ok (.none, alignOf a, b :: rest)
    else .ok (.none, .none, a :: b :: rest)

/-- A decimal digit. -/
def isDigit (c : Char) : Bool := asciiDigits.contains c

/-- The value of decimal digits, continuing from `acc`. -/
def digitsValue (acc : Nat) (l : List Char) : Nat := l.foldl (fun a c => 10 * a + asciiDigits.idxOf c) acc

/-- fmt: `parse_nonnegative_int`, rejecting numbers that do not fit into `int`. -/
def parseNonneg (l : List Char) : C (Nat × List Char) :=
  let v := digitsValue 0 (l.takeWhile isDigit)
  if v ≤ 2147483647 then .ok (v, l.dropWhile isDigit) else .error .rejected

/-- fmt: `parse_width`. -/
def parseWidth : List Char → C (Option Nat × List Char)
  | [] => .error .assertion
  | c :: l =>
    if isDigit c then do
      let (v, r) ← parseNonneg (c :: l)
      .ok (some v, r)
    else if c = '{' then .error .precondition
    else .ok (.none, c :: l)

/-- fmt: `parse_precision`, after the dot. -/
def parsePrecision : List Char → C (Nat × List Char)
  | [] => .error .rejected
  | c :: l =>
    if isDigit c then parseNonneg (c :: l)
    else if c = '{' then .error .precondition
    else .error .rejected

/-- `valid_rep_types`, src/core-fmt/include/units/format.h:385. -/
def validRepTypes : List Char := ['a', 'A', 'b', 'B', 'd', 'e', 'E', 'f', 'F', 'g', 'G', 'o', 'x', 'X']

/-- The last part of `parse_units_rep`, src/core-fmt/include/units/format.h:153-156, with
`on_type`, lines 383-391.  What follows the type is not looked at. -/
def parseRepType (s : RepSpecs) : List Char → C RepSpecs
  | [] => .ok s
  | c :: _ =>
    if c ≠ '}' ∧ c ≠ '%' then
      if validRepTypes.contains c then .ok { s with type := some c } else .error .rejected
    else .ok s

/-- `parse L`, src/core-fmt/include/units/format.h:147-151. -/
def parseRepLocale (s : RepSpecs) : List Char → C RepSpecs
  | 'L' :: l => parseRepType { s with useLocale := true } l
  | l => parseRepType s l

/-- `parse precision`, src/core-fmt/include/units/format.h:139-145. -/
def parseRepPrecision (fp : Bool) (s : RepSpecs) : List Char → C RepSpecs
  | '.' :: l =>
    if fp then do
      let (p, r) ← parsePrecision l
      parseRepLocale { s with precision := some p } r
    else .error .rejected
  | l => parseRepLocale s l

/-- `parse #`, src/core-fmt/include/units/format.h:133-137. -/
def parseRepAlt (fp : Bool) (s : RepSpecs) : List Char → C RepSpecs
  | '#' :: l => parseRepPrecision fp { s with alt := true } l
  | l => parseRepPrecision fp s l

/-- `parse_units_rep`, src/core-fmt/include/units/format.h:111-157, called with a non-empty specification. -/
def parseUnitsRep (fp : Bool) (s : RepSpecs) : List Char → C RepSpecs
  | '+' :: l => parseRepAlt fp { s with sign := some '+' } l
  | '-' :: l => parseRepAlt fp { s with sign := some '-' } l
  | ' ' :: l => parseRepAlt fp { s with sign := some ' ' } l
  | l => parseRepAlt fp s l

/-- `std::find_first_of(begin, end, "Qq")`: what comes before the first of the two letters, the letter, and
what comes after it. -/
def findQ : List Char → Option (List Char × Char × List Char)
  | [] => .none
  | c :: l => if c = 'Q' ∨ c = 'q' then some ([], c, l) else (findQ l).map fun (a, x, b) => (c :: a, x, b)

theorem findQ_length {l a b : List Char} {x : Char} (h : findQ l = some (a, x, b)) : b.length < l.length := by
  induction l generalizing a with
  | nil => cases h
  | cons c l ih =>
    simp only [findQ] at h
    split at h
    · simp only [Option.some.injEq, Prod.mk.injEq] at h
      obtain ⟨-, -, rfl⟩ := h
      simp
    · simp only [Option.map_eq_some_iff] at h
      obtain ⟨⟨a', x', b'⟩, h1, h2⟩ := h
      simp only [Prod.mk.injEq] at h2
      obtain ⟨-, rfl, rfl⟩ := h2
      have := ih h1
      simp only [List.length_cons]; omega

/-- The text read so far, as a call of the handler if it is not empty. -/
def flush (acc : List Char) : List Event := if acc = [] then [] else [.text acc]

set_option linter.unusedVariables false in
/-- `parse_units_format`, src/core-fmt/include/units/format.h:159-212: the calls made on the handler and where the loop
stopped; `acc` is the text between `begin` and `ptr`. -/
def parseUnitsFormat (acc : List Char) (ptr : List Char) : C (List Event × List Char) :=
  match ptr with
  | [] => .ok (flush acc, [])
  | c :: p =>
    if c = '}' then .ok (flush acc, c :: p)
    else if c ≠ '%' then parseUnitsFormat (acc ++ [c]) p
    else
      match p with
      | [] => .error .rejected
      | d :: p' =>
        if d = '%' then do
          let (es, r) ← parseUnitsFormat [] p'
          .ok (flush acc ++ .text ['%'] :: es, r)
        else if d = 'n' then do
          let (es, r) ← parseUnitsFormat [] p'
          .ok (flush acc ++ .text ['\n'] :: es, r)
        else if d = 't' then do
          let (es, r) ← parseUnitsFormat [] p'
          .ok (flush acc ++ .text ['\t'] :: es, r)
        else
          match h : findQ (d :: p') with
          | .none => .error .rejected
          | some (a, x, b) => do
            let (es, r) ← parseUnitsFormat [] b
            .ok (flush acc ++ (if x = 'Q' then .value a else .unit d) :: es, r)
termination_by ptr.length
decreasing_by
  all_goals first
    | (have := findQ_length h; simp_all; omega)
    | (simp_all <;> omega)

/-- The handler of `parse`, `spec_handler::on_text`, `on_quantity_value`, `on_quantity_unit`,
src/core-fmt/include/units/format.h:414-428. -/
def onParse (fp : Bool) (s : FmtState) : Event → C FmtState
  | .text _ => .ok s
  | .value spec =>
    if spec ≠ [] then do
      let r ← parseUnitsRep fp s.rep spec
      .ok { s with rep := r, quantityValue := true }
    else .ok { s with quantityValue := true }
  | .unit c => .ok { s with modifier := if c ≠ 'q' then some c else s.modifier, quantityUnit := true }

/-- All calls in order. -/
def onParseAll (fp : Bool) : FmtState → List Event → C FmtState
  | s, [] => .ok s
  | s, e :: es => do
    let s' ← onParse fp s e
    onParseAll fp s' es

/-- `do_parse` and `parse`, src/core-fmt/include/units/format.h:437-472: the formatter, `format_str`, and where
parsing stopped. -/
def fmtParse (fp : Bool) (s : List Char) : C (FmtState × List Char × List Char) :=
  if s.head? = .none ∨ s.head? = some '}' then .ok ({}, [], s)
  else do
    let (fill, align, s1) ← parseAlign s
    let st : FmtState := { global := { fill := fill.getD ' ', align := align } }
    if s1 = [] then .ok (st, [], [])
    else do
      let (w, s2) ← parseWidth s1
      let st : FmtState := { st with global := { st.global with width := w.getD 0 } }
      if s2 = [] then .ok (st, [], [])
      else do
        let (es, rest) ← parseUnitsFormat [] s2
        let st ← onParseAll fp st es
        let st := if st.global.align = .none ∧ (¬ st.quantityUnit ∨ st.quantityValue) then
          { st with global := { st.global with align := .right } } else st
        .ok (st, s2.take (s2.length - rest.length), rest)

/-- The context of formatting: whether the representation is a floating point type, the number formatted by
fmt with a given format string, the unit symbol in both versions, and the width fmt assigns to a text. -/
structure FmtEnv where
  fp : Bool
  number : List Char → C (List Char)
  symbol : SText
  dispWidth : List Char → Nat

/-- The format string `format_units_quantity_value` passes to fmt, src/core-fmt/include/units/format.h:214-256. -/
def repFormatString (fp : Bool) (s : RepSpecs) : List Char :=
  ['{', ':'] ++ s.sign.toList ++ (if s.alt then ['#'] else []) ++
    (match s.precision with
      | some p => '.' :: (decChars p ++ [s.type.getD 'f'])
      | .none => if fp then [s.type.getD 'g'] else s.type.toList) ++
    (if s.useLocale then ['L'] else []) ++ ['}']
where
  /-- fmt: a number formatted with `{}`. -/
  decChars (n : Nat) : List Char := Nat.toDigits 10 n

/-- The handler of `format`, `units_formatter`, src/core-fmt/include/units/format.h:287-327: the text appended. -/
def onFormat (env : FmtEnv) (s : FmtState) : Event → C (List Char)
  | .text cs => .ok cs
  | .value _ => env.number (repFormatString env.fp s.rep)
  | .unit _ => if s.modifier = some 'A' then .ok env.symbol.ascii else .ok env.symbol.std

/-- All calls in order. -/
def onFormatAll (env : FmtEnv) (s : FmtState) : List Event → C (List Char)
  | [] => .ok []
  | e :: es => do
    let t ← onFormat env s e
    let ts ← onFormatAll env s es
    .ok (t ++ ts)

/-- `format_global_buffer`, src/core-fmt/include/units/format.h:259-285, without the enclosing braces. -/
def globalFormatString (g : GlobalSpecs) : List Char :=
  (if g.fill ≠ ' ' then [g.fill] else []) ++
    (match g.align with
      | .left => ['<']
      | .right => ['>']
      | .center => ['^']
      | .none => []) ++
    (if g.width ≥ 1 then Nat.toDigits 10 g.width else [])

/-- fmt: padding a text to a width (texts are aligned to the left by default). -/
def padText (dispWidth : List Char → Nat) (g : GlobalSpecs) (t : List Char) : List Char :=
  let n := g.width - dispWidth t
  match g.align with
  | .right => List.replicate n g.fill ++ t
  | .center => List.replicate (n / 2) g.fill ++ t ++ List.replicate (n - n / 2) g.fill
  | _ => t ++ List.replicate n g.fill

/-- fmt: formatting a text with the format string `{:spec}` (only fill, alignment and width occur). -/
def fmtString (dispWidth : List Char → Nat) (spec : List Char) (t : List Char) : C (List Char) :=
  if spec = [] then .ok t
  else do
    let (fill, align, s1) ← parseAlign spec
    let (w, s2) ← (if s1 = [] then .ok (.none, []) else parseWidth s1)
    if s2 = [] then .ok (padText dispWidth ⟨fill.getD ' ', align, w.getD 0⟩ t) else .error .rejected

/-- `format`, src/core-fmt/include/units/format.h:474-514. -/
def fmtFormat (env : FmtEnv) (st : FmtState) (formatStr : List Char) : C (List Char) := do
  let body ← (if formatStr.head? = .none ∨ formatStr.head? = some '}' then do
      let n ← env.number (repFormatString env.fp st.rep)
      .ok (if env.symbol.std.length > 0 then n ++ ' ' :: env.symbol.std else n)
    else do
      let (es, _) ← parseUnitsFormat [] formatStr
      onFormatAll env st es)
  fmtString env.dispWidth (globalFormatString st.global) body

/-- `fmt::format("{:spec}", q)`: parsing has to end at the closing brace. -/
def fmtQuantity (env : FmtEnv) (spec : List Char) : C (List Char) := do
  let (st, fs, rest) ← fmtParse env.fp (spec ++ ['}'])
  if rest = ['}'] then fmtFormat env st fs else .error .rejected

/-! ## Stream output -/

/-- `std::ios_base::adjustfield`. -/
inductive Adjust where
  | left | right | internal
deriving DecidableEq, Repr

/-- An output stream: everything that influences how numbers look (flags, precision, locale; `σ`), the fill
character, the adjustment, the width, and what has been written. -/
structure OStream (σ : Type) where
  numFmt : σ
  fill : Char
  adjust : Adjust
  width : Nat
  out : List Char

/-- Standard library: inserting a string pads it to the width and resets the width. -/
def OStream.putString {σ : Type} (os : OStream σ) (t : List Char) : OStream σ :=
  let pad := List.replicate (os.width - t.length) os.fill
  { os with width := 0, out := os.out ++ (if os.adjust = .left then t ++ pad else pad ++ t) }

/-- Standard library: inserting a number whose text is `text` under the given formatting state (`internal`
adjustment is treated like `right`; only used with width zero here). -/
def OStream.putNumber {σ : Type} (os : OStream σ) (text : σ → List Char) : OStream σ :=
  os.putString (text os.numFmt)

/-- `detail::to_stream`, src/core-io/include/units/quantity_io.h:38-46. -/
def toStream {σ : Type} (os : OStream σ) (text : σ → List Char) (symbol : SText) : OStream σ :=
  let os := os.putNumber text
  if symbol.std ≠ [] then (os.putString [' ']).putString symbol.std else os

/-- `operator<<`, src/core-io/include/units/quantity_io.h:50-63.  `init` is the state of a newly constructed
`std::basic_ostringstream`. -/
def streamOut {σ : Type} (init : σ) (os : OStream σ) (text : σ → List Char) (symbol : SText) : OStream σ :=
  if os.width ≠ 0 then
    let s := toStream ⟨init, ' ', .right, 0, []⟩ text symbol
    os.putString s.out
  else toStream os text symbol

end Verif
