import Verif.Format

/-!
# `units/format.h`: widths and precisions taken from arguments

`{:{}%.{}Q}` takes the width and the precision of a quantity from further arguments of the call.  This file extends
`Verif.Format`, which leaves these two cases out, by the members `width_ref` and `precision_ref` of the formatter and by
the numbering of arguments in the parse context.  The functions of {fmt} that are called (`parse_arg_id`,
`next_arg_id`, `check_arg_id`, `handle_dynamic_spec`) are modelled after fmt 7.1.3.  Arguments of type `__int128` are
not modelled.
-/

namespace Verif

/-- fmt: `arg_ref`, the type of `width_ref` and `precision_ref`, src/core-fmt/include/units/format.h:346-347. -/
inductive ArgRef where
  | none
  | index (i : Nat)
  | name (s : List Char)
deriving DecidableEq, Repr

/-- fmt: `next_arg_id_` of the parse context: how many arguments were numbered automatically, or that numbers are written
in the format string (`-1`). -/
inductive ArgIds where
  | auto (next : Nat)
  | manual
deriving DecidableEq, Repr

/-- fmt: `is_name_start`. -/
def isNameStart (c : Char) : Bool :=
  ['a', 'b', 'c', 'd', 'e', 'f', 'g', 'h', 'i', 'j', 'k', 'l', 'm', 'n', 'o', 'p', 'q', 'r', 's', 't', 'u', 'v', 'w', 'x', 'y', 'z',
   'A', 'B', 'C', 'D', 'E', 'F', 'G', 'H', 'I', 'J', 'K', 'L', 'M', 'N', 'O', 'P', 'Q', 'R', 'S', 'T', 'U', 'V', 'W', 'X', 'Y', 'Z',
   '_'].contains c

/-- fmt: the characters of a name after the first one. -/
def isNameChar (c : Char) : Bool := isNameStart c || isDigit c

/-- `spec_handler::make_arg_ref(auto_id)`, src/core-fmt/include/units/format.h:368-371, with fmt's `next_arg_id`. -/
def refAuto : ArgIds → C (ArgRef × ArgIds)
  | .auto n => .ok (.index n, .auto (n + 1))
  | .manual => .error .rejected

/-- `spec_handler::make_arg_ref(Id)` for a number, src/core-fmt/include/units/format.h:355-360, with fmt's `check_arg_id`. -/
def refIndex (i : Nat) : ArgIds → C (ArgRef × ArgIds)
  | .auto (_ + 1) => .error .rejected
  | _ => .ok (.index i, .manual)

/-- fmt: `parse_arg_id`, called with something left to read. -/
def parseArgId (ids : ArgIds) : List Char → C (ArgRef × ArgIds × List Char)
  | [] => .error .assertion
  | c :: l =>
    if c = '}' ∨ c = ':' then do
      let (ref, ids') ← refAuto ids
      .ok (ref, ids', c :: l)
    else if isDigit c then do
      let (v, r) ← (if c = '0' then .ok (0, l) else parseNonneg (c :: l))
      if r.head? = some '}' ∨ r.head? = some ':' then do
        let (ref, ids') ← refIndex v ids
        .ok (ref, ids', r)
      else .error .rejected
    else if isNameStart c then .ok (.name (c :: l.takeWhile isNameChar), ids, l.dropWhile isNameChar)
    else .error .rejected

/-- fmt: what `parse_width` and `parse_precision` do after an opening brace. -/
def parseDynamic (ids : ArgIds) (l : List Char) : C (ArgRef × ArgIds × List Char) :=
  if l = [] then .error .rejected
  else do
    let (ref, ids', r) ← parseArgId ids l
    match r with
    | '}' :: r' => .ok (ref, ids', r')
    | _ => .error .rejected

/-- The data members of the formatter and the numbering of the parse context,
src/core-fmt/include/units/format.h:340-348. -/
structure DynState where
  st : FmtState := {}
  widthRef : ArgRef := .none
  precRef : ArgRef := .none
  ids : ArgIds
deriving DecidableEq, Repr

/-- `parse precision`, src/core-fmt/include/units/format.h:139-145, and `on_dynamic_precision`, lines 408-412. -/
def parseRepPrecisionD (fp : Bool) (d : DynState) : List Char → C DynState
  | '.' :: '{' :: l =>
    if fp then do
      let (ref, ids, r) ← parseDynamic d.ids l
      let s ← parseRepLocale d.st.rep r
      .ok { d with st := { d.st with rep := s }, precRef := ref, ids := ids }
    else .error .rejected
  | l => do
    let s ← parseRepPrecision fp d.st.rep l
    .ok { d with st := { d.st with rep := s } }

/-- `parse #`, src/core-fmt/include/units/format.h:133-137. -/
def parseRepAltD (fp : Bool) (d : DynState) : List Char → C DynState
  | '#' :: l => parseRepPrecisionD fp { d with st := { d.st with rep := { d.st.rep with alt := true } } } l
  | l => parseRepPrecisionD fp d l

/-- `parse_units_rep`, src/core-fmt/include/units/format.h:111-157. -/
def parseUnitsRepD (fp : Bool) (d : DynState) : List Char → C DynState
  | '+' :: l => parseRepAltD fp { d with st := { d.st with rep := { d.st.rep with sign := some '+' } } } l
  | '-' :: l => parseRepAltD fp { d with st := { d.st with rep := { d.st.rep with sign := some '-' } } } l
  | ' ' :: l => parseRepAltD fp { d with st := { d.st with rep := { d.st.rep with sign := some ' ' } } } l
  | l => parseRepAltD fp d l

/-- `spec_handler::on_text`, `on_quantity_value`, `on_quantity_unit`, src/core-fmt/include/units/format.h:414-428. -/
def onParseD (fp : Bool) (d : DynState) : Event → C DynState
  | .text _ => .ok d
  | .value spec =>
    if spec ≠ [] then do
      let d' ← parseUnitsRepD fp d spec
      .ok { d' with st := { d'.st with quantityValue := true } }
    else .ok { d with st := { d.st with quantityValue := true } }
  | .unit c => .ok { d with st := { d.st with modifier := if c ≠ 'q' then some c else d.st.modifier, quantityUnit := true } }

/-- All calls in order. -/
def onParseAllD (fp : Bool) : DynState → List Event → C DynState
  | d, [] => .ok d
  | d, e :: es => do
    let d' ← onParseD fp d e
    onParseAllD fp d' es

/-- fmt: `parse_width`, with `on_width` and `on_dynamic_width`, src/core-fmt/include/units/format.h:376 and 402-406. -/
def parseWidthD (ids : ArgIds) : List Char → C (Nat × ArgRef × ArgIds × List Char)
  | '{' :: l => do
    let (ref, ids', r) ← parseDynamic ids l
    .ok (0, ref, ids', r)
  | l => do
    let (w, r) ← parseWidth l
    .ok (w.getD 0, .none, ids, r)

/-- `do_parse` and `parse`, src/core-fmt/include/units/format.h:437-472: the formatter, `format_str`, and where
parsing stopped. -/
def fmtParseD (fp : Bool) (ids : ArgIds) (s : List Char) : C (DynState × List Char × List Char) :=
  if s.head? = .none ∨ s.head? = some '}' then .ok ({ ids := ids }, [], s)
  else do
    let (fill, align, s1) ← parseAlign s
    let st : FmtState := { global := { fill := fill.getD ' ', align := align } }
    if s1 = [] then .ok ({ st := st, ids := ids }, [], [])
    else do
      let (w, ref, ids', s2) ← parseWidthD ids s1
      let d : DynState := { st := { st with global := { st.global with width := w } }, widthRef := ref, ids := ids' }
      if s2 = [] then .ok (d, [], [])
      else do
        let (es, rest) ← parseUnitsFormat [] s2
        let d ← onParseAllD fp d es
        let d := if d.st.global.align = .none ∧ (¬ d.st.quantityUnit ∨ d.st.quantityValue) then
          { d with st := { d.st with global := { d.st.global with align := .right } } } else d
        .ok (d, s2.take (s2.length - rest.length), rest)

/-- A formatting argument: an integer (other than `bool` and the character types), or anything else. -/
inductive FArg where
  | int (v : Int)
  | other
deriving DecidableEq, Repr

/-- The arguments of the call, by number and by name. -/
structure FArgs where
  byIndex : List FArg
  byName : List (List Char × FArg)

/-- fmt: `ctx.arg`. -/
def FArgs.get (a : FArgs) : ArgRef → Option FArg
  | .none => .none
  | .index i => a.byIndex[i]?
  | .name s => a.byName.lookup s

/-- fmt: `get_dynamic_spec` with `width_checker` or `precision_checker`: an integer that is not negative and fits into
`int`. -/
def dynSpec : Option FArg → C Nat
  | some (.int v) => if v < 0 then .error .rejected else if v > 2147483647 then .error .rejected else .ok v.toNat
  | _ => .error .rejected

/-- fmt: `handle_dynamic_spec`; `α` is the value the member has without an argument. -/
def handleDynamic {α : Type} (args : FArgs) (ofNat : Nat → α) (value : α) : ArgRef → C α
  | .none => .ok value
  | ref => do
    let v ← dynSpec (args.get ref)
    .ok (ofNat v)

/-- `format`, src/core-fmt/include/units/format.h:474-514. -/
def fmtFormatD (env : FmtEnv) (args : FArgs) (d : DynState) (formatStr : List Char) : C (List Char) := do
  let w ← handleDynamic args id d.st.global.width d.widthRef
  let p ← handleDynamic args some d.st.rep.precision d.precRef
  fmtFormat env { d.st with global := { d.st.global with width := w }, rep := { d.st.rep with precision := p } } formatStr

/-- `fmt::format("{:spec}", q, args...)`: parsing has to end at the closing brace.  `ids` says how the quantity itself was
referred to: `auto 1` after `{:`, `manual` after a number, `auto 0` after a name. -/
def fmtQuantityD (env : FmtEnv) (args : FArgs) (ids : ArgIds) (spec : List Char) : C (List Char) := do
  let (d, fs, rest) ← fmtParseD env.fp ids (spec ++ ['}'])
  if rest = ['}'] then fmtFormatD env args d fs else .error .rejected

end Verif
