import Verif.Cpp

/-!
# `units/bits/external/fixed_string.h` and `units/symbol_text.h`: compile-time strings

Characters are represented by their values, so nothing depends on the signedness of `char`.
-/

namespace Verif

/-- `basic_fixed_string<CharT, N>`, src/core/include/units/bits/external/fixed_string.h:44-46: the size and the
array `data_` of `N + 1` characters (as a function of the index). -/
structure FStr where
  n : Nat
  data : Nat → Int

/-- `for (i = …; i != n; ++i) txt[off + i] = src[i];`, with `k` iterations left. -/
def copyLoop (src : Nat → Int) (off : Nat) : Nat → Nat → (Nat → Int) → (Nat → Int)
  | 0, _, txt => txt
  | k + 1, i, txt => copyLoop src off k (i + 1) fun j => if j = off + i then src i else txt j

/-- `basic_fixed_string(const CharT (&txt)[N + 1])`,
src/core/include/units/bits/external/fixed_string.h:53-57. -/
def fstrOfArray (n : Nat) (txt : Nat → Int) : FStr := ⟨n, copyLoop txt 0 n 0 fun _ => 0⟩

/-- `basic_fixed_string(CharT)`, src/core/include/units/bits/external/fixed_string.h:51. -/
def fstrOfChar (c : Int) : FStr := ⟨1, fun j => if j = 0 then c else 0⟩

/-- `operator+`, src/core/include/units/bits/external/fixed_string.h:71-81. -/
def FStr.concat (a b : FStr) : FStr :=
  fstrOfArray (a.n + b.n) (copyLoop b.data a.n b.n 0 (copyLoop a.data 0 a.n 0 fun _ => 0))

/-- The loop of `operator==`, with `k` characters left. -/
def eqLoop (a b : FStr) : Nat → Nat → Bool
  | 0, _ => true
  | k + 1, i => if a.data i ≠ b.data i then false else eqLoop a b k (i + 1)

/-- `operator==`, src/core/include/units/bits/external/fixed_string.h:83-96. -/
def FStr.eq (a b : FStr) : Bool := if a.n ≠ b.n then false else eqLoop a b a.n 0

/-- The loop of `operator<=>`, with the numbers of characters left in both strings. -/
def cmpLoop (a b : FStr) : Nat → Nat → Nat → Ordering
  | 0, 0, _ => .eq
  | 0, _ + 1, _ => .lt
  | _ + 1, 0, _ => .gt
  | k + 1, l + 1, i =>
    if a.data i < b.data i then .lt else if b.data i < a.data i then .gt else cmpLoop a b k l (i + 1)

/-- `operator<=>`, src/core/include/units/bits/external/fixed_string.h:98-115. -/
def FStr.cmp (a b : FStr) : Ordering := cmpLoop a b a.n b.n 0

/-- `basic_symbol_text`, src/core/include/units/symbol_text.h:64-67. -/
structure SymText where
  standard : FStr
  ascii : FStr

/-- `detail::validate_ascii_string`, src/core/include/units/symbol_text.h:38-48 (with assertions enabled), with
`k` characters left. -/
def validateAscii (s : FStr) : Nat → Nat → C Unit
  | 0, _ => .ok ()
  | k + 1, i => if 0 ≤ s.data i ∧ s.data i < 128 then validateAscii s k (i + 1) else .error .expects

/-- `basic_symbol_text(standard, ascii)`, src/core/include/units/symbol_text.h:69-74. -/
def mkSymText (s a : FStr) : C SymText := do
  validateAscii a a.n 0
  .ok ⟨s, a⟩

/-- `operator+`, src/core/include/units/symbol_text.h:81-87. -/
def SymText.concat (a b : SymText) : C SymText := mkSymText (a.standard.concat b.standard) (a.ascii.concat b.ascii)

/-- `operator==`, src/core/include/units/symbol_text.h:137-142. -/
def SymText.eq (a b : SymText) : Bool := a.standard.eq b.standard && a.ascii.eq b.ascii

/-- `operator<=>`, src/core/include/units/symbol_text.h:129-135. -/
def SymText.cmp (a b : SymText) : Ordering :=
  if a.standard.cmp b.standard ≠ .eq then a.standard.cmp b.standard else a.ascii.cmp b.ascii

/-- The characters of a string (specification). -/
def FStr.toList (s : FStr) : List Int := (List.range s.n).map s.data

end Verif
