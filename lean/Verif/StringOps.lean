import Verif.FixedString

/-!
# The rest of `units/bits/external/fixed_string.h`, `fixed_string_io.h` and `units/symbol_text.h`

Construction from one character or from an array of any size, access, iteration, comparison with characters and literals, output,
and the mixed `operator+` of symbol texts.  The array of a string of size `n` has the indices `0` to `n`; what is read beyond is
undefined behaviour.
-/

namespace Verif

/-! ### Strings -/

/-- `basic_fixed_string<CharT, N>(CharT)` for any `N`, src/core/include/units/bits/external/fixed_string.h:46, 51: the array is
zeroed and the first element assigned. -/
def fstrOfCharN (n : Nat) (c : Int) : FStr := ⟨n, fun j => if j = 0 then c else 0⟩

/-- `basic_fixed_string(const CharT (&str)[N])` with the size deduced, src/core/include/units/bits/external/fixed_string.h:118-119, 53-57.
There are no arrays of size zero. -/
def deduceFStr (len : Nat) (txt : Nat → Int) : C FStr :=
  if len = 0 then .error .rejected else .ok (fstrOfArray (len - 1) txt)

/-- `operator[]`, src/core/include/units/bits/external/fixed_string.h:63-64 (`data_` has `N + 1` elements). -/
def FStr.index (s : FStr) (i : Nat) : C Int := if i ≤ s.n then .ok (s.data i) else .error .precondition

/-- `empty()`, src/core/include/units/bits/external/fixed_string.h:59. -/
def FStr.empty (s : FStr) : Bool := s.n == 0

/-- `size()`, src/core/include/units/bits/external/fixed_string.h:60. -/
def FStr.size (s : FStr) : Nat := s.n

/-- What an iteration from `begin()` to `end()` reads, src/core/include/units/bits/external/fixed_string.h:67, 69, with `k` elements left. -/
def FStr.iterFrom (s : FStr) : Nat → Nat → C (List Int)
  | 0, _ => .ok []
  | k + 1, i => do
    let c ← s.index i
    let cs ← s.iterFrom k (i + 1)
    .ok (c :: cs)

/-- An iteration over a constant string. -/
def FStr.iter (s : FStr) : C (List Int) := s.iterFrom s.size 0

/-- A pointer to characters, `CharT*` or `const CharT*`. -/
inductive PtrTy where
  | mut | const
deriving DecidableEq

/-- Qualification conversions: `const` may be added. -/
def PtrTy.converts : PtrTy → PtrTy → Bool
  | .const, .mut => false
  | _, _ => true

/-- The type of `data()`, src/core/include/units/bits/external/fixed_string.h:61: there is only a `const` overload. -/
def dataTy : PtrTy := .const

/-- Whether `begin()` and `end()` compile when called on a constant or another object,
src/core/include/units/bits/external/fixed_string.h:48-49, 66-69: `return data();` with the type `const_iterator` or `iterator`. -/
def beginCompiles (constObject : Bool) : Bool := dataTy.converts (if constObject then .const else .mut)

/-- `os << (const CharT*)`: reads characters up to the first zero, with `k` elements of the array left. -/
def streamFrom (s : FStr) : Nat → Nat → C (List Int)
  | 0, _ => .error .precondition
  | k + 1, i => if s.data i = 0 then .ok [] else do
    let cs ← streamFrom s k (i + 1)
    .ok (s.data i :: cs)

/-- `os << txt`, src/core-io/include/units/bits/external/fixed_string_io.h:31-34: `os << txt.c_str()`
(src/core/include/units/bits/external/fixed_string.h:61-62). -/
def FStr.stream (s : FStr) : C (List Int) := streamFrom s (s.n + 1) 0

/-- `s == c`: the character is converted to the type of the string, src/core/include/units/bits/external/fixed_string.h:51, 83-93. -/
def FStr.eqChar (s : FStr) (c : Int) : Bool := s.eq (fstrOfCharN s.n c)

/-- `s == txt` for an array of `len` characters: it is converted to the type of the string, which needs the same size,
src/core/include/units/bits/external/fixed_string.h:53-57, 83-96. -/
def FStr.eqArray (s : FStr) (len : Nat) (txt : Nat → Int) : C Bool :=
  if len = s.n + 1 then .ok (s.eq (fstrOfArray s.n txt)) else .error .rejected

/-! ### Symbol texts -/

/-- The value of a character after a conversion to a signed `char` of eight bits.  (With an unsigned `char` the values accepted by
the check below and what is stored for them are the same.) -/
def toChar (c : Int) : Int := (c + 128) % 256 - 128

/-- `detail::validate_ascii_char`, src/core/include/units/symbol_text.h:38. -/
def validateAsciiChar (c : Int) : C Unit := if 0 ≤ c ∧ c < 128 then .ok () else .error .expects

/-- `basic_symbol_text(char)`, src/core/include/units/symbol_text.h:69, 145.  A character of another type is converted to `char`. -/
def symOfChar (c : Int) : C SymText := do
  validateAsciiChar (toChar c)
  .ok ⟨fstrOfChar (toChar c), fstrOfChar (toChar c)⟩

/-- `basic_symbol_text(StandardCharT, char)`, src/core/include/units/symbol_text.h:70, 147-148. -/
def symOfChars (s a : Int) : C SymText := do
  validateAsciiChar a
  .ok ⟨fstrOfChar s, fstrOfChar a⟩

/-- `basic_symbol_text(const basic_fixed_string<char, N>&)`, src/core/include/units/symbol_text.h:72, 153-154. -/
def symOfStr (s : FStr) : C SymText := mkSymText s s

/-- `basic_symbol_text(const char (&)[N])`, src/core/include/units/symbol_text.h:71, 150-151: both strings from one array. -/
def symOfArray (len : Nat) (txt : Nat → Int) : C SymText := do
  let s ← deduceFStr len txt
  symOfStr s

/-- `basic_symbol_text(const StandardCharT (&)[N], const char (&)[M])`, src/core/include/units/symbol_text.h:73, 156-157. -/
def symOfArrays (len : Nat) (txt : Nat → Int) (len' : Nat) (txt' : Nat → Int) : C SymText := do
  let s ← deduceFStr len txt
  let a ← deduceFStr len' txt'
  mkSymText s a

/-- What may be added to a symbol text: a symbol text, a string, an array of characters, or a character.  Strings and arrays are
of `char`; with another character type these operators do not compile, since a symbol text is made of one string of `char` only.
A character may be of any type. -/
inductive TextArg where
  | sym (x : SymText)
  | str (s : FStr)
  | arr (len : Nat) (txt : Nat → Int)
  | chr (c : Int)

/-- The symbol text made of the other operand, src/core/include/units/symbol_text.h:93, 100, 107, 114, 120, 126. -/
def TextArg.toSym : TextArg → C SymText
  | .sym x => .ok x
  | .str s => symOfStr s
  | .arr len txt => symOfArray len txt
  | .chr c => symOfChar c

/-- `sym + x`, src/core/include/units/symbol_text.h:81-94, 103-108, 117-121. -/
def SymText.plus (a : SymText) (x : TextArg) : C SymText := do
  let b ← x.toSym
  a.concat b

/-- `x + sym`, src/core/include/units/symbol_text.h:96-101, 110-115, 123-127. -/
def SymText.plusLeft (x : TextArg) (a : SymText) : C SymText := do
  let b ← x.toSym
  b.concat a

/-! ### Specification -/

/-- The characters of an operand as written: all elements of an array but the terminator. -/
def TextArg.chars : TextArg → List Int × List Int
  | .sym x => (x.standard.toList, x.ascii.toList)
  | .str s => (s.toList, s.toList)
  | .arr len txt => ((List.range (len - 1)).map txt, (List.range (len - 1)).map txt)
  | .chr c => ([c], [c])

/-- An ASCII character. -/
def Ascii (c : Int) : Prop := 0 ≤ c ∧ c < 128

end Verif
