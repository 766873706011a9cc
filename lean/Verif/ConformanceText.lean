import Verif.ConformanceCore
import Verif.Printed
import Verif.Format
import Verif.Ieee

/-!
# Replaying the tests of text output

An extension of `Verif.ConformanceCore` to the checks of test/unit_test/runtime/fmt_test.cpp and fmt_units_test.cpp.  How {fmt} and the standard library write
numbers is not code of the library: `numberText` implements as much of it as the tests use.  The results are tests of the model and not properties of the library.
-/

namespace Verif.Conformance

open Systems

/-- The digits of a number in a base, at least `w` of them. -/
def padDigits (w : Nat) (n : Nat) : List Char :=
  let ds := Nat.toDigits 10 n
  List.replicate (w - ds.length) '0' ++ ds

/-- The nearest natural number; ties to even. -/
def nearestNat (x : ℚ) : Nat :=
  let f := x.floor.toNat
  let r := x - f
  if r < 1 / 2 then f else if r > 1 / 2 then f + 1 else if f % 2 = 0 then f else f + 1

/-- `%.pf` of a magnitude. -/
def fixedText (p : Nat) (x : ℚ) : List Char :=
  let n := nearestNat (x * 10 ^ p)
  Nat.toDigits 10 (n / 10 ^ p) ++ if p = 0 then [] else '.' :: padDigits p (n % 10 ^ p)

/-- The decimal exponent of a magnitude rounded to `p + 1` digits, and the digits. -/
def sciDigits (p : Nat) (x : ℚ) : Int × Nat :=
  if x = 0 then (0, 0)
  else
    let e := Int.log 10 x
    let n := nearestNat (x * (10 : ℚ) ^ ((p : Int) - e))
    if n = 10 ^ (p + 1) then (e + 1, 10 ^ p) else (e, n)

/-- The text of an exponent. -/
def expText (e : Int) : List Char := 'e' :: (if e < 0 then '-' else '+') :: padDigits 2 e.natAbs

/-- `%.pe` of a magnitude. -/
def sciText (p : Nat) (x : ℚ) : List Char :=
  let (e, n) := sciDigits p x
  Nat.toDigits 10 (n / 10 ^ p) ++ (if p = 0 then [] else '.' :: padDigits p (n % 10 ^ p)) ++ expText e

/-- Without the zeros at the end of the fraction. -/
def trimZeros (t : List Char) : List Char :=
  if '.' ∈ t then
    let r := t.reverse.dropWhile (· = '0')
    (match r with
      | '.' :: r => r
      | r => r).reverse
  else t

/-- `%.pg` of a magnitude. -/
def generalText (p : Nat) (x : ℚ) : List Char :=
  let p := if p = 0 then 1 else p
  let (e, n) := sciDigits (p - 1) x
  if -4 ≤ e ∧ e < p then trimZeros (fixedText ((p : Int) - 1 - e).toNat x)
  else
    let q := p - 1
    trimZeros (Nat.toDigits 10 (n / 10 ^ q) ++ (if q = 0 then [] else '.' :: padDigits q (n % 10 ^ q))) ++ expText e

/-- The text of a number of the representation for a format string `{:[sign][#][.precision][type]}`. -/
def numberText (r : Rep) (v : ℚ) (f : List Char) : C (List Char) :=
  let s := (f.drop 2).dropLast
  let (sign, s) := (match s with
    | '+' :: s => ('+', s)
    | '-' :: s => ('-', s)
    | ' ' :: s => (' ', s)
    | s => ('-', s))
  let (alt, s) := (match s with
    | '#' :: s => (true, s)
    | s => (false, s))
  let (prec, s) := (match s with
    | '.' :: s => (some (digitsValue 0 (s.takeWhile isDigit)), s.dropWhile isDigit)
    | s => (none, s))
  let v := (match r with
    | .flt f => (FVal.round f (decide (v < 0)) |v|).q
    | .int _ => v)
  let sg := if v < 0 then ['-'] else if sign = '-' then [] else [sign]
  let up := fun (t : List Char) => t.map Char.toUpper
  let x := |v|
  match r, s with
  | .int _, [] | .int _, ['d'] => .ok (sg ++ Nat.toDigits 10 x.floor.toNat)
  | .int _, ['b'] => .ok (sg ++ (if alt then ['0', 'b'] else []) ++ Nat.toDigits 2 x.floor.toNat)
  | .int _, ['B'] => .ok (sg ++ (if alt then ['0', 'B'] else []) ++ Nat.toDigits 2 x.floor.toNat)
  | .int _, ['o'] => .ok (sg ++ (if alt then ['0'] else []) ++ Nat.toDigits 8 x.floor.toNat)
  | .int _, ['x'] => .ok (sg ++ (if alt then ['0', 'x'] else []) ++ Nat.toDigits 16 x.floor.toNat)
  | .int _, ['X'] => .ok (sg ++ (if alt then ['0', 'X'] else []) ++ up (Nat.toDigits 16 x.floor.toNat))
  | .flt _, ['f'] | .flt _, ['F'] => .ok (sg ++ fixedText (prec.getD 6) x)
  | .flt _, ['e'] => .ok (sg ++ sciText (prec.getD 6) x)
  | .flt _, ['E'] => .ok (sg ++ up (sciText (prec.getD 6) x))
  | .flt _, ['g'] => .ok (sg ++ generalText (prec.getD 6) x)
  | .flt _, ['G'] => .ok (sg ++ up (generalText (prec.getD 6) x))
  | _, _ => .error .rejected

/-- What a test inserts into a stream before the quantity. -/
inductive Ins where
  | text (s : String)
  | setw (n : Nat)
  | setfill (c : Char)
  | adjust (a : Adjust)

/-- A check of a test. -/
inductive CheckT where
  /-- `fmt::format(f, x) == out` -/
  | fmt (f : String) (x : Y) (out : String)
  /-- `os << … << x << end; os.str() == out` -/
  | stream (pre : List Ins) (x : Y) (suf : String) (out : String)
  /-- `os << x; fmt::format(f, x) == os.str()` -/
  | agree (f : String) (x : Y)
  /-- `fmt::format(f, x)` throws -/
  | throws (f : String) (x : Y)
  /-- a comparison -/
  | check (a : Check2)

/-- What is needed to write a quantity. -/
structure QText where
  rep : Rep
  value : ℚ
  symbol : SText

/-- The quantity that an expression stands for. -/
def Y.text (c : Cx) (x : Y) : C QText := do
  let v ← x.eval c
  match v with
  | .val (.qty q) => do
    let s ← c.S.printed q.ty.dim q.ty.unit
    .ok ⟨q.ty.rep, q.num.q, s⟩
  | _ => .error .rejected

/-- The environment of the formatter. -/
def QText.env (q : QText) : FmtEnv where
  fp := (match q.rep with | .flt _ => true | .int _ => false)
  number := numberText q.rep q.value
  symbol := q.symbol
  dispWidth := List.length

/-- `fmt::format` with one argument: the replacement fields `{}`, `{:spec}` and `{0:spec}`. -/
def fmtAll (q : QText) : Nat → List Char → C (List Char)
  | 0, _ => .error .divergence
  | _ + 1, [] => .ok []
  | k + 1, '{' :: s => do
    let field := s.takeWhile (· ≠ '}')
    let rest := (s.dropWhile (· ≠ '}')).drop 1
    let spec := (match field with
      | '0' :: ':' :: t => t
      | ':' :: t => t
      | t => t)
    let a ← fmtQuantity q.env spec
    let b ← fmtAll q k rest
    .ok (a ++ b)
  | k + 1, c :: s => do
    let b ← fmtAll q k s
    .ok (c :: b)

/-- Inserting a manipulator or a text. -/
def Ins.put (os : OStream Unit) : Ins → OStream Unit
  | .text s => os.putString s.toList
  | .setw n => { os with width := n }
  | .setfill c => { os with fill := c }
  | .adjust a => { os with adjust := a }

/-- What a new stream contains. -/
def QText.stream (q : QText) (pre : List Ins) (suf : String) : C (List Char) := do
  let n ← numberText q.rep q.value (match q.rep with | .flt _ => "{:g}".toList | .int _ => "{:}".toList)
  let os := pre.foldl Ins.put ⟨(), ' ', .right, 0, []⟩
  let os := streamOut () os (fun _ => n) q.symbol
  .ok ((os.putString suf.toList).out)

/-- Whether a check holds. -/
def CheckT.eval (c : Cx) : CheckT → Bool
  | .fmt f x out => isTrue do
    let q ← x.text c
    let t ← fmtAll q 1000 f.toList
    .ok (decide (t = out.toList))
  | .stream pre x suf out => isTrue do
    let q ← x.text c
    let t ← q.stream pre suf
    .ok (decide (t = out.toList))
  | .agree f x => isTrue do
    let q ← x.text c
    let t ← fmtAll q 1000 f.toList
    let s ← q.stream [] ""
    .ok (decide (t = s))
  | .throws f x =>
    match x.text c with
    | .ok q => isRejected (fmtAll q 1000 f.toList)
    | .error _ => false
  | .check a => a.eval c

/-- The checks of a test that do not hold in the model. -/
def failuresT (hs : List Nm) (cs : List (Nat × CheckT)) : Option (List Nat) :=
  match (do let S ← includeAll hs; declare S [] [] : C Cx) with
  | .ok c => some ((cs.filter fun x => !(x.2.eval c)).map (·.1))
  | .error _ => none

end Verif.Conformance
