import Verif.Root
import Verif.Num
import Mathlib.Data.Int.Log

/-!
# `units/bits/constexpr_math.h`: logarithm, exponential and power at compile time

A `double` is the rational number it denotes.  Every operation is followed by the rounding `fl`, a parameter:
the identity gives the functions in exact arithmetic, `rnd53` is the rounding of IEEE double precision (to nearest, ties to
even) without limits of the exponent.  Overflow to infinity, underflow and NaNs are not modelled.
-/

namespace Verif

/-- Rounding to the nearest integer, ties to even, of a nonnegative number (part of the `double` operations of
src/core/include/units/bits/constexpr_math.h:37-239). -/
def roundEven (x : ℚ) : Int :=
  let f := ⌊x⌋
  let r := x - f
  if r < 1 / 2 then f else if 1 / 2 < r then f + 1 else if f % 2 = 0 then f else f + 1

/-- Rounding to 53 significant binary digits, to nearest, ties to even: IEEE double precision without limits of the
exponent: the `double` operations of src/core/include/units/bits/constexpr_math.h:37-239. -/
def rnd53 (x : ℚ) : ℚ :=
  if x = 0 then 0
  else
    let e := Int.log 2 |x|
    let m := roundEven (|x| * 2 ^ (52 - e))
    (if x < 0 then -1 else 1) * m * 2 ^ (e - 52)

/-- The first loop of `to_decimal`, src/core/include/units/bits/constexpr_math.h:46-49; the number of iterations is limited
by the first argument, see `decFuel`. -/
def decUp (fl : ℚ → ℚ) : Nat → ℚ → Int → C (ℚ × Int)
  | 0, s, e => if s < 1 then .error .divergence else .ok (s, e)
  | k + 1, s, e => if s < 1 then decUp fl k (fl (s * 10)) (e - 1) else .ok (s, e)

/-- The second loop of `to_decimal`, src/core/include/units/bits/constexpr_math.h:51-54. -/
def decDown (fl : ℚ → ℚ) : Nat → ℚ → Int → C (ℚ × Int)
  | 0, s, e => if s ≥ 10 then .error .divergence else .ok (s, e)
  | k + 1, s, e => if s ≥ 10 then decDown fl k (fl (s / 10)) (e + 1) else .ok (s, e)

/-- A number of iterations that the loops of `to_decimal` do not exceed (proved: they end before); used only to make the
functions total (src/core/include/units/bits/constexpr_math.h:46-54 has no such bound). -/
def decFuel (v : ℚ) : Nat := v.num.natAbs.log2 + v.den.log2 + 2

/-- `to_decimal`, src/core/include/units/bits/constexpr_math.h:37-61. -/
def toDecimal (fl : ℚ → ℚ) (v : ℚ) : C (ℚ × Int) :=
  if v = 0 then .ok (0, 0)
  else do
    let (s, e) ← decUp fl (decFuel |v|) |v| 0
    let (s, e) ← decDown fl (decFuel |v|) s e
    .ok (if v < 0 then -s else s, e)

/-- `log_table`, src/core/include/units/bits/constexpr_math.h:78-178: the decimals as written, times `10^16`. -/
def logDigits : List Nat :=
  [0, 6931471805599453, 10986122886681098, 13862943611198906, 16094379124341003,
   17917594692280550, 19459101490553132, 20794415416798357, 21972245773362196, 23025850929940459,
   23978952727983707, 24849066497880004, 25649493574615367, 26390573296152584, 27080502011022101,
   27725887222397811, 28332133440562162, 28903717578961645, 29444389791664403, 29957322735539909,
   30445224377234230, 30910424533583161, 31354942159291497, 31780538303479458, 32188758248682006,
   32580965380214821, 32958368660043291, 33322045101752038, 33672958299864741, 34011973816621555,
   34339872044851463, 34657359027997265, 34965075614664802, 35263605246161616, 35553480614894135,
   35835189384561099, 36109179126442243, 36375861597263857, 36635616461296463, 36888794541139363,
   37135720667043080, 37376696182833684, 37612001156935624, 37841896339182610, 38066624897703196,
   38286413964890951, 38501476017100584, 38712010109078911, 38918202981106265, 39120230054281460,
   39318256327243257, 39512437185814275, 39702919135521220, 39889840465642745, 40073331852324712,
   40253516907351496, 40430512678345503, 40604430105464191, 40775374439057197, 40943445622221004,
   41108738641733114, 41271343850450917, 41431347263915326, 41588830833596715, 41743872698956368,
   41896547420264252, 42046926193909657, 42195077051761070, 42341065045972597, 42484952420493594,
   42626798770413155, 42766661190160553, 42904594411483910, 43040650932041702, 43174881135363101,
   43307333402863311, 43438054218536841, 43567088266895917, 43694478524670215, 43820266346738812,
   43944491546724391, 44067192472642533, 44188406077965983, 44308167988433134, 44426512564903167,
   44543472962535073, 44659081186545837, 44773368144782069, 44886363697321396, 44998096703302650,
   45108595065168497, 45217885770490405, 45325994931532563, 45432947822700038, 45538768916005408,
   45643481914678361, 45747109785033828, 45849674786705723, 45951198501345898]

/-- An element of `log_table`: the decimal as a double. -/
def logTable (fl : ℚ → ℚ) (i : Nat) : ℚ := fl ((logDigits.getD (i - 1) 0 : ℚ) / 10 ^ 16)

/-- The loop of `constexpr_log`, src/core/include/units/bits/constexpr_math.h:192-194, from `k` down to one (`2k+1` is exact). -/
def logLoop (fl : ℚ → ℚ) (ysq : ℚ) : Nat → ℚ → ℚ
  | 0, sum => sum
  | k + 1, sum => logLoop fl ysq k (fl (ysq * fl (fl (1 / (2 * (k + 1 : ℕ) + 1)) + sum)))

/-- `constexpr_log`, src/core/include/units/bits/constexpr_math.h:66-197.  Using an element outside of the table (and dividing by zero) is the
outcome `precondition`. -/
def constexprLog (fl : ℚ → ℚ) (v : ℚ) : C ℚ := do
  expects (v > 0)
  let (s, e) ← toDecimal fl v
  let s := fl (s * 10)
  let i := truncQ s
  if 1 ≤ i ∧ i ≤ 99 then
    let s := fl (s / i)
    let result := fl (fl (((e - 1 : Int) : ℚ) * logTable fl 10) + logTable fl i.toNat)
    let y := fl (fl (s - 1) / fl (s + 1))
    let ysq := fl (y * y)
    let sum := logLoop fl ysq 4 0
    let sum := fl (fl (2 * y) * fl (1 + sum))
    .ok (fl (result + sum))
  else .error .precondition

/-- `factorial` in the coefficients of `constexpr_exp`, src/core/include/units/bits/constexpr_math.h:213-216: a `std::size_t`, modulo
`2^64`. -/
def factMod : Nat → Nat
  | 0 => 1
  | k + 1 => factMod k * (k + 1) % 2 ^ 64

/-- `coefficients[i]`, src/core/include/units/bits/constexpr_math.h:211-219.  Division by zero is not a constant expression. -/
def expCoeff (fl : ℚ → ℚ) (i : Nat) : C ℚ :=
  if factMod (i + 1) = 0 then .error .divZero else .ok (fl (1 / fl (factMod (i + 1))))

/-- The loop of `constexpr_exp`, src/core/include/units/bits/constexpr_math.h:223-225, from `i = n - 1` down to zero. -/
def expLoop (fl : ℚ → ℚ) (x : ℚ) : Nat → ℚ → C ℚ
  | 0, result => .ok result
  | i + 1, result => do
    let c ← expCoeff fl i
    expLoop fl x i (fl (x * fl (c + result)))

/-- `pow_impl<N, double>` for `N ≥ 0`, src/core/include/units/bits/pow.h:61-75. -/
def powImplQ (fl : ℚ → ℚ) (n : Nat) (v : ℚ) : ℚ :=
  if n = 0 then 1
  else if n = 1 then v
  else if n % 2 = 0 then powImplQ fl (n / 2) (fl (v * v))
  else fl (v * powImplQ fl ((n - 1) / 2) (fl (v * v)))
termination_by n
decreasing_by all_goals omega

/-- `constexpr_exp<N, Factor>`, src/core/include/units/bits/constexpr_math.h:204-230, for `Factor > 0`. -/
def constexprExp (fl : ℚ → ℚ) (N : Nat) (factor : Nat) (v : ℚ) : C ℚ :=
  if factor = 0 then .error .rejected          -- `requires gt_zero<Factor>`
  else if N = 0 then .ok 1
  else do
    let x := fl (v / factor)
    let result ← expLoop fl x N 0
    .ok (powImplQ fl factor (fl (1 + result)))

/-- `constexpr_pow<ExpOrder, Factor>`, src/core/include/units/bits/constexpr_math.h:234-239. -/
def constexprPow (fl : ℚ → ℚ) (N : Nat) (factor : Nat) (v exponent : ℚ) : C ℚ := do
  let l ← constexprLog fl v
  constexprExp fl N factor (fl (exponent * l))

/-- The estimate of `iroot_compile<N>`, src/core/include/units/bits/root.h:46-47 and 65-70. -/
def compileEstC (fl : ℚ → ℚ) (n : Nat) (v : Int) : C Int := do
  let p ← constexprPow fl 12 64 (fl v) (fl (1 / n))
  let r := truncQ p
  if I64 r then .ok r else .error .overflow

/-- The estimate of `iroot_compile<N>` as a total function (zero when it is undefined). -/
def compileEst (fl : ℚ → ℚ) : RootEstimate := fun n v =>
  match compileEstC fl n v with
  | .ok r => r
  | .error _ => 0

end Verif
