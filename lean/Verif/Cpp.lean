import Mathlib.Data.Int.GCD
import Mathlib.Tactic.Linarith
import Mathlib.Tactic.Ring

/-!
# C++ integer semantics used by the model

Nothing here models a particular function of the library; it is the machine the library
runs on.  Signed arithmetic that leaves the range of `std::intmax_t`, a division by zero, a
failed `gsl_Expects` / `assert`, a violated precondition of a standard function and a loop
that never terminates are distinct outcomes (`UB`), never a value.  At compile time each of
them is a hard error ("the program is rejected").
-/

namespace Verif

/-- The ways in which an evaluation can fail to have a value. -/
inductive UB
  | overflow      -- signed integer overflow
  | divZero       -- division or remainder by zero
  | expects       -- failed `gsl_Expects`
  | assertion     -- failed `assert`
  | precondition  -- violated precondition of a standard library function
  | divergence    -- loop without progress
  | rejected      -- no viable overload / unsatisfied constraint
  | nonfinite     -- floating point result that is not a finite number (outside the model)
deriving DecidableEq, Repr

/-- Outcome of a C++ evaluation. -/
abbrev C (α : Type) := Except UB α

instance {α : Type} [DecidableEq α] : DecidableEq (C α) := fun a b =>
  match a, b with
  | .ok x, .ok y => if h : x = y then isTrue (by rw [h]) else isFalse (by simp [h])
  | .error x, .error y => if h : x = y then isTrue (by rw [h]) else isFalse (by simp [h])
  | .ok _, .error _ => isFalse (by simp)
  | .error _, .ok _ => isFalse (by simp)

/-- `INTMAX_MAX`. -/
def intMax : Int := 9223372036854775807
/-- `INTMAX_MIN`. -/
def intMin : Int := -9223372036854775808

/-- `x` is a value of type `std::intmax_t`. -/
def I64 (x : Int) : Prop := intMin ≤ x ∧ x ≤ intMax

instance (x : Int) : Decidable (I64 x) := inferInstanceAs (Decidable (_ ∧ _))

/-- Result of a signed operation whose mathematical result is `x`. -/
def chk (x : Int) : C Int := if I64 x then .ok x else .error .overflow

/-- Signed `a + b`. -/
def add64 (a b : Int) : C Int := chk (a + b)
/-- Signed `a - b`. -/
def sub64 (a b : Int) : C Int := chk (a - b)
/-- Signed `a * b`. -/
def mul64 (a b : Int) : C Int := chk (a * b)
/-- Signed `-a`. -/
def neg64 (a : Int) : C Int := chk (-a)
/-- Signed `a / b` (truncating). -/
def div64 (a b : Int) : C Int := if b = 0 then .error .divZero else chk (a.tdiv b)
/-- Signed `a % b` (sign of the dividend); `INT_MIN % -1` is undefined like the quotient. -/
def mod64 (a b : Int) : C Int :=
  if b = 0 then .error .divZero
  else if I64 (a.tdiv b) then .ok (a.tmod b) else .error .overflow

/-- `gsl_Expects(p)`. -/
def expects (p : Prop) [Decidable p] : C Unit := if p then .ok () else .error .expects
/-- `assert(p)`. -/
def cassert (p : Prop) [Decidable p] : C Unit := if p then .ok () else .error .assertion

/-- `std::gcd` on `std::intmax_t`: undefined unless both absolute values are representable. -/
def sgcd (a b : Int) : C Int :=
  if a = intMin ∨ b = intMin then .error .precondition else .ok (Int.gcd a b : Int)

/-- `2^64`. -/
def two64 : Nat := 18446744073709551616

/-- Unsigned 64-bit `a + b`. -/
def wadd (a b : Nat) : Nat := (a + b) % two64
/-- Unsigned 64-bit `a - b`. -/
def wsub (a b : Nat) : Nat := (a + (two64 - b)) % two64

/-! ### Reasoning about outcomes -/

theorem bind_ok {α β : Type} {x : C α} {f : α → C β} {y : β} :
    (x >>= f) = .ok y ↔ ∃ a, x = .ok a ∧ f a = .ok y := by
  cases x with
  | error e => simp [bind, Except.bind]
  | ok a => simp [bind, Except.bind]

@[simp] theorem ok_bind {α β : Type} (a : α) (f : α → C β) :
    ((Except.ok a : C α) >>= f) = f a := rfl

@[simp] theorem error_bind {α β : Type} (e : UB) (f : α → C β) :
    ((Except.error e : C α) >>= f) = .error e := rfl

@[simp] theorem pure_ok {α : Type} (a : α) : (pure a : C α) = .ok a := rfl

theorem chk_eq_ok {x y : Int} : chk x = .ok y ↔ I64 x ∧ y = x := by
  unfold chk; split <;> simp_all [eq_comm]

theorem chk_of {x : Int} (h : I64 x) : chk x = .ok x := by simp [chk, h]

theorem add64_eq_ok {a b y : Int} : add64 a b = .ok y ↔ I64 (a + b) ∧ y = a + b := chk_eq_ok
theorem sub64_eq_ok {a b y : Int} : sub64 a b = .ok y ↔ I64 (a - b) ∧ y = a - b := chk_eq_ok
theorem mul64_eq_ok {a b y : Int} : mul64 a b = .ok y ↔ I64 (a * b) ∧ y = a * b := chk_eq_ok
theorem neg64_eq_ok {a y : Int} : neg64 a = .ok y ↔ I64 (-a) ∧ y = -a := chk_eq_ok

theorem div64_eq_ok {a b y : Int} :
    div64 a b = .ok y ↔ b ≠ 0 ∧ I64 (a.tdiv b) ∧ y = a.tdiv b := by
  unfold div64; split <;> simp_all [chk_eq_ok]

theorem mod64_eq_ok {a b y : Int} :
    mod64 a b = .ok y ↔ b ≠ 0 ∧ I64 (a.tdiv b) ∧ y = a.tmod b := by
  unfold mod64; split
  · simp_all
  · split <;> simp_all [eq_comm]

theorem expects_eq_ok {p : Prop} [Decidable p] {u : Unit} : expects p = .ok u ↔ p := by
  unfold expects; split <;> simp_all

theorem cassert_eq_ok {p : Prop} [Decidable p] {u : Unit} : cassert p = .ok u ↔ p := by
  unfold cassert; split <;> simp_all

theorem sgcd_eq_ok {a b y : Int} :
    sgcd a b = .ok y ↔ a ≠ intMin ∧ b ≠ intMin ∧ y = (Int.gcd a b : Int) := by
  unfold sgcd; split
  · rename_i h; rcases h with h | h <;> simp [h]
  · rename_i h; push Not at h; simp [h, eq_comm]

theorem I64_tdiv {a b : Int} (ha : I64 a) (hb : b ≠ 0) (hne : a ≠ intMin ∨ b ≠ -1) :
    I64 (a.tdiv b) := by
  have h1 : (a.tdiv b).natAbs = a.natAbs / b.natAbs := Int.natAbs_tdiv a b
  unfold I64 intMin intMax at *
  by_cases hb1 : b.natAbs = 1
  · rcases Int.natAbs_eq_iff.mp hb1 with h | h
    · subst h; simp; omega
    · subst h; simp at *; omega
  · have : b.natAbs ≥ 2 := by omega
    have h2 : a.natAbs / b.natAbs ≤ a.natAbs / 2 := Nat.div_le_div_left this (by norm_num)
    omega

theorem wsub_of_le {a b : Nat} (h : b ≤ a) (ha : a < two64) : wsub a b = a - b := by
  unfold wsub two64 at *; omega

end Verif
