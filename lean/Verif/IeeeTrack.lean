import Verif.IeeeKalman
import Verif.IeeeExpr
import Verif.IeeeMath

/-!
# Kalman filters with two and three variables and IEEE numbers

example/kalman_filter/kalman.h for states of two and three variables and the loop of example/kalman_filter/kalman_filter-example_2.cpp, with the rounding of the
floating point operations.  That the interval is a time is not checked here, only that the operations accept it.
-/

namespace Verif

/-- `state_update` for two variables, example/kalman_filter/kalman.h:100-107. -/
def stateUpdate2I (E : Env) (R : Rebinds) (s1 s2 m : VarI) (k1 k2 t : QtyI) : C (VarI × VarI) := do
  let e ← dimEquivalent s1.under.ty.dim m.under.ty.dim
  if e ∧ k1.ty.dim = .named dimOne ∧ k2.ty.dim = .named dimOne then do
    let d ← m.sub E R s1
    let x1 ← mulQtyI E k1 d
    let q1 ← s1.add E R x1
    let x2 ← mulQtyI E k2 d
    let y2 ← divQtyI E x2 t
    let q2 ← s2.add E R y2
    let r1 ← q1.convert E R s1.ty
    let r2 ← q2.convert E R s2.ty
    .ok (r1, r2)
  else .error .rejected

/-- `state_extrapolation` for two variables, example/kalman_filter/kalman.h:127-133. -/
def extrapolate2I (E : Env) (R : Rebinds) (s1 s2 : VarI) (t : QtyI) : C (VarI × VarI) :=
  match s2 with
  | .qty v => do
    let x ← mulQtyI E v t
    let q1 ← s1.add E R x
    let r1 ← q1.convert E R s1.ty
    .ok (r1, s2)
  | .pt _ => .error .rejected

/-- The loop of example/kalman_filter/kalman_filter-example_2.cpp:60-65 and kalman_filter-example_3.cpp: the state `next` after all measurements. -/
def trackLoopI (E : Env) (R : Rebinds) (k1 k2 t : QtyI) : VarI × VarI → List VarI → C (VarI × VarI)
  | e, [] => .ok e
  | (s1, s2), m :: ms => do
    let u ← stateUpdate2I E R s1 s2 m k1 k2 t
    let n ← extrapolate2I E R u.1 u.2 t
    trackLoopI E R k1 k2 t n ms

/-- `state_update` for three variables, example/kalman_filter/kalman.h:109-117. -/
def stateUpdate3I (E : Env) (R : Rebinds) (s1 s2 s3 m : VarI) (k1 k2 k3 t : QtyI) : C (VarI × VarI × VarI) := do
  let e ← dimEquivalent s1.under.ty.dim m.under.ty.dim
  if e ∧ k1.ty.dim = .named dimOne ∧ k2.ty.dim = .named dimOne ∧ k3.ty.dim = .named dimOne then do
    let d ← m.sub E R s1
    let x1 ← mulQtyI E k1 d
    let q1 ← s1.add E R x1
    let x2 ← mulQtyI E k2 d
    let y2 ← divQtyI E x2 t
    let q2 ← s2.add E R y2
    let x3 ← mulQtyI E k3 d
    let tt ← mulQtyI E t t
    let h ← scaleQtyI .div tt (.int .i32) (.i 2)
    let y3 ← divQtyI E x3 h
    let q3 ← s3.add E R y3
    let r1 ← q1.convert E R s1.ty
    let r2 ← q2.convert E R s2.ty
    let r3 ← q3.convert E R s3.ty
    .ok (r1, r2, r3)
  else .error .rejected

/-- `state_extrapolation` for three variables, example/kalman_filter/kalman.h:135-142. -/
def extrapolate3I (E : Env) (R : Rebinds) (L : LibmI) (s1 s2 s3 : VarI) (t : QtyI) : C (VarI × VarI × VarI) :=
  match s2, s3 with
  | .qty v, .qty a => do
    let x ← mulQtyI E v t
    let q1 ← s1.add E R x
    let tt ← powQtyI E L 2 1 t
    match tt with
    | .inr t2 => do
      let y ← mulQtyI E a t2
      let z ← scaleQtyI .div y (.int .i32) (.i 2)
      let q1' ← q1.add E R z
      let w ← mulQtyI E a t
      let q2 ← s2.add E R w
      let r1 ← q1'.convert E R s1.ty
      let r2 ← q2.convert E R s2.ty
      .ok (r1, r2, s3)
    | .inl _ => .error .rejected
  | _, _ => .error .rejected

end Verif
