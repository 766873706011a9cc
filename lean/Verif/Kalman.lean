import Verif.Math
import Verif.Point

/-!
# The Kalman filters of the examples

example/kalman_filter/kalman.h and the loops of kalman_filter-example_1.cpp to kalman_filter-example_8.cpp as programs over the operators of quantities
and points.  Not modelled: the constraint `are_derivatives` on the types of a state (kalman.h:39-48), the formatters (kalman.h:153-228) and printing.
-/

namespace Verif

/-- A type satisfying `QuantityOrQuantityPoint`, example/kalman_filter/kalman.h:37. -/
inductive VarTy where
  | qty (t : QTy)
  | pt (t : PTy)
  deriving DecidableEq

/-- A variable of a state, example/kalman_filter/kalman.h:51-56. -/
inductive Var where
  | qty (q : Qty)
  | pt (p : Pt)
  deriving DecidableEq

/-- The type of a variable, example/kalman_filter/kalman.h:54. -/
def Var.ty : Var → VarTy
  | .qty q => .qty q.ty
  | .pt p => .pt p.ty

/-- The quantity, or the quantity from the origin (`relative()`, src/core/include/units/quantity_point.h:94-97). -/
def Var.under : Var → Qty
  | .qty q => q
  | .pt p => p.rel

/-- `a - b` for quantities or for points, example/kalman_filter/kalman.h:97, 104-105, 113-115.  (The other combinations do not compile as operands of `gain * …`:
there is no `quantity - quantity_point`, and a point cannot be multiplied.) -/
def Var.sub (E : Env) (R : Rebinds) : Var → Var → C Qty
  | .qty a, .qty b => addSub E .sub a b
  | .pt a, .pt b => subPoints E R a b
  | _, _ => .error .rejected

/-- `a + q`, example/kalman_filter/kalman.h:97, 104-105, 113-115, 130, 138-139. -/
def Var.add (E : Env) (R : Rebinds) : Var → Qty → C Var
  | .qty a, q => do let r ← addSub E .add a q; .ok (.qty r)
  | .pt a, q => do let r ← addSubPoint E R .add a q; .ok (.pt r)

/-- The implicit conversion to the type of a variable in `return { … }`, example/kalman_filter/kalman.h:55, 97, 106, 116, 132, 141. -/
def Var.convert (E : Env) (R : Rebinds) : VarTy → Var → C Var
  | .qty t, .qty q => do let r ← convertQty E t q; .ok (.qty r)
  | .pt t, .pt p => do let r ← convertPoint E R t p; .ok (.pt r)
  | _, _ => .error .rejected

/-- `units::dimensionless<units::one>`, src/core/include/units/generic/dimensionless.h:47-48 (`double` by default). -/
def gainTy : QTy := ⟨.named dimOne, unitOne, .flt .f64⟩

/-- `kalman_gain`, example/kalman_filter/kalman.h:86-90: both arguments have one type. -/
def kalmanGain (E : Env) (p r : Qty) : C Qty :=
  if p.ty = r.ty then do
    let s ← addSub E .add p r
    let g ← divQty E p s
    convertQty E gainTy g
  else .error .rejected

/-- `Dimensionless`, src/core/include/units/generic/dimensionless.h:44-45, for a named or base dimension. -/
def dimensionless (k : Qty) : Bool := decide (k.ty.dim = .named dimOne)

/-- `state_update` for one variable, example/kalman_filter/kalman.h:93-98. -/
def stateUpdate1 (E : Env) (R : Rebinds) (s m : Var) (k : Qty) : C Var := do
  let e ← dimEquivalent s.under.ty.dim m.under.ty.dim
  if e ∧ dimensionless k then do
    let d ← m.sub E R s
    let x ← mulQty E k d
    let y ← s.add E R x
    y.convert E R s.ty
  else .error .rejected

/-- `state_update` for two variables, example/kalman_filter/kalman.h:100-107. -/
def stateUpdate2 (E : Env) (R : Rebinds) (s1 s2 m : Var) (k1 k2 t : Qty) : C (Var × Var) := do
  let e ← dimEquivalent s1.under.ty.dim m.under.ty.dim
  if e ∧ dimensionless k1 ∧ dimensionless k2 then do
    let d ← m.sub E R s1
    let x1 ← mulQty E k1 d
    let q1 ← s1.add E R x1
    let x2 ← mulQty E k2 d
    let y2 ← divQty E x2 t
    let q2 ← s2.add E R y2
    let r1 ← q1.convert E R s1.ty
    let r2 ← q2.convert E R s2.ty
    .ok (r1, r2)
  else .error .rejected

/-- The literal `2` of example/kalman_filter/kalman.h:115, 138 as an `int`. -/
def two : Num := .i 2

/-- `state_update` for three variables, example/kalman_filter/kalman.h:109-117. -/
def stateUpdate3 (E : Env) (R : Rebinds) (s1 s2 s3 m : Var) (k1 k2 k3 t : Qty) : C (Var × Var × Var) := do
  let e ← dimEquivalent s1.under.ty.dim m.under.ty.dim
  if e ∧ dimensionless k1 ∧ dimensionless k2 ∧ dimensionless k3 then do
    let d ← m.sub E R s1
    let x1 ← mulQty E k1 d
    let q1 ← s1.add E R x1
    let x2 ← mulQty E k2 d
    let y2 ← divQty E x2 t
    let q2 ← s2.add E R y2
    let x3 ← mulQty E k3 d
    let tt ← mulQty E t t
    let h ← scaleQty E .div tt (.int .i32) two
    let y3 ← divQty E x3 h
    let q3 ← s3.add E R y3
    let r1 ← q1.convert E R s1.ty
    let r2 ← q2.convert E R s2.ty
    let r3 ← q3.convert E R s3.ty
    .ok (r1, r2, r3)
  else .error .rejected

/-- `covariance_update`, example/kalman_filter/kalman.h:120-124. -/
def covarianceUpdate (E : Env) (p k : Qty) : C Qty :=
  if dimensionless k then do
    let c ← addSubNumLeft E .sub (.int .i32) (.i 1) k
    let x ← mulQty E c p
    convertQty E p.ty x
  else .error .rejected

/-- `state_extrapolation` for two variables, example/kalman_filter/kalman.h:127-133. -/
def extrapolate2 (E : Env) (R : Rebinds) (s1 s2 : Var) (t : Qty) : C (Var × Var) :=
  match s2 with
  | .qty v => do
    let x ← mulQty E v t
    let q1 ← s1.add E R x
    let r1 ← q1.convert E R s1.ty
    .ok (r1, s2)
  | .pt _ => .error .rejected

/-- `state_extrapolation` for three variables, example/kalman_filter/kalman.h:135-142. -/
def extrapolate3 (E : Env) (R : Rebinds) (L : Libm) (s1 s2 s3 : Var) (t : Qty) : C (Var × Var × Var) :=
  match s2, s3 with
  | .qty v, .qty a => do
    let x ← mulQty E v t
    let q1 ← s1.add E R x
    let tt ← powQty E L 2 1 t
    match tt with
    | .inr t2 => do
      let y ← mulQty E a t2
      let z ← scaleQty E .div y (.int .i32) two
      let q1' ← q1.add E R z
      let w ← mulQty E a t
      let q2 ← s2.add E R w
      let r1 ← q1'.convert E R s1.ty
      let r2 ← q2.convert E R s2.ty
      .ok (r1, r2, s3)
    | .inl _ => .error .rejected
  | _, _ => .error .rejected

/-- `covariance_extrapolation`, example/kalman_filter/kalman.h:145-149. -/
def covarianceExtrapolate (E : Env) (p n : Qty) : C Qty :=
  if p.ty = n.ty then do
    let s ← addSub E .add p n
    convertQty E p.ty s
  else .error .rejected

/-! ### The loops -/

/-- The loop of example/kalman_filter/kalman_filter-example_1.cpp:56-62 from the iteration `index` on: the gain is `1. / index`.  (The increment of `index`, an
`int`, is not checked for overflow.) -/
def averageLoop (E : Env) (R : Rebinds) : Int → Var → List Var → C Var
  | _, s, [] => .ok s
  | i, s, m :: ms => do
    let g ← numOp E.fl .div (.flt .f64) (.int .i32) (.f 1) (.i i)
    let k ← mkQty E gainTy (.flt .f64) g
    let s' ← stateUpdate1 E R s m k
    averageLoop E R (i + 1) s' ms

/-- The loops of example/kalman_filter/kalman_filter-example_5.cpp:65-71 (no process noise) and kalman_filter-example_6.cpp:99-105,
kalman_filter-example_7.cpp, kalman_filter-example_8.cpp (with process noise): the estimate `next` after all measurements. -/
def filterLoop (E : Env) (R : Rebinds) (noise : Option Qty) (r : Qty) : Var × Qty → List Var → C (Var × Qty)
  | e, [] => .ok e
  | (s, p), m :: ms => do
    let k ← kalmanGain E p r
    let s' ← stateUpdate1 E R s m k
    let p' ← covarianceUpdate E p k
    let p'' ← (match noise with
      | none => .ok p'
      | some n => covarianceExtrapolate E p' n)
    filterLoop E R noise r (s', p'') ms

/-- The loop of example/kalman_filter/kalman_filter-example_2.cpp:60-65 and kalman_filter-example_3.cpp: the state `next` after all measurements. -/
def trackLoop (E : Env) (R : Rebinds) (k1 k2 t : Qty) : Var × Var → List Var → C (Var × Var)
  | e, [] => .ok e
  | (s1, s2), m :: ms => do
    let u ← stateUpdate2 E R s1 s2 m k1 k2 t
    let n ← extrapolate2 E R u.1 u.2 t
    trackLoop E R k1 k2 t n ms

end Verif
