import Verif.IeeePoint
import Verif.Kalman

/-!
# The Kalman filters of the examples with IEEE numbers

example/kalman_filter/kalman.h for states of one variable and the loops over them, with the rounding of the floating point operations.  Not modelled here: states of
two and three variables (see `Verif.IeeeTrack`), the formatters and printing.
-/

namespace Verif

/-- A variable of a state with an IEEE number, example/kalman_filter/kalman.h:51-56. -/
inductive VarI where
  | qty (q : QtyI)
  | pt (p : PtI)
  deriving DecidableEq

/-- The type of a variable, example/kalman_filter/kalman.h:54. -/
def VarI.ty : VarI → VarTy
  | .qty q => .qty q.ty
  | .pt p => .pt p.ty

/-- The quantity, or the quantity from the origin (`relative()`, src/core/include/units/quantity_point.h:94-97). -/
def VarI.under : VarI → QtyI
  | .qty q => q
  | .pt p => p.rel

/-- `a - b` for quantities or for points, example/kalman_filter/kalman.h:97. -/
def VarI.sub (E : Env) (R : Rebinds) : VarI → VarI → C QtyI
  | .qty a, .qty b => addSubI E true a b
  | .pt a, .pt b => subPointsI E R a b
  | _, _ => .error .rejected

/-- `a + q`, example/kalman_filter/kalman.h:97. -/
def VarI.add (E : Env) (R : Rebinds) : VarI → QtyI → C VarI
  | .qty a, q => do let r ← addSubI E false a q; .ok (.qty r)
  | .pt a, q => do let r ← addSubPointI E R false a q; .ok (.pt r)

/-- The implicit conversion to the type of a variable in `return { … }`, example/kalman_filter/kalman.h:55, 97. -/
def VarI.convert (E : Env) (R : Rebinds) : VarTy → VarI → C VarI
  | .qty t, .qty q => do let r ← convertQtyI E t q; .ok (.qty r)
  | .pt t, .pt p => do let r ← convertPointI E R t p; .ok (.pt r)
  | _, _ => .error .rejected

/-- `v - q` and `v + q` with a number, src/core/include/units/quantity.h:296-302, 311-317. -/
def addSubNumLeftI (op : BinOp) (r : Rep) (v : FNum) (q : QtyI) : C QtyI :=
  if q.ty.unit = unitOne then do
    let z ← numOpI op r q.ty.rep v q.num
    .ok ⟨⟨.named dimOne, unitOne, r.arith q.ty.rep⟩, z⟩
  else .error .rejected

/-- `kalman_gain`, example/kalman_filter/kalman.h:86-90: both arguments have one type. -/
def kalmanGainI (E : Env) (p r : QtyI) : C QtyI :=
  if p.ty = r.ty then do
    let s ← addSubI E false p r
    let g ← divQtyI E p s
    convertQtyI E gainTy g
  else .error .rejected

/-- `state_update` for one variable, example/kalman_filter/kalman.h:93-98. -/
def stateUpdate1I (E : Env) (R : Rebinds) (s m : VarI) (k : QtyI) : C VarI := do
  let e ← dimEquivalent s.under.ty.dim m.under.ty.dim
  if e ∧ k.ty.dim = .named dimOne then do
    let d ← m.sub E R s
    let x ← mulQtyI E k d
    let y ← s.add E R x
    y.convert E R s.ty
  else .error .rejected

/-- `covariance_update`, example/kalman_filter/kalman.h:120-124. -/
def covarianceUpdateI (E : Env) (p k : QtyI) : C QtyI :=
  if k.ty.dim = .named dimOne then do
    let c ← addSubNumLeftI .sub (.int .i32) (.i 1) k
    let x ← mulQtyI E c p
    convertQtyI E p.ty x
  else .error .rejected

/-- `covariance_extrapolation`, example/kalman_filter/kalman.h:145-149. -/
def covarianceExtrapolateI (E : Env) (p n : QtyI) : C QtyI :=
  if p.ty = n.ty then do
    let s ← addSubI E false p n
    convertQtyI E p.ty s
  else .error .rejected

/-- The loop of example/kalman_filter/kalman_filter-example_1.cpp:56-62 from the iteration `index` on: the gain is `1. / index`, a `double`, which the constructor of
`dimensionless<one>` stores as it is.  (The increment of `index`, an `int`, is not checked for overflow.) -/
def averageLoopI (E : Env) (R : Rebinds) : Int → VarI → List VarI → C VarI
  | _, s, [] => .ok s
  | i, s, m :: ms => do
    let g ← numOpI .div (.flt .f64) (.int .i32) (.f (.fin false 1)) (.i i)
    let s' ← stateUpdate1I E R s m ⟨gainTy, g⟩
    averageLoopI E R (i + 1) s' ms

/-- The loops of example/kalman_filter/kalman_filter-example_5.cpp:65-71 (no process noise) and kalman_filter-example_6.cpp:99-105,
kalman_filter-example_7.cpp, kalman_filter-example_8.cpp (with process noise): the estimate `next` after all measurements. -/
def filterLoopI (E : Env) (R : Rebinds) (noise : Option QtyI) (r : QtyI) : VarI × QtyI → List VarI → C (VarI × QtyI)
  | e, [] => .ok e
  | (s, p), m :: ms => do
    let k ← kalmanGainI E p r
    let s' ← stateUpdate1I E R s m k
    let p' ← covarianceUpdateI E p k
    let p'' ← (match noise with
      | none => .ok p'
      | some n => covarianceExtrapolateI E p' n)
    filterLoopI E R noise r (s', p'') ms

end Verif
