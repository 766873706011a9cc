import Verif.IeeeTrack

/-!
# The loop of the filter with three variables with IEEE numbers

example/kalman_filter/kalman_filter-example_4.cpp.
-/

namespace Verif

/-- The loop, example/kalman_filter/kalman_filter-example_4.cpp:63-68: the state `next` after all measurements. -/
def trackLoop3I (E : Env) (R : Rebinds) (L : LibmI) (k1 k2 k3 t : QtyI) : VarI × VarI × VarI → List VarI → C (VarI × VarI × VarI)
  | e, [] => .ok e
  | (s1, s2, s3), m :: ms => do
    let u ← stateUpdate3I E R s1 s2 s3 m k1 k2 k3 t
    let n ← extrapolate3I E R L u.1 u.2.1 u.2.2 t
    trackLoop3I E R L k1 k2 k3 t n ms

/-- `main`, example/kalman_filter/kalman_filter-example_4.cpp:62-68, without the output: the initial state is extrapolated before the first measurement. -/
def trackMain3I (E : Env) (R : Rebinds) (L : LibmI) (k1 k2 k3 t : QtyI) (s1 s2 s3 : VarI) (ms : List VarI) : C (VarI × VarI × VarI) := do
  let n ← extrapolate3I E R L s1 s2 s3 t
  trackLoop3I E R L k1 k2 k3 t n ms

end Verif
