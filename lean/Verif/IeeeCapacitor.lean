import Verif.IeeeMath
import Verif.IeeeArith
import Verif.Programs

/-!
# The discharge of a capacitor with IEEE numbers

example/references/capacitor_time_curve.cpp, where the times and the thresholds are `int` and the other numbers `double`.
-/

namespace Verif

variable (E : Env) (L : LibmI)

/-- The voltage after a time, example/references/capacitor_time_curve.cpp:50. -/
def capVoltageI (v0 r c t : QtyI) : C QtyI := do
  let t' ← negQtyI t
  let rc ← mulQtyI E r c
  let x ← divQtyI E t' rc
  let e ← expQtyI E L x
  mulQtyI E v0 e

/-- A threshold `1 * mV`, example/references/capacitor_time_curve.cpp:54-60. -/
def voltOneI (u : MUnit) : QtyI := ⟨⟨.named siVoltage, u, .int .i32⟩, .i 1⟩

/-- The quantity printed, example/references/capacitor_time_curve.cpp:54-63: `>=` is false for a NaN. -/
def capPrintedI : List MUnit → QtyI → C QtyI
  | [], v => quantityCastI E.est ⟨v.ty.dim, siPicovolt, v.ty.rep⟩ v
  | u :: us, v => do
    let c ← compareQtyI E v (voltOneI u)
    if c = some .gt ∨ c = some .eq then
      if u = siVoltage.coherent then .ok v else quantityCastI E.est ⟨v.ty.dim, u, v.ty.rep⟩ v
    else capPrintedI us v

/-- The loop, example/references/capacitor_time_curve.cpp:49-65: the times with the quantities printed; `none` when the given number of rounds is not
enough. -/
def capLoopI (v0 r c last : QtyI) : Nat → QtyI → C (Option (List (QtyI × QtyI)))
  | 0, _ => .ok none
  | k + 1, t => do
    let o ← compareQtyI E t last
    if o = some .lt ∨ o = some .eq then do
      let v ← capVoltageI E L v0 r c t
      let q ← capPrintedI E capRanges v
      let t' ← incDecI .add t
      let rest ← capLoopI v0 r c last k t'
      match rest with
      | none => .ok none
      | some l => .ok (some ((t, q) :: l))
    else .ok (some [])

/-- Milliseconds in an `int`, example/references/capacitor_time_curve.cpp:49. -/
def msITy : QTy := ⟨.base siTime, siMillisecond, .int .i32⟩
/-- `C`, example/references/capacitor_time_curve.cpp:45. -/
def farad64Ty : QTy := ⟨.named siCapacitance, siMicrofarad, .flt .f64⟩
/-- `V0`, example/references/capacitor_time_curve.cpp:46, and other voltages. -/
def volt64Ty (u : MUnit) : QTy := ⟨.named siVoltage, u, .flt .f64⟩
/-- `RR`, example/references/capacitor_time_curve.cpp:47. -/
def ohm64Ty : QTy := ⟨.named siResistance, siKiloohm, .flt .f64⟩

/-- `main`, example/references/capacitor_time_curve.cpp:45-65, for any voltage, resistance, capacitance and end of the loop. -/
def capMainI (v0 r c : FVal) (last : Int) (rounds : Nat) : C (Option (List (QtyI × QtyI))) :=
  capLoopI E L ⟨volt64Ty siVoltage.coherent, .f v0⟩ ⟨ohm64Ty, .f r⟩ ⟨farad64Ty, .f c⟩ ⟨msITy, .i last⟩ rounds ⟨msITy, .i 0⟩

end Verif
