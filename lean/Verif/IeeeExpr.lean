import Verif.IeeeArith
import Verif.IeeeOps
import Verif.Demos

/-!
# Expressions over quantities with IEEE numbers

A program computes with quantities by nesting the operators of src/core/include/units/quantity.h and `quantity_cast`; the expressions of the example
programs (for instance example/literals/avg_speed.cpp:42-70, example/aliases/unknown_dimension.cpp:31-51, example/hello_units.cpp:33-43) are of this form.
-/

namespace Verif

/-- An expression over quantities: src/core/include/units/quantity.h:319-326, 337-345 (`q * v`, `q / v`), 399-428 (`a + b`, `a - b`, `a * b`, `a / b`) and
src/core/include/units/quantity_cast.h:114-139. -/
inductive ExprI
  | lit (q : QtyI)
  | mul (a b : ExprI)
  | div (a b : ExprI)
  | scale (op : BinOp) (e : ExprI) (rep : Rep) (v : FNum)
  | addSub (sub : Bool) (a b : ExprI)
  | cast (t : QTy) (e : ExprI)

/-- The value of an expression, with the operators of the lines cited at `ExprI`. -/
def ExprI.eval (E : Env) : ExprI → C QtyI
  | .lit q => .ok q
  | .mul a b => do
    let x ← a.eval E
    let y ← b.eval E
    mulQtyI E x y
  | .div a b => do
    let x ← a.eval E
    let y ← b.eval E
    divQtyI E x y
  | .scale op e rep v => do
    let x ← e.eval E
    scaleQtyI op x rep v
  | .addSub sub a b => do
    let x ← a.eval E
    let y ← b.eval E
    addSubI E sub x y
  | .cast t e => do
    let x ← e.eval E
    quantityCastI E.est t x

namespace Demos

open Systems

/-- The distance `d2` computed by `example`, example/aliases/unknown_dimension.cpp:31-49, with the numbers of the constants as parameters:
`d / t * a / b * c`. -/
def unknownExpr (r : Rep) (d t a b c : FNum) : ExprI :=
  .mul (.div (.mul (.div (.lit ⟨lenTy r, d⟩) (.lit ⟨timeTy r, t⟩)) (.lit ⟨lenTy r, a⟩)) (.lit ⟨lenTy r, b⟩)) (.lit ⟨timeTy r, c⟩)

/-- `v6` of example/hello_units.cpp:35-38, 48, 54: miles by hours, in metres per second. -/
def helloExpr (x y : FNum) : ExprI :=
  .cast (speedTy (.flt .f64)) (.div (.lit ⟨⟨d_isq_si_dim_length, u_international_mile, .flt .f64⟩, x⟩) (.lit ⟨⟨d_isq_si_dim_time, u_hour, .flt .f64⟩, y⟩))

/-- The speed that is printed by `print_result` for `fixed_double_si_avg_speed`, example/literals/avg_speed.cpp:45-50, 64-70: metres by seconds, in
kilometres per hour. -/
def avgSpeedExpr (x y : FNum) : ExprI :=
  .cast ⟨d_isq_si_dim_speed, u_kilometre_per_hour, .flt .f64⟩ (.div (.lit ⟨lenTy (.flt .f64), x⟩) (.lit ⟨timeTy (.flt .f64), y⟩))

end Demos

end Verif
