import Verif.RepOps

/-!
# Unary plus, increments and decrements of quantities for representation types supplied by the user
-/

namespace Verif

/-- What the unary operators of src/core/include/units/quantity.h:172-209 ask of the types involved, beyond `OpSys`. -/
structure StepSys extends OpSys where
  /-- The type of `+v`, if the expression is valid, and its value. -/
  posTy : Ty → Option Ty
  pos : Ty → Val → C Val
  /-- `std::common_with`. -/
  commonWith : Ty → Ty → Bool
  /-- Whether `++v` (`true`) or `--v` (`false`) is valid and gives `T&`; the new value of `v`. -/
  preStep : Bool → Ty → Bool
  step : Bool → Ty → Val → C Val
  /-- Whether `v++` or `v--` is valid and gives `T`; the value of the expression and the new value of `v`. -/
  postStep : Bool → Ty → Bool
  post : Bool → Ty → Val → C (Val × Val)

section
variable {S : StepSys}

/-- `+q`, src/core/include/units/quantity.h:172-177: the type `quantity<D, U, decltype(+number())>` needs a representation. -/
def posG (q : QtyG S.toOpSys) : C (QtyG S.toOpSys) :=
  match S.posTy q.ty.rep with
  | none => .error .rejected
  | some r =>
    if S.commonWith r q.ty.rep && S.representation r then do
      let z ← S.pos q.ty.rep q.num
      mkG ⟨q.ty.dim, q.ty.unit, r⟩ (r, z)
    else .error .rejected

/-- `++q` and `--q`, src/core/include/units/quantity.h:186-191, 199-204. -/
def preG (up : Bool) (q : QtyG S.toOpSys) : C (QtyG S.toOpSys) :=
  if S.preStep up q.ty.rep then do
    let z ← S.step up q.ty.rep q.num
    .ok ⟨q.ty, z⟩
  else .error .rejected

/-- `q++` and `q--`, src/core/include/units/quantity.h:193-197, 206-209: the object afterwards and the result. -/
def postG (up : Bool) (q : QtyG S.toOpSys) : C (QtyG S.toOpSys × QtyG S.toOpSys) :=
  if S.postStep up q.ty.rep then do
    let (old, new) ← S.post up q.ty.rep q.num
    let r ← mkG q.ty (q.ty.rep, old)
    .ok (⟨q.ty, new⟩, r)
  else .error .rejected

end

/-- The arithmetic types.  `++v` is `v += 1`, for the representations of src/core/include/units/quantity.h:186-209. -/
abbrev builtinSteps (fl : Rounding) : StepSys where
  toOpSys := builtinOps fl
  posTy r := some r.promote
  pos r := convNum fl r r.promote
  commonWith _ _ := true
  preStep _ _ := true
  step up r x := compound fl (if up then .add else .sub) r (.int .i32) x (.i 1)
  postStep _ _ := true
  post up r x := do
    let z ← compound fl (if up then .add else .sub) r (.int .i32) x (.i 1)
    .ok (x, z)

end Verif
