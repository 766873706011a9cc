import Verif.IeeeHello

/-!
# The remaining programs in IEEE floating point

`example/aliases/unknown_dimension.cpp`, `example/references/experimental_angle.cpp` and `example/custom_systems.cpp` over the IEEE operators of quantities.
-/

namespace Verif

open Demos Systems

/-- `avg_speed` and `example`, example/aliases/unknown_dimension.cpp:32-48: `v1`, `temp1`, `v2` and `d2`, for the numbers of the constants. -/
def unknownDimensionI (E : Env) (r : Rep) (d t a b c : FNum) : C (QtyI × QtyI × QtyI × QtyI) := do
  let v1 ← divQtyI E ⟨lenTy r, d⟩ ⟨timeTy r, t⟩
  let temp1 ← mulQtyI E v1 ⟨lenTy r, a⟩
  let v2 ← divQtyI E temp1 ⟨lenTy r, b⟩
  let d2 ← mulQtyI E v2 ⟨timeTy r, c⟩
  .ok (v1, temp1, v2, d2)

/-- `energy / torque`, example/references/experimental_angle.cpp:43-46, for the numbers of the constants. -/
def angleOfI (E : Env) (r : Rep) (e τ : FNum) : C QtyI := do
  let R ← torqueRef E
  divQtyI E ⟨⟨d_isq_si_dim_energy, d_isq_si_dim_energy.unit, r⟩, e⟩ ⟨⟨R.dim, R.unit, r⟩, τ⟩

/-- `quantity_cast<si::kilometre>(yards)`, example/custom_systems.cpp:66-84. -/
def toOwnKilometresI (E : Env) (t : QTy) (v : FNum) : C QtyI := do
  let km ← ownKilometre.eval
  quantityCastByI E (.unit km) ⟨t, v⟩

/-- `quantity_cast<unknown_coherent_unit>(yards * yards)`, example/custom_systems.cpp:87-97. -/
def yardAreaI (E : Env) (t : QTy) (v w : FNum) : C QtyI := do
  let a ← mulQtyI E ⟨t, v⟩ ⟨t, w⟩
  quantityCastByI E (.unit unknownCoherentUnit) a

end Verif
