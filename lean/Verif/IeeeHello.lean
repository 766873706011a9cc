import Verif.Demos
import Verif.IeeeOps
import Verif.Point

/-!
# The response and the first program in IEEE floating point

`example/references/clcpp_response.cpp` and `example/hello_units.cpp` over the IEEE operators of quantities.
-/

namespace Verif

open Demos Systems

/-- `quantity_cast<Spec>(q)`, src/core/include/units/quantity_cast.h:114-219, in floating point. -/
def quantityCastByI (E : Env) (s : CastSpec) (q : QtyI) : C QtyI := do
  let t ← castTarget E s q.ty
  quantityCastI E.est t q

/-- The numbers printed for `meter`, example/references/clcpp_response.cpp:88-111, with its representation and number as parameters. -/
def responseI (E : Env) (r : Rep) (v : FNum) : C (List FNum) :=
  responseUnits.mapM fun u => do
    let q ← quantityCastByI E (.unit u) ⟨lenTy r, v⟩
    .ok q.num

/-- `v3` to `v7`, example/hello_units.cpp:47-56. -/
structure HelloI where
  v3 : QtyI
  v4 : QtyI
  v5 : QtyI
  v6 : QtyI
  v7 : QtyI
deriving DecidableEq

/-- The speeds computed by `main`, example/hello_units.cpp:34-37, 47-56: kilometres and hours of literals, which are `std::int64_t`, miles and hours as `double`. -/
def helloI (E : Env) (km h1 : FNum) (mi h2 : FNum) : C HelloI := do
  let v3 ← divQtyI E ⟨⟨d_isq_si_dim_length, u_kilometre, .int .i64⟩, km⟩ ⟨⟨d_isq_si_dim_time, u_hour, .int .i64⟩, h1⟩
  let v4 ← divQtyI E ⟨⟨d_isq_si_dim_length, u_international_mile, .flt .f64⟩, mi⟩ ⟨⟨d_isq_si_dim_time, u_hour, .flt .f64⟩, h2⟩
  let v5 ← quantityCastByI E (.qty (Demos.speedTy (.flt .f64))) v3
  let v6 ← quantityCastByI E (.unit d_isq_si_dim_speed.unit) v4
  let v7 ← quantityCastByI E (.rep (.int .i32)) v6
  .ok ⟨v3, v4, v5, v6, v7⟩

end Verif
