import Verif.IeeeDemos
import Verif.Props.IeeeShipProps

/-!
# C104: the remaining programs in IEEE floating point
-/

namespace Verif

open FltTy Demos Systems

set_option maxRecDepth 100000

theorem divDI {t1 t2 t : QTy} (h1 : t1.rep = .flt .f64) (h2 : t2.rep = .flt .f64) (h3 : t.rep = .flt .f64)
    (h : refDivide dE t1.dim t1.unit t2.dim t2.unit = .ok (t.dim, t.unit)) (v w : FVal) :
    divQtyI dE ⟨t1, .f v⟩ ⟨t2, .f w⟩ = .ok ⟨t, .f (v.div .f64 w)⟩ := by
  obtain ⟨d, u, r⟩ := t
  obtain ⟨d1, u1, r1⟩ := t1
  obtain ⟨d2, u2, r2⟩ := t2
  dsimp only at *
  subst h1 h2 h3
  unfold divQtyI
  dsimp only
  rw [h]
  rfl

theorem mulDI {t1 t2 t : QTy} (h1 : t1.rep = .flt .f64) (h2 : t2.rep = .flt .f64) (h3 : t.rep = .flt .f64)
    (h : refMultiply dE t1.dim t1.unit t2.dim t2.unit = .ok (t.dim, t.unit)) (v w : FVal) :
    mulQtyI dE ⟨t1, .f v⟩ ⟨t2, .f w⟩ = .ok ⟨t, .f (v.mul .f64 w)⟩ := by
  obtain ⟨d, u, r⟩ := t
  obtain ⟨d1, u1, r1⟩ := t1
  obtain ⟨d2, u2, r2⟩ := t2
  dsimp only at *
  subst h1 h2 h3
  unfold mulQtyI
  dsimp only
  rw [h]
  rfl

/-! ### An unknown dimension -/

/-- C104: the program with the unknown dimension, in doubles: the speed, the product of an unknown dimension, the speed and the distance, with relative errors of at most 2, 4, 6 and 8
units of `2 ^ -53`. -/
theorem C104_unknown_dimension {d t a b c : FVal} (hd : MidZero d) (ht : Mid t) (ha : MidZero a) (hb : Mid b) (hc : MidZero c) :
    ∃ v1 temp1 v2 d2, unknownDimensionI demoEnv (.flt .f64) (.f d) (.f t) (.f a) (.f b) (.f c) = .ok (v1, temp1, v2, d2) ∧
      Printed98 (Demos.speedTy (.flt .f64)) 2 |(d.q / t.q : ℝ)| (d.q / t.q) v1 ∧
      Printed98 (tempTy (.flt .f64)) 4 |(d.q / t.q * a.q : ℝ)| (d.q / t.q * a.q) temp1 ∧
      Printed98 (Demos.speedTy (.flt .f64)) 6 |(d.q / t.q * a.q / b.q : ℝ)| (d.q / t.q * a.q / b.q) v2 ∧
      Printed98 (lenTy (.flt .f64)) 8 |(d.q / t.q * a.q / b.q * c.q : ℝ)| (d.q / t.q * a.q / b.q * c.q) d2 := by
  have hδ : (1 / 2 ^ 53 : ℝ) ≤ 1 / 400 := by norm_num
  have g1 := (hd.got u_le hδ).div u_le hδ ht.got98 ht.ne (by norm_num) (by norm_num)
  have g2 := g1.mul u_le hδ (ha.got u_le hδ) (by norm_num) (by norm_num)
  have g3 := g2.div u_le hδ hb.got98 hb.ne (by norm_num) (by norm_num)
  have g4 := g3.mul u_le hδ (hc.got u_le hδ) (by norm_num) (by norm_num)
  refine ⟨_, _, _, _, ?_, g1.printed (by norm_num) rfl, g2.printed (by norm_num) rfl, g3.printed (by norm_num) rfl, g4.printed (by norm_num) rfl⟩
  show unknownDimensionI dE _ _ _ _ _ _ = _
  unfold unknownDimensionI
  rw [divDI (t := Demos.speedTy (.flt .f64)) rfl rfl rfl (by kernel_rfl), ok_bind, mulDI (t := tempTy (.flt .f64)) rfl rfl rfl (by kernel_rfl), ok_bind,
    divDI (t := Demos.speedTy (.flt .f64)) rfl rfl rfl (by kernel_rfl), ok_bind, mulDI (t := lenTy (.flt .f64)) rfl rfl rfl (by kernel_rfl), ok_bind]

theorem midLit (x : ℚ) (h0 : 1 ≤ x) (h1 : x ≤ 2 ^ 100) (h2 : FltTy.f64.rndMag x = some x) : Mid (.fin false x) := by
  have e : |(FVal.fin false x).q| = x := abs_of_pos (show 0 < x by linarith)
  exact ⟨trivial, ⟨by linarith, h2⟩, by rw [e]; exact le_trans (by norm_num) h0, by rw [e]; exact h1⟩

theorem midZeroLit (x : ℚ) (h0 : 1 ≤ x) (h1 : x ≤ 2 ^ 100) (h2 : FltTy.f64.rndMag x = some x) : MidZero (.fin false x) :=
  ⟨trivial, (midLit x h0 h1 h2).within, .inr ⟨(midLit x h0 h1 h2).lower, (midLit x h0 h1 h2).upper⟩⟩

/-- The numbers of the program. -/
example : ∃ v1 temp1 v2 d2, unknownDimensionI demoEnv (.flt .f64) (.f (.fin false 123)) (.f (.fin false 10)) (.f (.fin false 50)) (.f (.fin false 100)) (.f (.fin false 60)) =
    .ok (v1, temp1, v2, d2) ∧ Printed98 (lenTy (.flt .f64)) 8 |(((FVal.fin false 123).q / (FVal.fin false 10).q * (FVal.fin false 50).q / (FVal.fin false 100).q * (FVal.fin false 60).q : ℝ))|
      ((FVal.fin false 123).q / (FVal.fin false 10).q * (FVal.fin false 50).q / (FVal.fin false 100).q * (FVal.fin false 60).q) d2 := by
  obtain ⟨v1, t1, v2, d2, e, -, -, -, h⟩ := C104_unknown_dimension (midZeroLit 123 (by norm_num) (by norm_num) (by decide +kernel)) (midLit 10 (by norm_num) (by norm_num) (by decide +kernel))
    (midZeroLit 50 (by norm_num) (by norm_num) (by decide +kernel)) (midLit 100 (by norm_num) (by norm_num) (by decide +kernel)) (midZeroLit 60 (by norm_num) (by norm_num) (by decide +kernel))
  exact ⟨v1, t1, v2, d2, e, h⟩

/-- C104: the distance covered in the same time is not the given one: one metre in 49 seconds, and 49 seconds at this speed. -/
theorem C104_distance_wrong :
    (unknownDimensionI demoEnv (.flt .f64) (.f (.fin false 1)) (.f (.fin false 49)) (.f (.fin false 1)) (.f (.fin false 1)) (.f (.fin false 49))).map (fun r => r.2.2.2) =
      .ok ⟨lenTy (.flt .f64), .f (.fin false (1 - 1 / 2 ^ 53))⟩ := by decide +kernel

/-! ### Angles -/

/-- C104: energy by torque is an angle in radians, the quotient of the numbers as the processor computes it, whatever these numbers are. -/
theorem C104_angle (e τ : FVal) : angleOfI demoEnv (.flt .f64) (.f e) (.f τ) = .ok ⟨⟨d_dim_angle, b_dim_angle.unit, .flt .f64⟩, .f (e.div .f64 τ)⟩ := by
  have hr : torqueRef dE = .ok ⟨d_isq_si_dim_torque, d_isq_si_dim_torque.unit⟩ := by kernel_rfl
  show angleOfI dE _ _ _ = _
  unfold angleOfI
  rw [hr, ok_bind]
  exact divDI rfl rfl rfl (by kernel_rfl) e τ

/-- The 20 J by 20 N m/rad of the program are one radian. -/
example : angleOfI demoEnv (.flt .f64) (.f (.fin false 20)) (.f (.fin false 20)) = .ok ⟨⟨d_dim_angle, b_dim_angle.unit, .flt .f64⟩, .f (.fin false 1)⟩ := by
  rw [C104_angle]; decide +kernel

/-! ### Custom systems -/

/-- C104: yards of a system of one's own are not convertible to kilometres, and those based on the metre are, 0.9144 m each, with a relative error of at most `6 * 2 ^ -53`. -/
theorem C104_custom_conversion {x : FVal} (hx : MidZero x) :
    (do let t ← fpsYards (.flt .f64); toOwnKilometresI demoEnv t (.f x)) = .error .rejected ∧
    ∃ q, (do let t ← siFpsYards (.flt .f64); toOwnKilometresI demoEnv t (.f x)) = .ok q ∧
      Printed98 ⟨.base ⟨"si::fps::dim_length", "L", ownFoot⟩, ownKm, .flt .f64⟩ 6 |(x.q * 0.0009144 : ℝ)| (x.q * 0.0009144) q := by
  constructor
  · kernel_rfl
  · have ht : siFpsYards (.flt .f64) = .ok ⟨.base ⟨"si::fps::dim_length", "L", ownFoot⟩, ownYard, .flt .f64⟩ := by decide +kernel
    have hk : ownKilometre.eval = .ok ownKm := by decide +kernel
    obtain ⟨y, e, g⟩ := castGot (d := .base ⟨"si::fps::dim_length", "L", ownFoot⟩) (u := ownYard) (d' := .base ⟨"si::fps::dim_length", "L", ownFoot⟩) (u' := ownKm) (κ := 9144 / 10000000)
      (by decide +kernel) (hx.got u_le (by norm_num)) (by norm_num) (by norm_num)
    refine ⟨_, ?_, g.printed (by norm_num) (by push_cast; ring)⟩
    show (do let t ← siFpsYards (.flt .f64); toOwnKilometresI dE t (.f x)) = _
    simp only [ht, ok_bind, toOwnKilometresI, hk, quantityCastByI, castTarget]
    rw [if_pos (by decide +kernel), ok_bind]
    exact e

example : MidZero (.fin false 100) := midZeroLit 100 (by norm_num) (by norm_num) (by decide +kernel)

/-- C104: a square yard is nine square feet in both systems. -/
theorem C104_custom_areas {x y : FVal} (hx : MidZero x) (hy : MidZero y) :
    (∃ d q, (do let t ← fpsYards (.flt .f64); yardAreaI demoEnv t (.f x) (.f y)) = .ok q ∧
      Printed98 ⟨.unknown d, unknownCoherentUnit, .flt .f64⟩ 4 |(x.q * y.q * 9 : ℝ)| (x.q * y.q * 9) q) ∧
    (∃ d q, (do let t ← siFpsYards (.flt .f64); yardAreaI demoEnv t (.f x) (.f y)) = .ok q ∧
      Printed98 ⟨.unknown d, unknownCoherentUnit, .flt .f64⟩ 4 |(x.q * y.q * 9 : ℝ)| (x.q * y.q * 9) q) := by
  have hδ : (1 / 2 ^ 53 : ℝ) ≤ 1 / 400 := by norm_num
  have g := ((hx.got u_le hδ).mul u_le hδ (hy.got u_le hδ) (by norm_num) (by norm_num)).mul u_le hδ (nat_got (n := 9) (by norm_num) (by norm_num) (by decide +kernel)) (by norm_num) (by norm_num)
  have e9 : castFactorI ⟨9, 1, 0⟩ = .fin false (9 : ℕ) := by decide +kernel
  refine ⟨⟨[⟨⟨"fps::dim_length", "L", ⟨.named "fps::foot", ⟨1, 1, 0⟩, "fps::foot", [.scaled ⟨1, 1, 0⟩ "fps::foot"], true, "ft", none⟩⟩, 2, 1⟩], _, ?_, g.printed (by norm_num) (by norm_num)⟩,
    ⟨[⟨⟨"si::fps::dim_length", "L", ownFoot⟩, 2, 1⟩], _, ?_, g.printed (by norm_num) (by norm_num)⟩⟩
  · rw [← e9]
    kernel_rfl
  · rw [← e9]
    kernel_rfl

end Verif
