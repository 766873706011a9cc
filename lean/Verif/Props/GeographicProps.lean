import Verif.Geographic
import Verif.IeeeLemmas
import Mathlib.Geometry.Euclidean.Angle.Unoriented.TriangleInequality
import Mathlib.Analysis.InnerProductSpace.PiL2

/-!
# C81: distances on the globe

The distance of two positions is the radius of the earth times the angle between them, seen from the centre.  Over the real numbers both formulas of the code compute it; in
doubles a place may be at no distance from itself.
-/

namespace Verif
open Real
set_option maxRecDepth 100000

/-- The point of the unit sphere at a latitude and a longitude in degrees. -/
noncomputable def onSphere (p : Position ℝ) : EuclideanSpace ℝ (Fin 3) :=
  !₂[cos (p.lat * (π / 180)) * cos (p.lon * (π / 180)), cos (p.lat * (π / 180)) * sin (p.lon * (π / 180)), sin (p.lat * (π / 180))]

theorem onSphere_inner (p q : Position ℝ) : inner ℝ (onSphere p) (onSphere q) =
    sin (p.lat * (π / 180)) * sin (q.lat * (π / 180)) + cos (p.lat * (π / 180)) * cos (q.lat * (π / 180)) * cos (q.lon * (π / 180) - p.lon * (π / 180)) := by
  simp [onSphere, PiLp.inner_apply, Fin.sum_univ_three, cos_sub]
  ring

theorem onSphere_norm (p : Position ℝ) : ‖onSphere p‖ = 1 := by
  have h : ‖onSphere p‖ ^ 2 = 1 := by
    rw [← real_inner_self_eq_norm_sq, onSphere_inner, sub_self, cos_zero, mul_one]
    nlinarith [sin_sq_add_cos_sq (p.lat * (π / 180))]
  have h0 := norm_nonneg (onSphere p)
  nlinarith

/-- The distance is the radius times the angle between the two places seen from the centre of the earth. -/
theorem C81_angle (p q : Position ℝ) : sphericalDistance realGeo true p q = 6371 * InnerProductGeometry.angle (onSphere p) (onSphere q) := by
  rw [InnerProductGeometry.angle, onSphere_norm, onSphere_norm, onSphere_inner]
  simp [sphericalDistance, lawOfCosines, realGeo, GeoArith.deg]

theorem haversine_eq (a b c d : ℝ) : sin ((c - a) / 2) * sin ((c - a) / 2) + cos a * cos c * sin ((d - b) / 2) * sin ((d - b) / 2) =
    (1 - (sin a * sin c + cos a * cos c * cos (d - b))) / 2 := by
  have h1 := cos_sub c a
  have h2 : cos (c - a) = 1 - 2 * sin ((c - a) / 2) ^ 2 := by
    have := cos_two_mul' ((c - a) / 2); have h := sin_sq_add_cos_sq ((c - a) / 2)
    rw [mul_div_cancel₀ _ two_ne_zero] at this; linarith
  have h3 : cos (d - b) = 1 - 2 * sin ((d - b) / 2) ^ 2 := by
    have := cos_two_mul' ((d - b) / 2); have h := sin_sq_add_cos_sq ((d - b) / 2)
    rw [mul_div_cancel₀ _ two_ne_zero] at this; linarith
  rw [h3]
  nlinarith

/-- The haversine formula of narrow representations gives the distance of the law of cosines, for all places. -/
theorem C81_formulas (p q : Position ℝ) : sphericalDistance realGeo false p q = sphericalDistance realGeo true p q := by
  rw [C81_angle]
  set θ := InnerProductGeometry.angle (onSphere p) (onSphere q) with hθ
  have h0 := InnerProductGeometry.angle_nonneg (onSphere p) (onSphere q)
  have h1 := InnerProductGeometry.angle_le_pi (onSphere p) (onSphere q)
  have hc : cos θ = sin (p.lat * (π / 180)) * sin (q.lat * (π / 180)) + cos (p.lat * (π / 180)) * cos (q.lat * (π / 180)) * cos (q.lon * (π / 180) - p.lon * (π / 180)) := by
    rw [← onSphere_inner, ← InnerProductGeometry.cos_angle_mul_norm_mul_norm, onSphere_norm, onSphere_norm]; simp [hθ]
  have hs : (1 - cos θ) / 2 = sin (θ / 2) ^ 2 := by
    have := cos_two_mul' (θ / 2); have h := sin_sq_add_cos_sq (θ / 2)
    rw [mul_div_cancel₀ _ two_ne_zero] at this; linarith
  have hn : 0 ≤ sin (θ / 2) := sin_nonneg_of_nonneg_of_le_pi (by positivity) (by linarith [pi_pos])
  have : haversine realGeo (p.lat * (π / 180)) (p.lon * (π / 180)) (q.lat * (π / 180)) (q.lon * (π / 180)) = θ := by
    show ((2 : ℤ) : ℝ) * arcsin (sqrt (sin ((_ - _) / ((2 : ℤ) : ℝ)) * sin ((_ - _) / ((2 : ℤ) : ℝ)) + cos _ * cos _ * sin ((_ - _) / ((2 : ℤ) : ℝ)) * sin ((_ - _) / ((2 : ℤ) : ℝ)))) = θ
    push_cast
    rw [haversine_eq, ← hc, hs, sqrt_sq hn, arcsin_sin (by linarith [pi_pos]) (by linarith)]
    ring
  simp only [sphericalDistance, Bool.false_eq_true, if_false]
  have e : ∀ x : ℝ, realGeo.mul x realGeo.deg = x * (π / 180) := fun x => by simp [realGeo, GeoArith.deg]
  rw [e, e, e, e, this]
  simp [realGeo]

/-- Distances over the reals satisfy the laws of a metric, and no two places are further apart than half the circumference. -/
theorem C81_metric (p q r : Position ℝ) :
    sphericalDistance realGeo true p q = sphericalDistance realGeo true q p ∧
    0 ≤ sphericalDistance realGeo true p q ∧ sphericalDistance realGeo true p q ≤ 6371 * π ∧
    sphericalDistance realGeo true p p = 0 ∧
    sphericalDistance realGeo true p r ≤ sphericalDistance realGeo true p q + sphericalDistance realGeo true q r := by
  simp only [C81_angle]
  refine ⟨by rw [InnerProductGeometry.angle_comm], ?_, ?_, ?_, ?_⟩
  · have := InnerProductGeometry.angle_nonneg (onSphere p) (onSphere q); linarith
  · have := InnerProductGeometry.angle_le_pi (onSphere p) (onSphere q); linarith
  · rw [InnerProductGeometry.angle_self, mul_zero]
    intro h; have := onSphere_norm p; rw [h, norm_zero] at this; norm_num at this
  · have := InnerProductGeometry.angle_le_angle_add_angle (onSphere p) (onSphere q) (onSphere r)
    linarith

/-- Places between the poles with longitudes in the range of geographic.h are at distance 0 only from themselves. -/
theorem C81_zero (p q : Position ℝ) (hp : |p.lat| < 90) (hq : |q.lat| < 90) (hl : -180 < p.lon ∧ p.lon ≤ 180) (hm : -180 < q.lon ∧ q.lon ≤ 180) :
    sphericalDistance realGeo true p q = 0 ↔ p = q := by
  constructor
  · intro h
    rw [C81_angle] at h
    have h0 : InnerProductGeometry.angle (onSphere p) (onSphere q) = 0 := by linarith
    have he : onSphere p = onSphere q := by
      have := (inner_eq_one_iff_of_norm_eq_one (𝕜 := ℝ) (onSphere_norm p) (onSphere_norm q)).1 (by
        rw [← InnerProductGeometry.cos_angle_mul_norm_mul_norm, h0, onSphere_norm, onSphere_norm]; simp)
      exact this
    have e0 : cos (p.lat * (π / 180)) * cos (p.lon * (π / 180)) = cos (q.lat * (π / 180)) * cos (q.lon * (π / 180)) := by
      simpa [onSphere] using congrFun (congrArg WithLp.ofLp he) 0
    have e1 : cos (p.lat * (π / 180)) * sin (p.lon * (π / 180)) = cos (q.lat * (π / 180)) * sin (q.lon * (π / 180)) := by
      simpa [onSphere] using congrFun (congrArg WithLp.ofLp he) 1
    have e2 : sin (p.lat * (π / 180)) = sin (q.lat * (π / 180)) := by
      simpa [onSphere] using congrFun (congrArg WithLp.ofLp he) 2
    have hpi := pi_pos
    rw [abs_lt] at hp hq
    have hlat : p.lat * (π / 180) = q.lat * (π / 180) := injOn_sin ⟨by nlinarith, by nlinarith⟩ ⟨by nlinarith, by nlinarith⟩ e2
    have hc : 0 < cos (p.lat * (π / 180)) := cos_pos_of_mem_Ioo ⟨by nlinarith, by nlinarith⟩
    rw [← hlat] at e0 e1
    have c0 := mul_left_cancel₀ hc.ne' e0
    have c1 := mul_left_cancel₀ hc.ne' e1
    have hlon : p.lon * (π / 180) = q.lon * (π / 180) := by
      have a1 := Complex.arg_cos_add_sin_mul_I (θ := p.lon * (π / 180)) ⟨by nlinarith, by nlinarith⟩
      have a2 := Complex.arg_cos_add_sin_mul_I (θ := q.lon * (π / 180)) ⟨by nlinarith, by nlinarith⟩
      rw [← a1, ← a2, ← Complex.ofReal_cos, ← Complex.ofReal_sin, ← Complex.ofReal_cos, ← Complex.ofReal_sin, c0, c1]
    have hd : π / 180 ≠ 0 := by positivity
    cases p; cases q
    simp only [Position.mk.injEq]
    exact ⟨mul_right_cancel₀ hd hlat, mul_right_cancel₀ hd hlon⟩
  · rintro rfl; exact (C81_metric p p p).2.2.2.1

theorem arccos_cos_abs (x : ℝ) (h : |x| ≤ π) : arccos (cos x) = |x| := by
  rw [← cos_abs, arccos_cos (abs_nonneg x) h]

/-- On a meridian the distance is proportional to the difference of the latitudes. -/
theorem C81_meridian (lat₁ lat₂ lon : ℝ) (h₁ : |lat₁| ≤ 90) (h₂ : |lat₂| ≤ 90) :
    sphericalDistance realGeo true ⟨lat₁, lon⟩ ⟨lat₂, lon⟩ = 6371 * (π / 180) * |lat₂ - lat₁| := by
  have hpi := pi_pos
  rw [abs_le] at h₁ h₂
  have : sphericalDistance realGeo true ⟨lat₁, lon⟩ ⟨lat₂, lon⟩ = 6371 * arccos (cos ((lat₂ - lat₁) * (π / 180))) := by
    simp only [sphericalDistance, lawOfCosines, realGeo, GeoArith.deg, if_true, sub_self, cos_zero, mul_one, sub_mul, cos_sub]
    push_cast; congr 2; ring
  rw [this, arccos_cos_abs, abs_mul, abs_of_pos (show 0 < π / 180 by positivity)]
  · ring
  · rw [abs_le]; constructor <;> nlinarith

/-- On the equator the distance is proportional to the difference of the longitudes, up to half the circle. -/
theorem C81_equator (lon₁ lon₂ : ℝ) (h : |lon₂ - lon₁| ≤ 180) :
    sphericalDistance realGeo true ⟨0, lon₁⟩ ⟨0, lon₂⟩ = 6371 * (π / 180) * |lon₂ - lon₁| := by
  have hpi := pi_pos
  rw [abs_le] at h
  have : sphericalDistance realGeo true ⟨0, lon₁⟩ ⟨0, lon₂⟩ = 6371 * arccos (cos ((lon₂ - lon₁) * (π / 180))) := by
    simp [sphericalDistance, lawOfCosines, realGeo, GeoArith.deg, sub_mul]
  rw [this, arccos_cos_abs, abs_mul, abs_of_pos (show 0 < π / 180 by positivity)]
  · ring
  · rw [abs_le]; constructor <;> nlinarith

/-- The place on the other side of the earth is at half the circumference. -/
theorem C81_antipode (lat lon : ℝ) : sphericalDistance realGeo true ⟨lat, lon⟩ ⟨-lat, lon + 180⟩ = 6371 * π := by
  have h : (lon + 180) * (π / 180) - lon * (π / 180) = π := by ring
  simp only [sphericalDistance, lawOfCosines, realGeo, GeoArith.deg, if_true]
  push_cast
  rw [h, cos_pi, neg_mul, sin_neg, cos_neg]
  have : sin (lat * (π / 180)) * -sin (lat * (π / 180)) + cos (lat * (π / 180)) * cos (lat * (π / 180)) * -1 = -1 := by
    nlinarith [sin_sq_add_cos_sq (lat * (π / 180))]
  rw [this, arccos_neg_one]

/-! ### Doubles -/

/-- Taylor sums of the cosine and the sine with a bound of the error. -/
theorem trig_taylor (x : ℝ) (hx : |x| ≤ 1) :
    |cos x - (1 - x ^ 2 / 2 + x ^ 4 / 24 - x ^ 6 / 720 + x ^ 8 / 40320 - x ^ 10 / 3628800)| ≤ |x| ^ 12 / 442000000 ∧
    |sin x - (x - x ^ 3 / 6 + x ^ 5 / 120 - x ^ 7 / 5040 + x ^ 9 / 362880 - x ^ 11 / 39916800)| ≤ |x| ^ 12 / 442000000 := by
  have h := Complex.exp_bound (x := x * Complex.I) (by simpa using hx) (n := 12) (by norm_num)
  rw [Complex.exp_mul_I, ← Complex.ofReal_cos, ← Complex.ofReal_sin] at h
  have hs : (∑ m ∈ Finset.range 12, ((x : ℂ) * Complex.I) ^ m / m.factorial) =
      ((1 - x ^ 2 / 2 + x ^ 4 / 24 - x ^ 6 / 720 + x ^ 8 / 40320 - x ^ 10 / 3628800 : ℝ) : ℂ) +
      ((x - x ^ 3 / 6 + x ^ 5 / 120 - x ^ 7 / 5040 + x ^ 9 / 362880 - x ^ 11 / 39916800 : ℝ) : ℂ) * Complex.I := by
    have i2 : Complex.I ^ 2 = -1 := Complex.I_sq
    have i3 : Complex.I ^ 3 = -Complex.I := by rw [pow_succ, i2]; ring
    have i4 : Complex.I ^ 4 = 1 := Complex.I_pow_four
    have i5 : Complex.I ^ 5 = Complex.I := by rw [pow_succ, i4]; ring
    have i6 : Complex.I ^ 6 = -1 := by rw [pow_succ, i5, ← pow_two, i2]
    have i7 : Complex.I ^ 7 = -Complex.I := by rw [pow_succ, i6]; ring
    have i8 : Complex.I ^ 8 = 1 := by rw [pow_succ, i7, neg_mul, ← pow_two, i2]; ring
    have i9 : Complex.I ^ 9 = Complex.I := by rw [pow_succ, i8]; ring
    have i10 : Complex.I ^ 10 = -1 := by rw [pow_succ, i9, ← pow_two, i2]
    have i11 : Complex.I ^ 11 = -Complex.I := by rw [pow_succ, i10]; ring
    simp only [Finset.sum_range_succ, Finset.sum_range_zero, mul_pow, i2, i3, i4, i5, i6, i7, i8, i9, i10, i11, Nat.factorial]
    push_cast
    ring
  rw [hs] at h
  have hn : ‖(x : ℂ) * Complex.I‖ = |x| := by simp
  rw [hn] at h
  have hb : |x| ^ 12 * (((Nat.succ 12 : ℕ) : ℝ) * (((Nat.factorial 12 : ℕ) : ℝ) * ((12 : ℕ) : ℝ))⁻¹) ≤ |x| ^ 12 / 442000000 := by
    rw [div_eq_mul_inv]
    refine mul_le_mul_of_nonneg_left ?_ (by positivity)
    norm_num [Nat.factorial]
  have h' := h.trans hb
  generalize (1 - x ^ 2 / 2 + x ^ 4 / 24 - x ^ 6 / 720 + x ^ 8 / 40320 - x ^ 10 / 3628800 : ℝ) = A at h' ⊢
  generalize (x - x ^ 3 / 6 + x ^ 5 / 120 - x ^ 7 / 5040 + x ^ 9 / 362880 - x ^ 11 / 39916800 : ℝ) = B at h' ⊢
  generalize cos x = c at h' ⊢
  generalize sin x = s at h' ⊢
  exact ⟨le_trans (by simpa using Complex.abs_re_le_norm ((c : ℂ) + s * Complex.I - (A + B * Complex.I))) h',
    le_trans (by simpa using Complex.abs_im_le_norm ((c : ℂ) + s * Complex.I - (A + B * Complex.I))) h'⟩

/-- The double `8 * (pi / 180)`. -/
def lat8 : ℚ := 5030569068109113 / 2 ^ 55

theorem sin_lat8 : |sin (lat8 : ℝ) - 5014239404989977 / 2 ^ 55| ≤ 0.15 / 2 ^ 55 := by
  have h := (trig_taylor (lat8 : ℝ) (by norm_num [lat8])).2
  norm_num [lat8] at h ⊢
  rw [abs_le] at h ⊢
  constructor <;> linarith [h.1, h.2]

theorem cos_lat8 : |cos (lat8 : ℝ) - 8919541810762874 / 2 ^ 53| ≤ 0.43 / 2 ^ 53 := by
  have h := (trig_taylor (lat8 : ℝ) (by norm_num [lat8])).1
  norm_num [lat8] at h ⊢
  rw [abs_le] at h ⊢
  constructor <;> linarith [h.1, h.2]

/-- Spec: a value of `<cmath>` in double has the accuracy 0.55 units in its last place for all finite arguments. -/
def Accurate (f : ℝ → ℝ) (g : FVal → FVal) : Prop :=
  ∀ s m, (FVal.fin s m).In .f64 → ∃ t y, g (.fin s m) = .fin t y ∧ (FVal.fin t y).In .f64 ∧
    |(((FVal.fin t y).q : ℚ) : ℝ) - f ((FVal.fin s m).q : ℚ)| ≤ 0.55 * (2 : ℝ) ^ (FltTy.f64.lastExp y)

/-- The doubles between two powers of two are multiples of the last place. -/
theorem f64_grid (y : ℚ) (e : ℤ) (he : -1022 ≤ e) (h : FltTy.f64.rndMag y = some y) (h1 : (2 : ℚ) ^ e ≤ y) (h2 : y < 2 ^ (e + 1)) :
    FltTy.f64.lastExp y = e - 52 ∧ ∃ k : ℤ, y = k * 2 ^ (e - 52) := by
  have hy : 0 < y := lt_of_lt_of_le (by positivity) h1
  have hl : Int.log 2 y = e := by
    apply le_antisymm
    · have : Int.log 2 y < e + 1 := (Int.lt_zpow_iff_log_lt (by norm_num) hy).1 (by exact_mod_cast h2)
      omega
    · exact (Int.zpow_le_iff_le_log (by norm_num) hy).1 (by exact_mod_cast h1)
  have hx : FltTy.f64.lastExp y = e - 52 := by
    simp only [FltTy.lastExp, hl, FltTy.emin, FltTy.emax, FltTy.prec]
    rw [max_eq_left (by omega)]; ring
  refine ⟨hx, ?_⟩
  unfold FltTy.rndMag at h
  simp only [hx] at h
  split at h
  · exact ⟨_, (Option.some.inj h).symm⟩
  · cases h

theorem lastExp_le (y : ℚ) (h0 : 0 ≤ y) : (2 : ℝ) ^ (FltTy.f64.lastExp y) ≤ ((y : ℝ) + 1) / 2 ^ 52 := by
  have hy0 : (0 : ℝ) ≤ y := by exact_mod_cast h0
  have e : FltTy.f64.prec - 1 = 52 := by decide
  have e' : (2 : ℝ) ^ (52 : ℤ) = 2 ^ 52 := by norm_cast
  unfold FltTy.lastExp
  rw [e, zpow_sub₀ (by norm_num), e']
  refine div_le_div_of_nonneg_right ?_ (by positivity)
  rcases h0.lt_or_eq with hy | hy
  · rcases le_total (Int.log 2 y) FltTy.f64.emin with h | h
    · rw [max_eq_right h]
      have : (2 : ℝ) ^ FltTy.f64.emin ≤ 2 ^ (0 : ℤ) := zpow_le_zpow_right₀ (by norm_num) (by decide)
      rw [zpow_zero] at this
      linarith
    · rw [max_eq_left h]
      have h1 : (2 : ℚ) ^ Int.log 2 y ≤ y := by exact_mod_cast Int.zpow_log_le_self (by norm_num) hy
      have h2 : (((2 : ℚ) ^ Int.log 2 y : ℚ) : ℝ) ≤ y := Rat.cast_le.2 h1
      push_cast at h2
      linarith
  · subst hy
    rw [Int.log_zero_right, max_eq_left (by decide)]
    simp

/-- An accurate value near a number of one binade is the double nearest to it. -/
theorem accurate_unique (t : ℝ) (sg : Bool) (y : ℚ) (e k : ℤ) (he : -1022 ≤ e) (hin : (FVal.fin sg y).In .f64)
    (h : |(((FVal.fin sg y).q : ℚ) : ℝ) - t| ≤ 0.55 * (2 : ℝ) ^ (FltTy.f64.lastExp y))
    (ht1 : (2 : ℝ) ^ e * (1 + 1 / 2 ^ 40) ≤ t) (ht2 : t * (1 + 1 / 2 ^ 40) ≤ 2 ^ (e + 1)) (hlo : (1 / 2 ^ 10 : ℝ) ≤ t)
    (hk : |t - k * 2 ^ (e - 52)| ≤ 0.44 * (2 : ℝ) ^ (e - 52)) : sg = false ∧ y = k * 2 ^ (e - 52) := by
  obtain ⟨h0, hr⟩ := hin
  have hl := lastExp_le y h0
  have hy0 : (0 : ℝ) ≤ y := by exact_mod_cast h0
  have hs : sg = false := by
    cases sg
    · rfl
    · exfalso
      have : (((FVal.fin true y).q : ℚ) : ℝ) = -y := by simp [FVal.q]
      rw [this, abs_le] at h
      have := h.1
      generalize (2 : ℝ) ^ FltTy.f64.lastExp y = E at this hl
      norm_num at hl this hlo
      linarith
  subst hs
  have hq : (((FVal.fin false y).q : ℚ) : ℝ) = y := by simp [FVal.q]
  rw [hq] at h
  have hz : (2 : ℝ) ^ (e + 1) = 2 * 2 ^ e := by rw [zpow_add₀ (by norm_num)]; ring
  have hp : (0 : ℝ) < 2 ^ e := by positivity
  have hyt := abs_le.1 h
  generalize hE : (2 : ℝ) ^ FltTy.f64.lastExp y = E at h hyt hl
  have hlt : (y : ℝ) < 2 ^ (e + 1) := by
    norm_num at *
    linarith
  have hge : (2 : ℝ) ^ e ≤ y := by
    norm_num at *
    linarith
  have hge' : (((2 : ℚ) ^ e : ℚ) : ℝ) ≤ y := by push_cast; exact hge
  have hlt' : (y : ℝ) < (((2 : ℚ) ^ (e + 1) : ℚ) : ℝ) := by push_cast; exact hlt
  obtain ⟨hle, j, hj⟩ := f64_grid y e he hr (Rat.cast_le.1 hge') (Rat.cast_lt.1 hlt')
  rw [hle] at hE
  rw [← hE] at h
  have hu : (0 : ℝ) < 2 ^ (e - 52) := by positivity
  have hyj : (y : ℝ) = j * 2 ^ (e - 52) := by rw [hj]; push_cast; rfl
  have hd : |((j - k : ℤ) : ℝ)| < 1 := by
    have h3 : |(y : ℝ) - k * 2 ^ (e - 52)| ≤ 0.99 * (2 : ℝ) ^ (e - 52) := by
      calc |(y : ℝ) - k * 2 ^ (e - 52)| = |((y : ℝ) - t) + (t - k * 2 ^ (e - 52))| := by ring_nf
        _ ≤ |(y : ℝ) - t| + |t - k * 2 ^ (e - 52)| := abs_add_le _ _
        _ ≤ _ := by linarith
    rw [hyj, ← sub_mul, abs_mul, abs_of_pos hu] at h3
    have := le_of_mul_le_mul_right h3 hu
    push_cast
    linarith
  have : j - k = 0 := by
    have : |j - k| < 1 := by exact_mod_cast hd
    exact Int.abs_lt_one_iff.1 this
  have : j = k := by omega
  exact ⟨rfl, by rw [hj, this]⟩


theorem cos_zero_accurate (sg : Bool) (y : ℚ) (hin : (FVal.fin sg y).In .f64)
    (h : |(((FVal.fin sg y).q : ℚ) : ℝ) - 1| ≤ 0.55 * (2 : ℝ) ^ (FltTy.f64.lastExp y)) : sg = false ∧ y = 1 := by
  obtain ⟨h0, hr⟩ := hin
  have hl := lastExp_le y h0
  have hy0 : (0 : ℝ) ≤ y := by exact_mod_cast h0
  have hs : sg = false := by
    cases sg
    · rfl
    · exfalso
      have : (((FVal.fin true y).q : ℚ) : ℝ) = -y := by simp [FVal.q]
      rw [this, abs_le] at h
      have := h.1
      generalize (2 : ℝ) ^ FltTy.f64.lastExp y = E at this hl
      norm_num at hl this
      linarith
  subst hs
  refine ⟨rfl, ?_⟩
  have hq : (((FVal.fin false y).q : ℚ) : ℝ) = y := by simp [FVal.q]
  rw [hq] at h
  have hyt := abs_le.1 h
  generalize hE : (2 : ℝ) ^ FltTy.f64.lastExp y = E at h hyt hl
  have hlt : (y : ℝ) < 2 := by
    norm_num at *
    linarith
  have hge : (1 / 2 : ℝ) ≤ y := by
    norm_num at *
    linarith
  have hlt' : y < 2 := by exact_mod_cast hlt
  have hge' : 1 / 2 ≤ y := by
    have : (((1 / 2 : ℚ) : ℚ) : ℝ) ≤ y := by push_cast; exact hge
    exact Rat.cast_le.1 this
  have key : ∀ (e : ℤ) (j k : ℤ), FltTy.f64.lastExp y = e → y = j * 2 ^ e → (1 : ℝ) = k * 2 ^ e → y = 1 := by
    intro e j k hle hj hk
    rw [hle] at hE
    rw [← hE] at h
    have hyj : (y : ℝ) = j * 2 ^ e := by rw [hj]; push_cast; rfl
    have hu : (0 : ℝ) < 2 ^ e := by positivity
    rw [hyj, hk, ← sub_mul, abs_mul, abs_of_pos hu] at h
    have h2 := le_of_mul_le_mul_right h hu
    have h3 : |((j - k : ℤ) : ℝ)| < 1 := by push_cast; linarith
    have h4 : |j - k| < 1 := by exact_mod_cast h3
    have h5 : j = k := by have := Int.abs_lt_one_iff.1 h4; omega
    have : (y : ℝ) = 1 := by rw [hyj, hk, h5]
    exact_mod_cast this
  rcases lt_or_ge y 1 with h1 | h1
  · obtain ⟨hle, j, hj⟩ := f64_grid y (-1) (by norm_num) hr (by norm_num; linarith) (by norm_num; linarith)
    exact key _ j (2 ^ 53) hle hj (by norm_num)
  · obtain ⟨hle, j, hj⟩ := f64_grid y 0 (by norm_num) hr (by norm_num; linarith) (by norm_num; linarith)
    exact key _ j (2 ^ 52) hle hj (by norm_num)

theorem mul_nan (x : FVal) : FVal.mul .f64 x .nan = .nan := by cases x <;> rfl

theorem lon_finite (sin cos asin acos sqrt : FVal → FVal) (sg : Bool) (lon : ℚ) (h : (FVal.fin sg lon).In .f64) :
    ∃ x, FVal.mul .f64 (.fin sg lon) (doubleGeo sin cos asin acos sqrt).deg = .fin sg x := by
  have hp : (doubleGeo sin cos asin acos sqrt).deg = .fin false (5030569068109113 / 2 ^ 58) := by
    show (doubleGeo id id id id id).deg = _
    decide +kernel
  obtain ⟨h0, hr⟩ := h
  have hlt := (FltTy.rndMag_some.1 hr).2
  rw [hp]
  have hle : FltTy.f64.rndU (lon * (5030569068109113 / 2 ^ 58)) ≤ 2 ^ (1023 : ℤ) := by
    refine FltTy.rndU_le_pow (by decide) (by positivity) ?_
    have e : (2 : ℚ) ^ FltTy.f64.emax = 2 * 2 ^ (1023 : ℤ) := by
      show (2 : ℚ) ^ (1024 : ℤ) = _
      rw [show (1024 : ℤ) = 1 + 1023 from rfl, zpow_add₀ (by norm_num), zpow_one]
    rw [e] at hlt
    generalize (2 : ℚ) ^ (1023 : ℤ) = B at hlt
    norm_num
    linarith
  have hlt' : FltTy.f64.rndU (lon * (5030569068109113 / 2 ^ 58)) < 2 ^ FltTy.f64.emax :=
    lt_of_le_of_lt hle (zpow_lt_zpow_right₀ (by norm_num) (by decide))
  exact ⟨FltTy.f64.rndU (lon * (5030569068109113 / 2 ^ 58)), by simp only [FVal.mul, FVal.round, FltTy.rndMag_eq, if_pos hlt', Bool.bne_false]⟩

theorem f_mul_comm (f : FltTy) (a b : FVal) : FVal.mul f a b = FVal.mul f b a := by
  have h : ∀ s t : Bool, (s != t) = (t != s) := by decide
  rcases a with ⟨s, a⟩ | s | _ <;> rcases b with ⟨t, b⟩ | t | _ <;> simp only [FVal.mul]
  · rw [mul_comm, h]
  · rw [h]
  · rw [h]
  · rw [h]

theorem f_sub_swap (f : FltTy) (a b : FVal) : FVal.sub f a b = FVal.sub f b a ∨ FVal.sub f a b = (FVal.sub f b a).neg := by
  cases a with
  | nan => left; cases b <;> rfl
  | inf s =>
    cases b with
    | nan => left; rfl
    | inf t => cases s <;> cases t <;> simp [FVal.sub, FVal.neg, FVal.add]
    | fin t b => right; simp [FVal.sub, FVal.neg, FVal.add]
  | fin s a =>
    cases b with
    | nan => left; rfl
    | inf t => right; simp [FVal.sub, FVal.neg, FVal.add]
    | fin t b =>
      have hx : (FVal.fin (!t) b).q = -(FVal.fin t b).q := by cases t <;> simp [FVal.q]
      have hy : (FVal.fin (!s) a).q = -(FVal.fin s a).q := by cases s <;> simp [FVal.q]
      simp only [FVal.sub, FVal.neg, FVal.add, hx, hy]
      generalize (FVal.fin s a).q = u
      generalize (FVal.fin t b).q = v
      rcases eq_or_ne u v with rfl | h
      · cases s <;> cases t <;> simp
      · right
        have e1 : u + -v ≠ 0 := fun h' => h (by linarith)
        have e2 : v + -u ≠ 0 := fun h' => h (by linarith)
        rw [if_neg e1, if_neg e2]
        have e3 : |u + -v| = |v + -u| := by rw [← sub_eq_add_neg, ← sub_eq_add_neg, abs_sub_comm]
        have e4 : decide (u + -v < 0) = !decide (v + -u < 0) := by
          rcases lt_or_gt_of_ne h with h' | h'
          · rw [decide_eq_true (by linarith), decide_eq_false (by linarith)]; rfl
          · rw [decide_eq_false (by linarith), decide_eq_true (by linarith)]; rfl
        rw [e3, e4]
        unfold FVal.round
        cases f.rndMag |v + -u| <;> rfl

/-- In doubles too the distance does not depend on the direction, whatever the values: all that is asked of `<cmath>` is a cosine that is even. -/
theorem C81_symmetric (sin cos asin acos sqrt : FVal → FVal) (hc : ∀ x : FVal, cos x.neg = cos x) (a b : Position FVal) :
    sphericalDistance (doubleGeo sin cos asin acos sqrt) true a b = sphericalDistance (doubleGeo sin cos asin acos sqrt) true b a := by
  have h : ∀ x y : FVal, cos (FVal.sub .f64 x y) = cos (FVal.sub .f64 y x) := by
    intro x y
    rcases f_sub_swap .f64 x y with h | h <;> rw [h]
    exact hc _
  simp only [sphericalDistance, lawOfCosines, if_true]
  show FVal.mul .f64 _ (acos (FVal.add .f64 (FVal.mul .f64 _ _) (FVal.mul .f64 (FVal.mul .f64 _ _) (cos (FVal.sub .f64 _ _))))) =
    FVal.mul .f64 _ (acos (FVal.add .f64 (FVal.mul .f64 _ _) (FVal.mul .f64 (FVal.mul .f64 _ _) (cos (FVal.sub .f64 _ _)))))
  rw [h, f_mul_comm .f64 ((doubleGeo sin cos asin acos sqrt).sin _), f_mul_comm .f64 ((doubleGeo sin cos asin acos sqrt).cos _)]

/-- **Finding.**  In doubles a place on latitude 8 (any longitude) is not at distance 0 from itself: the sum of squares exceeds 1 and the distance is NaN, for any sine and
cosine of the accuracy of common libraries (correctly rounded ones included) and an arc cosine that returns NaN outside its domain. -/
theorem C81_nan (sin cos asin acos sqrt : FVal → FVal) (hs : Accurate Real.sin sin) (hc : Accurate Real.cos cos)
    (ha : ∀ x : ℚ, 1 < x → acos (.fin false x) = .nan) (sg : Bool) (lon : ℚ)
    (hlon : (FVal.fin sg lon).In .f64) :
    sphericalDistance (doubleGeo sin cos asin acos sqrt) true ⟨.ofInt .f64 8, .fin sg lon⟩ ⟨.ofInt .f64 8, .fin sg lon⟩ = .nan := by
  have h8 : FVal.mul .f64 (.ofInt .f64 8) (doubleGeo sin cos asin acos sqrt).deg = .fin false lat8 := by
    show FVal.mul .f64 (.ofInt .f64 8) (doubleGeo id id id id id).deg = .fin false lat8
    decide +kernel
  have hin8 : (FVal.fin false lat8).In .f64 := ⟨by decide +kernel, by decide +kernel⟩
  obtain ⟨t, y, e1, i1, b1⟩ := hs _ _ hin8
  obtain ⟨t', y', e2, i2, b2⟩ := hc _ _ hin8
  obtain ⟨t'', y'', e3, i3, b3⟩ := hc false 0 ⟨le_rfl, by decide +kernel⟩
  have q8 : (FVal.fin false lat8).q = lat8 := rfl
  have q0 : (FVal.fin false 0).q = 0 := rfl
  rw [q8] at b1 b2
  rw [q0, Rat.cast_zero, Real.cos_zero] at b3
  obtain ⟨rfl, rfl⟩ := cos_zero_accurate _ _ i3 b3
  have s8 := abs_le.1 sin_lat8
  have c8 := abs_le.1 cos_lat8
  obtain ⟨rfl, rfl⟩ := accurate_unique (Real.sin lat8) t y (-3) 5014239404989977 (by norm_num) i1 b1 (by norm_num at *; linarith) (by norm_num at *; linarith)
    (by norm_num at *; linarith) (by rw [abs_le]; norm_num at *; constructor <;> linarith)
  obtain ⟨rfl, rfl⟩ := accurate_unique (Real.cos lat8) t' y' (-1) 8919541810762874 (by norm_num) i2 b2 (by norm_num at *; linarith) (by norm_num at *; linarith)
    (by norm_num at *; linarith) (by rw [abs_le]; norm_num at *; constructor <;> linarith)
  obtain ⟨x, hx⟩ := lon_finite sin cos asin acos sqrt sg lon hlon
  have hd : FVal.sub .f64 (.fin sg x) (.fin sg x) = .fin false 0 := by
    cases sg <;> simp [FVal.sub, FVal.neg, FVal.add, FVal.q]
  have hsum : FVal.add .f64
      (FVal.mul .f64 (.fin false ((5014239404989977 : ℤ) * 2 ^ ((-3 : ℤ) - 52))) (.fin false ((5014239404989977 : ℤ) * 2 ^ ((-3 : ℤ) - 52))))
      (FVal.mul .f64 (FVal.mul .f64 (.fin false ((8919541810762874 : ℤ) * 2 ^ ((-1 : ℤ) - 52))) (.fin false ((8919541810762874 : ℤ) * 2 ^ ((-1 : ℤ) - 52)))) (.fin false 1)) =
      .fin false (1 + 1 / 2 ^ 52) := by decide +kernel
  have hgoal : sphericalDistance (doubleGeo sin cos asin acos sqrt) true ⟨.ofInt .f64 8, .fin sg lon⟩ ⟨.ofInt .f64 8, .fin sg lon⟩ =
      FVal.mul .f64 (.ofInt .f64 6371) (acos (FVal.add .f64 (FVal.mul .f64 (sin (.fin false lat8)) (sin (.fin false lat8)))
        (FVal.mul .f64 (FVal.mul .f64 (cos (.fin false lat8)) (cos (.fin false lat8))) (cos (FVal.sub .f64 (.fin sg x) (.fin sg x)))))) := by
    rw [← h8, ← hx]; rfl
  rw [hgoal, hd, e1, e2, e3, hsum, ha _ (by norm_num)]
  exact mul_nan _

/-- A coordinate that is not zero is printed as its direction and its magnitude. -/
theorem C81_print_partial (plus minus : String) (s : Bool) (m : ℚ) (hm : 0 < m) :
    printCoordinate plus minus (.fin s m) = (if s then minus else plus, .fin false m) := by
  cases s
  · simp [printCoordinate, FVal.cmp, FVal.q, hm.not_gt, hm.ne']
  · simp [printCoordinate, FVal.cmp, FVal.q, hm, FVal.neg]

/-- **Finding.**  The equator and the prime meridian are printed as a negative zero to the south and the west: `S-0` and `W-0`. -/
theorem C81_zero_sign (plus minus : String) : printCoordinate plus minus (coordinateLiteral false 0) = (minus, .fin true 0) := by
  have : coordinateLiteral false 0 = .fin false 0 := by decide +kernel
  rw [this]; rfl

/-- A literal is printed as it was written, from 1 to the greatest integer exact in double. -/
theorem C81_literal (plus minus : String) (neg : Bool) (v : ℕ) (h0 : 0 < v) (h1 : v ≤ 2 ^ 53) :
    printCoordinate plus minus (coordinateLiteral neg v) = (if neg then minus else plus, .fin false v) := by
  have h : FVal.ofInt .f64 (v : ℤ) = .fin false v := by
    have hr : FltTy.f64.rndMag (v : ℚ) = some (v : ℚ) := by
      rw [FltTy.rndMag_some]
      rcases h1.lt_or_eq with h | h
      · have := FltTy.rndU_exact (f := .f64) (k := v) (e := 0) (by positivity) (by
          show ((v : ℤ) : ℚ) < 2 ^ (53 : ℤ)
          exact_mod_cast h) (by decide)
        simp only [zpow_zero, mul_one, Int.cast_natCast] at this
        refine ⟨this.symm, lt_trans (show (v : ℚ) < 2 ^ (53 : ℤ) by exact_mod_cast h) (zpow_lt_zpow_right₀ (by norm_num) (by decide))⟩
      · subst h
        exact ⟨by decide +kernel, by decide +kernel⟩
    have hz : ¬ (v : ℤ) < 0 := by omega
    have ha : |((v : ℤ) : ℚ)| = v := by rw [Int.cast_natCast, abs_of_nonneg (by positivity)]
    simp only [FVal.ofInt, FVal.round, ha, hr, decide_eq_false hz]
  have e : coordinateLiteral neg v = .fin neg v := by
    unfold coordinateLiteral
    rw [h]; cases neg <;> rfl
  rw [e, C81_print_partial _ _ _ _ (by exact_mod_cast h0)]

example : printCoordinate "N" "S" (coordinateLiteral true 54) = ("S", .fin false 54) := C81_literal "N" "S" true 54 (by norm_num) (by norm_num)

/-! ### Libraries that meet the hypotheses -/

/-- A value rounded as `Accurate` asks exists for every number up to 1. -/
theorem accurate_near (t : ℝ) (ht : |t| ≤ 1) : ∃ sg y, (FVal.fin sg y).In .f64 ∧
    |(((FVal.fin sg y).q : ℚ) : ℝ) - t| ≤ 0.55 * (2 : ℝ) ^ (FltTy.f64.lastExp y) := by
  have key : ∀ u : ℝ, 0 ≤ u → u ≤ 1 → ∃ y : ℚ, (0 ≤ y ∧ FltTy.f64.rndMag y = some y) ∧ |(y : ℝ) - u| ≤ 0.55 * (2 : ℝ) ^ (FltTy.f64.lastExp y) := by
    intro u h0 h1
    have hε : (0 : ℝ) < 0.05 * 2 ^ (-1074 : ℤ) := by positivity
    obtain ⟨r, hr1, hr2⟩ := exists_rat_btwn (show u < u + 0.05 * 2 ^ (-1074 : ℤ) by linarith)
    have hr0 : (0 : ℚ) < r := by
      have : (0 : ℝ) < r := by linarith
      exact_mod_cast this
    have hsmall : (0.05 : ℝ) * 2 ^ (-1074 : ℤ) ≤ 1 := by
      have : (2 : ℝ) ^ (-1074 : ℤ) ≤ 2 ^ (0 : ℤ) := zpow_le_zpow_right₀ (by norm_num) (by norm_num)
      rw [zpow_zero] at this; linarith
    have hrle : r ≤ 2 ^ (1 : ℤ) := by
      have : (r : ℝ) ≤ ((2 : ℚ) : ℝ) := by push_cast; linarith
      simpa using Rat.cast_le.1 this
    have hle := FltTy.rndU_le_pow (f := .f64) (k := 1) (by decide) hr0.le hrle
    have hexp : FltTy.f64.lastExp r ≤ FltTy.f64.lastExp (FltTy.f64.rndU r) ∧ (-1074 : ℤ) ≤ FltTy.f64.lastExp (FltTy.f64.rndU r) := by
      have hmin : ∀ x : ℚ, (-1074 : ℤ) ≤ FltTy.f64.lastExp x := fun x => by
        have : FltTy.f64.emin = -1022 := by decide
        have : FltTy.f64.prec = 53 := by decide
        unfold FltTy.lastExp; omega
      refine ⟨?_, hmin _⟩
      rcases le_total (Int.log 2 r) FltTy.f64.emin with h | h
      · have : FltTy.f64.lastExp r = -1074 := by unfold FltTy.lastExp; rw [max_eq_right h]; decide
        rw [this]; exact hmin _
      · have h2 : (2 : ℚ) ^ Int.log 2 r ≤ r := by exact_mod_cast Int.zpow_log_le_self (by norm_num) hr0
        have h3 := FltTy.rndU_ge_pow h h2
        have h4 : 0 < FltTy.f64.rndU r := lt_of_lt_of_le (by positivity) h3
        have h5 : Int.log 2 r ≤ Int.log 2 (FltTy.f64.rndU r) := (Int.zpow_le_iff_le_log (by norm_num) h4).1 (by exact_mod_cast h3)
        unfold FltTy.lastExp; omega
    refine ⟨FltTy.f64.rndU r, ⟨FltTy.rndU_nonneg hr0.le, ?_⟩, ?_⟩
    · rw [FltTy.rndMag_some]
      exact ⟨(FltTy.rndU_idem hr0.le).symm, lt_of_le_of_lt hle (zpow_lt_zpow_right₀ (by norm_num) (by decide))⟩
    · have he := FltTy.rndU_err .f64 r
      have he' : |(((FltTy.f64.rndU r - r : ℚ)) : ℝ)| ≤ 1 / 2 * (2 : ℝ) ^ FltTy.f64.lastExp r := by
        have := (Rat.cast_le (K := ℝ)).2 he
        push_cast at this ⊢
        exact this
      have h6 : (2 : ℝ) ^ FltTy.f64.lastExp r ≤ 2 ^ FltTy.f64.lastExp (FltTy.f64.rndU r) := zpow_le_zpow_right₀ (by norm_num) hexp.1
      have h7 : (2 : ℝ) ^ (-1074 : ℤ) ≤ 2 ^ FltTy.f64.lastExp (FltTy.f64.rndU r) := zpow_le_zpow_right₀ (by norm_num) hexp.2
      push_cast at he'
      rw [abs_le] at he' ⊢
      constructor <;> linarith [he'.1, he'.2]
  rw [abs_le] at ht
  rcases le_total 0 t with h | h
  · obtain ⟨y, hy, hb⟩ := key t h ht.2
    exact ⟨false, y, hy, by simpa [FVal.q] using hb⟩
  · obtain ⟨y, hy, hb⟩ := key (-t) (by linarith) (by linarith [ht.1])
    refine ⟨true, y, hy, ?_⟩
    have : (((FVal.fin true y).q : ℚ) : ℝ) - t = -((y : ℝ) - -t) := by simp [FVal.q]; ring
    rw [this, abs_neg]; exact hb

open Classical in
/-- A value of `<cmath>` rounded as `Accurate` asks, for functions with values up to 1. -/
noncomputable def rounded (f : ℝ → ℝ) : FVal → FVal
  | .fin s m => if h : |f (((FVal.fin s m).q : ℚ) : ℝ)| ≤ 1 then .fin (accurate_near _ h).choose (accurate_near _ h).choose_spec.choose else .nan
  | _ => .nan

theorem rounded_accurate (f : ℝ → ℝ) (hf : ∀ x, |f x| ≤ 1) : Accurate f (rounded f) := by
  intro s m _
  have h := hf (((FVal.fin s m).q : ℚ) : ℝ)
  refine ⟨_, _, dif_pos h, (accurate_near _ h).choose_spec.choose_spec.1, (accurate_near _ h).choose_spec.choose_spec.2⟩

/-- An arc cosine with its domain error. -/
noncomputable def acosDomain : FVal → FVal
  | .fin s m => if 1 < m then .nan else rounded (fun x => arccos x / 4) (.fin s m)
  | _ => .nan

theorem rounded_even (x : FVal) : rounded Real.cos x.neg = rounded Real.cos x := by
  cases x with
  | fin s m =>
    have : (((FVal.fin (!s) m).q : ℚ) : ℝ) = -((FVal.fin s m).q : ℚ) := by cases s <;> simp [FVal.q]
    simp only [FVal.neg, rounded, this, Real.cos_neg]
  | _ => rfl

/-- A place in Ethiopia. -/
example : sphericalDistance (doubleGeo (rounded Real.sin) (rounded Real.cos) id acosDomain id) true
    ⟨.ofInt .f64 8, .fin false 39⟩ ⟨.ofInt .f64 8, .fin false 39⟩ = .nan :=
  C81_nan _ _ _ _ _ (rounded_accurate _ abs_sin_le_one) (rounded_accurate _ abs_cos_le_one) (fun _ h => if_pos h) false 39
    ⟨by norm_num, by decide +kernel⟩

example (a b : Position FVal) : sphericalDistance (doubleGeo (rounded Real.sin) (rounded Real.cos) id acosDomain id) true a b =
    sphericalDistance (doubleGeo (rounded Real.sin) (rounded Real.cos) id acosDomain id) true b a :=
  C81_symmetric _ _ _ _ _ rounded_even a b

/-- A degree of latitude is about 111 km: from Gdansk two degrees to the south. -/
example : sphericalDistance realGeo true ⟨54, 18⟩ ⟨52, 18⟩ = 6371 * (π / 180) * 2 := by
  rw [C81_meridian _ _ _ (by norm_num [abs_le]) (by norm_num [abs_le])]; norm_num

example : sphericalDistance realGeo false ⟨0, 18⟩ ⟨0, -162⟩ = 6371 * π := by
  rw [C81_formulas, C81_equator _ _ (by norm_num [abs_le])]; norm_num [abs_of_neg]; ring

example : sphericalDistance realGeo true ⟨54, 18⟩ ⟨54, 19⟩ ≠ 0 :=
  fun h => absurd ((C81_zero _ _ (by norm_num [abs_lt]) (by norm_num [abs_lt]) (by norm_num) (by norm_num)).1 h) (by
    simp only [Position.mk.injEq]; norm_num)

end Verif
