import Verif.IeeeShip
import Verif.Props.IeeeHelloProps

/-!
# C103: the ships in IEEE floating point
-/

namespace Verif

open FltTy Demos Systems

set_option maxRecDepth 100000

/-! ### Conversions -/

/-- The factor of a conversion between doubles is `κ` up to two roundings. -/
def factorB (d : Dim) (u : MUnit) (d' : Dim) (u' : MUnit) (κ : ℚ) : Bool :=
  match dimEquivalent d' d, castRatio dE.est d u d' u' with
  | .ok true, .ok c => match castFactorI c with
    | .fin false F => decide (0 ≤ F ∧ FltTy.f64.rndMag F = some F ∧ (1 - 1 / 2 ^ 53) ^ 2 * κ ≤ F ∧ F * (1 - 1 / 2 ^ 53) ^ 2 ≤ κ ∧ 1 / 2 ^ 40 ≤ κ ∧ κ ≤ 2 ^ 40)
    | _ => false
  | _, _ => false

theorem factorB_spec {d d' : Dim} {u u' : MUnit} {κ : ℚ} (h : factorB d u d' u' κ = true) :
    ∃ c F, dimEquivalent d' d = .ok true ∧ castRatio dE.est d u d' u' = .ok c ∧ castFactorI c = .fin false F ∧ Got (1 / 2 ^ 53) 2 40 (κ : ℝ) (.fin false F) := by
  unfold factorB at h
  split at h
  · rename_i c hd hc
    split at h
    · rename_i F hF
      obtain ⟨h0, h1, h2, h3, h4, h5⟩ := of_decide_eq_true h
      have c2 := Rat.cast_le (K := ℝ) |>.mpr h2
      have c3 := Rat.cast_le (K := ℝ) |>.mpr h3
      have c4 := Rat.cast_le (K := ℝ) |>.mpr h4
      have c5 := Rat.cast_le (K := ℝ) |>.mpr h5
      push_cast at c2 c3 c4 c5
      have p : (0 : ℝ) < κ := lt_of_lt_of_le (by norm_num) c4
      refine ⟨c, F, hd, hc, hF, trivial, ⟨h0, h1⟩, ⟨(F : ℝ) / κ, ?_, ?_, ?_⟩, .inr ?_⟩
      · show (F : ℝ) = _
        field_simp
      · rw [le_div_iff₀ p]; exact c2
      · rw [← one_div, div_le_div_iff₀ p (by norm_num)]; linarith
      · unfold Bd
        rw [abs_of_pos p]
        exact ⟨c4, c5⟩
    · cases h
  · cases h

theorem castGot {d d' : Dim} {u u' : MUnit} {κ : ℚ} (h : factorB d u d' u' κ = true) {k j : ℕ} {X : ℝ} {x : FVal} (g : Got (1 / 2 ^ 53) k j X x) (hk : k ≤ 150) (hj : j ≤ 800) :
    ∃ y, quantityCastI dE.est (dbl d' u') ⟨dbl d u, .f x⟩ = .ok ⟨dbl d' u', .f y⟩ ∧ Got (1 / 2 ^ 53) (k + 3) (j + 40) (X * κ) y := by
  obtain ⟨c, F, hd, hc, hF, gF⟩ := factorB_spec h
  exact ⟨_, castDI (c := c) (F := F) x rfl rfl hd hc hF, g.mul u_le (by norm_num) gF (by omega) (by omega)⟩

/-- A quantity of a dimension and a unit with a given number, an integer of at most 32 bits or a `double` of moderate size. -/
inductive GivenI (d : Dim) (u : MUnit) (X : ℝ) (q : QtyI) : Prop
  | int (i : IntTy) (z : ℤ) (hz : |z| ≤ 2 ^ 31) (hq : q = ⟨⟨d, u, .int i⟩, .i z⟩) (hX : X = z)
  | dbl (x : FVal) (hx : MidZero x) (hq : q = ⟨⟨d, u, .flt .f64⟩, .f x⟩) (hX : X = x.q)

theorem bd_up {j j' : ℕ} {X : ℝ} (h : X = 0 ∨ Bd j X) (hj : j ≤ j') : X = 0 ∨ Bd j' X := by
  refine h.imp_right fun b => ⟨le_trans ?_ b.1, b.2.trans ?_⟩
  · exact one_div_le_one_div_of_le (by positivity) (pow_le_pow_right₀ (by norm_num) hj)
  · exact pow_le_pow_right₀ (by norm_num) hj

theorem convGotF {d d' : Dim} {u u' : MUnit} {κ : ℚ} (h : factorB d u d' u' κ = true) (h1 : u = u' → κ = 1) {k j : ℕ} {X : ℝ} {x : FVal} (g : Got (1 / 2 ^ 53) k j X x)
    (hk : k ≤ 150) (hj : j ≤ 800) :
    ∃ y, convertQtyI dE (dbl d' u') ⟨dbl d u, .f x⟩ = .ok ⟨dbl d' u', .f y⟩ ∧ Got (1 / 2 ^ 53) (k + 3) (j + 40) (X * κ) y := by
  by_cases e : dbl d u = dbl d' u'
  · refine ⟨x, ?_, ?_⟩
    · rw [e]; exact convertQtyI_self dE ⟨dbl d' u', .f x⟩
    · rw [h1 (congrArg QTy.unit e), Rat.cast_one, mul_one]
      exact g.weaken u_le (by norm_num) (by omega) (bd_up g.size (by omega))
  · obtain ⟨y, hy, gy⟩ := castGot h g hk hj
    refine ⟨y, ?_, gy⟩
    obtain ⟨c, F, hd, -⟩ := factorB_spec h
    simp only [convertQtyI, if_neg e, safeCastable, hd, ok_bind, if_true, Rep.floating]
    exact hy

theorem convGot {d d' : Dim} {u u' : MUnit} {κ : ℚ} (h : factorB d u d' u' κ = true) (h1 : u = u' → κ = 1) {X : ℝ} {q : QtyI} (hq : GivenI d u X q) :
    ∃ y, convertQtyI dE (dbl d' u') q = .ok ⟨dbl d' u', .f y⟩ ∧ Got (1 / 2 ^ 53) 3 142 (X * κ) y := by
  rcases hq with ⟨i, z, hz, rfl, rfl⟩ | ⟨x, hx, rfl, rfl⟩
  · obtain ⟨c, F, hd, hc, hF, gF⟩ := factorB_spec h
    have g := (k_int u_le (show (1 / 2 ^ 53 : ℝ) ≤ 1 / 400 by norm_num) hz).mul u_le (by norm_num) gF (by norm_num) (by norm_num)
    exact ⟨_, conv_int (c := c) (F := F) z (castRep_intF64 i) rfl rfl hd hc hF, g.weaken u_le (by norm_num) (by norm_num) (bd_up g.size (by norm_num))⟩
  · obtain ⟨y, hy, g⟩ := convGotF h h1 (hx.got u_le (by norm_num)) (by norm_num) (by norm_num)
    exact ⟨y, hy, g.weaken u_le (by norm_num) (by norm_num) (bd_up g.size (by norm_num))⟩

/-! ### Lines -/

/-- A line of three numbers: the number of the member and its values in two other units, with a relative error of at most `c * 2 ^ -53`. -/
def LineI (c : ℕ) (t0 t1 t2 : QTy) (x0 x1 x2 : ℝ) (l : QtyI × QtyI × QtyI) : Prop :=
  Printed98 t0 c |x0| x0 l.1 ∧ Printed98 t1 c |x1| x1 l.2.1 ∧ Printed98 t2 c |x2| x2 l.2.2

theorem lineGot {d0 d1 d2 : Dim} {u0 u1 u2 : MUnit} {κ1 κ2 : ℚ} {c k j : ℕ} {X X0 X1 X2 : ℝ} {x : FVal} (h1 : factorB d0 u0 d1 u1 κ1 = true) (h2 : factorB d0 u0 d2 u2 κ2 = true)
    (g : Got (1 / 2 ^ 53) k j X x) (hk : k ≤ 150) (hj : j ≤ 800) (hc : c = 2 * (k + 3)) (e0 : X = X0) (e1 : X * κ1 = X1) (e2 : X * κ2 = X2) :
    ∃ l, fmtLineI dE (dbl d1 u1) (dbl d2 u2) ⟨dbl d0 u0, .f x⟩ = .ok l ∧ LineI c (dbl d0 u0) (dbl d1 u1) (dbl d2 u2) X0 X1 X2 l := by
  obtain ⟨y, hy, gy⟩ := castGot h1 g hk hj
  obtain ⟨z, hz, gz⟩ := castGot h2 g hk hj
  subst hc
  refine ⟨(⟨dbl d0 u0, .f x⟩, ⟨dbl d1 u1, .f y⟩, ⟨dbl d2 u2, .f z⟩), ?_, ?_, gy.printed (by omega) e1, gz.printed (by omega) e2⟩
  · simp only [fmtLineI, quantityCastByI, castTarget, ok_bind, hy, hz]
  · exact (g.weaken u_le (by norm_num) (show k ≤ k + 3 by omega) g.size).printed (by omega) e0

/-- What is printed for a ship. -/
def ShipPrinted (l d b s m g sm ss p : ℝ) (r : C (List (QtyI × QtyI × QtyI))) : Prop :=
  ∃ l1 l2 l3 l4 l5 l6 l7 l8 l9 l10, r = .ok [l1, l2, l3, l4, l5, l6, l7, l8, l9, l10] ∧
    LineI 20 feetTy yardTy (dbl d_isq_si_dim_length u_metre) (l / 0.3048) (l / 0.9144) l l1 ∧
    LineI 20 feetTy yardTy (dbl d_isq_si_dim_length u_metre) (d / 0.3048) (d / 0.9144) d l2 ∧
    LineI 20 feetTy yardTy (dbl d_isq_si_dim_length u_metre) (b / 0.3048) (b / 0.9144) b l3 ∧
    LineI 20 poundTy (dbl d_isq_si_fps_dim_mass u_fps_long_ton) (dbl d_isq_si_dim_mass u_tonne) (m / 0.45359237) (m / 0.45359237 / 2240) (m / 1000) l4 ∧
    LineI 20 fpsTy (dbl d_isq_si_fps_dim_speed u_fps_knot) (dbl d_isq_si_dim_speed u_kilometre_per_hour) (s / 0.3048) (s / 0.3048 * 3 / 5) (s * 3.6) l5 ∧
    LineI 20 fpdTy (dbl d_isq_si_fps_dim_power u_fps_horse_power) (dbl d_isq_si_dim_power u_kilowatt) (p / (0.3048 ^ 2 * 0.45359237))
      (p / (0.3048 ^ 2 * 0.45359237) / (550 * 32.174049)) (p / 1000) l6 ∧
    LineI 20 inchTy inchTy (dbl d_isq_si_dim_length u_millimetre) (g / 0.0254) (g / 0.0254) (g * 1000) l7 ∧
    LineI 20 poundTy (dbl d_isq_si_fps_dim_mass u_fps_long_ton) (dbl d_isq_si_dim_mass u_kilogram) (sm / 0.45359237) (sm / 0.45359237 / 2240) sm l8 ∧
    LineI 20 fpsTy (dbl d_isq_si_fps_dim_speed u_fps_mile_per_hour) (dbl d_isq_si_dim_speed u_kilometre_per_hour) (ss / 0.3048) (ss / 0.3048 / 5280 * 3600) (ss * 3.6) l9 ∧
    LineI 20 (dbl d_isq_si_fps_dim_volume d_isq_si_fps_dim_volume.unit) (dbl d_isq_si_dim_volume d_isq_si_dim_volume.unit) (dbl d_isq_si_dim_volume u_litre)
      (m / 0.45359237 / 62.4) (m / 0.45359237 / 62.4 * 0.3048 ^ 3) (m / 0.45359237 / 62.4 * 0.3048 ^ 3 * 1000) l10

/-- The double nearest to 62.4. -/
def water : FVal := .fin false (8782019273372467 / 2 ^ 47)

theorem water_got : Got (1 / 2 ^ 53) 1 12 (62.4 : ℝ) water :=
  small_factor (by norm_num) (by decide +kernel) (by norm_num) (by norm_num) (by norm_num) (by norm_num)

theorem Printed98.up {t : QTy} {c c' : ℕ} {M X : ℝ} {q : QtyI} (h : Printed98 t c M X q) (hM : 0 ≤ M) (hc : c ≤ c') : Printed98 t c' M X q := by
  obtain ⟨y, e, f, b⟩ := h
  refine ⟨y, e, f, b.trans ?_⟩
  have : (c : ℝ) ≤ c' := by exact_mod_cast hc
  gcongr

theorem LineI.up {c c' : ℕ} {t0 t1 t2 : QTy} {x0 x1 x2 : ℝ} {l : QtyI × QtyI × QtyI} (h : LineI c t0 t1 t2 x0 x1 x2 l) (hc : c ≤ c') : LineI c' t0 t1 t2 x0 x1 x2 l :=
  ⟨h.1.up (abs_nonneg _) hc, h.2.1.up (abs_nonneg _) hc, h.2.2.up (abs_nonneg _) hc⟩

theorem LineI.eq {c : ℕ} {t0 t1 t2 : QTy} {x0 x1 x2 y0 y1 y2 : ℝ} {l : QtyI × QtyI × QtyI} (h : LineI c t0 t1 t2 x0 x1 x2 l) (e0 : x0 = y0) (e1 : x1 = y1) (e2 : x2 = y2) :
    LineI c t0 t1 t2 y0 y1 y2 l := by
  subst e0 e1 e2
  exact h

/-- The ship with the roundings of its members. -/
theorem shipGot {l d b s m g sm ss p : ℝ} {l' d' b' s' m' g' sm' ss' p' : FVal}
    (hl : Got (1 / 2 ^ 53) 3 300 (l / 0.3048) l') (hd : Got (1 / 2 ^ 53) 7 300 (d / 0.3048) d') (hb : Got (1 / 2 ^ 53) 7 300 (b / 0.3048) b')
    (hs : Got (1 / 2 ^ 53) 3 300 (s / 0.3048) s') (hm : Got (1 / 2 ^ 53) 3 300 (m / 0.45359237) m') (hg : Got (1 / 2 ^ 53) 3 300 (g / 0.0254) g')
    (hsm : Got (1 / 2 ^ 53) 3 300 (sm / 0.45359237) sm') (hss : Got (1 / 2 ^ 53) 3 300 (ss / 0.3048) ss')
    (hp : Got (1 / 2 ^ 53) 3 300 (p / (0.3048 ^ 2 * 0.45359237)) p') :
    ShipPrinted l d b s m g sm ss p (printDetailsI dE water ⟨⟨feetTy, .f l'⟩, ⟨feetTy, .f d'⟩, ⟨feetTy, .f b'⟩, ⟨fpsTy, .f s'⟩, ⟨poundTy, .f m'⟩, ⟨inchTy, .f g'⟩,
      ⟨poundTy, .f sm'⟩, ⟨fpsTy, .f ss'⟩, ⟨fpdTy, .f p'⟩⟩) := by
  have hr : densityRef dE = .ok ⟨d_isq_si_fps_dim_density, d_isq_si_fps_dim_density.unit⟩ := by kernel_rfl
  have hv : divQtyI dE ⟨poundTy, .f m'⟩ ⟨dbl d_isq_si_fps_dim_density d_isq_si_fps_dim_density.unit, .f water⟩ =
      .ok ⟨dbl d_isq_si_fps_dim_volume d_isq_si_fps_dim_volume.unit, .f (m'.div .f64 water)⟩ := by
    have hr : refDivide dE d_isq_si_fps_dim_mass u_fps_pound d_isq_si_fps_dim_density d_isq_si_fps_dim_density.unit =
      .ok (d_isq_si_fps_dim_volume, d_isq_si_fps_dim_volume.unit) := by kernel_rfl
    unfold divQtyI
    dsimp only [poundTy]
    rw [hr]
    rfl
  have gv := hm.div u_le (by norm_num) water_got (by norm_num) (by norm_num) (by norm_num)
  obtain ⟨l1, a1, b1⟩ := lineGot (c := 12) (κ1 := 1 / 3) (κ2 := 3048 / 10000) (d0 := d_isq_si_fps_dim_length) (u0 := u_fps_foot) (d1 := d_isq_si_fps_dim_length) (u1 := u_fps_yard)
    (d2 := d_isq_si_dim_length) (u2 := u_metre) (by decide +kernel) (by decide +kernel) hl (by norm_num) (by norm_num) rfl rfl rfl rfl
  obtain ⟨l2, a2, b2⟩ := lineGot (c := 20) (κ1 := 1 / 3) (κ2 := 3048 / 10000) (d0 := d_isq_si_fps_dim_length) (u0 := u_fps_foot) (d1 := d_isq_si_fps_dim_length) (u1 := u_fps_yard)
    (d2 := d_isq_si_dim_length) (u2 := u_metre) (by decide +kernel) (by decide +kernel) hd (by norm_num) (by norm_num) rfl rfl rfl rfl
  obtain ⟨l3, a3, b3⟩ := lineGot (c := 20) (κ1 := 1 / 3) (κ2 := 3048 / 10000) (d0 := d_isq_si_fps_dim_length) (u0 := u_fps_foot) (d1 := d_isq_si_fps_dim_length) (u1 := u_fps_yard)
    (d2 := d_isq_si_dim_length) (u2 := u_metre) (by decide +kernel) (by decide +kernel) hb (by norm_num) (by norm_num) rfl rfl rfl rfl
  obtain ⟨l4, a4, b4⟩ := lineGot (c := 12) (κ1 := 1 / 2240) (κ2 := 45359237 / 100000000000) (d0 := d_isq_si_fps_dim_mass) (u0 := u_fps_pound) (d1 := d_isq_si_fps_dim_mass)
    (u1 := u_fps_long_ton) (d2 := d_isq_si_dim_mass) (u2 := u_tonne) (by decide +kernel) (by decide +kernel) hm (by norm_num) (by norm_num) rfl rfl rfl rfl
  obtain ⟨l5, a5, b5⟩ := lineGot (c := 12) (κ1 := 3 / 5) (κ2 := 3048 / 10000 * (36 / 10)) (d0 := d_isq_si_fps_dim_speed) (u0 := d_isq_si_fps_dim_speed.unit) (d1 := d_isq_si_fps_dim_speed)
    (u1 := u_fps_knot) (d2 := d_isq_si_dim_speed) (u2 := u_kilometre_per_hour) (by decide +kernel) (by decide +kernel) hs (by norm_num) (by norm_num) rfl rfl rfl rfl
  obtain ⟨l6, a6, b6⟩ := lineGot (c := 12) (κ1 := 1 / (550 * (32174049 / 1000000))) (κ2 := 3048 / 10000 * (3048 / 10000) * (45359237 / 100000000) / 1000) (d0 := d_isq_si_fps_dim_power)
    (u0 := d_isq_si_fps_dim_power.unit) (d1 := d_isq_si_fps_dim_power) (u1 := u_fps_horse_power) (d2 := d_isq_si_dim_power) (u2 := u_kilowatt) (by decide +kernel) (by decide +kernel) hp
    (by norm_num) (by norm_num) rfl rfl rfl rfl
  obtain ⟨l7, a7, b7⟩ := lineGot (c := 12) (κ1 := 1) (κ2 := 254 / 10) (d0 := d_isq_si_fps_dim_length) (u0 := u_fps_inch) (d1 := d_isq_si_fps_dim_length) (u1 := u_fps_inch)
    (d2 := d_isq_si_dim_length) (u2 := u_millimetre) (by decide +kernel) (by decide +kernel) hg (by norm_num) (by norm_num) rfl rfl rfl rfl
  obtain ⟨l8, a8, b8⟩ := lineGot (c := 12) (κ1 := 1 / 2240) (κ2 := 45359237 / 100000000) (d0 := d_isq_si_fps_dim_mass) (u0 := u_fps_pound) (d1 := d_isq_si_fps_dim_mass)
    (u1 := u_fps_long_ton) (d2 := d_isq_si_dim_mass) (u2 := u_kilogram) (by decide +kernel) (by decide +kernel) hsm (by norm_num) (by norm_num) rfl rfl rfl rfl
  obtain ⟨l9, a9, b9⟩ := lineGot (c := 12) (κ1 := 3600 / 5280) (κ2 := 3048 / 10000 * (36 / 10)) (d0 := d_isq_si_fps_dim_speed) (u0 := d_isq_si_fps_dim_speed.unit)
    (d1 := d_isq_si_fps_dim_speed) (u1 := u_fps_mile_per_hour) (d2 := d_isq_si_dim_speed) (u2 := u_kilometre_per_hour) (by decide +kernel) (by decide +kernel) hss (by norm_num) (by norm_num)
    rfl rfl rfl rfl
  obtain ⟨l10, a10, b10⟩ := lineGot (c := 16) (κ1 := 3048 / 10000 * (3048 / 10000) * (3048 / 10000)) (κ2 := 3048 / 10 * (3048 / 10000) * (3048 / 10000)) (d0 := d_isq_si_fps_dim_volume)
    (u0 := d_isq_si_fps_dim_volume.unit) (d1 := d_isq_si_dim_volume) (u1 := d_isq_si_dim_volume.unit) (d2 := d_isq_si_dim_volume) (u2 := u_litre) (by decide +kernel) (by decide +kernel) gv
    (by norm_num) (by norm_num) rfl rfl rfl rfl
  refine ⟨l1, l2, l3, l4, l5, l6, l7, l8, l9, l10, ?_, ?_⟩
  · unfold printDetailsI
    rw [hr, ok_bind]
    rw [show fmtLineI dE yardTy (siTy d_isq_si_dim_length u_metre) ⟨feetTy, .f l'⟩ = _ from a1, ok_bind, show fmtLineI dE yardTy (siTy d_isq_si_dim_length u_metre) ⟨feetTy, .f d'⟩ = _ from a2, ok_bind,
      show fmtLineI dE yardTy (siTy d_isq_si_dim_length u_metre) ⟨feetTy, .f b'⟩ = _ from a3, ok_bind, show fmtLineI dE (dbl d_isq_si_fps_dim_mass u_fps_long_ton) (siTy d_isq_si_dim_mass u_tonne) ⟨poundTy, .f m'⟩ = _ from a4, ok_bind,
      show fmtLineI dE (dbl d_isq_si_fps_dim_speed u_fps_knot) (siTy d_isq_si_dim_speed u_kilometre_per_hour) ⟨fpsTy, .f s'⟩ = _ from a5, ok_bind, show fmtLineI dE (dbl d_isq_si_fps_dim_power u_fps_horse_power) (siTy d_isq_si_dim_power u_kilowatt) ⟨fpdTy, .f p'⟩ = _ from a6, ok_bind, show fmtLineI dE inchTy (siTy d_isq_si_dim_length u_millimetre) ⟨inchTy, .f g'⟩ = _ from a7, ok_bind,
      show fmtLineI dE (dbl d_isq_si_fps_dim_mass u_fps_long_ton) (siTy d_isq_si_dim_mass u_kilogram) ⟨poundTy, .f sm'⟩ = _ from a8, ok_bind, show fmtLineI dE (dbl d_isq_si_fps_dim_speed u_fps_mile_per_hour) (siTy d_isq_si_dim_speed u_kilometre_per_hour) ⟨fpsTy, .f ss'⟩ = _ from a9, ok_bind, hv, ok_bind,
      show fmtLineI dE (siTy d_isq_si_dim_volume d_isq_si_dim_volume.unit) (siTy d_isq_si_dim_volume u_litre) _ = _ from a10, ok_bind]
  · replace b1 := b1.up (show 12 ≤ 20 by norm_num)
    replace b4 := b4.up (show 12 ≤ 20 by norm_num)
    replace b5 := b5.up (show 12 ≤ 20 by norm_num)
    replace b6 := b6.up (show 12 ≤ 20 by norm_num)
    replace b7 := b7.up (show 12 ≤ 20 by norm_num)
    replace b8 := b8.up (show 12 ≤ 20 by norm_num)
    replace b9 := b9.up (show 12 ≤ 20 by norm_num)
    replace b10 := b10.up (show 16 ≤ 20 by norm_num)
    refine ⟨?_, ?_, ?_, ?_, ?_, ?_, ?_, ?_, ?_, ?_⟩
    · exact b1.eq (by ring) (by push_cast; ring) (by push_cast; ring)
    · exact b2.eq (by ring) (by push_cast; ring) (by push_cast; ring)
    · exact b3.eq (by ring) (by push_cast; ring) (by push_cast; ring)
    · exact b4.eq (by ring) (by push_cast; ring) (by push_cast; ring)
    · exact b5.eq (by ring) (by push_cast; ring) (by push_cast; ring)
    · exact b6.eq (by ring) (by push_cast; ring) (by push_cast; ring)
    · exact b7.eq (by ring) (by push_cast; ring) (by push_cast; ring)
    · exact b8.eq (by ring) (by push_cast; ring) (by push_cast; ring)
    · exact b9.eq (by ring) (by push_cast; ring) (by push_cast; ring)
    · exact b10.eq (by ring) (by push_cast; ring) (by push_cast; ring)

/-- C103: a ship given in metric units, as the first one: metres, metres, metres, kilometres per hour, tonnes, millimetres, kilograms, metres per second and kilowatts, `int` or `double`. -/
theorem C103_ship_metric {l d b s m g sm ss p : QtyI} {l' d' b' s' m' g' sm' ss' p' : ℝ} (hl : GivenI d_isq_si_dim_length u_metre l' l) (hd : GivenI d_isq_si_dim_length u_metre d' d)
    (hb : GivenI d_isq_si_dim_length u_metre b' b) (hs : GivenI d_isq_si_dim_speed u_kilometre_per_hour s' s) (hm : GivenI d_isq_si_dim_mass u_tonne m' m)
    (hg : GivenI d_isq_si_dim_length u_millimetre g' g) (hsm : GivenI d_isq_si_dim_mass u_kilogram sm' sm)
    (hss : GivenI d_isq_si_dim_speed d_isq_si_dim_speed.unit ss' ss) (hp : GivenI d_isq_si_dim_power u_kilowatt p' p) :
    ShipPrinted l' d' b' (s' / 3.6) (m' * 1000) (g' / 1000) sm' ss' (p' * 1000)
      (do let ship ← mkShipI demoEnv l d b s m g sm ss p; printDetailsI demoEnv water ship) := by
  have up {k k' j : ℕ} {X Y : ℝ} {y : FVal} (h : Got (1 / 2 ^ 53) k j X y) (e : X = Y) (hk : k ≤ k') (hj : j ≤ 300) : Got (1 / 2 ^ 53) k' 300 Y y := by
    subst e
    exact h.weaken u_le (by norm_num) hk (bd_up h.size hj)
  have c1 {X : ℝ} {q : QtyI} (h : GivenI d_isq_si_dim_length u_metre X q) := convGot (d' := d_isq_si_fps_dim_length) (u' := u_fps_foot) (κ := 10000 / 3048)
    (by decide +kernel) (fun h => absurd h (by decide +kernel)) h
  obtain ⟨y1, e1, g1⟩ := c1 hl
  obtain ⟨y2, e2, g2⟩ := c1 hd
  obtain ⟨y3, e3, g3⟩ := c1 hb
  obtain ⟨y4, e4, g4⟩ := convGot (d' := d_isq_si_fps_dim_speed) (u' := d_isq_si_fps_dim_speed.unit) (κ := 10 / 36 * (10000 / 3048)) (by decide +kernel)
    (fun h => absurd h (by decide +kernel)) hs
  obtain ⟨y5, e5, g5⟩ := convGot (d' := d_isq_si_fps_dim_mass) (u' := u_fps_pound) (κ := 100000000000 / 45359237) (by decide +kernel) (fun h => absurd h (by decide +kernel)) hm
  obtain ⟨y6, e6, g6⟩ := convGot (d' := d_isq_si_fps_dim_length) (u' := u_fps_inch) (κ := 10 / 254) (by decide +kernel) (fun h => absurd h (by decide +kernel)) hg
  obtain ⟨y7, e7, g7⟩ := convGot (d' := d_isq_si_fps_dim_mass) (u' := u_fps_pound) (κ := 100000000 / 45359237) (by decide +kernel) (fun h => absurd h (by decide +kernel)) hsm
  obtain ⟨y8, e8, g8⟩ := convGot (d' := d_isq_si_fps_dim_speed) (u' := d_isq_si_fps_dim_speed.unit) (κ := 10000 / 3048) (by decide +kernel)
    (fun h => absurd h (by decide +kernel)) hss
  obtain ⟨y9, e9, g9⟩ := convGot (d' := d_isq_si_fps_dim_power) (u' := d_isq_si_fps_dim_power.unit) (κ := 1000 * (10000 / 3048) * (10000 / 3048) * (100000000 / 45359237))
    (by decide +kernel) (fun h => absurd h (by decide +kernel)) hp
  push_cast at g1 g2 g3 g4 g5 g6 g7 g8 g9
  have hship : mkShipI dE l d b s m g sm ss p = .ok ⟨⟨feetTy, .f y1⟩, ⟨feetTy, .f y2⟩, ⟨feetTy, .f y3⟩, ⟨fpsTy, .f y4⟩, ⟨poundTy, .f y5⟩, ⟨inchTy, .f y6⟩, ⟨poundTy, .f y7⟩,
      ⟨fpsTy, .f y8⟩, ⟨fpdTy, .f y9⟩⟩ := by
    simp only [mkShipI, feetTy, fpsTy, poundTy, inchTy, fpdTy, e1, e2, e3, e4, e5, e6, e7, e8, e9, ok_bind]
  show ShipPrinted _ _ _ _ _ _ _ _ _ (do let ship ← mkShipI dE l d b s m g sm ss p; printDetailsI dE water ship)
  rw [hship, ok_bind]
  exact shipGot (up g1 (by ring) (by norm_num) (by norm_num)) (up g2 (by ring) (by norm_num) (by norm_num)) (up g3 (by ring) (by norm_num) (by norm_num))
    (up g4 (by ring) (by norm_num) (by norm_num)) (up g5 (by ring) (by norm_num) (by norm_num)) (up g6 (by ring) (by norm_num) (by norm_num))
    (up g7 (by ring) (by norm_num) (by norm_num)) (up g8 (by ring) (by norm_num) (by norm_num)) (up g9 (by ring) (by norm_num) (by norm_num))

/-- Feet and inches. -/
theorem feetInchesGot {a b : FVal} (ha : MidZero a) (hb : MidZero b) (a0 : 0 ≤ a.q) (b0 : 0 ≤ b.q) :
    ∃ y, feetInchesI dE a b = .ok ⟨inchTy, .f y⟩ ∧ Got (1 / 2 ^ 53) 4 141 (a.q * 12 + b.q : ℝ) y := by
  have hc : commonQty dE feetTy inchTy (.flt .f64) = .ok inchTy := by decide +kernel
  obtain ⟨y, e, g⟩ := convGotF (d := d_isq_si_fps_dim_length) (u := u_fps_foot) (d' := d_isq_si_fps_dim_length) (u' := u_fps_inch) (κ := 12)
    (by decide +kernel) (fun h => absurd h (by decide +kernel)) (ha.got u_le (by norm_num)) (by norm_num) (by norm_num)
  have gb := (hb.got u_le (show (1 / 2 ^ 53 : ℝ) ≤ 1 / 400 by norm_num))
  have gb' := gb.weaken u_le (by norm_num) (show 0 ≤ 0 + 3 by norm_num) (bd_up gb.size (show 100 ≤ 100 + 40 by norm_num))
  have a0' : (0 : ℝ) ≤ a.q := by exact_mod_cast a0
  have b0' : (0 : ℝ) ≤ b.q := by exact_mod_cast b0
  push_cast at g
  refine ⟨y.add .f64 b, ?_, g.add u_le (by norm_num) gb' (by positivity) b0' (by norm_num) (by norm_num)⟩
  unfold feetInchesI addSubI
  show (commonQty dE feetTy inchTy (.flt .f64) >>= _) = _
  rw [hc, ok_bind, show convertQtyI dE inchTy ⟨feetTy, .f a⟩ = _ from e, ok_bind,
    show convertQtyI dE inchTy ⟨inchTy, .f b⟩ = _ from convertQtyI_self dE ⟨inchTy, .f b⟩, ok_bind]
  rfl

/-- C103: a ship given in feet, feet and inches, knots, long tons, inches, pounds, feet per second and horsepower, as the two others. -/
theorem C103_ship_imperial {a b a' b' : FVal} {l s m g sm ss p : QtyI} {l' s' m' g' sm' ss' p' : ℝ} (ha : MidZero a) (hb : MidZero b) (a0 : 0 ≤ a.q) (b0 : 0 ≤ b.q)
    (ha' : MidZero a') (hb' : MidZero b') (a0' : 0 ≤ a'.q) (b0' : 0 ≤ b'.q) (hl : GivenI d_isq_si_fps_dim_length u_fps_foot l' l)
    (hs : GivenI d_isq_si_fps_dim_speed u_fps_knot s' s) (hm : GivenI d_isq_si_fps_dim_mass u_fps_long_ton m' m) (hg : GivenI d_isq_si_fps_dim_length u_fps_inch g' g)
    (hsm : GivenI d_isq_si_fps_dim_mass u_fps_pound sm' sm) (hss : GivenI d_isq_si_fps_dim_speed d_isq_si_fps_dim_speed.unit ss' ss)
    (hp : GivenI d_isq_si_fps_dim_power u_fps_horse_power p' p) :
    ShipPrinted (l' * 0.3048) (a.q * 0.3048 + b.q * 0.0254) (a'.q * 0.3048 + b'.q * 0.0254) (s' * 5 / 3 * 0.3048) (m' * 2240 * 0.45359237) (g' * 0.0254) (sm' * 0.45359237)
      (ss' * 0.3048) (p' * (550 * 32.174049) * (0.3048 ^ 2 * 0.45359237))
      (do let d ← feetInchesI demoEnv a b; let bm ← feetInchesI demoEnv a' b'
          let ship ← mkShipI demoEnv l d bm s m g sm ss p; printDetailsI demoEnv water ship) := by
  have up {k k' j : ℕ} {X Y : ℝ} {y : FVal} (h : Got (1 / 2 ^ 53) k j X y) (e : X = Y) (hk : k ≤ k') (hj : j ≤ 300) : Got (1 / 2 ^ 53) k' 300 Y y := by
    subst e
    exact h.weaken u_le (by norm_num) hk (bd_up h.size hj)
  obtain ⟨x2, f2, i2⟩ := feetInchesGot ha hb a0 b0
  obtain ⟨x3, f3, i3⟩ := feetInchesGot ha' hb' a0' b0'
  have c1 {X : ℝ} {x : FVal} (h : Got (1 / 2 ^ 53) 4 141 X x) := convGotF (d := d_isq_si_fps_dim_length) (u := u_fps_inch) (d' := d_isq_si_fps_dim_length) (u' := u_fps_foot) (κ := 1 / 12)
    (by decide +kernel) (fun h => absurd h (by decide +kernel)) h (by norm_num) (by norm_num)
  obtain ⟨y1, e1, g1⟩ := convGot (d' := d_isq_si_fps_dim_length) (u' := u_fps_foot) (κ := 1) (by decide +kernel) (fun _ => rfl) hl
  obtain ⟨y2, e2, g2⟩ := c1 i2
  obtain ⟨y3, e3, g3⟩ := c1 i3
  obtain ⟨y4, e4, g4⟩ := convGot (d' := d_isq_si_fps_dim_speed) (u' := d_isq_si_fps_dim_speed.unit) (κ := 5 / 3) (by decide +kernel) (fun h => absurd h (by decide +kernel)) hs
  obtain ⟨y5, e5, g5⟩ := convGot (d' := d_isq_si_fps_dim_mass) (u' := u_fps_pound) (κ := 2240) (by decide +kernel) (fun h => absurd h (by decide +kernel)) hm
  obtain ⟨y6, e6, g6⟩ := convGot (d' := d_isq_si_fps_dim_length) (u' := u_fps_inch) (κ := 1) (by decide +kernel) (fun _ => rfl) hg
  obtain ⟨y7, e7, g7⟩ := convGot (d' := d_isq_si_fps_dim_mass) (u' := u_fps_pound) (κ := 1) (by decide +kernel) (fun _ => rfl) hsm
  obtain ⟨y8, e8, g8⟩ := convGot (d' := d_isq_si_fps_dim_speed) (u' := d_isq_si_fps_dim_speed.unit) (κ := 1) (by decide +kernel) (fun _ => rfl) hss
  obtain ⟨y9, e9, g9⟩ := convGot (d' := d_isq_si_fps_dim_power) (u' := d_isq_si_fps_dim_power.unit) (κ := 550 * (32174049 / 1000000)) (by decide +kernel)
    (fun h => absurd h (by decide +kernel)) hp
  push_cast at g1 g2 g3 g4 g5 g6 g7 g8 g9
  have hship : mkShipI dE l ⟨inchTy, .f x2⟩ ⟨inchTy, .f x3⟩ s m g sm ss p = .ok ⟨⟨feetTy, .f y1⟩, ⟨feetTy, .f y2⟩, ⟨feetTy, .f y3⟩, ⟨fpsTy, .f y4⟩, ⟨poundTy, .f y5⟩, ⟨inchTy, .f y6⟩,
      ⟨poundTy, .f y7⟩, ⟨fpsTy, .f y8⟩, ⟨fpdTy, .f y9⟩⟩ := by
    unfold mkShipI
    rw [show convertQtyI dE feetTy l = _ from e1, ok_bind, show convertQtyI dE feetTy ⟨inchTy, .f x2⟩ = _ from e2, ok_bind, show convertQtyI dE feetTy ⟨inchTy, .f x3⟩ = _ from e3, ok_bind,
      show convertQtyI dE fpsTy s = _ from e4, ok_bind, show convertQtyI dE poundTy m = _ from e5, ok_bind, show convertQtyI dE inchTy g = _ from e6, ok_bind,
      show convertQtyI dE poundTy sm = _ from e7, ok_bind, show convertQtyI dE fpsTy ss = _ from e8, ok_bind, show convertQtyI dE fpdTy p = _ from e9, ok_bind]
    rfl
  show ShipPrinted _ _ _ _ _ _ _ _ _ (do let d ← feetInchesI dE a b; let bm ← feetInchesI dE a' b'
                                         let ship ← mkShipI dE l d bm s m g sm ss p; printDetailsI dE water ship)
  rw [f2, ok_bind, f3, ok_bind, hship, ok_bind]
  exact shipGot (up g1 (by ring) (by norm_num) (by norm_num)) (up g2 (by ring) (by norm_num) (by norm_num)) (up g3 (by ring) (by norm_num) (by norm_num))
    (up g4 (by ring) (by norm_num) (by norm_num)) (up g5 (by ring) (by norm_num) (by norm_num)) (up g6 (by ring) (by norm_num) (by norm_num))
    (up g7 (by ring) (by norm_num) (by norm_num)) (up g8 (by ring) (by norm_num) (by norm_num)) (up g9 (by ring) (by norm_num) (by norm_num))

theorem givenLit {d : Dim} {u : MUnit} (x : ℚ) (h0 : 1 ≤ x) (h1 : x ≤ 2 ^ 100) (h2 : FltTy.f64.rndMag x = some x) :
    GivenI d u (x : ℝ) ⟨⟨d, u, .flt .f64⟩, .f (.fin false x)⟩ :=
  .dbl (.fin false x) ⟨trivial, ⟨by linarith, h2⟩, .inr (by
    show _ ≤ |x| ∧ |x| ≤ _
    rw [abs_of_pos (by linarith)]
    exact ⟨le_trans (by norm_num) h0, h1⟩)⟩ rfl rfl

theorem givenInt {d : Dim} {u : MUnit} (z : ℤ) (h : |z| ≤ 2 ^ 31) : GivenI d u (z : ℝ) ⟨⟨d, u, .int .i32⟩, .i z⟩ := .int .i32 z h rfl rfl

/-- The double nearest to 9.3. -/
def lit93 : ℚ := 2617717283409101 / 2 ^ 48
/-- The double nearest to 110.45. -/
def lit110 : ℚ := 7772227794422989 / 2 ^ 46

/-- The first ship of the program. -/
example : ShipPrinted (251 : ℚ) lit93 (36 : ℤ) ((56 : ℤ) / 3.6) ((50300 : ℤ) * 1000) ((380 : ℤ) / 1000) (800 : ℤ) (820 : ℚ) (lit110 * 1000) (do
    let ship ← mkShipI demoEnv ⟨⟨d_isq_si_dim_length, u_metre, .flt .f64⟩, .f (.fin false 251)⟩ ⟨⟨d_isq_si_dim_length, u_metre, .flt .f64⟩, .f (.fin false lit93)⟩
      ⟨⟨d_isq_si_dim_length, u_metre, .int .i32⟩, .i 36⟩ ⟨⟨d_isq_si_dim_speed, u_kilometre_per_hour, .int .i32⟩, .i 56⟩ ⟨⟨d_isq_si_dim_mass, u_tonne, .int .i32⟩, .i 50300⟩
      ⟨⟨d_isq_si_dim_length, u_millimetre, .int .i32⟩, .i 380⟩ ⟨⟨d_isq_si_dim_mass, u_kilogram, .int .i32⟩, .i 800⟩
      ⟨⟨d_isq_si_dim_speed, d_isq_si_dim_speed.unit, .flt .f64⟩, .f (.fin false 820)⟩ ⟨⟨d_isq_si_dim_power, u_kilowatt, .flt .f64⟩, .f (.fin false lit110)⟩
    printDetailsI demoEnv water ship) :=
  C103_ship_metric (givenLit _ (by norm_num) (by norm_num) (by decide +kernel)) (givenLit _ (by norm_num [lit93]) (by norm_num [lit93]) (by decide +kernel))
    (givenInt _ (by norm_num)) (givenInt _ (by norm_num)) (givenInt _ (by norm_num)) (givenInt _ (by norm_num)) (givenInt _ (by norm_num))
    (givenLit _ (by norm_num) (by norm_num) (by decide +kernel)) (givenLit _ (by norm_num [lit110]) (by norm_num [lit110]) (by decide +kernel))

/-- The draft of the second ship, 37 feet and two inches, meets the hypotheses. -/
example : MidZero (.fin false 37) ∧ MidZero (.fin false 2) ∧ 0 ≤ (FVal.fin false 37).q ∧ 0 ≤ (FVal.fin false 2).q :=
  ⟨⟨trivial, ⟨by norm_num, by decide +kernel⟩, .inr (by show _ ≤ |(37 : ℚ)| ∧ |(37 : ℚ)| ≤ _; norm_num)⟩,
    ⟨trivial, ⟨by norm_num, by decide +kernel⟩, .inr (by show _ ≤ |(2 : ℚ)| ∧ |(2 : ℚ)| ≤ _; norm_num)⟩, by decide +kernel, by decide +kernel⟩

/-- C103: the metric column does not always show what was given: the shells of the first ship, of `800 * kg`, are printed with more than 800 kg. -/
theorem C103_column_wrong : (do
    let m ← convertQtyI demoEnv poundTy ⟨⟨d_isq_si_dim_mass, u_kilogram, .int .i32⟩, .i 800⟩
    let l ← fmtLineI demoEnv (dbl d_isq_si_fps_dim_mass u_fps_long_ton) (dbl d_isq_si_dim_mass u_kilogram) m
    Except.ok l.2.2.num) = .ok (.f (.fin false (800 + 1 / 2 ^ 43))) := by decide +kernel

end Verif
