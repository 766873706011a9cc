import Verif.ProgramsLemmas
import Verif.Props.RepOpsProps
import Mathlib.Tactic.FieldSimp
import Mathlib.Tactic.Linarith
import Mathlib.Tactic.Positivity
import Mathlib.Data.Rat.Sqrt

/-!
# The small example programs (C84)

What the programs print, as formulas over the rational numbers.  Floating point operations are exact here.
-/

namespace Verif

set_option maxRecDepth 100000

theorem cmpF_lt {x y : ℚ} (h : x < y) : numCompare (.f x) (.f y) = .lt := if_pos h
theorem cmpF_gt {x y : ℚ} (h : y < x) : numCompare (.f x) (.f y) = .gt :=
  (if_neg (show ¬ (Num.f x).q < (Num.f y).q from not_lt.mpr h.le)).trans (if_neg (show ¬ (Num.f x).q = (Num.f y).q from h.ne'))
theorem cmpF_self (x : ℚ) : numCompare (.f x) (.f x) = .eq :=
  (if_neg (show ¬ (Num.f x).q < (Num.f x).q from lt_irrefl _)).trans (if_pos rfl)

/-! ### The box -/

/-- The report on a box of `l` by `w` by `h` millimetres, filled with something of density `ρ`, when `m` kilograms have run in during `t` seconds: the level times the
base times the density is the mass; the percentage is that of the height; the spare capacity is the volume less that of the contents; flow and rise times the time are
the mass and the level; after the time left the mass at that flow is that of the full box. -/
theorem C84_box (l w h ρ m t : ℚ) (hl : 0 < l) (hw : 0 < w) (hh : 0 < h) (hρ : 1225 / 1000 < ρ) (hm : m ≠ 0) (ht : t ≠ 0) :
    ∃ r level percent spare flow rise left, boxMain progEnv (lmm l) (lmm w) (lmm h) (ldens ρ) (lmass m) (ltime t) = .ok r ∧
      r.level = ⟨boxLen, .f level⟩ ∧ r.percent = ⟨percentTy, .f percent⟩ ∧ r.spare = ⟨boxVol, .f spare⟩ ∧ r.flow.num = .f flow ∧ r.rise = ⟨riseTy, .f rise⟩ ∧
      r.left = ltime left ∧
      level * (l / 1000 * (w / 1000)) * ρ = m ∧ percent * (h / 1000) = 100 * level ∧ spare = l / 1000 * (w / 1000) * (h / 1000) - m / ρ ∧ flow * t = m ∧
      rise * t = level ∧ (t + left) * flow = ρ * (l / 1000 * (w / 1000) * (h / 1000)) := by
  have hρ0 : 0 < ρ := lt_trans (by norm_num) hρ
  have hd : numCompare (.f ρ) (.f (1225 / 1000)) = .gt := cmpF_gt hρ
  have hV : ρ * (l / 1000 * (w / 1000) * (h / 1000)) * (980665 / 100000) ≠ 0 := by positivity
  have hh' : h / 1000 ≠ 0 := by positivity
  set level := h / 1000 * m * (980665 / 100000) / (ρ * (l / 1000 * (w / 1000) * (h / 1000)) * (980665 / 100000)) with hlevel
  have hle : level = m / (ρ * (l / 1000 * (w / 1000))) := by rw [hlevel]; field_simp
  have hl0 : level ≠ 0 := by rw [hle]; positivity
  change ∃ r level percent spare flow rise left, boxMain pE _ _ _ _ _ _ = _ ∧ _
  simp only [boxMain, mkBox, Box.setContentsDensity, Box.fillLevel, Box.filledWeight, Box.spareCapacity, p_mm, p_len, ok_bind, p_ll, p_area, p_ldens, p_cmp, hd, if_true,
    p_lmass, p_lm, p_lmg, p_al, p_vol, p_dv, p_mass, p_mg, p_force, p_level _ _ hV, ← hlevel, p_part _ _ hh', p_percent, p_sub, p_la, p_flow _ _ ht, p_rise _ _ ht,
    p_part _ _ hl0, p_more, p_left]
  refine ⟨_, _, _, _, _, _, _, rfl, rfl, rfl, rfl, rfl, rfl, rfl, ?_, ?_, ?_, ?_, ?_, ?_⟩
  · rw [hle]; field_simp
  · field_simp
  · rw [hle]; field_simp
  · field_simp
  · field_simp
  · rw [hle]; field_simp; ring

/-- The box of the program. -/
example : ∃ r level percent spare flow rise left, boxMain progEnv (lmm 1000) (lmm 500) (lmm 200) (ldens 1000) (lmass 20) (ltime 200) = .ok r ∧
    r.level = ⟨boxLen, .f level⟩ ∧ r.percent = ⟨percentTy, .f percent⟩ ∧ r.spare = ⟨boxVol, .f spare⟩ ∧ r.flow.num = .f flow ∧ r.rise = ⟨riseTy, .f rise⟩ ∧
    r.left = ltime left ∧ level = 1 / 25 ∧ percent = 20 ∧ spare = 2 / 25 ∧ flow = 1 / 10 ∧ rise = 1 / 5000 ∧ left = 800 := by
  obtain ⟨r, a, b, c, d, e, f, h, h1, h2, h3, h4, h5, h6, k1, k2, k3, k4, k5, k6⟩ :=
    C84_box 1000 500 200 1000 20 200 (by norm_num) (by norm_num) (by norm_num) (by norm_num) (by norm_num) (by norm_num)
  refine ⟨r, a, b, c, d, e, f, h, h1, h2, h3, h4, h5, h6, by linarith, by linarith, by rw [k3]; norm_num, by linarith, by linarith, ?_⟩
  have : d = 1 / 10 := by linarith
  rw [this] at k6; linarith

/-- Nothing keeps the box from being more than full: with more than its volume the spare capacity is negative and, with a positive time, so is the time left. -/
theorem C84_box_overfull (l w h ρ m t : ℚ) (hl : 0 < l) (hw : 0 < w) (hh : 0 < h) (hρ : 1225 / 1000 < ρ) (ht : 0 < t)
    (hm : ρ * (l / 1000 * (w / 1000) * (h / 1000)) < m) :
    ∃ r spare left, boxMain progEnv (lmm l) (lmm w) (lmm h) (ldens ρ) (lmass m) (ltime t) = .ok r ∧ r.spare = ⟨boxVol, .f spare⟩ ∧ r.left = ltime left ∧
      spare < 0 ∧ left < 0 := by
  have hρ0 : 0 < ρ := lt_trans (by norm_num) hρ
  have hm0 : 0 < m := lt_trans (by positivity) hm
  obtain ⟨r, a, b, c, d, e, f, h, h1, h2, h3, h4, h5, h6, k1, k2, k3, k4, k5, k6⟩ := C84_box l w h ρ m t hl hw hh hρ hm0.ne' ht.ne'
  refine ⟨r, c, f, h, h3, h6, ?_, ?_⟩
  · rw [k3, sub_neg, lt_div_iff₀ hρ0]; linarith
  · have hd : 0 < d := by
      by_contra hd
      nlinarith
    by_contra hf
    have := mul_nonneg (not_lt.mp hf) hd.le
    nlinarith

example : (1000 : ℚ) * (1000 / 1000 * (500 / 1000) * (200 / 1000)) < 101 := by norm_num

/-- A density is set exactly when it is above that of air; otherwise the assertion fails. -/
theorem C84_box_density (b : Box) (ρ : ℚ) :
    b.setContentsDensity progEnv (ldens ρ) = if 1225 / 1000 < ρ then .ok { b with density := ⟨boxDens, .f ρ⟩ } else .error .assertion := by
  change Box.setContentsDensity pE _ _ = _
  simp only [Box.setContentsDensity, p_ldens, ok_bind, p_cmp]
  rcases lt_trichotomy ρ (1225 / 1000) with h | h | h
  · rw [cmpF_lt h, if_neg (by decide), if_neg (not_lt.mpr h.le)]
  · rw [h, cmpF_self, if_neg (by decide), if_neg (lt_irrefl _)]
  · rw [cmpF_gt h, if_pos rfl, if_pos h]

/-! ### Total energy -/

/-- The functions of `<cmath>` without rounding. -/
def exactLibm : Libm := ⟨fun _ x y => .ok (x ^ y.num.toNat), fun _ x => .ok (Rat.sqrt x), fun _ x => .ok x, fun _ x => .ok x⟩

theorem exactLibm_squares : exactLibm.Squares :=
  ⟨fun _ _ => rfl, fun _ x hx => by simp only [exactLibm, pow_two, Rat.sqrt_eq, abs_of_nonneg hx]⟩

theorem energy_gev (L : Libm) (hL : L.Squares) (p m c e : ℚ) (hc : c ≠ 0) (he : 0 ≤ e) (h : e ^ 2 = p ^ 2 + m ^ 2) :
  totalEnergy pE L ⟨gevPTy, .f (p / c)⟩ ⟨gevMTy, .f (m / c ^ 2)⟩ ⟨lightTy, .f c⟩ = .ok ⟨gevTy, .f e⟩ := by
  unfold totalEnergy
  rw [e_pc, ok_bind, e_gev2 hL, ok_bind, e_cc hL, ok_bind, e_mc, ok_bind, e_gev2 hL, ok_bind, e_add, ok_bind, e_rgev hL (x := e) he (by rw [h]; field_simp)]

theorem energy_joule (L : Libm) (hL : L.Squares) (p m c e k : ℚ) (hc : c ≠ 0) (hk : 0 ≤ k) (he : 0 ≤ e) (h : e ^ 2 = p ^ 2 + m ^ 2) :
  totalEnergy pE L ⟨momentumTy, .f (p / c * k)⟩ ⟨boxMass, .f (m / c ^ 2 * k)⟩ ⟨lightTy, .f c⟩ = .ok ⟨jouleTy, .f (e * k)⟩ := by
  unfold totalEnergy
  rw [e_jpc, ok_bind, e_j2 hL, ok_bind, e_cc hL, ok_bind, e_jmc, ok_bind, e_j2 hL, ok_bind, e_jadd, ok_bind, e_rj hL (x := e * k) (mul_nonneg he hk) (by rw [mul_pow e, h]; field_simp)]

/-- A particle of momentum `p` GeV/c and mass `m` GeV/c² with `e² = p² + m²`, in SI units with any speed of light: the energy is `e` GeV; computed from kilograms and
metres per second it is `e · 1.602176634e-10` J; and that is `e` GeV again. -/
theorem C84_energy_si (L : Libm) (hL : L.Squares) (c p m e : ℚ) (hc : c ≠ 0) (he : 0 ≤ e) (h : e ^ 2 = p ^ 2 + m ^ 2) :
    siExample progEnv L ⟨lightTy, .f c⟩ ⟨gevTy, .f p⟩ ⟨gevTy, .f m⟩ =
      .ok (⟨gevTy, .f e⟩, ⟨jouleTy, .f (e * (1602176634 / 10 ^ 19))⟩, ⟨⟨.named siEnergy, siGeV, .flt .f64⟩, .f e⟩) := by
  have hc2 : c ^ 2 ≠ 0 := pow_ne_zero _ hc
  change siExample pE _ _ _ _ = _
  have hg := e_gj (e * (801088317 / 5 / 10 ^ 18))
  rw [mul_div_cancel_right₀ _ (by norm_num)] at hg
  have e5 : e * (801088317 / 5 / 10 ^ 18) = e * (1602176634 / 10 ^ 19) := by norm_num
  unfold siExample
  rw [e_p _ _ hc, ok_bind, e_cc hL, ok_bind, e_m _ _ hc2, ok_bind, energy_gev L hL p m c e hc he h, ok_bind, e_psi, ok_bind, e_msi, ok_bind,
    energy_joule L hL p m c e _ hc (by norm_num) he h, ok_bind, e_j, ok_bind, ← e5]
  rw [show (quantityCast pE { dim := jouleTy.dim, unit := siGeV, rep := jouleTy.rep } ⟨jouleTy, .f (e * (801088317 / 5 / 10 ^ 18))⟩) = _ from hg, ok_bind]

/-- The particle of the program. -/
example : siExample progEnv exactLibm ⟨lightTy, .f 299792458⟩ ⟨gevTy, .f 4⟩ ⟨gevTy, .f 3⟩ =
    .ok (⟨gevTy, .f 5⟩, ⟨jouleTy, .f (5 * (1602176634 / 10 ^ 19))⟩, ⟨⟨.named siEnergy, siGeV, .flt .f64⟩, .f 5⟩) :=
  C84_energy_si exactLibm exactLibm_squares 299792458 4 3 5 (by norm_num) (by norm_num) (by norm_num)

theorem energy_natural (L : Libm) (hL : L.Squares) (p m e : ℚ) (he : 0 ≤ e) (h : e ^ 2 = p ^ 2 + m ^ 2) :
    totalEnergy pE L ⟨natPTy, .f p⟩ ⟨natMTy, .f m⟩ ⟨natCTy, .f 1⟩ = .ok ⟨natETy, .f e⟩ := by
  unfold totalEnergy
  rw [n_pc, ok_bind, n_e2 hL, ok_bind, n_cc hL, ok_bind, n_mc, ok_bind, n_e2 hL, ok_bind, n_add, ok_bind, n_r hL (x := e) he (by rw [h]; ring)]

/-- The same particle in natural units, where the speed of light is one: the same number of GeV. -/
theorem C84_energy_natural (L : Libm) (hL : L.Squares) (p m e : ℚ) (he : 0 ≤ e) (h : e ^ 2 = p ^ 2 + m ^ 2) :
    naturalExample progEnv L p m = .ok ⟨⟨.named natEnergy, natGeV, .flt .f64⟩, .f e⟩ := by
  unfold naturalExample
  exact energy_natural L hL p m e he h

example : naturalExample progEnv exactLibm 4 3 = .ok ⟨⟨.named natEnergy, natGeV, .flt .f64⟩, .f 5⟩ :=
  C84_energy_natural exactLibm exactLibm_squares 4 3 5 (by norm_num) (by norm_num)

/-! ### The capacitor -/

/-- The powers of ten of the units in which the voltage is printed. -/
def voltScale (u : MUnit) : Option ℚ :=
  if u = siVoltage.coherent then some 1 else if u = siMillivolt then some (10 ^ 3) else if u = siMicrovolt then some (10 ^ 6)
  else if u = siNanovolt then some (10 ^ 9) else if u = siPicovolt then some (10 ^ 12) else none

/-- What is printed for a voltage: the same voltage, in the largest of the five units in which the number is at least one, or in picovolts. -/
theorem C84_capacitor_printed (v : ℚ) : ∃ u k y, capPrinted progEnv capRanges ⟨voltLTy siVoltage.coherent, .f v⟩ = .ok ⟨voltLTy u, .f y⟩ ∧
    voltScale u = some k ∧ y = v * k ∧ (u = siPicovolt ∨ 1 ≤ y) ∧ (u = siVoltage.coherent ∨ y < 1000) := by
  obtain ⟨h1, h2, h3, h4⟩ := c_cmp v
  obtain ⟨k1, k2, k3, k4⟩ := c_cast v
  have ge : ∀ x : ℚ, ¬ x < 1 → numCompare (.f x) (.f 1) ≠ .lt := fun x h => by
    rcases eq_or_lt_of_le (not_lt.mp h) with e | e
    · rw [← e, cmpF_self]; decide
    · rw [cmpF_gt e]; decide
  change ∃ u k y, capPrinted pE _ _ = _ ∧ _
  simp only [capRanges, capPrinted, h1, h2, h3, h4, ok_bind]
  by_cases a1 : v < 1
  swap
  · rw [if_neg (ge _ a1), if_pos trivial]
    exact ⟨_, 1, v, rfl, by decide, by ring, .inr (not_lt.mp a1), .inl rfl⟩
  rw [if_pos (cmpF_lt a1)]
  by_cases a2 : v * 10 ^ 3 < 1
  swap
  · rw [if_neg (ge _ a2), if_neg (by decide)]
    exact ⟨_, _, _, k1, by decide, rfl, .inr (not_lt.mp a2), .inr (by linarith)⟩
  rw [if_pos (cmpF_lt a2)]
  by_cases a3 : v * 10 ^ 6 < 1
  swap
  · rw [if_neg (ge _ a3), if_neg (by decide)]
    exact ⟨_, _, _, k2, by decide, rfl, .inr (not_lt.mp a3), .inr (by linarith)⟩
  rw [if_pos (cmpF_lt a3)]
  by_cases a4 : v * 10 ^ 9 < 1
  swap
  · rw [if_neg (ge _ a4), if_neg (by decide)]
    exact ⟨_, _, _, k3, by decide, rfl, .inr (not_lt.mp a4), .inr (by linarith)⟩
  rw [if_pos (cmpF_lt a4)]
  exact ⟨_, _, _, k4, by decide, rfl, .inl rfl, .inr (by linarith)⟩

/-- The voltage after `i` milliseconds: `v₀ · exp(-i / (r · c))`, with the resistance in kiloohms and the capacitance in microfarads. -/
theorem C84_capacitor_voltage (L : Libm) (ex : ℚ → ℚ) (hL : ∀ x, L.exp .f80 x = .ok (ex x)) (v0 r c : ℚ) (hr : r ≠ 0) (hc : c ≠ 0) (i : Int) (h0 : 0 ≤ i)
    (h1 : i < 2 ^ 63) :
    capVoltage progEnv L (capV v0) (capR r) (capC c) ⟨msTy, .i i⟩ = .ok ⟨voltLTy siVoltage.coherent, .f (v0 * ex (-i / (r * c)))⟩ := by
  change capVoltage pE _ _ _ _ _ = _
  have hin : IntTy.i64.In (-i) := ⟨by norm_num [IntTy.lo, IntTy.bits, IntTy.signed]; omega, by norm_num [IntTy.hi, IntTy.bits, IntTy.signed]; omega⟩
  simp only [capVoltage, c_neg h0 h1, c_rc, c_div hin (mul_ne_zero hr hc), c_exp (hL _), c_v, ok_bind]
  push_cast
  rfl

example : capVoltage progEnv ⟨fun _ _ _ => .ok 1, fun _ _ => .ok 1, fun _ _ => .ok 1, fun _ x => .ok (1 + x)⟩ (capV 5) (capR (47 / 10)) (capC (47 / 100)) ⟨msTy, .i 1⟩ =
    .ok ⟨voltLTy siVoltage.coherent, .f (5 * (1 + -(1 : Int) / (47 / 10 * (47 / 100))))⟩ :=
  C84_capacitor_voltage _ (fun x => 1 + x) (fun _ => rfl) 5 (47 / 10) (47 / 100) (by norm_num) (by norm_num) 1 (by norm_num) (by norm_num)

/-- The row printed for a voltage. -/
def capRow (L : Libm) (v0 r c : ℚ) (i : Int) : Option (Qty × Qty) :=
  match (do let v ← capVoltage progEnv L (capV v0) (capR r) (capC c) ⟨msTy, .i i⟩; capPrinted progEnv capRanges v : C Qty) with
  | .ok q => some (⟨msTy, .i i⟩, q)
  | .error _ => none

/-- The loop prints one row for each millisecond from zero to the last one, in order, and stops. -/
theorem C84_capacitor_rows (L : Libm) (ex : ℚ → ℚ) (hL : ∀ x, L.exp .f80 x = .ok (ex x)) (v0 r c : ℚ) (hr : r ≠ 0) (hc : c ≠ 0) (last : Nat)
    (h1 : (last : Int) + 1 < 2 ^ 63) :
    ∃ rows, capMain progEnv L v0 r c last (last + 2) = .ok (some rows) ∧ rows.length = last + 1 ∧
      ∀ i : Nat, i ≤ last → rows[i]? = capRow L v0 r c i ∧ (capRow L v0 r c i).isSome := by
  have row : ∀ i : Nat, i ≤ last → ∃ v q, capVoltage pE L (capV v0) (capR r) (capC c) ⟨msTy, .i i⟩ = .ok v ∧ capPrinted pE capRanges v = .ok q ∧
      capRow L v0 r c i = some (⟨msTy, .i i⟩, q) := by
    intro i hi
    have e := C84_capacitor_voltage L ex hL v0 r c hr hc i (by omega) (by omega)
    obtain ⟨u, k, y, e', -⟩ := C84_capacitor_printed (v0 * ex (-(i : Int) / (r * c)))
    refine ⟨_, _, e, e', ?_⟩
    unfold capRow
    rw [e, ok_bind, e']
  have main : ∀ k i : Nat, i + k = last + 1 → ∃ rows, capLoop pE L (capV v0) (capR r) (capC c) ⟨msTy, .i last⟩ (k + 1) ⟨msTy, .i i⟩ = .ok (some rows) ∧
      rows.length = k ∧ ∀ j : Nat, j < k → rows[j]? = capRow L v0 r c ((i + j : Nat) : Int) := by
    intro k
    induction k with
    | zero =>
      intro i hi
      refine ⟨[], ?_, rfl, fun j hj => absurd hj (by omega)⟩
      simp only [capLoop, c_le, ok_bind]
      rw [if_neg (show ¬ (i : Int) < last by omega), if_neg (show ¬ (i : Int) = last by omega), if_pos rfl]
    | succ k ih =>
      intro i hi
      obtain ⟨rows, e, hlen, hr⟩ := ih (i + 1) (by omega)
      obtain ⟨v, q, e1, e2, e3⟩ := row i (by omega)
      refine ⟨(⟨msTy, .i i⟩, q) :: rows, ?_, by simp [hlen], ?_⟩
      · rw [capLoop, c_le, ok_bind]
        rw [if_neg (by split <;> [decide; (split <;> [decide; omega])]), e1, ok_bind, e2, ok_bind, c_inc (by omega) (by omega), ok_bind]
        push_cast at e
        rw [e, ok_bind]
      · intro j hj
        cases j with
        | zero => simpa using e3.symm
        | succ j =>
          rw [List.getElem?_cons_succ, hr j (by omega)]
          congr 2; omega
  obtain ⟨rows, e, hlen, hr⟩ := main (last + 1) 0 (by omega)
  refine ⟨rows, e, hlen, fun i hi => ?_⟩
  have := hr i (by omega)
  rw [Nat.zero_add] at this
  obtain ⟨v, q, -, -, e3⟩ := row i hi
  exact ⟨this, by rw [e3]; rfl⟩

/-- The fifty-one rows of the program, with an approximation of the exponential function. -/
example : ∃ rows, capMain progEnv ⟨fun _ _ _ => .ok 1, fun _ _ => .ok 1, fun _ _ => .ok 1, fun _ x => .ok (1 + x + x ^ 2 / 2)⟩ 5 (47 / 10) (47 / 100) (50 : Nat) 52 =
    .ok (some rows) ∧ rows.length = 51 := by
  obtain ⟨rows, h, hl, -⟩ := C84_capacitor_rows ⟨fun _ _ _ => .ok 1, fun _ _ => .ok 1, fun _ _ => .ok 1, fun _ x => .ok (1 + x + x ^ 2 / 2)⟩
    (fun x => 1 + x + x ^ 2 / 2) (fun _ => rfl) 5 (47 / 10) (47 / 100) (by norm_num) (by norm_num) 50 (by norm_num)
  exact ⟨rows, h, hl⟩

/-! ### Average speed -/

/-- With `double` the average speed of `d` kilometres in `t` hours is `d / t` kilometres per hour, by each of the three functions. -/
theorem C84_avg_double (d t : ℚ) (ht : t ≠ 0) :
    (fixedDouble progEnv (kmL d) (hL t) >>= printedSpeed progEnv) = .ok ⟨speedTy siKmh (.flt .f64), .f (d / t)⟩ ∧
    (siAvg progEnv (kmL d) (hL t) >>= printedSpeed progEnv) = .ok ⟨speedTy siKmh (.flt .f64), .f (d / t)⟩ ∧
    (avgSpeed progEnv (kmL d) (hL t) >>= printedSpeed progEnv) = .ok ⟨speedTy siKmh (.flt .f64), .f (d / t)⟩ := by
  have ht' : t * 3600 ≠ 0 := by positivity
  change (fixedDouble pE _ _ >>= printedSpeed pE) = _ ∧ (siAvg pE _ _ >>= printedSpeed pE) = _ ∧ (avgSpeed pE _ _ >>= printedSpeed pE) = _
  have k := (a_print (r := .flt .f80) (v := .f (d / t)) (by simp [Num.Typed])).2.1
  simp only [Num.q] at k
  refine ⟨?_, ?_, ?_⟩
  · simp only [fixedDouble, a_metresL, a_secL, a_mpsF _ ht', a_mpsc, ok_bind]
    have := (a_print (r := .flt .f64) (v := .f (d * 1000 / (t * 3600))) (by simp [Num.Typed])).1
    rw [show lightTy = speedTy siMps (.flt .f64) from rfl, this]
    congr 3
    simp only [Num.q]
    field_simp; ring
  · rw [siAvg, if_pos ⟨rfl, rfl⟩, a_kmhL _ ht, ok_bind, k]
  · rw [avgSpeed, a_kmhL _ ht, ok_bind, k]

example : (fixedDouble progEnv (kmL 220) (hL 2) >>= printedSpeed progEnv) = .ok ⟨speedTy siKmh (.flt .f64), .f (220 / 2)⟩ := (C84_avg_double 220 2 (by norm_num)).1

/-- The same from miles. -/
theorem C84_avg_double_miles (d t : ℚ) (ht : t ≠ 0) :
    (fixedDouble progEnv (miL d) (hL t) >>= printedSpeed progEnv) = .ok ⟨speedTy siKmh (.flt .f64), .f (d * (1609344 / 1000000) / t)⟩ ∧
    (siAvg progEnv (miL d) (hL t) >>= printedSpeed progEnv) = .ok ⟨speedTy siKmh (.flt .f64), .f (d * (1609344 / 1000000) / t)⟩ ∧
    (avgSpeed progEnv (miL d) (hL t) >>= printedSpeed progEnv) = .ok ⟨speedTy siKmh (.flt .f64), .f (d * (1609344 / 1000000) / t)⟩ := by
  have ht' : t * 3600 ≠ 0 := by positivity
  change (fixedDouble pE _ _ >>= printedSpeed pE) = _ ∧ (siAvg pE _ _ >>= printedSpeed pE) = _ ∧ (avgSpeed pE _ _ >>= printedSpeed pE) = _
  have k := (a_print (r := .flt .f80) (v := .f (d / t)) (by simp [Num.Typed])).2.2
  simp only [Num.q, show d / t * (1609344 / 1000000) = d * (1609344 / 1000000) / t by ring] at k
  refine ⟨?_, ?_, ?_⟩
  · simp only [fixedDouble, a_milesL, a_secL, a_mpsF _ ht', a_mpsc, ok_bind]
    have := (a_print (r := .flt .f64) (v := .f (d * (1609344 / 1000) / (t * 3600))) (by simp [Num.Typed])).1
    rw [show lightTy = speedTy siMps (.flt .f64) from rfl, this]
    congr 3
    simp only [Num.q]
    field_simp; ring
  · rw [siAvg, if_pos ⟨rfl, rfl⟩, a_mihL _ ht, ok_bind, k]
  · rw [avgSpeed, a_mihL _ ht, ok_bind, k]

example : (fixedDouble progEnv (miL 140) (hL 2) >>= printedSpeed progEnv) = .ok ⟨speedTy siKmh (.flt .f64), .f (140 * (1609344 / 1000000) / 2)⟩ :=
  (C84_avg_double_miles 140 2 (by norm_num)).1

theorem tdiv_close {a b : Int} (ha : 0 ≤ a) (hb : 0 < b) : ((a.tdiv b : Int) : ℚ) ≤ a / b ∧ (a : ℚ) / b < (a.tdiv b : Int) + 1 := by
  have hb' : (0 : ℚ) < b := by exact_mod_cast hb
  rw [Int.tdiv_eq_ediv_of_nonneg ha, le_div_iff₀ hb', div_lt_iff₀ hb']
  refine ⟨by exact_mod_cast Int.ediv_mul_le a hb.ne', ?_⟩
  have := Int.lt_ediv_add_one_mul_self a hb
  exact_mod_cast this

/-- With `int`, the speed in whole metres per second is not above the average speed, and less than 3.6 kilometres per hour below it. -/
theorem C84_avg_int (d t : Int) (h0 : 0 ≤ d) (h1 : d * 1000 < 2 ^ 31) (ht : 0 < t) (ht1 : t * 3600 < 2 ^ 31) :
    ∃ v, (fixedInt progEnv (kmI d) (hI t) >>= printedSpeed progEnv) = .ok ⟨speedTy siKmh (.flt .f64), .f v⟩ ∧
      v ≤ (d : ℚ) / t ∧ (d : ℚ) / t < v + 18 / 5 := by
  obtain ⟨k1, k2⟩ := tdiv_close (a := d * 1000) (b := t * 3600) (by omega) (by omega)
  have ht' : (0 : ℚ) < t := by exact_mod_cast ht
  push_cast at k1 k2
  rw [show (d : ℚ) * 1000 / (t * 3600) = d / t * (5 / 18) by field_simp; ring] at k1 k2
  refine ⟨((d * 1000).tdiv (t * 3600) : Int) * (18 / 5), ?_, by linarith, by linarith⟩
  change (fixedInt pE _ _ >>= printedSpeed pE) = _
  have a1 := a_km (d := d) (by omega) (by omega)
  have a2 := a_h (t := t) (by omega) (by omega)
  rw [wrap32 (by omega) h1] at a1
  rw [wrap32 (by omega) ht1] at a2
  have a3 := a_div (x := d * 1000) (y := t * 3600) (by omega) (by omega) h1
  have a4 := a_mps ((d * 1000).tdiv (t * 3600))
  unfold mI32 at a1 a3; unfold sI32 at a2 a3; unfold mpsI32 at a3 a4
  simp only [fixedInt, a1, a2, a3, a4, ok_bind]
  refine (a_print (r := .int .i32) (v := .i ((d * 1000).tdiv (t * 3600))) ?_).1
  have q0 := Int.tdiv_nonneg (a := d * 1000) (b := t * 3600) (by omega) (by omega)
  have q1 := Int.tdiv_le_self (t * 3600) (show 0 ≤ d * 1000 by omega)
  simp only [Num.Typed]
  exact ⟨_, rfl, by norm_num [IntTy.lo, IntTy.bits, IntTy.signed]; omega, by norm_num [IntTy.hi, IntTy.bits, IntTy.signed]; omega⟩

/-- The car of the program: thirty metres per second, for 110 kilometres per hour. -/
example : (fixedInt progEnv (kmI 220) (hI 2) >>= printedSpeed progEnv) = .ok ⟨speedTy siKmh (.flt .f64), .f 108⟩ := by
  decide +kernel

/-- With the types of the arguments the error is less than one kilometre per hour. -/
theorem C84_avg_int_deduced (d t : Int) (h0 : 0 ≤ d) (h1 : d < 2 ^ 63) (ht : 0 < t) :
    ∃ v, (siAvg progEnv (kmI d) (hI t) >>= printedSpeed progEnv) = .ok ⟨speedTy siKmh (.flt .f64), .f v⟩ ∧
      (avgSpeed progEnv (kmI d) (hI t) >>= printedSpeed progEnv) = .ok ⟨speedTy siKmh (.flt .f64), .f v⟩ ∧ v ≤ (d : ℚ) / t ∧ (d : ℚ) / t < v + 1 := by
  obtain ⟨k1, k2⟩ := tdiv_close h0 ht
  have q0 := Int.tdiv_nonneg h0 ht.le
  have q1 := Int.tdiv_le_self t h0
  have k := (a_print (r := .int .i64) (v := .i (d.tdiv t)) (by
    simp only [Num.Typed]
    exact ⟨_, rfl, by norm_num [IntTy.lo, IntTy.bits, IntTy.signed]; omega, by norm_num [IntTy.hi, IntTy.bits, IntTy.signed]; omega⟩)).2.1
  refine ⟨((d.tdiv t : Int) : ℚ), ?_, ?_, k1, k2⟩
  · change (siAvg pE _ _ >>= printedSpeed pE) = _
    rw [siAvg, if_pos ⟨rfl, rfl⟩, a_kmh ht h0 h1, ok_bind, k]; rfl
  · change (avgSpeed pE _ _ >>= printedSpeed pE) = _
    rw [avgSpeed, a_kmh ht h0 h1, ok_bind, k]; rfl

example : (siAvg progEnv (kmI 221) (hI 2) >>= printedSpeed progEnv) = .ok ⟨speedTy siKmh (.flt .f64), .f 110⟩ := by decide +kernel

/-- From whole miles it is less than one mile per hour. -/
theorem C84_avg_int_miles (d t : Int) (h0 : 0 ≤ d) (h1 : d < 2 ^ 63) (ht : 0 < t) :
    ∃ v, (siAvg progEnv (miI d) (hI t) >>= printedSpeed progEnv) = .ok ⟨speedTy siKmh (.flt .f64), .f v⟩ ∧
      (avgSpeed progEnv (miI d) (hI t) >>= printedSpeed progEnv) = .ok ⟨speedTy siKmh (.flt .f64), .f v⟩ ∧
      v ≤ (d : ℚ) / t * (1609344 / 1000000) ∧ (d : ℚ) / t * (1609344 / 1000000) < v + 1609344 / 1000000 := by
  obtain ⟨k1, k2⟩ := tdiv_close h0 ht
  have q0 := Int.tdiv_nonneg h0 ht.le
  have q1 := Int.tdiv_le_self t h0
  have k := (a_print (r := .int .i64) (v := .i (d.tdiv t)) (by
    simp only [Num.Typed]
    exact ⟨_, rfl, by norm_num [IntTy.lo, IntTy.bits, IntTy.signed]; omega, by norm_num [IntTy.hi, IntTy.bits, IntTy.signed]; omega⟩)).2.2
  refine ⟨((d.tdiv t : Int) : ℚ) * (1609344 / 1000000), ?_, ?_, by linarith, by linarith⟩
  · change (siAvg pE _ _ >>= printedSpeed pE) = _
    rw [siAvg, if_pos ⟨rfl, rfl⟩, a_mih ht h0 h1, ok_bind, k]; rfl
  · change (avgSpeed pE _ _ >>= printedSpeed pE) = _
    rw [avgSpeed, a_mih ht h0 h1, ok_bind, k]; rfl

example : ∃ v, (siAvg progEnv (miI 141) (hI 2) >>= printedSpeed progEnv) = .ok ⟨speedTy siKmh (.flt .f64), .f v⟩ ∧ v ≤ ((141 : Int) : ℚ) / (2 : Int) * (1609344 / 1000000) := by
  obtain ⟨v, h, -, h', -⟩ := C84_avg_int_miles 141 2 (by norm_num) (by norm_num) (by norm_num)
  exact ⟨v, h, h'⟩

/-- The arguments of the function with `int` are narrowed without a word: a distance of 4294968 kilometres becomes 704 metres, and its speed zero. -/
theorem C84_avg_int_narrowed :
    convertQty progEnv mI32 (kmI 4294968) = .ok ⟨mI32, .i 704⟩ ∧
    (fixedInt progEnv (kmI 4294968) (hI 1) >>= printedSpeed progEnv) = .ok ⟨speedTy siKmh (.flt .f64), .f 0⟩ ∧
    (fixedDouble progEnv (kmI 4294968) (hI 1) >>= printedSpeed progEnv) = .ok ⟨speedTy siKmh (.flt .f64), .f 4294968⟩ := by
  refine ⟨?_, ?_, ?_⟩ <;> decide +kernel

/-! ### The conversion factor -/

theorem castRatio_self {est : RootEstimate} {d : Dim} {u : MUnit} (hu : u.WF) {c : Ratio} (h : castRatio est d u d u = .ok c) : c.val = 1 := by
  unfold castRatio at h
  rw [if_pos (by simp [sameUnitReference])] at h
  obtain ⟨-, h1, -⟩ := div_sound hu.ratio hu.ratio h
  rw [h1, div_self hu.val_pos.ne']

/-- Converting a quantity multiplies its number by the conversion factor. -/
theorem C84_conversion_factor (E : Env) (hfl : FlExact E.fl) (target source : QTy) (hu : source.unit.WF) (ht : target.rep.floating = true) (k : Num) (q r : Qty)
    (hq : q.ty = source) (hv : q.num.Typed source.rep) (hk : conversionFactor E target source = .ok k) (hr : convertQty E target q = .ok r) :
    r.num.q = q.num.q * k.q := by
  obtain ⟨ty, v⟩ := q
  subst hq
  have hrep : (target.rep.common ty.rep).floating = true := by
    cases h : target.rep with
    | int _ => rw [h] at ht; cases ht
    | flt f => unfold Rep.common; split <;> [rfl; (cases ty.rep <;> simp [Rep.arith, Rep.floating])]
  have key : (ty.dim = target.dim ∧ ty.unit = target.unit ∧ k.q = 1) ∨
      ((⟨ty.dim, ty.unit, target.rep.common ty.rep⟩ : QTy) ≠ ⟨target.dim, target.unit, target.rep.common ty.rep⟩ ∧
        ∃ c, castRatio E.est ty.dim ty.unit target.dim target.unit = .ok c ∧ k.q = c.val) := by
    unfold conversionFactor at hk
    obtain ⟨b, -, hk⟩ := bind_ok.1 hk
    cases b
    · cases hk
    rw [if_pos rfl] at hk
    obtain ⟨s, hs, hk⟩ := bind_ok.1 hk
    obtain ⟨t, ht', hk⟩ := bind_ok.1 hk
    cases hk
    unfold mkQty at hs
    simp only [hrep, true_or, if_true] at hs
    obtain ⟨x, hx, hs⟩ := bind_ok.1 hs
    cases hs
    obtain ⟨f, hf⟩ : ∃ f, target.rep.common ty.rep = .flt f := by
      cases h : target.rep.common ty.rep with
      | int _ => rw [h] at hrep; cases hrep
      | flt f => exact ⟨f, rfl⟩
    rw [hf] at hx ht'
    have hx' := convNum_flt hfl (r := .int .i32) (v := .i 1) ⟨_, rfl, by decide⟩ hx
    subst hx'
    rw [hf]
    rcases convertQty_cases ht' with ⟨he, rfl⟩ | ⟨hne, -, hcast⟩
    · simp only [QTy.mk.injEq, and_true] at he
      exact .inl ⟨he.1, he.2, by simp [Num.q]⟩
    · obtain ⟨-, c, x, hc, hx, rfl⟩ := quantityCast_eq_ok hcast
      have := (castNum_flt hfl (castRatio_wf hc) (.inr rfl) (by simp [Num.Typed]) hx).1 rfl
      exact .inr ⟨hne, c, hc, by simp only [this, Num.q]; norm_num⟩
  rcases convertQty_cases hr with ⟨he, rfl⟩ | ⟨-, -, hcast⟩
  · rcases key with ⟨-, -, h1⟩ | ⟨hne, -⟩
    · rw [h1, mul_one]
    · simp only at he; subst he; exact absurd rfl hne
  · obtain ⟨-, c, x, hc, hx, rfl⟩ := quantityCast_eq_ok hcast
    have hk' : k.q = c.val := by
      rcases key with ⟨hd, hu', h1⟩ | ⟨-, c', hc', h1⟩
      · simp only [← hd, ← hu'] at hc
        rw [h1, castRatio_self hu hc]
      · simp only at hc
        rw [hc] at hc'; cases hc'; exact h1
    rw [hk']
    have := (castNum_flt hfl (castRatio_wf hc) (.inr ht) hv hx).1 ht
    simp only [this, Num.q]

/-- From metres to millimetres. -/
example : conversionFactor progEnv (lmm 0).ty boxLen = .ok (.f 1000) ∧ convertQty progEnv (lmm 0).ty ⟨boxLen, .f 2⟩ = .ok (lmm 2000) := by
  constructor <;> decide +kernel

/-- From millimetres to metres in `int` there is no factor: the conversion is rejected. -/
theorem C84_conversion_factor_int :
    conversionFactor progEnv ⟨.base siLength, siMillimetre, .int .i32⟩ mI32 = .ok (.i 1000) ∧
    conversionFactor progEnv mI32 ⟨.base siLength, siMillimetre, .int .i32⟩ = .error .rejected := by
  constructor <;> decide +kernel

end Verif
