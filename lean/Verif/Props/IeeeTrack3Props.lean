import Verif.IeeeTrack3
import Verif.Props.IeeeAccelProps

/-!
# C95: the whole filter with a position, a speed and an acceleration in IEEE floating point

The fourth example over any list of measurements, against exact arithmetic on rational numbers.
-/

namespace Verif

open FltTy Systems Demos

set_option maxRecDepth 100000

/-- Extrapolation in exact arithmetic. -/
def extrapolateExact3 (t : ℚ) (s : ℚ × ℚ × ℚ) : ℚ × ℚ × ℚ := (s.1 + s.2.1 * t + s.2.2 * t ^ 2 / 2, s.2.1 + s.2.2 * t, s.2.2)

/-- Update in exact arithmetic. -/
def updateExact3 (k1 k2 k3 t m : ℚ) (s : ℚ × ℚ × ℚ) : ℚ × ℚ × ℚ :=
  (s.1 + k1 * (m - s.1), s.2.1 + k2 * (m - s.1) / t, s.2.2 + k3 * (m - s.1) / (t ^ 2 / 2))

/-- The filter in exact arithmetic: the position, the speed and the acceleration expected after the measurements. -/
def trackExact3 (k1 k2 k3 t : ℚ) : ℚ × ℚ × ℚ → List ℚ → ℚ × ℚ × ℚ
  | s, [] => s
  | s, m :: ms => trackExact3 k1 k2 k3 t (extrapolateExact3 t (updateExact3 k1 k2 k3 t m s)) ms

/-- Two states within a distance: the position, the speed times the interval, and the acceleration times its square. -/
structure StateNear (t D : ℚ) (p v a : ℚ) (s : ℚ × ℚ × ℚ) : Prop where
  pos : |p - s.1| ≤ D
  vel : |(v - s.2.1) * t| ≤ D
  acc : |(a - s.2.2) * t ^ 2| ≤ D

theorem StateNear.mono {t D D' p v a : ℚ} {s : ℚ × ℚ × ℚ} (h : StateNear t D p v a s) (hD : D ≤ D') : StateNear t D' p v a s :=
  ⟨h.pos.trans hD, h.vel.trans hD, h.acc.trans hD⟩

theorem StateNear.size {t D X p v a : ℚ} {s : ℚ × ℚ × ℚ} (h : StateNear t D p v a s) (hs : StateNear t X 0 0 0 s) : StateNear t (D + X) p v a (0, 0, 0) := by
  obtain ⟨h1, h2, h3⟩ := h
  obtain ⟨s1, s2, s3⟩ := hs
  rw [abs_le] at h1 h2 h3 s1 s2 s3
  refine ⟨abs_le.mpr ⟨?_, ?_⟩, abs_le.mpr ⟨?_, ?_⟩, abs_le.mpr ⟨?_, ?_⟩⟩ <;> simp only <;> linarith

theorem times_small {c x C A : ℚ} (hc : |c| ≤ C) (hx : |x| ≤ A) : -(C * A) ≤ c * x ∧ c * x ≤ C * A := by
  have : |c * x| ≤ C * A := by
    rw [abs_mul]
    exact mul_le_mul hc hx (abs_nonneg _) ((abs_nonneg _).trans hc)
  exact abs_le.mp this

/-- The gains of a filter. -/
structure GainsOK (k1 k2 k3 : ℚ) : Prop where
  g1 : 0 ≤ k1
  g2 : 0 ≤ k2
  g3 : 0 ≤ k3
  sum : k1 + k2 + k3 ≤ 2
  sum' : k2 + 2 * k3 ≤ 1

/-- Differences of states after an extrapolation. -/
theorem extrapolate_near {t D F p v a p' v' : ℚ} {s : ℚ × ℚ × ℚ} (h : StateNear t D p v a s) (D0 : 0 ≤ D) (F0 : 0 ≤ F)
    (h1 : |p' - (p + v * t + a * t ^ 2 / 2)| ≤ F) (h2 : |(v' - (v + a * t)) * t| ≤ F) : StateNear t (3 * D + F) p' v' a (extrapolateExact3 t s) := by
  obtain ⟨a1, a2, a3⟩ := h
  have i1 : p' - (extrapolateExact3 t s).1 = (p' - (p + v * t + a * t ^ 2 / 2)) + (p - s.1) + (v - s.2.1) * t + (a - s.2.2) * t ^ 2 / 2 := by
    simp only [extrapolateExact3]; ring
  have i2 : (v' - (extrapolateExact3 t s).2.1) * t = (v' - (v + a * t)) * t + (v - s.2.1) * t + (a - s.2.2) * t ^ 2 := by
    simp only [extrapolateExact3]; ring
  refine ⟨?_, ?_, ?_⟩
  · rw [i1]
    rw [abs_le] at *
    constructor <;> linarith
  · rw [i2]
    rw [abs_le] at *
    constructor <;> linarith
  · show |(a - s.2.2) * t ^ 2| ≤ _
    linarith

/-- Differences of states after an update and an extrapolation. -/
theorem step_near {t D F G p v a m k1 k2 k3 p1 v1 a1 p' v' : ℚ} {s : ℚ × ℚ × ℚ} (t0 : 0 < t) (hk : GainsOK k1 k2 k3) (h : StateNear t D p v a s) (D0 : 0 ≤ D)
    (F0 : 0 ≤ F) (G0 : 0 ≤ G) (h1 : |p1 - (p + k1 * (m - p))| ≤ G) (h2 : |(v1 - (v + k2 * (m - p) / t)) * t| ≤ G)
    (h3 : |(a1 - (a + k3 * (m - p) / (t ^ 2 / 2))) * t ^ 2| ≤ G)
    (h4 : |p' - (p1 + v1 * t + a1 * t ^ 2 / 2)| ≤ F) (h5 : |(v' - (v1 + a1 * t)) * t| ≤ F) :
    StateNear t (3 * D + (3 * G + F)) p' v' a1 (extrapolateExact3 t (updateExact3 k1 k2 k3 t m s)) := by
  obtain ⟨b1, b2, b3⟩ := h
  obtain ⟨g1, g2, g3, gs, gs'⟩ := hk
  have i1 : p' - (extrapolateExact3 t (updateExact3 k1 k2 k3 t m s)).1 = (p' - (p1 + v1 * t + a1 * t ^ 2 / 2)) + (p1 - (p + k1 * (m - p))) +
      (v1 - (v + k2 * (m - p) / t)) * t + (a1 - (a + k3 * (m - p) / (t ^ 2 / 2))) * t ^ 2 / 2 + (1 - k1 - k2 - k3) * (p - s.1) + (v - s.2.1) * t + (a - s.2.2) * t ^ 2 / 2 := by
    simp only [extrapolateExact3, updateExact3]; field_simp; ring
  have i2 : (v' - (extrapolateExact3 t (updateExact3 k1 k2 k3 t m s)).2.1) * t = (v' - (v1 + a1 * t)) * t + (v1 - (v + k2 * (m - p) / t)) * t +
      (a1 - (a + k3 * (m - p) / (t ^ 2 / 2))) * t ^ 2 + (v - s.2.1) * t + (a - s.2.2) * t ^ 2 + -(k2 + 2 * k3) * (p - s.1) := by
    simp only [extrapolateExact3, updateExact3]; field_simp; ring
  have i3 : (a1 - (extrapolateExact3 t (updateExact3 k1 k2 k3 t m s)).2.2) * t ^ 2 = (a1 - (a + k3 * (m - p) / (t ^ 2 / 2))) * t ^ 2 + (a - s.2.2) * t ^ 2 +
      -(2 * k3) * (p - s.1) := by
    simp only [extrapolateExact3, updateExact3]; field_simp; ring
  obtain ⟨c1, c1'⟩ := times_small (c := 1 - k1 - k2 - k3) (C := 1) (abs_le.mpr ⟨by linarith, by linarith⟩) b1
  obtain ⟨c2, c2'⟩ := times_small (c := -(k2 + 2 * k3)) (C := 1) (abs_le.mpr ⟨by linarith, by linarith⟩) b1
  obtain ⟨c3, c3'⟩ := times_small (c := -(2 * k3)) (C := 1) (abs_le.mpr ⟨by linarith, by linarith⟩) b1
  refine ⟨?_, ?_, ?_⟩
  · rw [i1]
    rw [abs_le] at *
    constructor <;> linarith
  · rw [i2]
    rw [abs_le] at *
    constructor <;> linarith
  · rw [i3]
    rw [abs_le] at *
    constructor <;> linarith

/-- The size of the exact state. -/
theorem step_size {t X B m k1 k2 k3 : ℚ} {s : ℚ × ℚ × ℚ} (t0 : 0 < t) (hk : GainsOK k1 k2 k3) (h : StateNear t X 0 0 0 s) (hm : |m| ≤ B) :
    StateNear t (3 * X + 2 * B) 0 0 0 (extrapolateExact3 t (updateExact3 k1 k2 k3 t m s)) := by
  obtain ⟨b1, b2, b3⟩ := h
  obtain ⟨g1, g2, g3, gs, gs'⟩ := hk
  have B0 := (abs_nonneg _).trans hm
  have X0 := (abs_nonneg _).trans b1
  have i1 : 0 - (extrapolateExact3 t (updateExact3 k1 k2 k3 t m s)).1 = (1 - k1 - k2 - k3) * (0 - s.1) + (0 - s.2.1) * t + (0 - s.2.2) * t ^ 2 / 2 +
      -(k1 + k2 + k3) * m := by
    simp only [extrapolateExact3, updateExact3]; field_simp; ring
  have i2 : (0 - (extrapolateExact3 t (updateExact3 k1 k2 k3 t m s)).2.1) * t = (0 - s.2.1) * t + (0 - s.2.2) * t ^ 2 + -(k2 + 2 * k3) * (0 - s.1) + -(k2 + 2 * k3) * m := by
    simp only [extrapolateExact3, updateExact3]; field_simp; ring
  have i3 : (0 - (extrapolateExact3 t (updateExact3 k1 k2 k3 t m s)).2.2) * t ^ 2 = (0 - s.2.2) * t ^ 2 + -(2 * k3) * (0 - s.1) + -(2 * k3) * m := by
    simp only [extrapolateExact3, updateExact3]; field_simp; ring
  obtain ⟨c1, c1'⟩ := times_small (c := 1 - k1 - k2 - k3) (C := 1) (abs_le.mpr ⟨by linarith, by linarith⟩) b1
  obtain ⟨c2, c2'⟩ := times_small (c := -(k2 + 2 * k3)) (C := 1) (abs_le.mpr ⟨by linarith, by linarith⟩) b1
  obtain ⟨c3, c3'⟩ := times_small (c := -(2 * k3)) (C := 1) (abs_le.mpr ⟨by linarith, by linarith⟩) b1
  obtain ⟨d1, d1'⟩ := times_small (c := -(k1 + k2 + k3)) (C := 2) (abs_le.mpr ⟨by linarith, by linarith⟩) hm
  obtain ⟨d2, d2'⟩ := times_small (c := -(k2 + 2 * k3)) (C := 1) (abs_le.mpr ⟨by linarith, by linarith⟩) hm
  obtain ⟨d3, d3'⟩ := times_small (c := -(2 * k3)) (C := 1) (abs_le.mpr ⟨by linarith, by linarith⟩) hm
  refine ⟨?_, ?_, ?_⟩
  · rw [i1]
    rw [abs_le] at *
    constructor <;> linarith
  · rw [i2]
    rw [abs_le] at *
    constructor <;> linarith
  · rw [i3]
    rw [abs_le] at *
    constructor <;> linarith

/-- A state in `double` of moderate size. -/
structure StateI (t Z : ℚ) (p v a : FVal) : Prop where
  fp : p.Finite
  ip : p.In .f64
  fv : v.Finite
  iv : v.In .f64
  fa : a.Finite
  ia : a.In .f64
  size : StateNear t Z p.q v.q a.q (0, 0, 0)

theorem StateI.upto {t Z : ℚ} {p v a : FVal} (h : StateI t Z p v a) (ht : 1 / 2 ^ 5 ≤ t) (hZ : Z ≤ 2 ^ 89) : Upto 100 p ∧ Upto 100 v ∧ Upto 100 a := by
  have t0 : (0 : ℚ) < t := lt_of_lt_of_le (by norm_num) ht
  obtain ⟨a1, a2, a3⟩ := h.size
  simp only [sub_zero] at a1 a2 a3
  have t2 : (1 : ℚ) / 2 ^ 10 ≤ t ^ 2 := by
    have := mul_le_mul ht ht (by norm_num) t0.le
    rw [sq]
    exact le_trans (by norm_num) this
  rw [abs_mul, abs_of_pos t0] at a2
  rw [abs_mul, abs_of_pos (by positivity : 0 < t ^ 2)] at a3
  have s2 := mul_le_mul_of_nonneg_left ht (abs_nonneg v.q)
  have s3 := mul_le_mul_of_nonneg_left t2 (abs_nonneg a.q)
  refine ⟨⟨h.fp, h.ip, ?_⟩, ⟨h.fv, h.iv, ?_⟩, ⟨h.fa, h.ia, ?_⟩⟩
  · exact (a1.trans hZ).trans (by norm_num)
  · have : |v.q| * (1 / 2 ^ 5) ≤ 2 ^ 89 := s2.trans (a2.trans hZ)
    rw [mul_one_div, div_le_iff₀ (by positivity)] at this
    exact this.trans (by norm_num)
  · have : |a.q| * (1 / 2 ^ 10) ≤ 2 ^ 89 := s3.trans (a3.trans hZ)
    rw [mul_one_div, div_le_iff₀ (by positivity)] at this
    exact this.trans (by norm_num)

/-- The extrapolation of a state of moderate size. -/
theorem extrapolate_state (R : Rebinds) {Lm : LibmI} (hL : Lm.PowSpec Nearest) {t : FVal} (ht : FloatIn .f64 (1 / 2 ^ 5) (2 ^ 20) t) {Z : ℚ} (Z1 : 1 ≤ Z) (Z2 : Z ≤ 2 ^ 89)
    {p v a : FVal} (h : StateI t.q Z p v a) :
    ∃ p' v', extrapolate3I demoEnv R Lm (.qty ⟨lenTy (.flt .f64), .f p⟩) (.qty ⟨Demos.speedTy (.flt .f64), .f v⟩) (.qty ⟨accelTy, .f a⟩)
          ⟨timeTy (.flt .f64), .f t⟩ =
        .ok (.qty ⟨lenTy (.flt .f64), .f p'⟩, .qty ⟨Demos.speedTy (.flt .f64), .f v'⟩, .qty ⟨accelTy, .f a⟩) ∧
      p'.Finite ∧ p'.In .f64 ∧ v'.Finite ∧ v'.In .f64 ∧
      |p'.q - (p.q + v.q * t.q + a.q * t.q ^ 2 / 2)| ≤ 200 / 2 ^ 53 * Z ∧ |(v'.q - (v.q + a.q * t.q)) * t.q| ≤ 200 / 2 ^ 53 * Z := by
  have t0 : (0 : ℚ) < t.q := lt_of_lt_of_le (by norm_num) ht.lower
  have T : Mid t := ⟨ht.finite, ht.within, by rw [abs_of_pos t0]; exact le_trans (by norm_num) ht.lower, by rw [abs_of_pos t0]; exact ht.upper.trans (by norm_num)⟩
  obtain ⟨u1, u2, u3⟩ := h.upto ht.lower Z2
  obtain ⟨p', v', e, fp, ip, fv, iv, r1, r2⟩ := C95_extrapolation_rounded R Lm hL u1 u2 u3 T
  refine ⟨p', v', e, fp, ip, fv, iv, ?_, ?_⟩
  · have r1' : |p'.q - (p.q + v.q * t.q + a.q * t.q ^ 2 / 2)| ≤ 60 / 2 ^ 53 * (|p.q| + |v.q * t.q| + |a.q| * t.q ^ 2 + 6 * (1 / 2 ^ 1020)) := (Rat.cast_le (K := ℝ)).mp (by push_cast; exact r1)
    refine r1'.trans ?_
    rw [show 200 / 2 ^ 53 * Z = 60 / 2 ^ 53 * (10 / 3 * Z) by ring]
    refine mul_le_mul_of_nonneg_left ?_ (by positivity)
    have n1 : (1 : ℚ) / 2 ^ 1020 ≤ 1 / 2 ^ 50 := one_div_le_one_div_of_le (by positivity) (pow_le_pow_right₀ (by norm_num) (by norm_num))
    generalize (1 : ℚ) / 2 ^ 1020 = η at n1 ⊢
    obtain ⟨a1, a2, a3⟩ := h.size
    simp only [sub_zero] at a1 a2 a3
    rw [abs_mul a.q, abs_of_pos (by positivity : 0 < t.q ^ 2)] at a3
    have : (6 : ℚ) * (1 / 2 ^ 50) ≤ 1 / 3 := by norm_num
    linarith
  · have r2' : |v'.q - (v.q + a.q * t.q)| ≤ 34 / 2 ^ 53 * (|v.q| + |a.q * t.q| + 2 * (1 / 2 ^ 1020)) := (Rat.cast_le (K := ℝ)).mp (by push_cast; exact r2)
    rw [abs_mul, abs_of_pos t0]
    refine (mul_le_mul_of_nonneg_right r2' t0.le).trans ?_
    rw [show 200 / 2 ^ 53 * Z = 34 / 2 ^ 53 * (100 / 17 * Z) by ring, mul_assoc]
    refine mul_le_mul_of_nonneg_left ?_ (by positivity)
    have n0 : (0 : ℚ) ≤ 1 / 2 ^ 1020 := by positivity
    have n1 : (1 : ℚ) / 2 ^ 1020 ≤ 1 / 2 ^ 50 := one_div_le_one_div_of_le (by positivity) (pow_le_pow_right₀ (by norm_num) (by norm_num))
    generalize (1 : ℚ) / 2 ^ 1020 = η at n0 n1 ⊢
    obtain ⟨a1, a2, a3⟩ := h.size
    simp only [sub_zero] at a1 a2 a3
    rw [abs_mul, abs_of_pos t0] at a2
    rw [abs_mul, abs_of_pos (by positivity : 0 < t.q ^ 2)] at a3
    have tη : t.q * η ≤ 1 / 4 := (mul_le_mul ht.upper n1 n0 (by positivity)).trans (by norm_num)
    rw [abs_mul, abs_of_pos t0, show (|v.q| + |a.q| * t.q + 2 * η) * t.q = |v.q| * t.q + |a.q| * t.q ^ 2 + 2 * (t.q * η) by ring]
    linarith

/-- C95: the loop of the fourth example. -/
theorem track3_loop (R : Rebinds) {Lm : LibmI} (hL : Lm.PowSpec Nearest) {k1 k2 k3 t : FVal} {B : ℚ} (hB : 1 ≤ B) (hB2 : B ≤ 2 ^ 30) (hk1 : Upto 100 k1) (hk2 : Upto 100 k2)
    (hk3 : Upto 100 k3) (hk : GainsOK k1.q k2.q k3.q) (ht : FloatIn .f64 (1 / 2 ^ 5) (2 ^ 20) t) :
    ∀ (ms : List QtyI) (vs : List FVal) (j : ℕ) (p v a : FVal) (s : ℚ × ℚ × ℚ), List.Forall₂ (fun m x => Measured (.qty (lenTy (.flt .f64))) (.qty m) x) ms vs →
      (∀ x ∈ vs, FloatIn .f64 (-B) B x) → j + ms.length ≤ 30 → p.Finite → p.In .f64 → v.Finite → v.In .f64 → a.Finite → a.In .f64 →
      StateNear t.q ((2 * 3 ^ j - 1) * B) 0 0 0 s → StateNear t.q (1800 * j * 3 ^ j / 2 ^ 53 * B) p.q v.q a.q s →
      ∃ p' v' a', trackLoop3I demoEnv R Lm ⟨gainTy, .f k1⟩ ⟨gainTy, .f k2⟩ ⟨gainTy, .f k3⟩ ⟨timeTy (.flt .f64), .f t⟩
            (.qty ⟨lenTy (.flt .f64), .f p⟩, .qty ⟨Demos.speedTy (.flt .f64), .f v⟩, .qty ⟨accelTy, .f a⟩) (ms.map .qty) =
          .ok (.qty ⟨lenTy (.flt .f64), .f p'⟩, .qty ⟨Demos.speedTy (.flt .f64), .f v'⟩, .qty ⟨accelTy, .f a'⟩) ∧
        p'.Finite ∧ p'.In .f64 ∧ v'.Finite ∧ v'.In .f64 ∧ a'.Finite ∧ a'.In .f64 ∧
        StateNear t.q (1800 * (j + ms.length : ℕ) * 3 ^ (j + ms.length) / 2 ^ 53 * B) p'.q v'.q a'.q (trackExact3 k1.q k2.q k3.q t.q s (vs.map FVal.q)) := by
  have t0 : (0 : ℚ) < t.q := lt_of_lt_of_le (by norm_num) ht.lower
  have T : Mid t := ⟨ht.finite, ht.within, by rw [abs_of_pos t0]; exact le_trans (by norm_num) ht.lower, by rw [abs_of_pos t0]; exact ht.upper.trans (by norm_num)⟩
  intro ms
  induction ms with
  | nil =>
    intro vs j p v a s h _ _ fp ip fv iv fa ia _ hn
    cases h
    exact ⟨p, v, a, rfl, fp, ip, fv, iv, fa, ia, by simpa [trackExact3] using hn⟩
  | cons m ms ih =>
    intro vs j p v a s h hvs hj fp ip fv iv fa ia hs hn
    cases h with
    | cons hm hms =>
    rename_i x xs
    obtain ⟨fx, ix, lx, ux⟩ := hvs x List.mem_cons_self
    have xB : |x.q| ≤ B := abs_le.mpr ⟨lx, ux⟩
    have j30 : j ≤ 29 := by simp only [List.length_cons] at hj; omega
    -- sizes
    obtain ⟨L, hLd⟩ : ∃ L : ℚ, L = 3 ^ j * B := ⟨_, rfl⟩
    have p2 : (1 : ℚ) ≤ 3 ^ j := one_le_pow₀ (by norm_num)
    have p2' : (3 : ℚ) ^ j ≤ 3 ^ 29 := pow_le_pow_right₀ (by norm_num) j30
    have BL : B ≤ L := by rw [hLd]; exact le_mul_of_one_le_left (by linarith) p2
    have L1 : 1 ≤ L := hB.trans BL
    have L2 : L ≤ 2 ^ 80 := by
      rw [hLd]
      exact (mul_le_mul p2' hB2 (by linarith) (by positivity)).trans (by norm_num)
    have jq : (j : ℚ) ≤ 29 := by exact_mod_cast j30
    have Dj : 1800 * j * 3 ^ j / 2 ^ 53 * B ≤ L := by
      rw [show 1800 * (j : ℚ) * 3 ^ j / 2 ^ 53 * B = 1800 * j / 2 ^ 53 * L by rw [hLd]; ring]
      exact mul_le_of_le_one_left (by linarith) (by rw [div_le_one (by positivity)]; linarith [(by norm_num : (52200 : ℚ) ≤ 2 ^ 53)])
    have XL : (2 * 3 ^ j - 1) * B ≤ 2 * L := by rw [hLd]; linarith
    have S : StateI t.q (3 * L) p v a := ⟨fp, ip, fv, iv, fa, ia, (hn.size hs).mono (by linarith)⟩
    obtain ⟨up, uv, ua⟩ := S.upto ht.lower (by linarith [(by norm_num : 3 * (2 : ℚ) ^ 80 ≤ 2 ^ 89)])
    obtain ⟨z1, z2, z3⟩ := S.size
    simp only [sub_zero] at z1 z2 z3
    have ux' : Upto 100 x := ⟨fx, ix, xB.trans (hB2.trans (by norm_num))⟩
    obtain ⟨p1, v1, a1, e1, fp1, ip1, fv1, iv1, fa1, ia1, r1, r2, r3⟩ := C95_state_update R up uv ua hk1 hk2 hk3 hm ux' T
    have n0 : (0 : ℚ) ≤ 1 / 2 ^ 1020 := by positivity
    have n1 : (1 : ℚ) / 2 ^ 1020 ≤ 1 / 2 ^ 50 := one_div_le_one_div_of_le (by positivity) (pow_le_pow_right₀ (by norm_num) (by norm_num))
    generalize (1 : ℚ) / 2 ^ 1020 = η at n0 n1 r1 r2 r3
    obtain ⟨g1, g2, g3, gs, gs'⟩ := hk
    have tη : t.q * η ≤ 1 / 8 := (mul_le_mul ht.upper n1 n0 (by positivity)).trans (by norm_num)
    have tη2 : t.q ^ 2 * η ≤ 1 / 8 := by
      have : t.q ^ 2 ≤ (2 ^ 20) ^ 2 := pow_le_pow_left₀ t0.le ht.upper 2
      exact (mul_le_mul this n1 n0 (by positivity)).trans (by norm_num)
    have xL : |x.q| ≤ L := xB.trans BL
    have η1 : η ≤ 1 / 100 := n1.trans (by norm_num)
    have prod {k K : ℚ} (k0 : 0 ≤ k) (h : k ≤ K) : k * (|x.q| + |p.q|) ≤ K * (4 * L) :=
      mul_le_mul h (by linarith) (by positivity) (k0.trans h)
    have h1 : |p1.q - (p.q + k1.q * (x.q - p.q))| ≤ 700 / 2 ^ 53 * L := by
      refine r1.trans ?_
      rw [abs_of_nonneg g1, show 700 / 2 ^ 53 * L = 58 / 2 ^ 53 * (350 / 29 * L) by ring]
      refine mul_le_mul_of_nonneg_left ?_ (by positivity)
      have := prod g1 (by linarith : k1.q ≤ 2)
      have : (k1.q + 2) * η ≤ 4 * η := mul_le_mul_of_nonneg_right (by linarith) n0
      linarith
    have h2 : |(v1.q - (v.q + k2.q * (x.q - p.q) / t.q)) * t.q| ≤ 700 / 2 ^ 53 * L := by
      rw [abs_mul, abs_of_pos t0]
      refine (mul_le_mul_of_nonneg_right r2 t0.le).trans ?_
      rw [abs_of_nonneg g2, abs_of_pos t0, show 700 / 2 ^ 53 * L = 68 / 2 ^ 53 * (175 / 17 * L) by ring, mul_assoc]
      refine mul_le_mul_of_nonneg_left ?_ (by positivity)
      have e : (|v.q| + k2.q * (|x.q| + |p.q|) / t.q + ((k2.q + 1) / t.q + 2) * η) * t.q =
          |v.q| * t.q + k2.q * (|x.q| + |p.q|) + ((k2.q + 1) * η + 2 * (t.q * η)) := by field_simp
      rw [e]
      have b1 := prod g2 (by linarith : k2.q ≤ 1)
      have b2 : (k2.q + 1) * η ≤ 2 * η := mul_le_mul_of_nonneg_right (by linarith) n0
      rw [abs_mul, abs_of_pos t0] at z2
      linarith
    have h3 : |(a1.q - (a.q + k3.q * (x.q - p.q) / (t.q ^ 2 / 2))) * t.q ^ 2| ≤ 700 / 2 ^ 53 * L := by
      rw [abs_mul, abs_of_pos (by positivity : 0 < t.q ^ 2)]
      refine (mul_le_mul_of_nonneg_right r3 (by positivity)).trans ?_
      rw [abs_of_nonneg g3, show 700 / 2 ^ 53 * L = 88 / 2 ^ 53 * (175 / 22 * L) by ring, mul_assoc]
      refine mul_le_mul_of_nonneg_left ?_ (by positivity)
      have e : (|a.q| + k3.q * (|x.q| + |p.q|) / (t.q ^ 2 / 2) + ((k3.q + 1) / (t.q ^ 2 / 2) + 2) * η) * t.q ^ 2 =
          |a.q| * t.q ^ 2 + 2 * (k3.q * (|x.q| + |p.q|)) + (2 * ((k3.q + 1) * η) + 2 * (t.q ^ 2 * η)) := by field_simp
      rw [e]
      have b1 := prod g3 (by linarith : k3.q ≤ 1 / 2)
      have b2 : (k3.q + 1) * η ≤ 2 * η := mul_le_mul_of_nonneg_right (by linarith) n0
      rw [abs_mul, abs_of_pos (by positivity : 0 < t.q ^ 2)] at z3
      linarith
    have uL : 700 / 2 ^ 53 * L ≤ L / 100 := by
      have : (700 : ℚ) / 2 ^ 53 ≤ 1 / 100 := by norm_num
      nlinarith
    have S1 : StateI t.q (12 * L) p1 v1 a1 := by
      refine ⟨fp1, ip1, fv1, iv1, fa1, ia1, ?_⟩
      have dm : |x.q - p.q| ≤ 4 * L := by
        rw [abs_le] at xL z1 ⊢
        constructor <;> linarith
      obtain ⟨c1, c1'⟩ := times_small (c := k1.q) (C := 2) (abs_le.mpr ⟨by linarith, by linarith⟩) dm
      obtain ⟨c2, c2'⟩ := times_small (c := k2.q) (C := 1) (abs_le.mpr ⟨by linarith, by linarith⟩) dm
      obtain ⟨c3, c3'⟩ := times_small (c := 2 * k3.q) (C := 1) (abs_le.mpr ⟨by linarith, by linarith⟩) dm
      have f2 : (v1.q - (v.q + k2.q * (x.q - p.q) / t.q)) * t.q = v1.q * t.q - (v.q * t.q + k2.q * (x.q - p.q)) := by field_simp
      have f3 : (a1.q - (a.q + k3.q * (x.q - p.q) / (t.q ^ 2 / 2))) * t.q ^ 2 = a1.q * t.q ^ 2 - (a.q * t.q ^ 2 + 2 * k3.q * (x.q - p.q)) := by field_simp
      rw [f2] at h2
      rw [f3] at h3
      refine ⟨?_, ?_, ?_⟩ <;> simp only [sub_zero]
      · rw [abs_le] at *; constructor <;> linarith
      · rw [abs_le] at *; constructor <;> linarith
      · rw [abs_le] at *; constructor <;> linarith
    obtain ⟨p', v', e2, fp', ip', fv', iv', r4, r5⟩ := extrapolate_state R hL ht (by linarith) (by linarith [(by norm_num : 12 * (2 : ℚ) ^ 80 ≤ 2 ^ 89)]) S1
    have hk : GainsOK k1.q k2.q k3.q := ⟨g1, g2, g3, gs, gs'⟩
    have st := step_near t0 hk hn (by positivity) (by positivity) (by positivity) h1 h2 h3 r4 r5
    have ss := step_size t0 hk hs xB
    have eD : 3 * (1800 * j * 3 ^ j / 2 ^ 53 * B) + (3 * (700 / 2 ^ 53 * L) + 200 / 2 ^ 53 * (12 * L)) ≤ 1800 * ((j + 1 : ℕ) : ℚ) * 3 ^ (j + 1) / 2 ^ 53 * B := by
      have : 1800 * ((j + 1 : ℕ) : ℚ) * 3 ^ (j + 1) / 2 ^ 53 * B = 3 * (1800 * j * 3 ^ j / 2 ^ 53 * B) + 5400 / 2 ^ 53 * L := by
        rw [hLd]; push_cast; ring
      rw [this]
      have : 0 ≤ L / 2 ^ 53 := by positivity
      linarith
    have eX : 3 * ((2 * 3 ^ j - 1) * B) + 2 * B = (2 * 3 ^ (j + 1) - 1) * B := by ring
    rw [eX] at ss
    have len : j + (m :: ms).length = j + 1 + ms.length := by simp only [List.length_cons]; omega
    obtain ⟨p'', v'', a'', e3, rest⟩ := ih xs (j + 1) p' v' a1 _ hms (fun y hy => hvs y (List.mem_cons_of_mem _ hy)) (by omega) fp' ip' fv' iv' fa1 ia1 ss (st.mono eD)
    refine ⟨p'', v'', a'', ?_, ?_⟩
    · show (stateUpdate3I _ _ _ _ _ _ _ _ _ _ >>= _) = _
      rw [e1, ok_bind]
      show (extrapolate3I _ _ _ _ _ _ _ >>= _) = _
      rw [e2, ok_bind]
      exact e3
    · rw [len]; exact rest

/-- C95: the whole fourth example, for up to 29 measurements of at most `B` metres, an initial position, speed times the interval and acceleration times its square of at most `B`,
and gains that are not negative, with `k1 + k2 + k3 ≤ 2` and `k2 + 2 k3 ≤ 1`.  The state computed in `double` is that of exact arithmetic up to `1800 n 3^n` times
the unit roundoff times `B`, for `n` one more than the number of measurements. -/
theorem C95_track (R : Rebinds) {Lm : LibmI} (hL : Lm.PowSpec Nearest) {k1 k2 k3 t p v a : FVal} {B : ℚ} (hB : 1 ≤ B) (hB2 : B ≤ 2 ^ 30) (hk1 : Upto 100 k1) (hk2 : Upto 100 k2)
    (hk3 : Upto 100 k3) (hk : GainsOK k1.q k2.q k3.q) (ht : FloatIn .f64 (1 / 2 ^ 5) (2 ^ 20) t) (hs : StateI t.q B p v a)
    {ms : List QtyI} {vs : List FVal} (hm : List.Forall₂ (fun m x => Measured (.qty (lenTy (.flt .f64))) (.qty m) x) ms vs) (hv : ∀ x ∈ vs, FloatIn .f64 (-B) B x)
    (hn : ms.length ≤ 29) :
    ∃ p' v' a', trackMain3I demoEnv R Lm ⟨gainTy, .f k1⟩ ⟨gainTy, .f k2⟩ ⟨gainTy, .f k3⟩ ⟨timeTy (.flt .f64), .f t⟩
          (.qty ⟨lenTy (.flt .f64), .f p⟩) (.qty ⟨Demos.speedTy (.flt .f64), .f v⟩) (.qty ⟨accelTy, .f a⟩) (ms.map .qty) =
        .ok (.qty ⟨lenTy (.flt .f64), .f p'⟩, .qty ⟨Demos.speedTy (.flt .f64), .f v'⟩, .qty ⟨accelTy, .f a'⟩) ∧
      p'.Finite ∧ p'.In .f64 ∧ v'.Finite ∧ v'.In .f64 ∧ a'.Finite ∧ a'.In .f64 ∧
      StateNear t.q (1800 * (ms.length + 1 : ℕ) * 3 ^ (ms.length + 1) / 2 ^ 53 * B) p'.q v'.q a'.q
        (trackExact3 k1.q k2.q k3.q t.q (extrapolateExact3 t.q (p.q, v.q, a.q)) (vs.map FVal.q)) := by
  obtain ⟨p1, v1, e, fp, ip, fv, iv, r1, r2⟩ := extrapolate_state R hL ht hB (hB2.trans (by norm_num)) hs
  have t0 : (0 : ℚ) < t.q := lt_of_lt_of_le (by norm_num) ht.lower
  have n0 : StateNear t.q 0 p.q v.q a.q (p.q, v.q, a.q) := ⟨by simp, by simp, by simp⟩
  have n1 := (extrapolate_near n0 le_rfl (by positivity) r1 r2).mono (D' := 1800 * ((1 : ℕ) : ℚ) * 3 ^ 1 / 2 ^ 53 * B) (by
    have : 0 ≤ B / 2 ^ 53 := by positivity
    push_cast
    linarith)
  have s1 : StateNear t.q ((2 * 3 ^ 1 - 1) * B) 0 0 0 (extrapolateExact3 t.q (p.q, v.q, a.q)) := by
    obtain ⟨z1, z2, z3⟩ := hs.size
    simp only [sub_zero] at z1 z2 z3
    have f1 : (0 - (p.q + v.q * t.q + a.q * t.q ^ 2 / 2)) = -(p.q + v.q * t.q + a.q * t.q ^ 2 / 2) := by ring
    have f2 : (0 - (v.q + a.q * t.q)) * t.q = -(v.q * t.q + a.q * t.q ^ 2) := by ring
    refine ⟨?_, ?_, ?_⟩ <;> simp only [extrapolateExact3]
    · rw [f1, abs_neg]; rw [abs_le] at *; constructor <;> linarith
    · rw [f2, abs_neg]; rw [abs_le] at *; constructor <;> linarith
    · rw [zero_sub, neg_mul, abs_neg]; linarith
  obtain ⟨p', v', a', e', rest⟩ := track3_loop R hL hB hB2 hk1 hk2 hk3 hk ht ms vs 1 p1 v1 a _ hm hv (by omega) fp ip fv iv hs.fa hs.ia s1 n1
  rw [add_comm 1 ms.length] at rest
  refine ⟨p', v', a', ?_, rest⟩
  show (extrapolate3I _ _ _ _ _ _ _ >>= _) = _
  rw [e, ok_bind]
  exact e'

/-! ### Cases -/

/-- The measurements of the program, example/kalman_filter/kalman_filter-example_4.cpp:57-58. -/
def exReadings4 : List Int := [30160, 30365, 30890, 31050, 31785, 32215, 33130, 34510, 36010, 37265]

/-- The whole program: the position is that of exact arithmetic within two centimetres. -/
example (R : Rebinds) : ∃ L : LibmI, ∃ p v a, trackMain3I demoEnv R L ⟨gainTy, .f exGain05⟩ ⟨gainTy, .f exGain04⟩ ⟨gainTy, .f exGain01⟩ ⟨timeTy (.flt .f64), .f (.fin false 5)⟩
      (.qty ⟨lenTy (.flt .f64), .f (.fin false 30000)⟩) (.qty ⟨Demos.speedTy (.flt .f64), .f (.fin false 50)⟩) (.qty ⟨accelTy, .f (.fin false 0)⟩)
      ((exReadings4.map exReading).map .qty) =
    .ok (.qty ⟨lenTy (.flt .f64), .f p⟩, .qty ⟨Demos.speedTy (.flt .f64), .f v⟩, .qty ⟨accelTy, .f a⟩) ∧
    StateNear 5 (2 / 100) p.q v.q a.q (trackExact3 exGain05.q exGain04.q exGain01.q 5 (30250, 50, 0) (exReadings4.map (fun z => (z : ℚ)))) := by
  obtain ⟨L, hL, -, -⟩ := libm_exists
  have mem : ∀ z ∈ exReadings4, 0 ≤ z ∧ z ≤ 37265 ∧ FltTy.f64.rndMag z = some (z : ℚ) := by decide +kernel
  obtain ⟨p, v, a, e, -, -, -, -, -, -, r⟩ := C95_track R hL (k1 := exGain05) (k2 := exGain04) (k3 := exGain01) (t := .fin false 5) (p := .fin false 30000) (v := .fin false 50)
    (a := .fin false 0) (B := 37265) (by norm_num) (by norm_num) (exUpto (by norm_num) (by decide +kernel) (by norm_num)) (exUpto (by norm_num) (by decide +kernel) (by norm_num))
    (exUpto (by norm_num) (by decide +kernel) (by norm_num))
    ⟨by norm_num [exGain05, FVal.q], by norm_num [exGain04, FVal.q], by norm_num [exGain01, FVal.q], by norm_num [exGain05, exGain04, exGain01, FVal.q],
      by norm_num [exGain04, exGain01, FVal.q]⟩
    ⟨trivial, ⟨by norm_num, by decide +kernel⟩, by norm_num [FVal.q], by norm_num [FVal.q]⟩
    ⟨trivial, ⟨by norm_num, by decide +kernel⟩, trivial, ⟨by norm_num, by decide +kernel⟩, trivial, ⟨by norm_num, by decide +kernel⟩,
      ⟨by norm_num [FVal.q], by norm_num [FVal.q], by norm_num [FVal.q]⟩⟩
    (ms := exReadings4.map exReading) (vs := exReadings4.map fun z : Int => .fin false (z : ℚ))
    (List.forall₂_map_left_iff.mpr (List.forall₂_map_right_iff.mpr (List.forall₂_same.mpr fun z hz => exReading_measured (mem z hz).1 (by linarith [(mem z hz).2.1]))))
    (fun x hx => by
      obtain ⟨z, hz, rfl⟩ := List.mem_map.mp hx
      have h0 : (0 : ℚ) ≤ z := by exact_mod_cast (mem z hz).1
      have h1 : (z : ℚ) ≤ 37265 := by exact_mod_cast (mem z hz).2.1
      exact ⟨trivial, ⟨h0, (mem z hz).2.2⟩, by show -(37265 : ℚ) ≤ z; linarith, h1⟩)
    (by decide)
  refine ⟨L, p, v, a, e, ?_⟩
  have s0 : extrapolateExact3 (FVal.fin false 5).q ((FVal.fin false 30000).q, (FVal.fin false 50).q, (FVal.fin false 0).q) = (30250, 50, 0) := by
    norm_num [extrapolateExact3, FVal.q]
  rw [s0, List.map_map] at r
  exact r.mono (by norm_num [exReadings4])

end Verif
