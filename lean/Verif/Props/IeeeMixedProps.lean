import Verif.IeeeTrack
import Verif.Props.IeeeExprProps
import Verif.Props.IeeeKalmanProps

/-!
# C94: expressions with sums of any signs in IEEE floating point

C93 asks for sums of amounts of one sign, because the relative error of a difference has no bound.  Here any signs are allowed, and the error is measured
against the sum of the magnitudes of the terms.
-/

namespace Verif

open FltTy Systems Demos

set_option maxRecDepth 100000

/-! ### Specification -/

/-- The smallest normal number of the type of an expression, four times, as an amount. -/
noncomputable def ExprI.floor (E : Env) (β : String → ℝ) (e : ExprI) : ℝ :=
  match e.eval E with
  | .ok r =>
    match r.ty.rep with
    | .flt g => 2 ^ (g.emin + 2) * r.ty.size β
    | .int _ => 0
  | .error _ => 0

/-- The amount of an expression with the magnitudes of its literals, all of them added, where parts below the normal range of their types count as the
least amounts in it. -/
noncomputable def ExprI.mag (E : Env) (β : String → ℝ) : ExprI → ℝ
  | .lit q => |q.amount β|
  | .mul a b => max (a.mag E β * b.mag E β) ((ExprI.mul a b).floor E β)
  | .div a b => max (a.mag E β / |b.exact β|) ((ExprI.div a b).floor E β)
  | .scale op e rep v => max (if op = .mul then e.mag E β * |(v.q : ℝ)| else e.mag E β / |(v.q : ℝ)|) ((ExprI.scale op e rep v).floor E β)
  | .addSub sub a b => max (a.mag E β + b.mag E β) ((ExprI.addSub sub a b).floor E β)
  | .cast t e => max (e.mag E β) ((ExprI.cast t e).floor E β)

/-- The type of the result is that of a quantity with a floating point number of at least the precision `u`, and the magnitude is well below its
largest number. -/
def ExprI.Ranged (E : Env) (β : String → ℝ) (f : FltTy) (e : ExprI) : Prop :=
  ∀ r, e.eval E = .ok r → r.ty.Good E ∧ ∃ g, r.ty.rep = .flt g ∧ g.u ≤ f.u ∧ e.mag E β ≤ 2 ^ (g.emax - 3) * r.ty.size β

/-- The hypotheses on an expression: those of C93, but outside divisors there is no condition on signs and no lower bound: parts may vanish. -/
def ExprI.Wide (E : Env) (β : String → ℝ) (f : FltTy) : ExprI → Prop
  | .lit q => q.ty.Good E ∧ q.num.Typed q.ty.rep ∧ q.num.Finite
  | .mul a b => a.Wide E β f ∧ b.Wide E β f ∧ (ExprI.mul a b).Ranged E β f
  | .div a b => a.Wide E β f ∧ b.Fine E β f ∧ b.exact β ≠ 0 ∧ (ExprI.div a b).Ranged E β f
  | .scale op e rep v => e.Wide E β f ∧ v.Typed rep ∧ v.Finite ∧ op.Scaling v.q ∧ (ExprI.scale op e rep v).Ranged E β f
  | .addSub sub a b => a.Wide E β f ∧ b.Wide E β f ∧ (ExprI.addSub sub a b).Ranged E β f ∧
      ∀ x y r g, a.eval E = .ok x → b.eval E = .ok y → (ExprI.addSub sub a b).eval E = .ok r → r.ty.rep = .flt g →
        Related β x.ty y.ty ∧ convExp E.est (a.eval E) (.ok r) ≤ g.safeExp ∧ convExp E.est (b.eval E) (.ok r) ≤ g.safeExp
  | .cast t e => e.Wide E β f ∧ (ExprI.cast t e).Ranged E β f ∧
      ∀ x g, e.eval E = .ok x → t.rep = .flt g → Coherent β x.ty.dim t.dim ∧ convExp E.est (e.eval E) ((ExprI.cast t e).eval E) ≤ g.safeExp

/-! ### Absolute errors -/

/-- `k` roundings away from the exact amount `X`, with terms of the magnitude `M`. -/
def Off (u : ℝ) (k : ℕ) (M X x : ℝ) : Prop := |X| ≤ M ∧ |x - X| ≤ (((1 - u) ^ k)⁻¹ - 1) * M

section
set_option linter.unusedSectionVars false
variable {u : ℝ} (h0 : 0 ≤ u) (h1 : u < 1)
include h0 h1

theorem one_le_growth (k : ℕ) : 1 ≤ ((1 - u) ^ k)⁻¹ :=
  (one_le_inv₀ (pow_pos (by linarith) k)).mpr (pow_le_one₀ (by linarith) (by linarith))

theorem growth_add (k j : ℕ) : ((1 - u) ^ (k + j))⁻¹ = ((1 - u) ^ k)⁻¹ * ((1 - u) ^ j)⁻¹ := by rw [pow_add, mul_inv]

theorem growth_mono {k j : ℕ} (h : k ≤ j) : ((1 - u) ^ k)⁻¹ ≤ ((1 - u) ^ j)⁻¹ :=
  inv_anti₀ (pow_pos (by linarith) j) (pow_le_pow_of_le_one (by linarith) (by linarith) h)

theorem growth_two {k : ℕ} (hk : k * u ≤ 1 / 2) : ((1 - u) ^ k)⁻¹ ≤ 2 := by
  have b : 1 + (k : ℝ) * (-u) ≤ (1 + -u) ^ k := one_add_mul_le_pow (by linarith) k
  rw [← sub_eq_add_neg] at b
  rw [show (2 : ℝ) = (1 / 2)⁻¹ by norm_num]
  exact inv_anti₀ (by norm_num) (by linarith)

theorem growth_le {k : ℕ} (hk : k * u ≤ 1 / 2) : ((1 - u) ^ k)⁻¹ - 1 ≤ 2 * k * u := by
  have b : 1 + (k : ℝ) * (-u) ≤ (1 + -u) ^ k := one_add_mul_le_pow (by linarith) k
  rw [← sub_eq_add_neg] at b
  have n : 0 ≤ (k : ℝ) * u := mul_nonneg (Nat.cast_nonneg k) h0
  have r' : ((1 - u) ^ k)⁻¹ ≤ (1 - k * u)⁻¹ := inv_anti₀ (by linarith) (by linarith)
  have r'' : (1 - k * u)⁻¹ ≤ 1 + 2 * (k * u) := by
    rw [inv_le_iff_one_le_mul₀ (by linarith)]; nlinarith
  linarith

omit h0 h1 in
theorem Off.nonneg {k : ℕ} {M X x : ℝ} (h : Off u k M X x) : 0 ≤ M := (abs_nonneg X).trans h.1

omit h0 h1 in
theorem Off.abs_le {k : ℕ} {M X x : ℝ} (h : Off u k M X x) : |x| ≤ ((1 - u) ^ k)⁻¹ * M := by
  have := abs_add_le (x - X) X
  rw [sub_add_cancel] at this
  have := h.1; have := h.2; linarith

theorem Off.refl (k : ℕ) (X : ℝ) : Off u k |X| X X :=
  ⟨le_rfl, by rw [sub_self, abs_zero]; exact mul_nonneg (by linarith [one_le_growth h0 h1 k]) (abs_nonneg _)⟩

theorem Off.weaken {k j : ℕ} (hk : k ≤ j) {M X x : ℝ} (h : Off u k M X x) : Off u j M X x :=
  ⟨h.1, h.2.trans (mul_le_mul_of_nonneg_right (by linarith [growth_mono h0 h1 hk]) h.nonneg)⟩

theorem Off.larger {k : ℕ} {M M' X x : ℝ} (h : Off u k M X x) (hM : M ≤ M') : Off u k M' X x :=
  ⟨h.1.trans hM, h.2.trans (mul_le_mul_of_nonneg_left hM (by linarith [one_le_growth h0 h1 k]))⟩

theorem Off.mul {k j : ℕ} {M X x N Y y : ℝ} (h : Off u k M X x) (h' : Off u j N Y y) : Off u (k + j) (M * N) (X * Y) (x * y) := by
  have m0 := h.nonneg
  have n0 := h'.nonneg
  refine ⟨by rw [abs_mul]; exact mul_le_mul h.1 h'.1 (abs_nonneg _) m0, ?_⟩
  have e : x * y - X * Y = x * (y - Y) + (x - X) * Y := by ring
  rw [e, growth_add h0 h1]
  refine (abs_add_le _ _).trans ?_
  rw [abs_mul, abs_mul]
  have a := mul_le_mul h.abs_le h'.2 (abs_nonneg _) (mul_nonneg (by linarith [one_le_growth h0 h1 k]) m0)
  have b := mul_le_mul h.2 h'.1 (abs_nonneg _) (mul_nonneg (by linarith [one_le_growth h0 h1 k]) m0)
  refine (add_le_add a b).trans (le_of_eq ?_)
  ring

theorem Off.div {k j : ℕ} {M X x Y y : ℝ} (h : Off u k M X x) (h' : Rel u j Y y) (hY : Y ≠ 0) : Off u (k + j) (M / |Y|) (X / Y) (x / y) := by
  obtain ⟨t, ht, l, r⟩ := h'.inv h0 h1
  have g1 := one_le_growth h0 h1 j
  have gk := one_le_growth h0 h1 k
  have tY : |t - 1| ≤ ((1 - u) ^ j)⁻¹ - 1 := by
    have p : 0 < (1 - u) ^ j := pow_pos (by linarith) j
    have q : (1 - u) ^ j ≤ 1 := pow_le_one₀ (by linarith) (by linarith)
    have s : 2 ≤ ((1 - u) ^ j)⁻¹ + (1 - u) ^ j := by
      generalize (1 - u) ^ j = z at p q
      rw [inv_eq_one_div, div_add' _ _ _ p.ne', le_div_iff₀ p]; nlinarith [sq_nonneg (z - 1)]
    rw [_root_.abs_le]; constructor <;> linarith
  have Y0 := abs_pos.mpr hY
  refine ⟨by rw [abs_div]; exact div_le_div_of_nonneg_right h.1 Y0.le, ?_⟩
  have e : x / y - X / Y = (x * (t - 1) + (x - X)) * Y⁻¹ := by rw [div_eq_mul_inv x, ht]; ring
  rw [e, abs_mul, abs_inv, growth_add h0 h1, ← div_eq_mul_inv, ← mul_div_assoc]
  refine div_le_div_of_nonneg_right ((abs_add_le _ _).trans ?_) Y0.le
  rw [abs_mul]
  have a := mul_le_mul h.abs_le tY (abs_nonneg _) (mul_nonneg (by linarith) h.nonneg)
  refine (add_le_add a h.2).trans (le_of_eq ?_)
  ring

theorem Off.add {k : ℕ} {M X x N Y y : ℝ} (h : Off u k M X x) (h' : Off u k N Y y) : Off u k (M + N) (X + Y) (x + y) := by
  refine ⟨(abs_add_le _ _).trans (add_le_add h.1 h'.1), ?_⟩
  rw [add_sub_add_comm, mul_add]
  exact (abs_add_le _ _).trans (add_le_add h.2 h'.2)

omit h0 h1 in
theorem Off.neg {k : ℕ} {M X x : ℝ} (h : Off u k M X x) : Off u k M (-X) (-x) :=
  ⟨by rw [abs_neg]; exact h.1, by rw [neg_sub_neg, abs_sub_comm]; exact h.2⟩

/-- One more operation with the relative error `c`. -/
theorem Off.step {k j : ℕ} {M X z r c : ℝ} (h : Off u k M X z) (he : |r - z| ≤ c * (((1 - u) ^ k)⁻¹ * M)) (hc : 1 + c ≤ ((1 - u) ^ j)⁻¹) :
    Off u (k + j) M X r := by
  refine ⟨h.1, ?_⟩
  have t := abs_add_le (r - z) (z - X)
  rw [sub_add_sub_cancel] at t
  have p : 0 ≤ ((1 - u) ^ k)⁻¹ * M := mul_nonneg (by linarith [one_le_growth h0 h1 k]) h.nonneg
  have := mul_le_mul_of_nonneg_left hc p
  rw [growth_add h0 h1]
  have := h.2
  nlinarith

end

theorem Off.mono {u v : ℝ} (hu : u ≤ v) (h1 : v < 1) {k : ℕ} {M X x : ℝ} (h : Off u k M X x) : Off v k M X x := by
  refine ⟨h.1, h.2.trans (mul_le_mul_of_nonneg_right ?_ h.nonneg)⟩
  have p : 0 < (1 - v) ^ k := pow_pos (by linarith) _
  have q : (1 - v) ^ k ≤ (1 - u) ^ k := pow_le_pow_left₀ (by linarith) (by linarith) _
  linarith [inv_anti₀ p q]

theorem gamma_growth (g f : FltTy) (h : g.u ≤ f.u) (n : ℕ) : 1 + ((gammaErr g n : ℚ) : ℝ) ≤ ((1 - (f.u : ℝ)) ^ (n + 1))⁻¹ := by
  have u1 : (f.u : ℝ) < 1 := by exact_mod_cast f.u_lt_one
  have v0 : (0 : ℝ) < g.u := by exact_mod_cast g.u_pos
  have vu : (g.u : ℝ) ≤ f.u := by exact_mod_cast h
  have hg : ((gammaErr g n : ℚ) : ℝ) = (1 + g.u) ^ n / (1 - g.u) - 1 := by unfold gammaErr; push_cast; rfl
  rw [hg]
  generalize (g.u : ℝ) = v at *
  generalize (f.u : ℝ) = u at *
  have w : 0 < 1 - v := by linarith
  have a1 : (1 + v) ^ n ≤ ((1 - v) ^ n)⁻¹ := by
    rw [← inv_pow]
    refine pow_le_pow_left₀ (by linarith) ?_ n
    rw [inv_eq_one_div, le_div_iff₀ w]; nlinarith
  have a2 : (1 + v) ^ n / (1 - v) ≤ ((1 - v) ^ (n + 1))⁻¹ := by
    rw [pow_succ, mul_inv, div_eq_mul_inv]
    exact mul_le_mul_of_nonneg_right a1 (inv_nonneg.mpr w.le)
  have a3 : ((1 - v) ^ (n + 1))⁻¹ ≤ ((1 - u) ^ (n + 1))⁻¹ :=
    inv_anti₀ (pow_pos (by linarith) _) (pow_le_pow_left₀ (by linarith) (by linarith) _)
  linarith

theorem gamma_add_u (g : FltTy) (n m : ℕ) : gammaErr g n + m * g.u ≤ gammaErr g (n + m) := by
  induction m with
  | zero => simp
  | succ m ih =>
    have k0 := gammaErr_nonneg g (n + m)
    have k1 := gammaErr_succ g (n + m)
    have := g.u_pos
    rw [← add_assoc]
    push_cast
    nlinarith

/-- Values below the normal range: the error of a result near zero is small against the magnitude of the terms. -/
theorem tiny_mag {g : FltTy} {S M : ℝ} (lo : 2 ^ (g.emin + 2) * S ≤ M) : (g.tiny : ℝ) * S ≤ g.u / 2 * M := by
  have tn : ((g.tiny : ℚ) : ℝ) = g.u / 2 * 2 ^ (g.emin + 2) := by
    have : g.tiny = g.u / 2 * 2 ^ (g.emin + 2) := by cases g <;> decide +kernel
    rw [this]; push_cast; rfl
  have gp : (0 : ℝ) ≤ g.u := by exact_mod_cast g.u_pos.le
  rw [tn, mul_assoc]
  exact mul_le_mul_of_nonneg_left lo (by linarith)

/-- The error of one operation, in which the roundings `n` and `m` units below the normal range are made. -/
theorem Off.round {f g : FltTy} (hu : g.u ≤ f.u) {k n m : ℕ} {M X z r B S w : ℝ} (h : Off f.u k M X z) (lo : 2 ^ (g.emin + 2) * S ≤ M)
    (he : |r - z| ≤ gammaErr g n * B + w * (g.tiny * S)) (hB : B ≤ ((1 - (f.u : ℝ)) ^ k)⁻¹ * M) (w0 : 0 ≤ w) (hw : w ≤ 2 * m) :
    Off f.u (k + (n + m + 1)) M X r := by
  have u0 : (0 : ℝ) ≤ f.u := by exact_mod_cast f.u_pos.le
  have u1 : (f.u : ℝ) < 1 := by exact_mod_cast f.u_lt_one
  have v0 : (0 : ℝ) ≤ g.u := by exact_mod_cast g.u_pos.le
  refine h.step u0 u1 (c := (gammaErr g (n + m) : ℚ)) (j := n + m + 1) (he.trans ?_) (gamma_growth g f hu _)
  have t := tiny_mag lo
  have gr := one_le_growth u0 u1 k
  have M0 := h.nonneg
  have g0 : (0 : ℝ) ≤ (gammaErr g n : ℚ) := by exact_mod_cast gammaErr_nonneg g n
  have ga : ((gammaErr g n : ℚ) : ℝ) + m * g.u ≤ (gammaErr g (n + m) : ℚ) := by exact_mod_cast gamma_add_u g n m
  have p0 : 0 ≤ ((1 - (f.u : ℝ)) ^ k)⁻¹ * M := mul_nonneg (by linarith) M0
  have M1 : M ≤ ((1 - (f.u : ℝ)) ^ k)⁻¹ * M := le_mul_of_one_le_left M0 gr
  have a1 := mul_le_mul_of_nonneg_left hB g0
  have a2 : w * (g.tiny * S) ≤ m * g.u * M := by
    refine (mul_le_mul_of_nonneg_left t w0).trans ?_
    have : w * (g.u / 2 * M) ≤ 2 * m * (g.u / 2 * M) := mul_le_mul_of_nonneg_right hw (mul_nonneg (by linarith) M0)
    linarith
  have a3 : (m : ℝ) * g.u * M ≤ m * g.u * (((1 - (f.u : ℝ)) ^ k)⁻¹ * M) := mul_le_mul_of_nonneg_left M1 (mul_nonneg (Nat.cast_nonneg m) v0)
  have a4 := mul_le_mul_of_nonneg_right ga p0
  linarith

/-! ### Expressions -/

theorem floor_eq {E : Env} {β : String → ℝ} {e : ExprI} {r : QtyI} {g : FltTy} (h : e.eval E = .ok r) (hg : r.ty.rep = .flt g) :
    2 ^ (g.emin + 2) * r.ty.size β = e.floor E β := by
  unfold ExprI.floor; rw [h]; dsimp only; rw [hg]

/-- The value of an expression is finite and within the counted roundings of the exact amount. -/
theorem ExprI.off {E : Env} (hE : E.OK) {β : String → ℝ} (hβ : Sizes β) {f : FltTy} : ∀ (e : ExprI) (r : QtyI), e.Wide E β f →
    (e.steps E : ℝ) * f.u ≤ 1 / 2 → e.eval E = .ok r →
    r.ty.Good E ∧ r.num.Typed r.ty.rep ∧ r.num.Finite ∧ Off f.u (e.steps E) (e.mag E β) (e.exact β) (r.amount β) := by
  have u0 : (0 : ℝ) ≤ f.u := by exact_mod_cast f.u_pos.le
  have u1 : (f.u : ℝ) < 1 := by exact_mod_cast f.u_lt_one
  have sub : ∀ {m n : ℕ}, m ≤ n → (n : ℝ) * f.u ≤ 1 / 2 → (m : ℝ) * f.u ≤ 1 / 2 := fun h hn =>
    (mul_le_mul_of_nonneg_right (by exact_mod_cast h) u0).trans hn
  have two' : ∀ n : Int, (2 : ℝ) ^ (n - 2) = 2 * 2 ^ (n - 3) := fun n => by
    rw [show n - 2 = n - 3 + 1 by ring, zpow_add₀ (by norm_num) (n - 3)]; ring
  have half : ∀ {k : ℕ} {M X z : ℝ}, Off f.u k M X z → (k : ℝ) * f.u ≤ 1 / 2 → |z| ≤ 2 * M := fun h hk =>
    h.abs_le.trans (mul_le_mul_of_nonneg_right (growth_two u0 u1 hk) h.nonneg)
  intro e
  induction e with
  | lit q =>
    intro r hF _ h
    cases h
    exact ⟨hF.1, hF.2.1, hF.2.2, Off.refl u0 u1 _ _⟩
  | mul a b iha ihb =>
    intro r ⟨Fa, Fb, N⟩ hk h
    have h' := h
    simp only [ExprI.eval, bind_ok] at h'
    obtain ⟨x, hx, y, hy, h'⟩ := h'
    obtain ⟨gr, g, hg, gu, hi⟩ := N r h
    have lo : 2 ^ (g.emin + 2) * r.ty.size β = _ := floor_eq (β := β) h hg
    obtain ⟨gx, tx, fx, rx⟩ := iha x Fa (sub (by simp only [ExprI.steps]; omega) hk) hx
    obtain ⟨gy, ty, fy, ry⟩ := ihb y Fb (sub (by simp only [ExprI.steps]; omega) hk) hy
    have hrep : r.ty.rep = x.ty.rep.arith y.ty.rep := by
      unfold mulQtyI at h'
      simp only [bind_ok, Except.ok.injEq] at h'
      obtain ⟨⟨d, v⟩, -, z, -, rfl⟩ := h'
      rfl
    obtain ⟨-, tr, hS, c, -⟩ := C75_product E hE β hβ x y r g gx gy gr.dim tx ty fx fy (hrep.symm.trans hg) h'
    have rm := (rx.mul u0 u1 ry).larger u0 u1 (le_max_left _ ((ExprI.mul a b).floor E β))
    have h2 := half rm (sub (by simp only [ExprI.steps]; omega) hk)
    have S0 : 0 < r.ty.size β := gr.size_pos hβ
    have am : |x.amount β * y.amount β| = ((|x.num.q * y.num.q| : ℚ) : ℝ) * r.ty.size β := by
      rw [hS]; unfold QtyI.amount
      push_cast
      rw [show (x.num.q : ℝ) * x.ty.size β * (y.num.q * y.ty.size β) = x.num.q * y.num.q * (x.ty.size β * y.ty.size β) by ring, abs_mul _ (_ * _),
        abs_of_pos (mul_pos (gx.size_pos hβ) (gy.size_pos hβ))]
    simp only [ExprI.mag] at hi
    rw [am] at h2
    have up : |x.num.q * y.num.q| ≤ 2 ^ (g.emax - 2) := by
      refine le_two_zpow ((mul_le_mul_iff_left₀ S0).mp ?_)
      rw [two']; linarith
    obtain ⟨fr, er, -⟩ := c up
    refine ⟨gr, hg ▸ tr, fr, ?_⟩
    exact rm.round gu (n := 3) (m := 1) (w := 1 / 2) (lo.le.trans (le_max_right _ _)) (er.trans (le_of_eq (by ring))) rm.abs_le (by norm_num) (by norm_num)
  | div a b iha _ =>
    intro r ⟨Fa, Fb, hb0, N⟩ hk h
    have h' := h
    simp only [ExprI.eval, bind_ok] at h'
    obtain ⟨x, hx, y, hy, h'⟩ := h'
    obtain ⟨gr, g, hg, gu, hi⟩ := N r h
    have lo : 2 ^ (g.emin + 2) * r.ty.size β = _ := floor_eq (β := β) h hg
    obtain ⟨gx, tx, fx, rx⟩ := iha x Fa (sub (by simp only [ExprI.steps]; omega) hk) hx
    obtain ⟨gy, ty, fy, ry⟩ := b.rel hE hβ y Fb (sub (by simp only [ExprI.steps]; omega) hk) hy
    have hrep : r.ty.rep = x.ty.rep.arith y.ty.rep := by
      unfold divQtyI at h'
      simp only [bind_ok, Except.ok.injEq] at h'
      obtain ⟨⟨d, v⟩, -, z, -, rfl⟩ := h'
      rfl
    have S0 : 0 < r.ty.size β := gr.size_pos hβ
    have rm := (rx.div u0 u1 ry hb0).larger u0 u1 (le_max_left _ ((ExprI.div a b).floor E β))
    have h2 := half rm (sub (by simp only [ExprI.steps]; omega) hk)
    simp only [ExprI.mag] at hi
    have y0 : y.num.q ≠ 0 := by
      intro e0
      have z0 : y.amount β = 0 := by unfold QtyI.amount; rw [e0]; simp
      obtain ⟨t, ht, l, -⟩ := ry
      rw [z0] at ht
      have : 0 < t := (pow_pos (by linarith) _).trans_le l
      rcases mul_eq_zero.mp ht.symm with h | h
      · exact hb0 h
      · exact this.ne' h
    obtain ⟨-, tr, hS, c, -⟩ := C75_quotient E hE β hβ x y r g gx gy gr.dim tx ty fx fy (hrep.symm.trans hg) y0 h'
    have am : |x.amount β / y.amount β| = ((|x.num.q / y.num.q| : ℚ) : ℝ) * r.ty.size β := by
      rw [hS]; unfold QtyI.amount
      push_cast
      rw [show (x.num.q : ℝ) * x.ty.size β / (y.num.q * y.ty.size β) = x.num.q / y.num.q * (x.ty.size β / y.ty.size β) by rw [mul_div_mul_comm],
        abs_mul _ (_ / _), abs_of_pos (div_pos (gx.size_pos hβ) (gy.size_pos hβ))]
    rw [am] at h2
    have up : |x.num.q / y.num.q| ≤ 2 ^ (g.emax - 2) := by
      refine le_two_zpow ((mul_le_mul_iff_left₀ S0).mp ?_)
      rw [two']; linarith
    obtain ⟨fr, er, -⟩ := c up
    refine ⟨gr, hg ▸ tr, fr, ?_⟩
    exact rm.round gu (n := 3) (m := 1) (w := 1 / 2) (lo.le.trans (le_max_right _ _)) (er.trans (le_of_eq (by ring))) rm.abs_le (by norm_num) (by norm_num)
  | scale op a rep v iha =>
    intro r ⟨Fa, tv, fv, hop, N⟩ hk h
    have h' := h
    simp only [ExprI.eval, bind_ok] at h'
    obtain ⟨x, hx, h'⟩ := h'
    obtain ⟨gr, g, hg, gu, hi⟩ := N r h
    have lo : 2 ^ (g.emin + 2) * r.ty.size β = _ := floor_eq (β := β) h hg
    obtain ⟨gx, tx, fx, rx⟩ := iha x Fa (sub (by simp only [ExprI.steps]; omega) hk) hx
    have hrep : r.ty.rep = x.ty.rep.arith rep := by
      unfold scaleQtyI at h'
      simp only [bind_ok, Except.ok.injEq] at h'
      obtain ⟨z, -, rfl⟩ := h'
      rfl
    obtain ⟨hty, tr, c, -⟩ := C75_scale E β hβ op x r rep v g gx tx tv fx fv (hrep.symm.trans hg) hop h'
    have S0 : 0 < r.ty.size β := gr.size_pos hβ
    have hS : r.ty.size β = x.ty.size β := by rw [hty]; rfl
    have rm : Off f.u (a.steps E) (if op = .mul then a.mag E β * |(v.q : ℝ)| else a.mag E β / |(v.q : ℝ)|)
        (if op = .mul then a.exact β * v.q else a.exact β / v.q) (if op = .mul then x.amount β * v.q else x.amount β / v.q) := by
      rcases hop with rfl | ⟨rfl, v0⟩
      · rw [if_pos rfl, if_pos rfl, if_pos rfl]
        exact rx.mul u0 u1 (Off.refl u0 u1 0 _)
      · rw [if_neg (by decide), if_neg (by decide), if_neg (by decide)]
        exact rx.div u0 u1 (Rel.refl u0 u1 0 _) (by exact_mod_cast v0)
    replace rm := rm.larger u0 u1 (le_max_left _ ((ExprI.scale op a rep v).floor E β))
    have h2 := half rm (sub (by simp only [ExprI.steps]; omega) hk)
    have am : |if op = .mul then x.amount β * v.q else x.amount β / v.q| = ((|op.exact x.num.q v.q| : ℚ) : ℝ) * r.ty.size β := by
      rw [hS]
      have p := gx.size_pos hβ
      unfold QtyI.amount
      rcases hop with rfl | ⟨rfl, -⟩
      · rw [if_pos rfl, show (x.num.q : ℝ) * x.ty.size β * v.q = x.num.q * v.q * x.ty.size β by ring, abs_mul _ (x.ty.size β), abs_of_pos p]
        simp only [BinOp.exact]; push_cast; rfl
      · rw [if_neg (by decide), show (x.num.q : ℝ) * x.ty.size β / v.q = x.num.q / v.q * x.ty.size β by ring, abs_mul _ (x.ty.size β), abs_of_pos p]
        simp only [BinOp.exact]; push_cast; rfl
    simp only [ExprI.mag] at hi
    rw [am] at h2
    have up : |op.exact x.num.q v.q| ≤ 2 ^ (g.emax - 2) := by
      refine le_two_zpow ((mul_le_mul_iff_left₀ S0).mp ?_)
      rw [two']; linarith
    obtain ⟨fr, er, -⟩ := c up
    refine ⟨gr, hg ▸ tr, fr, ?_⟩
    exact rm.round gu (n := 3) (m := 1) (w := 1 / 2) (lo.le.trans (le_max_right _ _)) (er.trans (le_of_eq (by ring))) rm.abs_le (by norm_num) (by norm_num)
  | addSub s a b iha ihb =>
    intro r ⟨Fa, Fb, N, R⟩ hk h
    have h' := h
    simp only [ExprI.eval, bind_ok] at h'
    obtain ⟨x, hx, y, hy, h'⟩ := h'
    obtain ⟨gr, g, hg, gu, hi⟩ := N r h
    have lo : 2 ^ (g.emin + 2) * r.ty.size β = _ := floor_eq (β := β) h hg
    obtain ⟨hrel, ca, cb⟩ := R x y r g hx hy h hg
    set n := max (convExp E.est (a.eval E) ((ExprI.addSub s a b).eval E)) (convExp E.est (b.eval E) ((ExprI.addSub s a b).eval E)) with hn
    have hst : (ExprI.addSub s a b).steps E = max (a.steps E) (b.steps E) + (n + 12) := rfl
    rw [hst] at hk ⊢
    obtain ⟨gx, tx, fx, rx⟩ := iha x Fa (sub (by omega) hk) hx
    obtain ⟨gy, ty, fy, ry⟩ := ihb y Fb (sub (by omega) hk) hy
    have hrep : x.ty.rep.arith y.ty.rep = .flt g := by
      have h'' := h'
      unfold addSubI at h''
      simp only [bind_ok, Except.ok.injEq] at h''
      obtain ⟨t, ht, _, -, _, -, z, -, rfl⟩ := h''
      obtain ⟨-, e, -⟩ := commonQty_sound hE hβ gx gy hrel ht
      rw [← e]; exact hg
    have S0 : 0 < r.ty.size β := gr.size_pos hβ
    have rx' := rx.weaken u0 u1 (le_max_left (a.steps E) (b.steps E))
    have ry' := ry.weaken u0 u1 (le_max_right (a.steps E) (b.steps E))
    have rm : Off f.u (max (a.steps E) (b.steps E)) (a.mag E β + b.mag E β) (if s then a.exact β - b.exact β else a.exact β + b.exact β)
        (if s then x.amount β - y.amount β else x.amount β + y.amount β) := by
      cases s
      · exact rx'.add u0 u1 ry'
      · simp only [if_true]
        rw [sub_eq_add_neg, sub_eq_add_neg]
        exact rx'.add u0 u1 ry'.neg
    replace rm := rm.larger u0 u1 (le_max_left _ ((ExprI.addSub s a b).floor E β))
    have sm : |x.amount β| + |y.amount β| ≤ ((1 - (f.u : ℝ)) ^ (max (a.steps E) (b.steps E)))⁻¹ * (a.mag E β + b.mag E β) := by
      rw [mul_add]; exact add_le_add rx'.abs_le ry'.abs_le
    replace sm := sm.trans (mul_le_mul_of_nonneg_left (le_max_left _ ((ExprI.addSub s a b).floor E β))
      (by linarith [one_le_growth u0 u1 (max (a.steps E) (b.steps E))]))
    have h2 := sm.trans (mul_le_mul_of_nonneg_right (growth_two u0 u1 (sub (by omega) hk)) rm.nonneg)
    simp only [ExprI.mag] at hi
    have na : ExpLe E.est r.ty x.ty n := fun c hc => by
      have := convExp_le c hc
      rw [← hx, ← h] at this
      exact this.trans (le_max_left _ _)
    have nb : ExpLe E.est r.ty y.ty n := fun c hc => by
      have := convExp_le c hc
      rw [← hy, ← h] at this
      exact this.trans (le_max_right _ _)
    have nn : n ≤ g.safeExp := by rw [hn, h]; exact max_le ca cb
    obtain ⟨-, tr, fr, er⟩ := C70_sum_partial E hE β hβ s x y r g n gx gy hrel tx ty fx fy hrep nn h' na nb
      (by rw [two']; linarith)
    refine ⟨gr, hg ▸ tr, fr, ?_⟩
    have := rm.round gu (n := n + 7) (m := 2) (w := 3) (lo.le.trans (le_max_right _ _)) (er.trans (le_of_eq (by ring))) sm (by norm_num) (by norm_num)
    exact this.weaken u0 u1 (by omega)
  | cast t a iha =>
    intro r ⟨Fa, N, R⟩ hk h
    have h' := h
    simp only [ExprI.eval, bind_ok] at h'
    obtain ⟨x, hx, h'⟩ := h'
    obtain ⟨gr, g, hg, gu, hi⟩ := N r h
    have lo : 2 ^ (g.emin + 2) * r.ty.size β = _ := floor_eq (β := β) h hg
    obtain ⟨gx, tx, fx, rx⟩ := iha x Fa (sub (by simp only [ExprI.steps]; omega) hk) hx
    have h'' := h'
    unfold quantityCastI at h''
    simp only [bind_ok] at h''
    obtain ⟨eqv, he, h''⟩ := h''
    cases eqv
    · cases h''
    simp only [if_true, bind_ok, Except.ok.injEq] at h''
    obtain ⟨c, hc, z, hz, hr⟩ := h''
    have hrt : r.ty = t := by rw [← hr]
    have ex : convExp E.est (a.eval E) ((ExprI.cast t a).eval E) = c.exp.natAbs := by
      rw [hx, h]; unfold convExp; dsimp only; rw [hrt, hc]
    have hst : (ExprI.cast t a).steps E = a.steps E + (c.exp.natAbs + 8) := by rw [← ex]; rfl
    rw [hst] at hk ⊢
    rw [hrt] at hg hi gr
    obtain ⟨hco, hex⟩ := R x g hx hg
    rw [ex] at hex
    obtain ⟨w, hw, hws⟩ := castRep_safeExp x.ty.rep g
    rw [← hg] at hw
    obtain ⟨m1, -⟩ := C69_amounts_partial E β hβ t x c g w gx gr hco tx fx hg hw he hc (hex.trans hws)
    have rm := rx.larger u0 u1 (le_max_left _ ((ExprI.cast t a).floor E β))
    have h2 := half rm (sub (by omega) hk)
    simp only [ExprI.mag] at hi
    obtain ⟨r', hr', ty', tr', fr', er', -⟩ := m1 (by rw [two']; linarith)
    rw [h'] at hr'
    cases hr'
    rw [ty']
    rw [hrt] at lo
    refine ⟨gr, tr', fr', ?_⟩
    exact rm.round gu (n := c.exp.natAbs + 6) (m := 1) (w := 1) (lo.le.trans (le_max_right _ _)) (er'.trans (le_of_eq (by ring))) rm.abs_le (by norm_num) (by norm_num)

/-! ### The theorems -/

section
variable (E : Env) (hE : E.OK) (β : String → ℝ) (hβ : Sizes β) (f : FltTy)
include hE hβ

/-- C94: an expression nested to any depth, with sums and differences of any signs, is computed with an error of at most twice the number of its roundings
times the unit roundoff of its least precise format, relative to the sum of the magnitudes of its terms. -/
theorem C94_expression (e : ExprI) (r : QtyI) (hF : e.Wide E β f) (hk : (e.steps E : ℝ) * f.u ≤ 1 / 2) (h : e.eval E = .ok r) :
    r.num.Typed r.ty.rep ∧ r.num.Finite ∧ |e.exact β| ≤ e.mag E β ∧ |r.amount β - e.exact β| ≤ 2 * e.steps E * f.u * e.mag E β := by
  have u0 : (0 : ℝ) ≤ f.u := by exact_mod_cast f.u_pos.le
  have u1 : (f.u : ℝ) < 1 := by exact_mod_cast f.u_lt_one
  obtain ⟨-, tr, fr, off⟩ := e.off hE hβ r hF hk h
  exact ⟨tr, fr, off.1, off.2.trans (mul_le_mul_of_nonneg_right (growth_le u0 u1 hk) off.nonneg)⟩

/-- C94: the sign of the result is right when the exact amount exceeds the error. -/
theorem C94_sign (e : ExprI) (r : QtyI) (hF : e.Wide E β f) (hk : (e.steps E : ℝ) * f.u ≤ 1 / 2) (h : e.eval E = .ok r)
    (hs : 2 * e.steps E * f.u * e.mag E β < |e.exact β|) : (0 < r.amount β ↔ 0 < e.exact β) ∧ (r.amount β < 0 ↔ e.exact β < 0) := by
  obtain ⟨-, -, -, er⟩ := C94_expression E hE β hβ f e r hF hk h
  have := er.trans_lt hs
  rcases lt_or_ge (e.exact β) 0 with h0 | h0
  · rw [abs_of_neg h0, _root_.abs_lt] at this
    exact ⟨⟨fun _ => by linarith, fun _ => by linarith⟩, ⟨fun _ => h0, fun _ => by linarith⟩⟩
  · rw [abs_of_nonneg h0, _root_.abs_lt] at this
    exact ⟨⟨fun _ => by linarith, fun _ => by linarith⟩, ⟨fun _ => by linarith, fun _ => by linarith⟩⟩

end

/-! ### The filter with two variables -/

/-- Numbers of moderate size. -/
structure Upto (k : ℕ) (x : FVal) : Prop where
  finite : x.Finite
  within : x.In .f64
  upper : |x.q| ≤ 2 ^ k

theorem Upto.cast {k : ℕ} {x : FVal} (h : Upto k x) : |(x.q : ℝ)| ≤ 2 ^ k := by
  have := (Rat.cast_le (K := ℝ)).mpr h.upper
  push_cast at this; exact this

theorem floor_one {e : ExprI} {t : QTy} {x : FNum} (he : e.eval demoEnv = .ok ⟨t, x⟩) (ht : t.rep = .flt .f64) (hs : t.size refSizes = ((1 : ℚ) : ℝ)) :
    e.floor demoEnv refSizes = 1 / 2 ^ 1020 := by
  have h := floor_eq (β := refSizes) he ht
  rw [hs, show FltTy.f64.emin + 2 = -((1020 : ℕ) : Int) by decide, zpow_neg, zpow_natCast] at h
  rw [← h]; push_cast; rw [mul_one, one_div]

theorem ranged_one {e : ExprI} {t : QTy} {x : FNum} (he : e.eval demoEnv = .ok ⟨t, x⟩) (hg : goodTy t = true) (ht : t.rep = .flt .f64)
    (hs : t.size refSizes = ((1 : ℚ) : ℝ)) (hm : e.mag demoEnv refSizes ≤ 2 ^ 1000) : e.Ranged demoEnv refSizes .f64 := by
  intro r hr
  rw [he] at hr
  cases hr
  refine ⟨goodTy_sound hg, .f64, ht, le_rfl, hm.trans ?_⟩
  rw [hs, show FltTy.f64.emax - 3 = ((1021 : ℕ) : Int) by decide, zpow_natCast]
  push_cast; rw [mul_one]
  exact pow_le_pow_right₀ (by norm_num) (by norm_num)

/-- A sum in one unit. -/
theorem sum_wide {s : Bool} {a b : ExprI} {d : Dim} {v : MUnit} {r1 r2 : Rep} {x y z : FNum} (ea : a.eval demoEnv = .ok ⟨⟨d, v, r1⟩, x⟩)
    (eb : b.eval demoEnv = .ok ⟨⟨d, v, r2⟩, y⟩) (e : (ExprI.addSub s a b).eval demoEnv = .ok ⟨⟨d, v, .flt .f64⟩, z⟩)
    (hc : castRatio demoEnv.est d v d v = .ok Ratio.one) (wa : a.Wide demoEnv refSizes .f64) (wb : b.Wide demoEnv refSizes .f64)
    (hr : (ExprI.addSub s a b).Ranged demoEnv refSizes .f64) :
    (ExprI.addSub s a b).Wide demoEnv refSizes .f64 ∧ (ExprI.addSub s a b).steps demoEnv = max (a.steps demoEnv) (b.steps demoEnv) + 12 := by
  have c1 : convExp demoEnv.est (.ok ⟨⟨d, v, r1⟩, x⟩) (.ok ⟨⟨d, v, .flt .f64⟩, z⟩) = 0 := by unfold convExp; dsimp only; rw [hc]; rfl
  have c2 : convExp demoEnv.est (.ok ⟨⟨d, v, r2⟩, y⟩) (.ok ⟨⟨d, v, .flt .f64⟩, z⟩) = 0 := by unfold convExp; dsimp only; rw [hc]; rfl
  refine ⟨⟨wa, wb, hr, fun x' y' r' g hx hy h hg => ?_⟩, ?_⟩
  · rw [ea] at hx; cases hx
    rw [eb] at hy; cases hy
    rw [e] at h; cases h
    rw [ea, eb, c1, c2]
    exact ⟨⟨C17_reflexive _, Coherent.refl _ _, fun h => absurd rfl h⟩, Nat.zero_le _, Nat.zero_le _⟩
  · rw [ExprI.steps, e, ea, eb, c1, c2, max_self, Nat.zero_add]

theorem lenSteady : Steady demoEnv (lenTy (.flt .f64)) := by decide +kernel

theorem lenOne : castRatio demoEnv.est d_isq_si_dim_length u_metre d_isq_si_dim_length u_metre = .ok Ratio.one := by decide +kernel
theorem speedOne : castRatio demoEnv.est d_isq_si_dim_speed d_isq_si_dim_speed.unit d_isq_si_dim_speed d_isq_si_dim_speed.unit = .ok Ratio.one := by
  decide +kernel

/-- A measurement or an interval, an integer or a `double`, is a literal with the amount of its number. -/
theorem measured_lit {t : Rep → QTy} (ht : ∀ r, t r = ⟨(t (.flt .f64)).dim, (t (.flt .f64)).unit, r⟩) (hg : ∀ r, goodTy (t r) = true)
    (hs : ∀ r, (t r).size refSizes = ((1 : ℚ) : ℝ)) {m : QtyI} {x : FVal} (hm : Measured (.qty (t (.flt .f64))) (.qty m) x) (hx : x.Finite) (hi : x.In .f64) :
    (ExprI.lit m).Fine demoEnv refSizes .f64 ∧ m.amount refSizes = x.q ∧ ∃ r, m.ty = t r := by
  rcases hm with h | ⟨i, z, h, hz, -, rfl⟩
  · cases h
    refine ⟨⟨goodTy_sound (hg _), ?_, hx⟩, ?_, _, rfl⟩
    · dsimp only; rw [ht]; exact ⟨_, rfl, hi⟩
    · simp only [QtyI.amount, hs]; push_cast; simp [FNum.q]
  · cases h
    have e : (⟨(t (.flt .f64)).dim, (t (.flt .f64)).unit, .int i⟩ : QTy) = t (.int i) := (ht _).symm
    dsimp only
    rw [e]
    refine ⟨⟨goodTy_sound (hg _), ?_, trivial⟩, ?_, _, rfl⟩
    · dsimp only; rw [ht]; exact ⟨_, rfl, hz⟩
    · simp only [QtyI.amount, hs, FNum.q, FVal.q]
      push_cast
      rw [mul_one]
      rcases lt_or_ge z 0 with h0 | h0
      · rw [decide_eq_true h0, abs_of_neg (by exact_mod_cast h0)]; simp
      · rw [decide_eq_false (by omega), abs_of_nonneg (by exact_mod_cast h0)]; simp

theorem gain_size : gainTy.size refSizes = ((1 : ℚ) : ℝ) := denote_size (b := ⟨1, [0, 0, 0, 0, 0, 0, 0, 0, 0, 0, 0]⟩) (by decide +kernel)

theorem len_good : ∀ r, goodTy (lenTy r) = true := by
  have : goodTy (lenTy (.flt .f64)) = true := by decide +kernel
  exact fun r => this
theorem time_good : ∀ r, goodTy (timeTy r) = true := by
  have : goodTy (timeTy (.flt .f64)) = true := by decide +kernel
  exact fun r => this
theorem speed_good : goodTy (Demos.speedTy (.flt .f64)) = true := by decide +kernel
theorem gain_good : goodTy gainTy = true := by decide +kernel

theorem div_interval {t : QtyI} {tv : FVal} (ht : Measured (.qty (timeTy (.flt .f64))) (.qty t) tv) (x : FVal) :
    ∃ w, divQtyI demoEnv ⟨lenTy (.flt .f64), .f x⟩ t = .ok ⟨Demos.speedTy (.flt .f64), .f w⟩ := by
  rcases ht with h | ⟨i, z, h, -, -, -⟩
  · cases h
    exact ⟨_, divEI rfl rfl rfl (by kernel_rfl) _ _⟩
  · cases h
    refine ⟨x.div .f64 (FVal.ofInt .f64 z), ?_⟩
    unfold divQtyI
    have : refDivide demoEnv (lenTy (.flt .f64)).dim (lenTy (.flt .f64)).unit (timeTy (.flt .f64)).dim (timeTy (.flt .f64)).unit =
      .ok ((Demos.speedTy (.flt .f64)).dim, (Demos.speedTy (.flt .f64)).unit) := by kernel_rfl
    dsimp only
    rw [this]
    cases i <;> rfl

theorem mul_interval {t : QtyI} {tv : FVal} (ht : Measured (.qty (timeTy (.flt .f64))) (.qty t) tv) (x : FVal) :
    ∃ w, mulQtyI demoEnv ⟨Demos.speedTy (.flt .f64), .f x⟩ t = .ok ⟨lenTy (.flt .f64), .f w⟩ := by
  rcases ht with h | ⟨i, z, h, -, -, -⟩
  · cases h
    exact ⟨_, mulEI rfl rfl rfl (by kernel_rfl) _ _⟩
  · cases h
    refine ⟨x.mul .f64 (FVal.ofInt .f64 z), ?_⟩
    unfold mulQtyI
    have : refMultiply demoEnv (Demos.speedTy (.flt .f64)).dim (Demos.speedTy (.flt .f64)).unit (timeTy (.flt .f64)).dim (timeTy (.flt .f64)).unit =
      .ok ((lenTy (.flt .f64)).dim, (lenTy (.flt .f64)).unit) := by kernel_rfl
    dsimp only
    rw [this]
    cases i <;> rfl

theorem lit_wide {t : QTy} (ht : t.rep = .flt .f64) (hg : goodTy t = true) {k : ℕ} {x : FVal} (hx : Upto k x) :
    (ExprI.lit ⟨t, .f x⟩).Wide demoEnv refSizes .f64 := ⟨goodTy_sound hg, by dsimp only; rw [ht]; exact ⟨_, rfl, hx.within⟩, hx.finite⟩

theorem amount_one {t : QTy} (hs : t.size refSizes = ((1 : ℚ) : ℝ)) (x : FVal) : (⟨t, .f x⟩ : QtyI).amount refSizes = x.q := by
  simp only [QtyI.amount, hs]; push_cast; simp [FNum.q]

theorem eta : (0 : ℝ) ≤ 1 / 2 ^ 1020 ∧ (1 : ℝ) / 2 ^ 1020 ≤ 1 :=
  ⟨by positivity, by rw [div_le_iff₀ (by positivity), one_mul]; exact one_le_pow₀ (by norm_num)⟩

theorem bound_max {x : ℝ} {n : ℕ} (h : x ≤ 2 ^ n) : max x (1 / 2 ^ 1020) ≤ 2 ^ n :=
  max_le h (eta.2.trans (one_le_pow₀ (by norm_num : (1 : ℝ) ≤ 2)))

/-- The product of a gain and an innovation. -/
theorem gainTimesInnovation {p k mv : FVal} {m : QtyI} (hp : Upto 100 p) (hk : Upto 100 k) (hm : Measured (.qty (lenTy (.flt .f64))) (.qty m) mv) (hmv : Upto 100 mv) :
    let e := ExprI.mul (.lit ⟨gainTy, .f k⟩) (.addSub true (.lit m) (.lit ⟨lenTy (.flt .f64), .f p⟩))
    e.eval demoEnv = .ok ⟨lenTy (.flt .f64), .f (k.mul .f64 (mv.sub .f64 p))⟩ ∧ e.Wide demoEnv refSizes .f64 ∧ e.steps demoEnv = 17 ∧
      e.exact refSizes = k.q * (mv.q - p.q) ∧ e.mag demoEnv refSizes ≤ |(k.q : ℝ)| * (|(mv.q : ℝ)| + |(p.q : ℝ)|) + (|(k.q : ℝ)| + 1) * (1 / 2 ^ 1020) ∧
      e.mag demoEnv refSizes ≤ 2 ^ 201 := by
  intro e
  obtain ⟨Fm, am, r, hr⟩ := measured_lit (t := lenTy) (fun _ => rfl) len_good (fun _ => len_size) hm hmv.finite hmv.within
  obtain ⟨mt, mn⟩ := m
  dsimp only at hr
  subst hr
  have e1 : (ExprI.addSub true (.lit ⟨lenTy r, mn⟩) (.lit ⟨lenTy (.flt .f64), .f p⟩)).eval demoEnv = .ok ⟨lenTy (.flt .f64), .f (mv.sub .f64 p)⟩ := by
    have := measured_sub (E := demoEnv) (R := fun _ _ => none) (t := .qty (lenTy (.flt .f64))) lenSteady hm p
    exact this
  have e2 : e.eval demoEnv = .ok ⟨lenTy (.flt .f64), .f (k.mul .f64 (mv.sub .f64 p))⟩ := by
    show (do let x ← Except.ok _; let y ← ExprI.eval demoEnv _; mulQtyI demoEnv x y) = _
    rw [e1]; exact mulQtyI_gain lenSteady _ _
  have f1 := floor_one e1 rfl len_size
  have f2 := floor_one e2 rfl len_size
  have m1 : (ExprI.addSub true (.lit ⟨lenTy r, mn⟩) (.lit ⟨lenTy (.flt .f64), .f p⟩)).mag demoEnv refSizes =
      max (|(mv.q : ℝ)| + |(p.q : ℝ)|) (1 / 2 ^ 1020) := by
    rw [← f1]; simp only [ExprI.mag, am, amount_one len_size]
  have m2 : e.mag demoEnv refSizes = max (|(k.q : ℝ)| * max (|(mv.q : ℝ)| + |(p.q : ℝ)|) (1 / 2 ^ 1020)) (1 / 2 ^ 1020) := by
    show max (ExprI.mag _ _ (.lit _) * ExprI.mag _ _ _) (e.floor demoEnv refSizes) = _
    rw [m1, f2]
    simp only [ExprI.mag, amount_one gain_size]
  have b1 : max (|(mv.q : ℝ)| + |(p.q : ℝ)|) (1 / 2 ^ 1020) ≤ 2 ^ 101 := bound_max (by have := hmv.cast; have := hp.cast; norm_num at *; linarith)
  have b2 : max (|(k.q : ℝ)| * max (|(mv.q : ℝ)| + |(p.q : ℝ)|) (1 / 2 ^ 1020)) (1 / 2 ^ 1020) ≤ 2 ^ 201 := bound_max (by
    have := mul_le_mul hk.cast b1 (le_max_of_le_left (by positivity)) (by positivity)
    rw [← pow_add] at this; exact this)
  obtain ⟨w1, s1⟩ := sum_wide (d := d_isq_si_dim_length) (v := u_metre) (r1 := r) (r2 := .flt .f64) (a := .lit ⟨lenTy r, mn⟩)
    (b := .lit ⟨lenTy (.flt .f64), .f p⟩) rfl rfl e1 lenOne Fm (lit_wide rfl (len_good _) hp)
    (ranged_one e1 (len_good _) rfl len_size (by rw [m1]; exact b1.trans (pow_le_pow_right₀ (by norm_num) (by norm_num))))
  refine ⟨e2, ⟨lit_wide rfl gain_good hk, w1,
    ranged_one e2 (len_good _) rfl len_size (by rw [m2]; exact b2.trans (pow_le_pow_right₀ (by norm_num) (by norm_num)))⟩, ?_, ?_, ?_, ?_⟩
  · show 0 + ExprI.steps demoEnv (.addSub _ _ _) + 5 = 17
    rw [s1]; rfl
  · show ExprI.exact refSizes (.lit _) * (ExprI.exact refSizes (.lit _) - ExprI.exact refSizes (.lit _)) = _
    simp only [ExprI.exact, am, amount_one len_size, amount_one gain_size]
  · rw [m2]
    obtain ⟨n0, -⟩ := eta
    generalize (1 : ℝ) / 2 ^ 1020 = η at n0 ⊢
    have v0 := abs_nonneg (mv.q : ℝ)
    have p0 := abs_nonneg (p.q : ℝ)
    have k0 := abs_nonneg (k.q : ℝ)
    have c : max (|(mv.q : ℝ)| + |(p.q : ℝ)|) η ≤ |(mv.q : ℝ)| + |(p.q : ℝ)| + η := max_le (by linarith) (by linarith)
    have c' := mul_le_mul_of_nonneg_left c k0
    have a0 : 0 ≤ |(k.q : ℝ)| * (|(mv.q : ℝ)| + |(p.q : ℝ)|) := by positivity
    have a1 : 0 ≤ |(k.q : ℝ)| * η := by positivity
    exact max_le (by linarith) (by linarith)
  · rw [m2]; exact b2

theorem u53 : ((FltTy.f64.u : ℚ) : ℝ) = 1 / 2 ^ 53 := by norm_num [FltTy.u, FltTy.prec]

theorem real_le {a b : ℚ} (h : (a : ℝ) ≤ (b : ℝ)) : a ≤ b := Rat.cast_le.mp h

/-- The last step of an expression: a number of a unit of size one plus a part. -/
theorem plus_part {t : QTy} (ht : t.rep = .flt .f64) (hg : goodTy t = true) (hs : t.size refSizes = ((1 : ℚ) : ℝ))
    (hc : castRatio demoEnv.est t.dim t.unit t.dim t.unit = .ok Ratio.one) {p w : FVal} {b : ExprI} {n : ℕ} (hp : Upto 100 p)
    (eb : b.eval demoEnv = .ok ⟨t, .f w⟩) (wb : b.Wide demoEnv refSizes .f64) (sb : b.steps demoEnv = n) (hn : n ≤ 100)
    (mb : b.mag demoEnv refSizes ≤ 2 ^ 900) :
    (ExprI.addSub false (.lit ⟨t, .f p⟩) b).eval demoEnv = .ok ⟨t, .f (p.add .f64 w)⟩ ∧ (p.add .f64 w).Finite ∧ (p.add .f64 w).In .f64 ∧
      |((p.add .f64 w).q : ℝ) - (p.q + b.exact refSizes)| ≤
        2 * (n + 12) / 2 ^ 53 * (|(p.q : ℝ)| + b.mag demoEnv refSizes + 1 / 2 ^ 1020) := by
  have e : (ExprI.addSub false (.lit ⟨t, .f p⟩) b).eval demoEnv = .ok ⟨t, .f (p.add .f64 w)⟩ := by
    show (do let x ← Except.ok _; let y ← ExprI.eval demoEnv b; addSubI demoEnv false x y) = _
    rw [eb]; exact addSubI_self demoEnv false t .f64 ht p w
  have fl := floor_one e ht hs
  have m : (ExprI.addSub false (.lit ⟨t, .f p⟩) b).mag demoEnv refSizes = max (|(p.q : ℝ)| + b.mag demoEnv refSizes) (1 / 2 ^ 1020) := by
    rw [← fl]; simp only [ExprI.mag, amount_one hs]
  have b0 : 0 ≤ b.mag demoEnv refSizes := by
    refine (b.off demoEnv_ok refSizes_pos _ wb ?_ eb).2.2.2.nonneg
    rw [sb, u53, mul_one_div, div_le_iff₀ (by positivity)]
    have : (n : ℝ) ≤ 100 := by exact_mod_cast hn
    exact this.trans (by norm_num)
  have mle : (ExprI.addSub false (.lit ⟨t, .f p⟩) b).mag demoEnv refSizes ≤ 2 ^ 901 := by
    rw [m]
    refine bound_max ?_
    have h1 := hp.cast.trans (pow_le_pow_right₀ (by norm_num : (1 : ℝ) ≤ 2) (by norm_num : 100 ≤ 900))
    rw [pow_succ _ 900, mul_two]
    exact add_le_add h1 mb
  obtain ⟨d, v, r⟩ := t
  dsimp only at ht hc
  subst ht
  obtain ⟨W, S⟩ := sum_wide (s := false) (a := .lit ⟨⟨d, v, .flt .f64⟩, .f p⟩) rfl eb e hc (lit_wide rfl hg hp) wb
    (ranged_one e hg rfl hs (mle.trans (pow_le_pow_right₀ (by norm_num) (by norm_num))))
  rw [show (ExprI.lit ⟨⟨d, v, .flt .f64⟩, .f p⟩).steps demoEnv = 0 from rfl, sb, Nat.zero_max] at S
  have hk : (((ExprI.addSub false (.lit ⟨⟨d, v, .flt .f64⟩, .f p⟩) b).steps demoEnv : ℕ) : ℝ) * (FltTy.f64.u : ℚ) ≤ 1 / 2 := by
    rw [S, u53, mul_one_div, div_le_iff₀ (by positivity)]
    have : ((n + 12 : ℕ) : ℝ) ≤ 112 := by exact_mod_cast (by omega : n + 12 ≤ 112)
    exact this.trans (by norm_num)
  obtain ⟨tr, fr, -, er⟩ := C94_expression demoEnv demoEnv_ok refSizes refSizes_pos .f64 _ _ W hk e
  refine ⟨e, fr, ?_, ?_⟩
  · obtain ⟨g, hg', hi⟩ := tr
    cases hg'
    exact hi
  · rw [S, u53, amount_one hs, m] at er
    simp only [ExprI.exact, Bool.false_eq_true, if_false, amount_one hs] at er
    refine er.trans ?_
    rw [show (((n + 12 : ℕ) : ℝ)) = n + 12 by push_cast; rfl]
    have c : max (|(p.q : ℝ)| + b.mag demoEnv refSizes) (1 / 2 ^ 1020) ≤ |(p.q : ℝ)| + b.mag demoEnv refSizes + 1 / 2 ^ 1020 :=
      max_le (le_add_of_nonneg_right (by positivity)) (by linarith [abs_nonneg (p.q : ℝ)])
    rw [mul_one_div]
    exact mul_le_mul_of_nonneg_left c (by positivity)

/-- C94: `state_update` of the filter with a position and a speed, in metres, seconds and `double`; the measurement and the interval may be integers or
`double`.  The new position is `p + k (m - p)` and the new speed `v + k (m - p) / t`, up to rounding relative to the terms. -/
theorem C94_state_update (R : Rebinds) {p v k1 k2 mv tv : FVal} {m t : QtyI} (hp : Upto 100 p) (hv : Upto 100 v) (hk1 : Upto 100 k1) (hk2 : Upto 100 k2)
    (hm : Measured (.qty (lenTy (.flt .f64))) (.qty m) mv) (hmv : Upto 100 mv) (ht : Measured (.qty (timeTy (.flt .f64))) (.qty t) tv) (htv : Mid tv) :
    ∃ p' v', stateUpdate2I demoEnv R (.qty ⟨lenTy (.flt .f64), .f p⟩) (.qty ⟨Demos.speedTy (.flt .f64), .f v⟩) (.qty m) ⟨gainTy, .f k1⟩ ⟨gainTy, .f k2⟩ t =
        .ok (.qty ⟨lenTy (.flt .f64), .f p'⟩, .qty ⟨Demos.speedTy (.flt .f64), .f v'⟩) ∧
      p'.Finite ∧ p'.In .f64 ∧ v'.Finite ∧ v'.In .f64 ∧
      |p'.q - (p.q + k1.q * (mv.q - p.q))| ≤ 58 / 2 ^ 53 * (|p.q| + |k1.q| * (|mv.q| + |p.q|) + (|k1.q| + 2) * (1 / 2 ^ 1020)) ∧
      |v'.q - (v.q + k2.q * (mv.q - p.q) / tv.q)| ≤
        68 / 2 ^ 53 * (|v.q| + |k2.q| * (|mv.q| + |p.q|) / |tv.q| + ((|k2.q| + 1) / |tv.q| + 2) * (1 / 2 ^ 1020)) := by
  obtain ⟨e1, w1, s1, x1, m1, b1⟩ := gainTimesInnovation hp hk1 hm hmv
  obtain ⟨e2, w2, s2, x2, m2, b2⟩ := gainTimesInnovation hp hk2 hm hmv
  obtain ⟨Ft, at', -⟩ := measured_lit (t := timeTy) (fun _ => rfl) time_good (fun _ => time_size) ht htv.finite htv.within
  obtain ⟨w, hw⟩ := div_interval ht (k2.mul .f64 (mv.sub .f64 p))
  have t0 : 0 < |(tv.q : ℝ)| := (by positivity : (0 : ℝ) < 1 / 2 ^ 100).trans_le htv.bd.1
  have e3 : (ExprI.div (.mul (.lit ⟨gainTy, .f k2⟩) (.addSub true (.lit m) (.lit ⟨lenTy (.flt .f64), .f p⟩))) (.lit t)).eval demoEnv =
      .ok ⟨Demos.speedTy (.flt .f64), .f w⟩ := by
    rw [ExprI.eval, e2]; exact hw
  have f3 := floor_one e3 rfl speed_size
  have m3 : (ExprI.div (.mul (.lit ⟨gainTy, .f k2⟩) (.addSub true (.lit m) (.lit ⟨lenTy (.flt .f64), .f p⟩))) (.lit t)).mag demoEnv refSizes =
      max (ExprI.mag demoEnv refSizes (.mul (.lit ⟨gainTy, .f k2⟩) (.addSub true (.lit m) (.lit ⟨lenTy (.flt .f64), .f p⟩))) / |(tv.q : ℝ)|)
        (1 / 2 ^ 1020) := by
    rw [← f3, ← at']; rfl
  have b3 : (ExprI.div (.mul (.lit ⟨gainTy, .f k2⟩) (.addSub true (.lit m) (.lit ⟨lenTy (.flt .f64), .f p⟩))) (.lit t)).mag demoEnv refSizes ≤ 2 ^ 301 := by
    rw [m3]
    refine bound_max ?_
    rw [div_le_iff₀ t0]
    refine b2.trans ?_
    have := mul_le_mul_of_nonneg_left htv.bd.1 (by positivity : (0 : ℝ) ≤ 2 ^ 301)
    refine le_trans (le_of_eq ?_) this
    rw [show 301 = 201 + 100 from rfl, pow_add]
    field_simp
  have w3 : (ExprI.div (.mul (.lit ⟨gainTy, .f k2⟩) (.addSub true (.lit m) (.lit ⟨lenTy (.flt .f64), .f p⟩))) (.lit t)).Wide demoEnv refSizes .f64 :=
    ⟨w2, Ft, by show t.amount refSizes ≠ 0; rw [at']; exact abs_pos.mp t0,
      ranged_one e3 speed_good rfl speed_size (b3.trans (pow_le_pow_right₀ (by norm_num) (by norm_num)))⟩
  have s3 : (ExprI.div (.mul (.lit ⟨gainTy, .f k2⟩) (.addSub true (.lit m) (.lit ⟨lenTy (.flt .f64), .f p⟩))) (.lit t)).steps demoEnv = 22 := by
    rw [ExprI.steps, s2]; rfl
  obtain ⟨E1, F1, I1, R1⟩ := plus_part rfl (len_good _) len_size lenOne hp e1 w1 s1 (by norm_num) (b1.trans (pow_le_pow_right₀ (by norm_num) (by norm_num)))
  obtain ⟨E2, F2, I2, R2⟩ := plus_part rfl speed_good speed_size speedOne hv e3 w3 s3 (by norm_num) (b3.trans (pow_le_pow_right₀ (by norm_num) (by norm_num)))
  refine ⟨_, _, ?_, F1, I1, F2, I2, ?_, ?_⟩
  · have h1 : addSubI demoEnv true m ⟨lenTy (.flt .f64), .f p⟩ = .ok ⟨lenTy (.flt .f64), .f (mv.sub .f64 p)⟩ :=
      measured_sub (E := demoEnv) (R := R) (t := .qty (lenTy (.flt .f64))) lenSteady hm p
    have hd : m.ty.dim = (lenTy (.flt .f64)).dim := measured_dim hm
    unfold stateUpdate2I
    show (dimEquivalent (lenTy (.flt .f64)).dim m.ty.dim >>= _) = _
    rw [hd, C17_reflexive, ok_bind, if_pos ⟨rfl, rfl, rfl⟩]
    show (addSubI demoEnv true m _ >>= _) = _
    rw [h1, ok_bind, mulQtyI_gain lenSteady, ok_bind]
    show ((addSubI demoEnv false _ _ >>= fun r => Except.ok (VarI.qty r)) >>= _) = _
    rw [addSubI_self demoEnv false (lenTy (.flt .f64)) .f64 rfl, ok_bind, ok_bind, mulQtyI_gain lenSteady, ok_bind, hw, ok_bind]
    show ((addSubI demoEnv false _ _ >>= fun r => Except.ok (VarI.qty r)) >>= _) = _
    rw [addSubI_self demoEnv false (Demos.speedTy (.flt .f64)) .f64 rfl, ok_bind, ok_bind]
    show ((convertQtyI demoEnv (lenTy (.flt .f64)) ⟨lenTy (.flt .f64), _⟩ >>= fun r => Except.ok (VarI.qty r)) >>= _) = _
    rw [convertQtyI_self demoEnv ⟨lenTy (.flt .f64), _⟩, ok_bind, ok_bind]
    show ((convertQtyI demoEnv (Demos.speedTy (.flt .f64)) ⟨Demos.speedTy (.flt .f64), _⟩ >>= fun r => Except.ok (VarI.qty r)) >>= _) = _
    rw [convertQtyI_self demoEnv ⟨Demos.speedTy (.flt .f64), _⟩]
    rfl
  · refine real_le ?_
    rw [x1] at R1
    push_cast
    refine R1.trans ?_
    rw [show (2 * (((17 : ℕ) : ℝ) + 12) / 2 ^ 53) = 58 / 2 ^ 53 by norm_num]
    refine mul_le_mul_of_nonneg_left ?_ (by positivity)
    generalize (1 : ℝ) / 2 ^ 1020 = η at m1 ⊢
    linarith
  · have x3 : (ExprI.div (.mul (.lit ⟨gainTy, .f k2⟩) (.addSub true (.lit m) (.lit ⟨lenTy (.flt .f64), .f p⟩))) (.lit t)).exact refSizes =
        k2.q * (mv.q - p.q) / tv.q := by
      rw [ExprI.exact, x2, ← at']; rfl
    refine real_le ?_
    rw [x3, m3] at R2
    push_cast
    refine R2.trans ?_
    rw [show (2 * (((22 : ℕ) : ℝ) + 12) / 2 ^ 53) = 68 / 2 ^ 53 by norm_num]
    refine mul_le_mul_of_nonneg_left ?_ (by positivity)
    obtain ⟨n0, -⟩ := eta
    have M0 := (ExprI.off demoEnv_ok refSizes_pos _ _ w2 (by rw [s2, u53]; norm_num) e2).2.2.2.nonneg
    generalize (1 : ℝ) / 2 ^ 1020 = η at m2 n0 ⊢
    have q := div_le_div_of_nonneg_right m2 t0.le
    rw [add_div, mul_div_right_comm (_ + 1)] at q
    have c : ∀ x : ℝ, 0 ≤ x → max (x / |(tv.q : ℝ)|) η ≤ x / |(tv.q : ℝ)| + η := fun x x0 =>
      max_le (by linarith) (by linarith [div_nonneg x0 t0.le])
    have := c _ M0
    linarith

/-- C94: `state_extrapolation` of the same filter: the position after the interval is `p + v t` up to rounding relative to the terms, and the speed is
unchanged. -/
theorem C94_extrapolation (R : Rebinds) {p v tv : FVal} {t : QtyI} (hp : Upto 100 p) (hv : Upto 100 v)
    (ht : Measured (.qty (timeTy (.flt .f64))) (.qty t) tv) (htv : Upto 100 tv) :
    ∃ p', extrapolate2I demoEnv R (.qty ⟨lenTy (.flt .f64), .f p⟩) (.qty ⟨Demos.speedTy (.flt .f64), .f v⟩) t =
        .ok (.qty ⟨lenTy (.flt .f64), .f p'⟩, .qty ⟨Demos.speedTy (.flt .f64), .f v⟩) ∧ p'.Finite ∧ p'.In .f64 ∧
      |p'.q - (p.q + v.q * tv.q)| ≤ 34 / 2 ^ 53 * (|p.q| + |v.q * tv.q| + 2 * (1 / 2 ^ 1020)) := by
  obtain ⟨Ft, at', -⟩ := measured_lit (t := timeTy) (fun _ => rfl) time_good (fun _ => time_size) ht htv.finite htv.within
  obtain ⟨w, hw⟩ := mul_interval ht v
  have e1 : (ExprI.mul (.lit ⟨Demos.speedTy (.flt .f64), .f v⟩) (.lit t)).eval demoEnv = .ok ⟨lenTy (.flt .f64), .f w⟩ := hw
  have f1 := floor_one e1 rfl len_size
  have m1 : (ExprI.mul (.lit ⟨Demos.speedTy (.flt .f64), .f v⟩) (.lit t)).mag demoEnv refSizes = max (|(v.q : ℝ)| * |(tv.q : ℝ)|) (1 / 2 ^ 1020) := by
    rw [← f1]; simp only [ExprI.mag, at', amount_one speed_size]
  have x1 : (ExprI.mul (.lit ⟨Demos.speedTy (.flt .f64), .f v⟩) (.lit t)).exact refSizes = v.q * tv.q := by
    simp only [ExprI.exact, at', amount_one speed_size]
  have b1 : (ExprI.mul (.lit ⟨Demos.speedTy (.flt .f64), .f v⟩) (.lit t)).mag demoEnv refSizes ≤ 2 ^ 200 := by
    rw [m1]
    refine bound_max ?_
    have := mul_le_mul hv.cast htv.cast (abs_nonneg _) (by positivity)
    rw [← pow_add] at this; exact this
  obtain ⟨E1, F1, I1, R1⟩ := plus_part rfl (len_good _) len_size lenOne hp e1
    ⟨lit_wide rfl speed_good hv, Ft, ranged_one e1 (len_good _) rfl len_size (b1.trans (pow_le_pow_right₀ (by norm_num) (by norm_num)))⟩
    (n := 5) rfl (by norm_num) (b1.trans (pow_le_pow_right₀ (by norm_num) (by norm_num)))
  refine ⟨_, ?_, F1, I1, ?_⟩
  · show (mulQtyI demoEnv _ t >>= _) = _
    rw [hw, ok_bind]
    show ((addSubI demoEnv false _ _ >>= fun r => Except.ok (VarI.qty r)) >>= _) = _
    rw [addSubI_self demoEnv false (lenTy (.flt .f64)) .f64 rfl, ok_bind, ok_bind]
    show ((convertQtyI demoEnv (lenTy (.flt .f64)) ⟨lenTy (.flt .f64), _⟩ >>= fun r => Except.ok (VarI.qty r)) >>= _) = _
    rw [convertQtyI_self demoEnv ⟨lenTy (.flt .f64), _⟩]
    rfl
  · refine real_le ?_
    rw [x1, m1] at R1
    push_cast
    refine R1.trans ?_
    rw [show (2 * (((5 : ℕ) : ℝ) + 12) / 2 ^ 53) = 34 / 2 ^ 53 by norm_num, abs_mul]
    refine mul_le_mul_of_nonneg_left ?_ (by positivity)
    obtain ⟨n0, -⟩ := eta
    generalize (1 : ℝ) / 2 ^ 1020 = η at n0 ⊢
    have : 0 ≤ |(v.q : ℝ)| * |(tv.q : ℝ)| := by positivity
    have := max_le (show |(v.q : ℝ)| * |(tv.q : ℝ)| ≤ |(v.q : ℝ)| * |(tv.q : ℝ)| + η by linarith) (show η ≤ |(v.q : ℝ)| * |(tv.q : ℝ)| + η by linarith)
    linarith

/-- The filter in exact arithmetic: the position and the speed after the measurements. -/
def trackExact (k1 k2 t : ℚ) : ℚ × ℚ → List ℚ → ℚ × ℚ
  | s, [] => s
  | (p, v), m :: ms => trackExact k1 k2 t (p + k1 * (m - p) + (v + k2 * (m - p) / t) * t, v + k2 * (m - p) / t) ms

/-- One iteration with errors of both results. -/
theorem track_step {u L D p v m k1 k2 t p1 v1 p' P V : ℚ} (u0 : 0 ≤ u) (u1 : u ≤ 1 / 1000) (L0 : 0 ≤ L) (t0 : 0 < t) (k10 : 0 ≤ k1) (k11 : k1 ≤ 1)
    (k20 : 0 ≤ k2) (k21 : k2 ≤ 1) (hm : |m| ≤ L) (hp : |p| ≤ 4 * L) (hv : |v * t| ≤ 4 * L) (hP : |p - P| ≤ D) (hV : |(v - V) * t| ≤ D)
    (h1 : |p1 - (p + k1 * (m - p))| ≤ 580 * u * L) (h2 : |(v1 - (v + k2 * (m - p) / t)) * t| ≤ 680 * u * L)
    (h3 : |p1| ≤ 10 * L → |v1 * t| ≤ 10 * L → |p' - (p1 + v1 * t)| ≤ 714 * u * L) :
    |p1| ≤ 10 * L ∧ |v1 * t| ≤ 10 * L ∧ |p' - (P + k1 * (m - P) + (V + k2 * (m - P) / t) * t)| ≤ 2 * D + 2000 * u * L ∧
      |(v1 - (V + k2 * (m - P) / t)) * t| ≤ 2 * D + 2000 * u * L := by
  have uL : u * L ≤ L / 1000 := by nlinarith
  have uL0 : 0 ≤ u * L := mul_nonneg u0 L0
  have e2 : (v1 - (v + k2 * (m - p) / t)) * t = v1 * t - (v * t + k2 * (m - p)) := by field_simp
  have e3 : (v1 - (V + k2 * (m - P) / t)) * t = v1 * t - (V * t + k2 * (m - P)) := by field_simp
  have e4 : (V + k2 * (m - P) / t) * t = V * t + k2 * (m - P) := by field_simp
  rw [e2] at h2
  rw [e3, e4]
  rw [sub_mul] at hV
  generalize v * t = w at *
  generalize v1 * t = w1 at *
  generalize V * t = W at *
  rw [abs_le] at hm hp hv hP hV h1 h2
  obtain ⟨m0, m1⟩ := hm
  obtain ⟨p0, p1'⟩ := hp
  obtain ⟨w0, w1'⟩ := hv
  obtain ⟨a0, a1⟩ := hP
  obtain ⟨b0, b1⟩ := hV
  obtain ⟨c0, c1⟩ := h1
  obtain ⟨d0, d1⟩ := h2
  have D0 : 0 ≤ D := by linarith
  have small : ∀ {c x A : ℚ}, -1 ≤ c → c ≤ 1 → -A ≤ x → x ≤ A → -A ≤ c * x ∧ c * x ≤ A := fun {c x A} c0 c1 x0 x1 => by
    have : |c * x| ≤ A := by
      rw [abs_mul]
      calc |c| * |x| ≤ 1 * A := mul_le_mul (abs_le.mpr ⟨c0, c1⟩) (abs_le.mpr ⟨x0, x1⟩) (abs_nonneg _) (by norm_num)
        _ = A := one_mul A
    exact abs_le.mp this
  obtain ⟨r1, r1'⟩ := small (x := m - p) (A := 5 * L) (by linarith) k11 (by linarith) (by linarith)
  obtain ⟨r2, r2'⟩ := small (x := m - p) (A := 5 * L) (by linarith) k21 (by linarith) (by linarith)
  have q1 : |p1| ≤ 10 * L := abs_le.mpr ⟨by linarith, by linarith⟩
  have q2 : |w1| ≤ 10 * L := abs_le.mpr ⟨by linarith, by linarith⟩
  obtain ⟨f0, f1⟩ := abs_le.mp (h3 q1 q2)
  obtain ⟨s1, s1'⟩ := small (c := 1 - k1 - k2) (by linarith) (by linarith) a0 a1
  obtain ⟨s2, s2'⟩ := small (by linarith : -1 ≤ k2) k21 a0 a1
  have i1 : p' - (P + k1 * (m - P) + (W + k2 * (m - P))) = (p' - (p1 + w1)) + (p1 - (p + k1 * (m - p))) + (w1 - (w + k2 * (m - p))) +
      (1 - k1 - k2) * (p - P) + (w - W) := by ring
  have i2 : w1 - (W + k2 * (m - P)) = (w1 - (w + k2 * (m - p))) + (w - W) - k2 * (p - P) := by ring
  rw [i1, i2]
  exact ⟨q1, q2, abs_le.mpr ⟨by linarith, by linarith⟩, abs_le.mpr ⟨by linarith, by linarith⟩⟩

/-- C94: the loop of the second example: gains between zero and one, an interval between `2^-5` and `2^20` seconds, up to 40 measurements of at most `B`
metres, and an initial position and (times the interval) speed of at most `B`.  The position and the speed computed in `double` are those of exact
arithmetic up to `1000 n 2^n` times the unit roundoff times `B`. -/
theorem C94_track (R : Rebinds) {k1 k2 tv : FVal} {t : QtyI} {B : ℚ} (hB : 1 ≤ B) (hB2 : B ≤ 2 ^ 40) (hk1 : FloatIn .f64 0 1 k1) (hk2 : FloatIn .f64 0 1 k2)
    (ht : Measured (.qty (timeTy (.flt .f64))) (.qty t) tv) (htv : FloatIn .f64 (1 / 2 ^ 5) (2 ^ 20) tv) :
    ∀ (ms : List QtyI) (vs : List FVal) (j : ℕ) (p v : FVal) (P V : ℚ), List.Forall₂ (fun m x => Measured (.qty (lenTy (.flt .f64))) (.qty m) x) ms vs →
      (∀ x ∈ vs, FloatIn .f64 (-B) B x) → j + ms.length ≤ 40 → p.Finite → p.In .f64 → v.Finite → v.In .f64 →
      |P| ≤ (3 * 2 ^ j - 2) * B → |V * tv.q| ≤ (3 * 2 ^ j - 2) * B →
      |p.q - P| ≤ 1000 * j * 2 ^ j / 2 ^ 53 * B → |(v.q - V) * tv.q| ≤ 1000 * j * 2 ^ j / 2 ^ 53 * B →
      ∃ p' v', trackLoopI demoEnv R ⟨gainTy, .f k1⟩ ⟨gainTy, .f k2⟩ t (.qty ⟨lenTy (.flt .f64), .f p⟩, .qty ⟨Demos.speedTy (.flt .f64), .f v⟩) (ms.map .qty) =
          .ok (.qty ⟨lenTy (.flt .f64), .f p'⟩, .qty ⟨Demos.speedTy (.flt .f64), .f v'⟩) ∧ p'.Finite ∧ p'.In .f64 ∧ v'.Finite ∧ v'.In .f64 ∧
        |p'.q - (trackExact k1.q k2.q tv.q (P, V) (vs.map FVal.q)).1| ≤ 1000 * (j + ms.length : ℕ) * 2 ^ (j + ms.length) / 2 ^ 53 * B ∧
        |(v'.q - (trackExact k1.q k2.q tv.q (P, V) (vs.map FVal.q)).2) * tv.q| ≤ 1000 * (j + ms.length : ℕ) * 2 ^ (j + ms.length) / 2 ^ 53 * B := by
  have t0 : (0 : ℚ) < tv.q := lt_of_lt_of_le (by norm_num) htv.lower
  have T : Mid tv := ⟨htv.finite, htv.within, by rw [abs_of_pos t0]; exact le_trans (by norm_num) htv.lower, by
    rw [abs_of_pos t0]; exact htv.upper.trans (by norm_num)⟩
  have TU : Upto 100 tv := ⟨T.finite, T.within, T.upper⟩
  have gk {k : FVal} (h : FloatIn .f64 0 1 k) : Upto 100 k := ⟨h.finite, h.within, by rw [abs_of_nonneg h.lower]; exact h.upper.trans (by norm_num)⟩
  intro ms
  induction ms with
  | nil =>
    intro vs j p v P V h _ _ fp ip fv iv _ _ hp hv
    cases h
    exact ⟨p, v, rfl, fp, ip, fv, iv, by simpa [trackExact] using hp, by simpa [trackExact] using hv⟩
  | cons m ms ih =>
    intro vs j p v P V h hvs hj fp ip fv iv hP hV hp hv
    cases h with
    | cons hm hms =>
    rename_i x xs
    obtain ⟨fx, ix, lx, ux⟩ := hvs x List.mem_cons_self
    have xB : |x.q| ≤ B := abs_le.mpr ⟨lx, ux⟩
    have j40 : j ≤ 39 := by simp only [List.length_cons] at hj; omega
    -- sizes
    obtain ⟨L, hL⟩ : ∃ L : ℚ, L = 2 ^ j * B := ⟨_, rfl⟩
    have p2 : (1 : ℚ) ≤ 2 ^ j := one_le_pow₀ (by norm_num)
    have p2' : (2 : ℚ) ^ j ≤ 2 ^ 39 := pow_le_pow_right₀ (by norm_num) j40
    have BL : B ≤ L := by rw [hL]; exact le_mul_of_one_le_left (by linarith) p2
    have L1 : 1 ≤ L := hB.trans BL
    have L2 : L ≤ 2 ^ 79 := by
      rw [hL, show (2 : ℚ) ^ 79 = 2 ^ 39 * 2 ^ 40 by norm_num]
      exact mul_le_mul p2' hB2 (by linarith) (by positivity)
    have jq : (j : ℚ) ≤ 39 := by exact_mod_cast j40
    have Dj : 1000 * j * 2 ^ j / 2 ^ 53 * B ≤ L := by
      rw [show 1000 * (j : ℚ) * 2 ^ j / 2 ^ 53 * B = 1000 * j / 2 ^ 53 * L by rw [hL]; ring]
      exact mul_le_of_le_one_left (by linarith) (by rw [div_le_one (by positivity)]; linarith [(by norm_num : (39000 : ℚ) ≤ 2 ^ 53)])
    have XL : (3 * 2 ^ j - 2) * B ≤ 3 * L := by rw [hL]; linarith
    have hp4 : |p.q| ≤ 4 * L := by
      have := abs_add_le (p.q - P) P
      rw [sub_add_cancel] at this; linarith
    have hv4 : |v.q * tv.q| ≤ 4 * L := by
      have := abs_add_le ((v.q - V) * tv.q) (V * tv.q)
      rw [← add_mul, sub_add_cancel] at this; linarith
    have big {y : ℚ} (h : |y * tv.q| ≤ 10 * L) : |y| ≤ 2 ^ 100 := by
      rw [abs_mul, abs_of_pos t0] at h
      have := mul_le_mul_of_nonneg_left htv.lower (abs_nonneg y)
      rw [show (2 : ℚ) ^ 100 = 2 ^ 79 * 2 ^ 16 * 2 ^ 5 by norm_num]
      rw [mul_one_div, div_le_iff₀ (by positivity)] at this
      nlinarith [(by norm_num : (10 : ℚ) ≤ 2 ^ 16), (by positivity : (0 : ℚ) < 2 ^ 5)]
    have big' {y : ℚ} (h : |y| ≤ 10 * L) : |y| ≤ 2 ^ 100 := by
      rw [show (2 : ℚ) ^ 100 = 2 ^ 21 * 2 ^ 79 by norm_num]
      nlinarith [(by norm_num : (10 : ℚ) ≤ 2 ^ 21)]
    have up : Upto 100 p := ⟨fp, ip, big' (by linarith)⟩
    have uv : Upto 100 v := ⟨fv, iv, big (by linarith)⟩
    have ux' : Upto 100 x := ⟨fx, ix, xB.trans (hB2.trans (by norm_num))⟩
    obtain ⟨q, w, e1, fq, iq, fw, iw, r1, r2⟩ := C94_state_update R up uv (gk hk1) (gk hk2) hm ux' ht T
    have n0 : (0 : ℚ) ≤ 1 / 2 ^ 1020 := by positivity
    have n1 : (1 : ℚ) / 2 ^ 1020 ≤ 1 / 2 ^ 30 := one_div_le_one_div_of_le (by positivity) (pow_le_pow_right₀ (by norm_num) (by norm_num))
    have ex := fun {q w : FVal} (hq : Upto 100 q) (hw : Upto 100 w) => C94_extrapolation R hq hw ht TU
    generalize (1 : ℚ) / 2 ^ 1020 = η at n0 n1 r1 r2 ex
    have K1 := hk1.upper
    have K2 := hk2.upper
    have K10 := hk1.lower
    have K20 := hk2.lower
    have tη : tv.q * η ≤ 1 / 4 := by
      have := mul_le_mul htv.upper n1 n0 (by positivity)
      exact this.trans (by norm_num)
    have tη0 : 0 ≤ tv.q * η := mul_nonneg t0.le n0
    have prod {k : ℚ} (k0 : 0 ≤ k) (h : k ≤ 1) : k * (|x.q| + |p.q|) ≤ 5 * L := by
      have : k * (|x.q| + |p.q|) ≤ 1 * (|x.q| + |p.q|) := mul_le_mul_of_nonneg_right h (by positivity)
      linarith
    have h1 : |q.q - (p.q + k1.q * (x.q - p.q))| ≤ 580 * (1 / 2 ^ 53) * L := by
      refine r1.trans ?_
      rw [abs_of_nonneg K10, show 580 * (1 / 2 ^ 53) * L = 58 / 2 ^ 53 * (10 * L) by ring]
      refine mul_le_mul_of_nonneg_left ?_ (by positivity)
      have := prod K10 K1
      have : (k1.q + 2) * η ≤ 3 * η := mul_le_mul_of_nonneg_right (by linarith) n0
      linarith
    have h2 : |(w.q - (v.q + k2.q * (x.q - p.q) / tv.q)) * tv.q| ≤ 680 * (1 / 2 ^ 53) * L := by
      rw [abs_mul, abs_of_pos t0]
      refine (mul_le_mul_of_nonneg_right r2 t0.le).trans ?_
      rw [abs_of_nonneg K20, abs_of_pos t0, show 680 * (1 / 2 ^ 53) * L = 68 / 2 ^ 53 * (10 * L) by ring, mul_assoc]
      refine mul_le_mul_of_nonneg_left ?_ (by positivity)
      have e : (|v.q| + k2.q * (|x.q| + |p.q|) / tv.q + ((k2.q + 1) / tv.q + 2) * η) * tv.q =
          |v.q| * tv.q + k2.q * (|x.q| + |p.q|) + ((k2.q + 1) * η + 2 * (tv.q * η)) := by field_simp
      rw [e]
      have a1 := prod K20 K2
      have a2 : (k2.q + 1) * η ≤ 2 * η := mul_le_mul_of_nonneg_right (by linarith) n0
      have a3 : |v.q| * tv.q ≤ 4 * L := by rw [abs_mul, abs_of_pos t0] at hv4; exact hv4
      linarith
    have xL : |x.q| ≤ L := xB.trans BL
    have u0 : (0 : ℚ) ≤ 1 / 2 ^ 53 := by positivity
    have u1 : (1 : ℚ) / 2 ^ 53 ≤ 1 / 1000 := by norm_num
    have step := fun (p' : ℚ) h3 => track_step (p' := p') u0 u1 (by linarith : 0 ≤ L) t0 K10 K1 K20 K2 xL hp4 hv4 hp hv h1 h2 h3
    obtain ⟨c1, c2, -, -⟩ := step (q.q + w.q * tv.q) (fun _ _ => by rw [sub_self, abs_zero]; positivity)
    obtain ⟨p', e2, fp', ip', r3⟩ := ex (⟨fq, iq, big' c1⟩ : Upto 100 q) (⟨fw, iw, big c2⟩ : Upto 100 w)
    obtain ⟨-, -, d1, d2⟩ := step p'.q (fun a b => by
      refine r3.trans ?_
      rw [show 714 * (1 / 2 ^ 53) * L = 34 / 2 ^ 53 * (21 * L) by ring]
      exact mul_le_mul_of_nonneg_left (by linarith) (by positivity))
    have eD : 2 * (1000 * j * 2 ^ j / 2 ^ 53 * B) + 2000 * (1 / 2 ^ 53) * L = 1000 * ((j + 1 : ℕ) : ℚ) * 2 ^ (j + 1) / 2 ^ 53 * B := by
      rw [hL]; push_cast; ring
    rw [eD] at d1 d2
    obtain ⟨X, hX⟩ : ∃ X : ℚ, X = (3 * 2 ^ j - 2) * B := ⟨_, rfl⟩
    have eX : (3 * 2 ^ (j + 1) - 2) * B = 2 * X + 2 * B := by rw [hX]; ring
    rw [← hX] at hP hV
    have e4 : (V + k2.q * (x.q - P) / tv.q) * tv.q = V * tv.q + k2.q * (x.q - P) := by field_simp
    have g1 : |P + k1.q * (x.q - P) + (V + k2.q * (x.q - P) / tv.q) * tv.q| ≤ (3 * 2 ^ (j + 1) - 2) * B := by
      rw [e4, eX, show P + k1.q * (x.q - P) + (V * tv.q + k2.q * (x.q - P)) = (1 - k1.q - k2.q) * P + V * tv.q + (k1.q + k2.q) * x.q by ring]
      refine (abs_add_three _ _ _).trans ?_
      rw [abs_mul, abs_mul (k1.q + k2.q)]
      have a1 := mul_le_mul (abs_le.mpr ⟨by linarith, by linarith⟩ : |1 - k1.q - k2.q| ≤ 1) hP (abs_nonneg _) (by norm_num)
      have a2 := mul_le_mul (abs_le.mpr ⟨by linarith, by linarith⟩ : |k1.q + k2.q| ≤ 2) xB (abs_nonneg _) (by norm_num)
      linarith
    have g2 : |(V + k2.q * (x.q - P) / tv.q) * tv.q| ≤ (3 * 2 ^ (j + 1) - 2) * B := by
      rw [e4, eX, show V * tv.q + k2.q * (x.q - P) = V * tv.q + k2.q * x.q + -k2.q * P by ring]
      refine (abs_add_three _ _ _).trans ?_
      rw [abs_mul k2.q, abs_mul (-k2.q)]
      have a1 := mul_le_mul (abs_le.mpr ⟨by linarith, by linarith⟩ : |-k2.q| ≤ 1) hP (abs_nonneg _) (by norm_num)
      have a2 := mul_le_mul (abs_le.mpr ⟨by linarith, by linarith⟩ : |k2.q| ≤ 1) xB (abs_nonneg _) (by norm_num)
      linarith
    have len : j + (m :: ms).length = j + 1 + ms.length := by simp only [List.length_cons]; omega
    obtain ⟨p'', v'', e3, rest⟩ := ih xs (j + 1) p' w _ _ hms (fun y hy => hvs y (List.mem_cons_of_mem _ hy)) (by omega) fp' ip' fw iw g1 g2 d1 d2
    refine ⟨p'', v'', ?_, ?_⟩
    · show (stateUpdate2I _ _ _ _ _ _ _ _ >>= _) = _
      rw [e1, ok_bind, e2, ok_bind]
      exact e3
    · rw [len]; exact rest

/-! ### Cases -/

/-- The gains 0.2 and 0.1 of example/kalman_filter/kalman_filter-example_2.cpp:57 as `double`. -/
def exGain02 : FVal := .fin false (3602879701896397 / 2 ^ 54)
@[inherit_doc exGain02]
def exGain01 : FVal := .fin false (3602879701896397 / 2 ^ 55)

theorem exGain02_in : FloatIn .f64 0 1 exGain02 := ⟨trivial, ⟨by norm_num, by decide +kernel⟩, by norm_num [exGain02, FVal.q], by norm_num [exGain02, FVal.q]⟩
theorem exGain01_in : FloatIn .f64 0 1 exGain01 := ⟨trivial, ⟨by norm_num, by decide +kernel⟩, by norm_num [exGain01, FVal.q], by norm_num [exGain01, FVal.q]⟩

/-- An integral measurement in metres. -/
def exReading (z : Int) : QtyI := ⟨lenTy (.int .i64), .i z⟩

/-- The measurements of the program, example/kalman_filter/kalman_filter-example_2.cpp:55-56. -/
def exReadings : List Int := [30110, 30265, 30740, 30750, 31135, 31015, 31180, 31610, 31960, 31865]

theorem exReading_measured {z : Int} (h0 : 0 ≤ z) (h1 : z < 2 ^ 40) : Measured (.qty (lenTy (.flt .f64))) (.qty (exReading z)) (.fin false z) := by
  refine .inr ⟨.i64, z, rfl, ?_, ?_, ?_⟩
  · constructor
    · norm_num [IntTy.lo, IntTy.bits, IntTy.signed]; omega
    · norm_num [IntTy.hi, IntTy.bits, IntTy.signed]; omega
  · rw [abs_of_nonneg (by exact_mod_cast h0)]
    have : z < 2 ^ 53 := by omega
    exact_mod_cast this
  · rw [decide_eq_false (by omega), abs_of_nonneg (by exact_mod_cast h0)]

theorem exFive_measured : Measured (.qty (timeTy (.flt .f64))) (.qty ⟨timeTy (.int .i64), .i 5⟩) (.fin false 5) :=
  .inr ⟨.i64, 5, rfl, by decide +kernel, by norm_num, by decide +kernel⟩

/-- The whole program: ten measurements of about 30 km.  The position is that of exact arithmetic within a tenth of a millimetre, the speed within a
tenth of a millimetre per five seconds. -/
example (R : Rebinds) : ∃ p v, trackLoopI demoEnv R ⟨gainTy, .f exGain02⟩ ⟨gainTy, .f exGain01⟩ ⟨timeTy (.int .i64), .i 5⟩
      (.qty ⟨lenTy (.flt .f64), .f (.fin false 30200)⟩, .qty ⟨Demos.speedTy (.flt .f64), .f (.fin false 40)⟩) ((exReadings.map exReading).map .qty) =
      .ok (.qty ⟨lenTy (.flt .f64), .f p⟩, .qty ⟨Demos.speedTy (.flt .f64), .f v⟩) ∧ p.Finite ∧ v.Finite ∧
    |p.q - (trackExact exGain02.q exGain01.q 5 (30200, 40) (exReadings.map (fun z => (z : ℚ)))).1| ≤ 1 / 10000 ∧
    |(v.q - (trackExact exGain02.q exGain01.q 5 (30200, 40) (exReadings.map (fun z => (z : ℚ)))).2) * 5| ≤ 1 / 10000 := by
  have hr : ∀ z ∈ exReadings, 0 ≤ z ∧ z < 2 ^ 15 := by decide
  have hin : ∀ z ∈ exReadings, FltTy.f64.rndMag (z : ℚ) = some (z : ℚ) := by decide +kernel
  obtain ⟨p, v, h, fp, -, fv, -, r1, r2⟩ := C94_track R (B := 2 ^ 15) (by norm_num) (by norm_num) exGain02_in exGain01_in exFive_measured
    (tv := .fin false 5) ⟨trivial, ⟨by norm_num, by decide +kernel⟩, by norm_num [FVal.q], by norm_num [FVal.q]⟩
    (exReadings.map exReading) (exReadings.map fun z : Int => .fin false (z : ℚ)) 0 (.fin false 30200) (.fin false 40) 30200 40
    (by
      rw [List.forall₂_map_left_iff, List.forall₂_map_right_iff, List.forall₂_same]
      intro z hz
      exact exReading_measured (hr z hz).1 (by have := (hr z hz).2; omega))
    (by
      intro x hx
      obtain ⟨z, hz, rfl⟩ := List.mem_map.mp hx
      have a : (0 : ℚ) ≤ z := by exact_mod_cast (hr z hz).1
      have b : (z : ℚ) ≤ 2 ^ 15 := by exact_mod_cast (hr z hz).2.le
      exact ⟨trivial, ⟨a, hin z hz⟩, by show -(2 ^ 15 : ℚ) ≤ z; linarith, b⟩)
    (by decide) trivial ⟨by norm_num, by decide +kernel⟩ trivial ⟨by norm_num, by decide +kernel⟩ (by norm_num) (by norm_num [FVal.q])
    (by norm_num [FVal.q]) (by norm_num [FVal.q])
  refine ⟨p, v, h, fp, fv, ?_, ?_⟩
  · rw [List.map_map] at r1
    exact r1.trans (by norm_num [exReadings])
  · rw [List.map_map] at r2
    exact r2.trans (by norm_num [exReadings])

/-- The first iteration of the program: 30182 m and 38.2 m/s, extrapolated to 30373 m. -/
example : trackLoopI demoEnv exNoRebinds ⟨gainTy, .f exGain02⟩ ⟨gainTy, .f exGain01⟩ ⟨timeTy (.int .i64), .i 5⟩
      (.qty ⟨lenTy (.flt .f64), .f (.fin false 30200)⟩, .qty ⟨Demos.speedTy (.flt .f64), .f (.fin false 40)⟩) [.qty (exReading 30110)] =
    .ok (.qty ⟨lenTy (.flt .f64), .f (.fin false 30373)⟩, .qty ⟨Demos.speedTy (.flt .f64), .f (.fin false (2688086027586765 / 2 ^ 46))⟩) := by decide +kernel

/-- `C94_expression` and `C94_sign` apply to the product of the gain and the innovation, a difference: it is negative, as it should be. -/
example : ∃ r, (ExprI.mul (.lit ⟨gainTy, .f exGain02⟩) (.addSub true (.lit (exReading 30110)) (.lit ⟨lenTy (.flt .f64), .f (.fin false 30200)⟩))).eval demoEnv = .ok r ∧
    r.amount refSizes < 0 := by
  obtain ⟨e, w, s, x, m, -⟩ := gainTimesInnovation (p := .fin false 30200) (k := exGain02) (m := exReading 30110) (mv := .fin false ((30110 : Int) : ℚ))
    ⟨trivial, ⟨by norm_num, by decide +kernel⟩, by norm_num [FVal.q]⟩
    ⟨exGain02_in.finite, exGain02_in.within, by rw [abs_of_nonneg exGain02_in.lower]; exact exGain02_in.upper.trans (by norm_num)⟩
    (exReading_measured (by norm_num) (by norm_num)) ⟨trivial, ⟨by norm_num, by decide +kernel⟩, by norm_num [FVal.q]⟩
  refine ⟨_, e, ((C94_sign demoEnv demoEnv_ok refSizes refSizes_pos .f64 _ _ w (by rw [s, u53]; norm_num) e ?_).2).mpr ?_⟩
  · rw [s, x, u53]
    refine lt_of_le_of_lt (mul_le_mul_of_nonneg_left m (by positivity)) ?_
    have h := eta.2
    have h0 := eta.1
    generalize (1 : ℝ) / 2 ^ 1020 = η at h h0 ⊢
    norm_num [exGain02, FVal.q, abs_of_pos, abs_of_neg]
    linarith
  · rw [x]; norm_num [exGain02, FVal.q]

/-- Without the bounds on the numbers the claim fails: halfway between `-2^1023 m` and `2^1023 m` is not zero but infinity. -/
theorem C94_overflow_wrong :
    stateUpdate2I demoEnv exNoRebinds (.qty ⟨lenTy (.flt .f64), .f (.fin true (2 ^ 1023))⟩) (.qty ⟨Demos.speedTy (.flt .f64), .f (.fin false 40)⟩)
      (.qty ⟨lenTy (.flt .f64), .f (.fin false (2 ^ 1023))⟩) ⟨gainTy, .f (.fin false (1 / 2))⟩ ⟨gainTy, .f (.fin false 0)⟩ ⟨timeTy (.int .i64), .i 5⟩ =
      .ok (.qty ⟨lenTy (.flt .f64), .f (.inf false)⟩, .qty ⟨Demos.speedTy (.flt .f64), .f .nan⟩) := by decide +kernel

end Verif
