import Verif.IeeeExpr
import Verif.Props.IeeeOpsProps
import Verif.Props.IeeeArithProps
import Verif.Props.DemosProps
import Verif.Props.SystemsProps

/-!
# C93: whole expressions in IEEE floating point

The theorems of C69, C70 and C75 are about one operation.  Here: any expression of products, quotients, sums of amounts of one sign and casts, nested to
any depth, with mixed representations.
-/

namespace Verif

open FltTy Systems Demos

set_option maxRecDepth 100000

/-! ### Specification -/

/-- `x` is `X` up to `k` factors between `1 - u` and `1 / (1 - u)`. -/
def Rel (u : ℝ) (k : ℕ) (X x : ℝ) : Prop := ∃ t, x = X * t ∧ (1 - u) ^ k ≤ t ∧ t ≤ ((1 - u) ^ k)⁻¹

/-- The amount an expression stands for, in exact real arithmetic: a cast does not change it. -/
noncomputable def ExprI.exact (β : String → ℝ) : ExprI → ℝ
  | .lit q => q.amount β
  | .mul a b => a.exact β * b.exact β
  | .div a b => a.exact β / b.exact β
  | .scale op e _ v => if op = .mul then e.exact β * v.q else e.exact β / v.q
  | .addSub sub a b => if sub then a.exact β - b.exact β else a.exact β + b.exact β
  | .cast _ e => e.exact β

/-- The decimal exponent of the conversion between the types of two values. -/
def convExp (est : RootEstimate) : C QtyI → C QtyI → ℕ
  | .ok q, .ok t =>
    match castRatio est q.ty.dim q.ty.unit t.ty.dim t.ty.unit with
    | .ok c => c.exp.natAbs
    | .error _ => 0
  | _, _ => 0

/-- How many roundings the number of an expression may have gone through. -/
def ExprI.steps (E : Env) : ExprI → ℕ
  | .lit _ => 0
  | .mul a b => a.steps E + b.steps E + 5
  | .div a b => a.steps E + b.steps E + 5
  | .scale _ e _ _ => e.steps E + 5
  | .addSub sub a b => max (a.steps E) (b.steps E) +
      (max (convExp E.est (a.eval E) ((ExprI.addSub sub a b).eval E)) (convExp E.est (b.eval E) ((ExprI.addSub sub a b).eval E)) + 12)
  | .cast t e => e.steps E + (convExp E.est (e.eval E) ((ExprI.cast t e).eval E) + 8)

/-- The type of the result is that of a quantity with a floating point number of at least the precision `u`, and the exact amount is well within its
normal range. -/
def ExprI.Normal (E : Env) (β : String → ℝ) (f : FltTy) (e : ExprI) : Prop :=
  ∀ r, e.eval E = .ok r → r.ty.Good E ∧ ∃ g, r.ty.rep = .flt g ∧ g.u ≤ f.u ∧ 2 ^ (g.emin + 2) * r.ty.size β ≤ |e.exact β| ∧
    |e.exact β| ≤ 2 ^ (g.emax - 3) * r.ty.size β

/-- The hypotheses on an expression: its literals are finite numbers of their types, integers or floating point; every other part has a floating point
result in the normal range; sums are of amounts of one sign, differences of amounts of different signs; conversions are between dimensions of the same
size and with ratios of moderate exponents. -/
def ExprI.Fine (E : Env) (β : String → ℝ) (f : FltTy) : ExprI → Prop
  | .lit q => q.ty.Good E ∧ q.num.Typed q.ty.rep ∧ q.num.Finite
  | .mul a b => a.Fine E β f ∧ b.Fine E β f ∧ (ExprI.mul a b).Normal E β f
  | .div a b => a.Fine E β f ∧ b.Fine E β f ∧ (ExprI.div a b).Normal E β f
  | .scale op e rep v => e.Fine E β f ∧ v.Typed rep ∧ v.Finite ∧ op.Scaling v.q ∧ (ExprI.scale op e rep v).Normal E β f
  | .addSub sub a b => a.Fine E β f ∧ b.Fine E β f ∧ (if sub then a.exact β * b.exact β ≤ 0 else 0 ≤ a.exact β * b.exact β) ∧
      (ExprI.addSub sub a b).Normal E β f ∧
      ∀ x y r g, a.eval E = .ok x → b.eval E = .ok y → (ExprI.addSub sub a b).eval E = .ok r → r.ty.rep = .flt g →
        Related β x.ty y.ty ∧ convExp E.est (a.eval E) (.ok r) ≤ g.safeExp ∧ convExp E.est (b.eval E) (.ok r) ≤ g.safeExp
  | .cast t e => e.Fine E β f ∧ (ExprI.cast t e).Normal E β f ∧
      ∀ x g, e.eval E = .ok x → t.rep = .flt g → Coherent β x.ty.dim t.dim ∧ convExp E.est (e.eval E) ((ExprI.cast t e).eval E) ≤ g.safeExp

/-! ### Relative errors -/

section
set_option linter.unusedSectionVars false
variable {u : ℝ} (h0 : 0 ≤ u) (h1 : u < 1)
include h0 h1

theorem Rel.refl (k : ℕ) (X : ℝ) : Rel u k X X := by
  have p : 0 < (1 - u) ^ k := pow_pos (by linarith) k
  have q : (1 - u) ^ k ≤ 1 := pow_le_one₀ (by linarith) (by linarith)
  exact ⟨1, by ring, q, (one_le_inv₀ p).mpr q⟩

theorem Rel.weaken {k k' : ℕ} (hk : k ≤ k') {X x : ℝ} (h : Rel u k X x) : Rel u k' X x := by
  obtain ⟨t, e, l, r⟩ := h
  have p : 0 < (1 - u) ^ k' := pow_pos (by linarith) _
  have q : (1 - u) ^ k' ≤ (1 - u) ^ k := pow_le_pow_of_le_one (by linarith) (by linarith) hk
  exact ⟨t, e, q.trans l, r.trans (inv_anti₀ p q)⟩

theorem Rel.trans {k j : ℕ} {X x y : ℝ} (h : Rel u k X x) (h' : Rel u j x y) : Rel u (k + j) X y := by
  obtain ⟨t, rfl, l, r⟩ := h
  obtain ⟨s, rfl, l', r'⟩ := h'
  have p : 0 < (1 - u) ^ k := pow_pos (by linarith) _
  have q : 0 < (1 - u) ^ j := pow_pos (by linarith) _
  refine ⟨t * s, by ring, ?_, ?_⟩
  · rw [pow_add]; exact mul_le_mul l l' q.le (p.le.trans l)
  · rw [pow_add, mul_inv]; exact mul_le_mul r r' (q.le.trans l') (inv_nonneg.mpr p.le)

theorem Rel.mul {k j : ℕ} {X x Y y : ℝ} (h : Rel u k X x) (h' : Rel u j Y y) : Rel u (k + j) (X * Y) (x * y) := by
  obtain ⟨t, rfl, l, r⟩ := h
  obtain ⟨s, rfl, l', r'⟩ := h'
  have p : 0 < (1 - u) ^ k := pow_pos (by linarith) _
  have q : 0 < (1 - u) ^ j := pow_pos (by linarith) _
  refine ⟨t * s, by ring, ?_, ?_⟩
  · rw [pow_add]; exact mul_le_mul l l' q.le (p.le.trans l)
  · rw [pow_add, mul_inv]; exact mul_le_mul r r' (q.le.trans l') (inv_nonneg.mpr p.le)

theorem Rel.inv {k : ℕ} {X x : ℝ} (h : Rel u k X x) : Rel u k X⁻¹ x⁻¹ := by
  obtain ⟨t, rfl, l, r⟩ := h
  have p : 0 < (1 - u) ^ k := pow_pos (by linarith) _
  have t0 : 0 < t := p.trans_le l
  refine ⟨t⁻¹, by rw [mul_inv], ?_, ?_⟩
  · rw [← inv_inv ((1 - u) ^ k)]; exact inv_anti₀ t0 r
  · exact inv_anti₀ p l

theorem Rel.div {k j : ℕ} {X x Y y : ℝ} (h : Rel u k X x) (h' : Rel u j Y y) : Rel u (k + j) (X / Y) (x / y) := by
  rw [div_eq_mul_inv, div_eq_mul_inv]
  exact h.mul h0 h1 (h'.inv h0 h1)

theorem Rel.add {k : ℕ} {X x Y y : ℝ} (h : Rel u k X x) (h' : Rel u k Y y) (hs : 0 ≤ X * Y) : Rel u k (X + Y) (x + y) := by
  obtain ⟨t, rfl, l, r⟩ := h
  obtain ⟨s, rfl, l', r'⟩ := h'
  by_cases hz : X + Y = 0
  · have hx : X = 0 := by nlinarith [sq_nonneg X, sq_nonneg Y]
    have hy : Y = 0 := by linarith
    exact ⟨1, by rw [hx, hy]; ring, (Rel.refl h0 h1 k X).elim fun _ _ => pow_le_one₀ (by linarith) (by linarith),
      (one_le_inv₀ (pow_pos (by linarith) _)).mpr (pow_le_one₀ (by linarith) (by linarith))⟩
  · refine ⟨(X * t + Y * s) / (X + Y), by field_simp, ?_, ?_⟩
    · rcases lt_or_gt_of_ne hz with hn | hp
      · have hx : X ≤ 0 := by by_contra h; push Not at h; nlinarith
        have hy : Y ≤ 0 := by by_contra h; push Not at h; nlinarith
        rw [le_div_iff_of_neg hn]; nlinarith
      · have hx : 0 ≤ X := by by_contra h; push Not at h; nlinarith
        have hy : 0 ≤ Y := by by_contra h; push Not at h; nlinarith
        rw [le_div_iff₀ hp]; nlinarith
    · rcases lt_or_gt_of_ne hz with hn | hp
      · have hx : X ≤ 0 := by by_contra h; push Not at h; nlinarith
        have hy : Y ≤ 0 := by by_contra h; push Not at h; nlinarith
        rw [div_le_iff_of_neg hn]; nlinarith
      · have hx : 0 ≤ X := by by_contra h; push Not at h; nlinarith
        have hy : 0 ≤ Y := by by_contra h; push Not at h; nlinarith
        rw [div_le_iff₀ hp]; nlinarith

theorem Rel.neg {k : ℕ} {X x : ℝ} (h : Rel u k X x) : Rel u k (-X) (-x) := by
  obtain ⟨t, rfl, l, r⟩ := h
  exact ⟨t, by ring, l, r⟩

/-- Less than a factor two. -/
theorem Rel.two {k : ℕ} {X x : ℝ} (h : Rel u k X x) (hk : k * u ≤ 1 / 2) : |X| / 2 ≤ |x| ∧ |x| ≤ 2 * |X| := by
  obtain ⟨t, rfl, l, r⟩ := h
  have b : 1 + (k : ℝ) * (-u) ≤ (1 + -u) ^ k := one_add_mul_le_pow (by linarith) k
  have b' : 1 / 2 ≤ (1 - u) ^ k := by rw [← sub_eq_add_neg] at b; linarith
  have r' : t ≤ 2 := r.trans (by rw [show (2 : ℝ) = (1 / 2)⁻¹ by norm_num]; exact inv_anti₀ (by norm_num) b')
  have l' : 1 / 2 ≤ t := b'.trans l
  rw [abs_mul, abs_of_nonneg (by linarith : 0 ≤ t)]
  have := abs_nonneg X
  constructor <;> nlinarith

theorem Rel.err {k : ℕ} {X x : ℝ} (h : Rel u k X x) (hk : k * u ≤ 1 / 2) : |x - X| ≤ 2 * k * u * |X| := by
  obtain ⟨t, rfl, l, r⟩ := h
  have b : 1 + (k : ℝ) * (-u) ≤ (1 + -u) ^ k := one_add_mul_le_pow (by linarith) k
  rw [← sub_eq_add_neg] at b
  have n : 0 ≤ (k : ℝ) * u := mul_nonneg (Nat.cast_nonneg k) h0
  have r' : t ≤ (1 - k * u)⁻¹ := r.trans (inv_anti₀ (by linarith) (by linarith))
  have r'' : (1 - k * u)⁻¹ ≤ 1 + 2 * (k * u) := by
    rw [inv_le_iff_one_le_mul₀ (by linarith)]; nlinarith
  rw [show X * t - X = (t - 1) * X by ring, abs_mul]
  exact mul_le_mul_of_nonneg_right (abs_le.mpr ⟨by nlinarith, by nlinarith⟩) (abs_nonneg _)

end

theorem Rel.mono {u v : ℝ} (hu : u ≤ v) (h1 : v < 1) {k : ℕ} {X x : ℝ} (h : Rel u k X x) : Rel v k X x := by
  obtain ⟨t, e, l, r⟩ := h
  have p : 0 < (1 - v) ^ k := pow_pos (by linarith) _
  have q : (1 - v) ^ k ≤ (1 - u) ^ k := pow_le_pow_left₀ (by linarith) (by linarith) _
  exact ⟨t, e, q.trans l, r.trans (inv_anti₀ p q)⟩

/-- The bounds of C69, C70 and C75 as factors. -/
theorem Rel.of_gamma {f : FltTy} {n : ℕ} (hn : n ≤ f.safeExp + 10) {X x : ℝ} (h : |x - X| ≤ gammaErr f n * |X|) : Rel f.u (n + 2) X x := by
  have u0 : (0 : ℝ) < f.u := by exact_mod_cast f.u_pos
  have u1 : (f.u : ℝ) < 1 := by exact_mod_cast f.u_lt_one
  have small : ((n : ℝ) + 1) * (n + 2) * 2 * f.u ≤ 1 := by
    have key : (((f.safeExp + 10 : ℕ) : ℚ) + 1) * ((f.safeExp + 10 : ℕ) + 2) * 2 * f.u ≤ 1 := by cases f <;> decide +kernel
    have key' : (((f.safeExp + 10 : ℕ) : ℝ) + 1) * ((f.safeExp + 10 : ℕ) + 2) * 2 * f.u ≤ 1 := by exact_mod_cast key
    have hn' : (n : ℝ) ≤ ((f.safeExp + 10 : ℕ) : ℝ) := by exact_mod_cast hn
    have n0 : (0 : ℝ) ≤ n := Nat.cast_nonneg n
    refine le_trans ?_ key'
    have : ((n : ℝ) + 1) * (n + 2) ≤ (((f.safeExp + 10 : ℕ) : ℝ) + 1) * (((f.safeExp + 10 : ℕ) : ℝ) + 2) :=
      mul_le_mul (by linarith) (by linarith) (by linarith) (by linarith)
    nlinarith
  generalize hu : (f.u : ℝ) = u at *
  have hg : ((gammaErr f n : ℚ) : ℝ) = (1 + u) ^ n / (1 - u) - 1 := by unfold gammaErr; push_cast; rw [hu]
  rw [hg] at h
  by_cases hX : X = 0
  · subst hX
    have : x = 0 := by simpa using h
    subst this
    exact Rel.refl u0.le u1 _ _
  have n0 : (0 : ℝ) ≤ n := Nat.cast_nonneg n
  have w : 0 < 1 - u := by linarith
  -- the upper bound
  have a1 : (1 + u) ^ n ≤ ((1 - u) ^ n)⁻¹ := by
    rw [← inv_pow]
    refine pow_le_pow_left₀ (by linarith) ?_ n
    rw [inv_eq_one_div, le_div_iff₀ w]; nlinarith
  have a2 : (1 + u) ^ n / (1 - u) ≤ ((1 - u) ^ (n + 1))⁻¹ := by
    rw [pow_succ, mul_inv, div_eq_mul_inv]
    exact mul_le_mul_of_nonneg_right a1 (inv_nonneg.mpr w.le)
  have a3 : ((1 - u) ^ (n + 1))⁻¹ ≤ ((1 - u) ^ (n + 2))⁻¹ :=
    inv_anti₀ (pow_pos w _) (pow_le_pow_of_le_one w.le (by linarith) (by omega))
  -- the lower bound
  have b1 : 1 - (n + 1) * u ≤ (1 - u) ^ (n + 1) := by
    have := one_add_mul_le_pow (a := -u) (by linarith) (n + 1)
    rw [← sub_eq_add_neg] at this; push_cast at this; linarith
  have s1 : (n + 1) * u ≤ 1 / 4 := by nlinarith
  have b2 : (1 + u) ^ n / (1 - u) ≤ (1 - (n + 1) * u)⁻¹ := a2.trans (inv_anti₀ (by linarith) b1)
  have b3 : (1 - u) ^ (n + 2) ≤ (1 + (n + 2) * u)⁻¹ := by
    have c : 1 + ((n + 2 : ℕ) : ℝ) * u ≤ (1 + u) ^ (n + 2) := one_add_mul_le_pow (by linarith) _
    push_cast at c
    have d : (1 - u) ^ (n + 2) ≤ ((1 + u) ^ (n + 2))⁻¹ := by
      rw [← inv_pow]
      refine pow_le_pow_left₀ w.le ?_ _
      rw [inv_eq_one_div, le_div_iff₀ (by linarith)]; nlinarith
    exact d.trans (inv_anti₀ (by nlinarith) c)
  have b4 : (1 - (n + 1) * u)⁻¹ + (1 + (n + 2) * u)⁻¹ ≤ 2 := by
    have p : 0 < 1 - (n + 1) * u := by linarith
    have q : 0 < 1 + (n + 2) * u := by nlinarith
    rw [inv_eq_one_div, inv_eq_one_div, div_add_div _ _ p.ne' q.ne', div_le_iff₀ (mul_pos p q)]
    nlinarith
  have lim : |x / X - 1| ≤ (1 + u) ^ n / (1 - u) - 1 := by
    have : x / X - 1 = (x - X) / X := by field_simp
    rw [this, abs_div, div_le_iff₀ (abs_pos.mpr hX)]; exact h
  obtain ⟨l, r⟩ := abs_le.mp lim
  exact ⟨x / X, by field_simp, by linarith, by linarith⟩

/-! ### Expressions -/

theorem convExp_le {est : RootEstimate} {q t : QtyI} : ExpLe est t.ty q.ty (convExp est (.ok q) (.ok t)) := by
  intro c hc
  simp only [convExp, hc, le_refl]

theorem castRep_safeExp (s : Rep) (g : FltTy) : ∃ w, castRep s (.flt g) = .flt w ∧ g.safeExp ≤ w.safeExp := by
  rcases s with s | s <;> cases s <;> cases g <;> exact ⟨_, rfl, by decide⟩

theorem le_two_zpow {q : ℚ} {n : Int} (h : ((q : ℚ) : ℝ) ≤ 2 ^ n) : q ≤ 2 ^ n := by
  rw [show ((2 : ℝ) ^ n) = (((2 : ℚ) ^ n : ℚ) : ℝ) by push_cast; rfl] at h
  exact Rat.cast_le.mp h

theorem two_zpow_le {q : ℚ} {n : Int} (h : (2 : ℝ) ^ n ≤ ((q : ℚ) : ℝ)) : 2 ^ n ≤ q := by
  rw [show ((2 : ℝ) ^ n) = (((2 : ℚ) ^ n : ℚ) : ℝ) by push_cast; rfl] at h
  exact Rat.cast_le.mp h

/-- The value of an expression is finite and within the counted roundings of the exact amount. -/
theorem ExprI.rel {E : Env} (hE : E.OK) {β : String → ℝ} (hβ : Sizes β) {f : FltTy} : ∀ (e : ExprI) (r : QtyI), e.Fine E β f →
    (e.steps E : ℝ) * f.u ≤ 1 / 2 → e.eval E = .ok r →
    r.ty.Good E ∧ r.num.Typed r.ty.rep ∧ r.num.Finite ∧ Rel f.u (e.steps E) (e.exact β) (r.amount β) := by
  have u0 : (0 : ℝ) ≤ f.u := by exact_mod_cast f.u_pos.le
  have u1 : (f.u : ℝ) < 1 := by exact_mod_cast f.u_lt_one
  have sub : ∀ {m n : ℕ}, m ≤ n → (n : ℝ) * f.u ≤ 1 / 2 → (m : ℝ) * f.u ≤ 1 / 2 := fun h hn =>
    (mul_le_mul_of_nonneg_right (by exact_mod_cast h) u0).trans hn
  have two : ∀ n : Int, (2 : ℝ) ^ (n + 2) = 2 * 2 ^ (n + 1) := fun n => by
    rw [show n + 2 = n + 1 + 1 by ring, zpow_add₀ (by norm_num) (n + 1)]; ring
  have two' : ∀ n : Int, (2 : ℝ) ^ (n - 2) = 2 * 2 ^ (n - 3) := fun n => by
    rw [show n - 2 = n - 3 + 1 by ring, zpow_add₀ (by norm_num) (n - 3)]; ring
  intro e
  induction e with
  | lit q =>
    intro r hF _ h
    cases h
    exact ⟨hF.1, hF.2.1, hF.2.2, Rel.refl u0 u1 _ _⟩
  | mul a b iha ihb =>
    intro r ⟨Fa, Fb, N⟩ hk h
    have h' := h
    simp only [ExprI.eval, bind_ok] at h'
    obtain ⟨x, hx, y, hy, h'⟩ := h'
    obtain ⟨gr, g, hg, gu, lo, hi⟩ := N r h
    obtain ⟨gx, tx, fx, rx⟩ := iha x Fa (sub (by simp only [ExprI.steps]; omega) hk) hx
    obtain ⟨gy, ty, fy, ry⟩ := ihb y Fb (sub (by simp only [ExprI.steps]; omega) hk) hy
    have hrep : r.ty.rep = x.ty.rep.arith y.ty.rep := by
      unfold mulQtyI at h'
      simp only [bind_ok, Except.ok.injEq] at h'
      obtain ⟨⟨d, v⟩, -, z, -, rfl⟩ := h'
      rfl
    obtain ⟨-, tr, hS, c, -⟩ := C75_product E hE β hβ x y r g gx gy gr.dim tx ty fx fy (hrep.symm.trans hg) h'
    have rm : Rel f.u (a.steps E + b.steps E) (a.exact β * b.exact β) (x.amount β * y.amount β) := rx.mul u0 u1 ry
    obtain ⟨l2, h2⟩ := rm.two u0 u1 (sub (by simp only [ExprI.steps]; omega) hk)
    have S0 : 0 < r.ty.size β := gr.size_pos hβ
    have am : |x.amount β * y.amount β| = ((|x.num.q * y.num.q| : ℚ) : ℝ) * r.ty.size β := by
      rw [hS]; unfold QtyI.amount
      have := gx.size_pos hβ
      have := gy.size_pos hβ
      push_cast
      rw [show (x.num.q : ℝ) * x.ty.size β * (y.num.q * y.ty.size β) = x.num.q * y.num.q * (x.ty.size β * y.ty.size β) by ring, abs_mul _ (_ * _),
        abs_of_pos (mul_pos (gx.size_pos hβ) (gy.size_pos hβ))]
    simp only [ExprI.exact] at lo hi
    rw [am] at l2 h2
    have up : |x.num.q * y.num.q| ≤ 2 ^ (g.emax - 2) := by
      refine le_two_zpow ((mul_le_mul_iff_left₀ S0).mp ?_)
      rw [two']; linarith
    have dn : 2 ^ (g.emin + 1) ≤ |x.num.q * y.num.q| := by
      refine two_zpow_le ((mul_le_mul_iff_left₀ S0).mp ?_)
      rw [two] at lo; linarith
    obtain ⟨fr, -, er⟩ := c up
    refine ⟨gr, hg ▸ tr, fr, ?_⟩
    exact rm.trans u0 u1 ((Rel.of_gamma (n := 3) (by omega) (er dn)).mono (by exact_mod_cast gu) u1)
  | div a b iha ihb =>
    intro r ⟨Fa, Fb, N⟩ hk h
    have h' := h
    simp only [ExprI.eval, bind_ok] at h'
    obtain ⟨x, hx, y, hy, h'⟩ := h'
    obtain ⟨gr, g, hg, gu, lo, hi⟩ := N r h
    obtain ⟨gx, tx, fx, rx⟩ := iha x Fa (sub (by simp only [ExprI.steps]; omega) hk) hx
    obtain ⟨gy, ty, fy, ry⟩ := ihb y Fb (sub (by simp only [ExprI.steps]; omega) hk) hy
    have hrep : r.ty.rep = x.ty.rep.arith y.ty.rep := by
      unfold divQtyI at h'
      simp only [bind_ok, Except.ok.injEq] at h'
      obtain ⟨⟨d, v⟩, -, z, -, rfl⟩ := h'
      rfl
    have S0 : 0 < r.ty.size β := gr.size_pos hβ
    have rm : Rel f.u (a.steps E + b.steps E) (a.exact β / b.exact β) (x.amount β / y.amount β) := rx.div u0 u1 ry
    obtain ⟨l2, h2⟩ := rm.two u0 u1 (sub (by simp only [ExprI.steps]; omega) hk)
    simp only [ExprI.exact] at lo hi
    have y0 : y.num.q ≠ 0 := by
      intro e0
      have : y.amount β = 0 := by unfold QtyI.amount; rw [e0]; simp
      rw [this, div_zero, abs_zero] at l2
      have : 0 < 2 ^ (g.emin + 2) * r.ty.size β := mul_pos (by positivity) S0
      linarith
    obtain ⟨-, tr, hS, c, -⟩ := C75_quotient E hE β hβ x y r g gx gy gr.dim tx ty fx fy (hrep.symm.trans hg) y0 h'
    have am : |x.amount β / y.amount β| = ((|x.num.q / y.num.q| : ℚ) : ℝ) * r.ty.size β := by
      rw [hS]; unfold QtyI.amount
      push_cast
      rw [show (x.num.q : ℝ) * x.ty.size β / (y.num.q * y.ty.size β) = x.num.q / y.num.q * (x.ty.size β / y.ty.size β) by rw [mul_div_mul_comm],
        abs_mul _ (_ / _), abs_of_pos (div_pos (gx.size_pos hβ) (gy.size_pos hβ))]
    rw [am] at l2 h2
    have up : |x.num.q / y.num.q| ≤ 2 ^ (g.emax - 2) := by
      refine le_two_zpow ((mul_le_mul_iff_left₀ S0).mp ?_)
      rw [two']; linarith
    have dn : 2 ^ (g.emin + 1) ≤ |x.num.q / y.num.q| := by
      refine two_zpow_le ((mul_le_mul_iff_left₀ S0).mp ?_)
      rw [two] at lo; linarith
    obtain ⟨fr, -, er⟩ := c up
    refine ⟨gr, hg ▸ tr, fr, ?_⟩
    exact rm.trans u0 u1 ((Rel.of_gamma (n := 3) (by omega) (er dn)).mono (by exact_mod_cast gu) u1)
  | scale op a rep v iha =>
    intro r ⟨Fa, tv, fv, hop, N⟩ hk h
    have h' := h
    simp only [ExprI.eval, bind_ok] at h'
    obtain ⟨x, hx, h'⟩ := h'
    obtain ⟨gr, g, hg, gu, lo, hi⟩ := N r h
    obtain ⟨gx, tx, fx, rx⟩ := iha x Fa (sub (by simp only [ExprI.steps]; omega) hk) hx
    have hrep : r.ty.rep = x.ty.rep.arith rep := by
      unfold scaleQtyI at h'
      simp only [bind_ok, Except.ok.injEq] at h'
      obtain ⟨z, -, rfl⟩ := h'
      rfl
    obtain ⟨hty, tr, c, -⟩ := C75_scale E β hβ op x r rep v g gx tx tv fx fv (hrep.symm.trans hg) hop h'
    have S0 : 0 < r.ty.size β := gr.size_pos hβ
    have hS : r.ty.size β = x.ty.size β := by rw [hty]; rfl
    have rm : Rel f.u (a.steps E) (if op = .mul then a.exact β * v.q else a.exact β / v.q) (if op = .mul then x.amount β * v.q else x.amount β / v.q) := by
      split
      · exact rx.mul u0 u1 (Rel.refl u0 u1 0 _)
      · exact rx.div u0 u1 (Rel.refl u0 u1 0 _)
    obtain ⟨l2, h2⟩ := rm.two u0 u1 (sub (by simp only [ExprI.steps]; omega) hk)
    have am : |if op = .mul then x.amount β * v.q else x.amount β / v.q| = ((|op.exact x.num.q v.q| : ℚ) : ℝ) * r.ty.size β := by
      rw [hS]
      have p := gx.size_pos hβ
      unfold QtyI.amount
      rcases hop with rfl | ⟨rfl, -⟩
      · rw [if_pos rfl, show (x.num.q : ℝ) * x.ty.size β * v.q = x.num.q * v.q * x.ty.size β by ring, abs_mul _ (x.ty.size β), abs_of_pos p]
        simp only [BinOp.exact]; push_cast; rfl
      · rw [if_neg (by decide), show (x.num.q : ℝ) * x.ty.size β / v.q = x.num.q / v.q * x.ty.size β by ring, abs_mul _ (x.ty.size β), abs_of_pos p]
        simp only [BinOp.exact]; push_cast; rfl
    simp only [ExprI.exact] at lo hi
    rw [am] at l2 h2
    have up : |op.exact x.num.q v.q| ≤ 2 ^ (g.emax - 2) := by
      refine le_two_zpow ((mul_le_mul_iff_left₀ S0).mp ?_)
      rw [two']; linarith
    have dn : 2 ^ (g.emin + 1) ≤ |op.exact x.num.q v.q| := by
      refine two_zpow_le ((mul_le_mul_iff_left₀ S0).mp ?_)
      rw [two] at lo; linarith
    obtain ⟨fr, -, er⟩ := c up
    refine ⟨gr, hg ▸ tr, fr, ?_⟩
    exact rm.trans u0 u1 ((Rel.of_gamma (n := 3) (by omega) (er dn)).mono (by exact_mod_cast gu) u1)
  | addSub s a b iha ihb =>
    intro r ⟨Fa, Fb, sg, N, R⟩ hk h
    have h' := h
    simp only [ExprI.eval, bind_ok] at h'
    obtain ⟨x, hx, y, hy, h'⟩ := h'
    obtain ⟨gr, g, hg, gu, lo, hi⟩ := N r h
    obtain ⟨hrel, ca, cb⟩ := R x y r g hx hy h hg
    set n := max (convExp E.est (a.eval E) ((ExprI.addSub s a b).eval E)) (convExp E.est (b.eval E) ((ExprI.addSub s a b).eval E)) with hn
    have hst : (ExprI.addSub s a b).steps E = max (a.steps E) (b.steps E) + (n + 12) := rfl
    rw [hst] at hk ⊢
    obtain ⟨gx, tx, fx, rx⟩ := iha x Fa (sub (by omega) hk) hx
    obtain ⟨gy, ty, fy, ry⟩ := ihb y Fb (sub (by omega) hk) hy
    have hrep : x.ty.rep.arith y.ty.rep = .flt g := by
      have h'' := h'
      unfold addSubI at h''
      simp only [bind_ok, Except.ok.injEq] at h''
      obtain ⟨t, ht, _, -, _, -, z, -, rfl⟩ := h''
      obtain ⟨-, e, -⟩ := commonQty_sound hE hβ gx gy hrel ht
      rw [← e]; exact hg
    have S0 : 0 < r.ty.size β := gr.size_pos hβ
    have rx' := rx.weaken u0 u1 (le_max_left (a.steps E) (b.steps E))
    have ry' := ry.weaken u0 u1 (le_max_right (a.steps E) (b.steps E))
    have rm : Rel f.u (max (a.steps E) (b.steps E)) (if s then a.exact β - b.exact β else a.exact β + b.exact β)
        (if s then x.amount β - y.amount β else x.amount β + y.amount β) := by
      cases s
      · simp only [Bool.false_eq_true, if_false] at sg ⊢
        exact rx'.add u0 u1 ry' sg
      · simp only [if_true] at sg ⊢
        rw [sub_eq_add_neg, sub_eq_add_neg]
        exact rx'.add u0 u1 (ry'.neg u0 u1) (by linarith)
    obtain ⟨l2, h2⟩ := rm.two u0 u1 (sub (by omega) hk)
    have pos : ∀ {k : ℕ} {X z : ℝ}, Rel f.u k X z → ∃ t, z = X * t ∧ 0 < t := fun {k} {_} {_} ⟨t, e, l, _⟩ =>
      ⟨t, e, (pow_pos (by linarith) k).trans_le l⟩
    obtain ⟨t1, e1, p1⟩ := pos rx'
    obtain ⟨t2, e2, p2⟩ := pos ry'
    have mag : |x.amount β| + |y.amount β| = |if s then x.amount β - y.amount β else x.amount β + y.amount β| := by
      have e3 : x.amount β * y.amount β = a.exact β * b.exact β * (t1 * t2) := by rw [e1, e2]; ring
      have p3 : 0 < t1 * t2 := mul_pos p1 p2
      cases s
      · simp only [Bool.false_eq_true, if_false] at sg ⊢
        have : 0 ≤ x.amount β * y.amount β := by rw [e3]; exact mul_nonneg sg p3.le
        rcases mul_nonneg_iff.mp this with ⟨p, q⟩ | ⟨p, q⟩
        · rw [abs_of_nonneg p, abs_of_nonneg q, abs_of_nonneg (by linarith)]
        · rw [abs_of_nonpos p, abs_of_nonpos q, abs_of_nonpos (by linarith)]; ring
      · simp only [if_true] at sg ⊢
        have : x.amount β * y.amount β ≤ 0 := by rw [e3]; exact mul_nonpos_of_nonpos_of_nonneg sg p3.le
        rcases mul_nonpos_iff.mp this with ⟨p, q⟩ | ⟨p, q⟩
        · rw [abs_of_nonneg p, abs_of_nonpos q, abs_of_nonneg (by linarith)]; ring
        · rw [abs_of_nonpos p, abs_of_nonneg q, abs_of_nonpos (by linarith)]; ring
    simp only [ExprI.exact] at lo hi
    have na : ExpLe E.est r.ty x.ty n := fun c hc => by
      have := convExp_le c hc
      rw [← hx, ← h] at this
      exact this.trans (le_max_left _ _)
    have nb : ExpLe E.est r.ty y.ty n := fun c hc => by
      have := convExp_le c hc
      rw [← hy, ← h] at this
      exact this.trans (le_max_right _ _)
    have nn : n ≤ g.safeExp := by rw [hn, h]; exact max_le ca cb
    obtain ⟨-, tr, fr, er⟩ := C70_sum_partial E hE β hβ s x y r g n gx gy hrel tx ty fx fy hrep nn h' na nb
      (by rw [mag, two']; linarith)
    refine ⟨gr, hg ▸ tr, fr, ?_⟩
    rw [mag] at er
    refine rm.trans u0 u1 ((Rel.of_gamma (f := g) (n := n + 10) (by omega) (le_trans er ?_)).mono (by exact_mod_cast gu) u1)
    generalize |if s then x.amount β - y.amount β else x.amount β + y.amount β| = M at l2 h2
    have tn : ((g.tiny : ℚ) : ℝ) = g.u * 2 ^ (g.emin + 1) := by
      have : g.tiny = g.u * 2 ^ (g.emin + 1) := by cases g <;> decide +kernel
      rw [this]; push_cast; rfl
    have gp : (0 : ℝ) ≤ g.u := by exact_mod_cast g.u_pos.le
    have t3 : 3 * (g.tiny : ℝ) * r.ty.size β ≤ 3 * g.u * M := by
      rw [tn]
      have : 2 ^ (g.emin + 1) * r.ty.size β ≤ M := by rw [two] at lo; linarith
      nlinarith
    have g3 : ((gammaErr g (n + 7) : ℚ) : ℝ) + 3 * g.u ≤ (gammaErr g (n + 10) : ℚ) := by
      have : gammaErr g (n + 7) + 3 * g.u ≤ gammaErr g (n + 10) := by
        have q0 := g.u_pos
        have q1 := g.u_lt_one
        have k0 := gammaErr_nonneg g (n + 7)
        have k1 := gammaErr_succ g (n + 7)
        have k2 := gammaErr_succ g (n + 8)
        have k3 := gammaErr_succ g (n + 9)
        have j1 : gammaErr g (n + 7) + g.u ≤ gammaErr g (n + 8) := by nlinarith
        have j2 : gammaErr g (n + 8) + g.u ≤ gammaErr g (n + 9) := by nlinarith
        have j3 : gammaErr g (n + 9) + g.u ≤ gammaErr g (n + 10) := by nlinarith
        linarith
      exact_mod_cast this
    have M0 : 0 ≤ M := by have := abs_nonneg (if s then a.exact β - b.exact β else a.exact β + b.exact β); linarith
    nlinarith
  | cast t a iha =>
    intro r ⟨Fa, N, R⟩ hk h
    have h' := h
    simp only [ExprI.eval, bind_ok] at h'
    obtain ⟨x, hx, h'⟩ := h'
    obtain ⟨gr, g, hg, gu, lo, hi⟩ := N r h
    obtain ⟨gx, tx, fx, rx⟩ := iha x Fa (sub (by simp only [ExprI.steps]; omega) hk) hx
    have h'' := h'
    unfold quantityCastI at h''
    simp only [bind_ok] at h''
    obtain ⟨eqv, he, h''⟩ := h''
    cases eqv
    · cases h''
    simp only [if_true, bind_ok, Except.ok.injEq] at h''
    obtain ⟨c, hc, z, hz, hr⟩ := h''
    have hrt : r.ty = t := by rw [← hr]
    have ex : convExp E.est (a.eval E) ((ExprI.cast t a).eval E) = c.exp.natAbs := by
      rw [hx, h]; unfold convExp; dsimp only; rw [hrt, hc]
    have hst : (ExprI.cast t a).steps E = a.steps E + (c.exp.natAbs + 8) := by rw [← ex]; rfl
    rw [hst] at hk ⊢
    rw [hrt] at hg lo hi gr
    obtain ⟨hco, hex⟩ := R x g hx hg
    rw [ex] at hex
    obtain ⟨w, hw, hws⟩ := castRep_safeExp x.ty.rep g
    rw [← hg] at hw
    obtain ⟨m1, -⟩ := C69_amounts_partial E β hβ t x c g w gx gr hco tx fx hg hw he hc (hex.trans hws)
    obtain ⟨l2, h2⟩ := rx.two u0 u1 (sub (by omega) hk)
    simp only [ExprI.exact] at lo hi
    obtain ⟨r', hr', ty', tr', fr', -, er'⟩ := m1 (by rw [two']; linarith)
    rw [h'] at hr'
    cases hr'
    have dn : 2 ^ (g.emin + 1) * t.size β ≤ |x.amount β| := by rw [two] at lo; linarith
    rw [ty']
    refine ⟨gr, tr', fr', ?_⟩
    exact rx.trans u0 u1 ((Rel.of_gamma (n := c.exp.natAbs + 6) (by omega) (er' dn)).mono (by exact_mod_cast gu) u1)

/-! ### The theorems -/

section
variable (E : Env) (hE : E.OK) (β : String → ℝ) (hβ : Sizes β) (f : FltTy)
include hE hβ

/-- C93: an expression nested to any depth, of integers and floating point numbers of any formats, is computed with a relative error of at most twice the
number of its roundings times the unit roundoff of its least precise format, and with the right sign, provided that the exact amounts of its parts are in
the normal ranges of their types. -/
theorem C93_expression (e : ExprI) (r : QtyI) (hF : e.Fine E β f) (hk : (e.steps E : ℝ) * f.u ≤ 1 / 2) (h : e.eval E = .ok r) :
    r.num.Typed r.ty.rep ∧ r.num.Finite ∧ |r.amount β - e.exact β| ≤ 2 * e.steps E * f.u * |e.exact β| ∧
      (0 < r.amount β ↔ 0 < e.exact β) ∧ (r.amount β < 0 ↔ e.exact β < 0) := by
  have u0 : (0 : ℝ) ≤ f.u := by exact_mod_cast f.u_pos.le
  have u1 : (f.u : ℝ) < 1 := by exact_mod_cast f.u_lt_one
  obtain ⟨-, tr, fr, rel⟩ := e.rel hE hβ r hF hk h
  refine ⟨tr, fr, rel.err u0 u1 hk, ?_⟩
  obtain ⟨t, e1, l, -⟩ := rel
  have t0 : 0 < t := (pow_pos (by linarith) _).trans_le l
  rw [e1]
  exact ⟨mul_pos_iff_of_pos_right t0, by rw [← neg_pos, ← neg_mul, mul_pos_iff_of_pos_right t0, neg_pos]⟩

/-- C93: two expressions for the same amount, for instance in another order or through other units, agree up to their roundings. -/
theorem C93_agree (e e' : ExprI) (r r' : QtyI) (hF : e.Fine E β f) (hF' : e'.Fine E β f) (hk : (e.steps E : ℝ) * f.u ≤ 1 / 2)
    (hk' : (e'.steps E : ℝ) * f.u ≤ 1 / 2) (h : e.eval E = .ok r) (h' : e'.eval E = .ok r') (heq : e.exact β = e'.exact β) :
    |r.amount β - r'.amount β| ≤ 2 * (e.steps E + e'.steps E) * f.u * |e.exact β| := by
  obtain ⟨-, -, a, -⟩ := C93_expression E hE β hβ f e r hF hk h
  obtain ⟨-, -, b, -⟩ := C93_expression E hE β hβ f e' r' hF' hk' h'
  rw [← heq] at b
  rw [abs_le] at a b ⊢
  constructor <;> nlinarith

end

/-! ### The example programs -/

/-- Types whose dimensions have integral exponents. -/
def goodTy (t : QTy) : Bool :=
  posWF t.dim.unit.ratio && posWF t.unit.ratio && decide (t.unit.ref = t.dim.unit.ref) &&
    match t.dim.exps with
    | .ok es => es.all fun x => decide (x.den = 1) && posWF x.dim.unit.ratio
    | .error _ => false

theorem goodTy_sound {E : Env} {t : QTy} (h : goodTy t = true) : t.Good E := by
  unfold goodTy at h
  simp only [Bool.and_eq_true, decide_eq_true_eq] at h
  obtain ⟨⟨⟨h1, h2⟩, h3⟩, h4⟩ := h
  split at h4
  · rename_i es he
    rw [List.all_eq_true] at h4
    refine ⟨⟨⟨es, he, fun e hm => ?_⟩, posWF_sound h1⟩, posWF_sound h2, h3, fun es' he' e hm h2 => ?_⟩
    · have := h4 e hm
      simp only [Bool.and_eq_true] at this
      exact posWF_sound this.2
    · rw [he] at he'
      simp only [Except.ok.injEq] at he'
      subst he'
      have := h4 e hm
      simp only [Bool.and_eq_true, decide_eq_true_eq] at this
      rw [this.1] at h2
      exact absurd h2 (by decide)
  · cases h4

theorem demoEnv_ok : demoEnv.OK := by
  constructor
  · intro es n h
    simp only [demoEnv, demoDims] at h
    obtain ⟨d, -, hd⟩ := List.exists_of_findSome?_eq_some h
    split at hd
    · split at hd
      · rename_i he; cases hd; exact he
      · cases hd
    · cases hd
  · intro r ref u h
    simp only [demoEnv, demoUnitReg] at h
    have := List.find?_some h
    simpa using this

/-- The numbers of moderate size. -/
structure Mid (x : FVal) : Prop where
  finite : x.Finite
  within : x.In .f64
  lower : 1 / 2 ^ 100 ≤ |x.q|
  upper : |x.q| ≤ 2 ^ 100

/-- Real numbers between `1 / 2 ^ k` and `2 ^ k`. -/
def Bd (k : ℕ) (x : ℝ) : Prop := 1 / 2 ^ k ≤ |x| ∧ |x| ≤ 2 ^ k

theorem Bd.mul {k j : ℕ} {x y : ℝ} (h : Bd k x) (h' : Bd j y) : Bd (k + j) (x * y) := by
  unfold Bd
  rw [abs_mul, pow_add, one_div, mul_inv, ← one_div, ← one_div]
  exact ⟨mul_le_mul h.1 h'.1 (by positivity) (abs_nonneg _), mul_le_mul h.2 h'.2 (abs_nonneg _) (by positivity)⟩

theorem Bd.inv {k : ℕ} {x : ℝ} (h : Bd k x) : Bd k x⁻¹ := by
  have p : (0 : ℝ) < 2 ^ k := by positivity
  have x0 : 0 < |x| := (by positivity : (0 : ℝ) < 1 / 2 ^ k).trans_le h.1
  unfold Bd
  rw [abs_inv]
  refine ⟨?_, ?_⟩
  · rw [one_div]; exact inv_anti₀ x0 h.2
  · have := h.1
    rw [one_div] at this
    exact inv_le_of_inv_le₀ p this

theorem Bd.div {k j : ℕ} {x y : ℝ} (h : Bd k x) (h' : Bd j y) : Bd (k + j) (x / y) := by
  rw [div_eq_mul_inv]; exact h.mul h'.inv

theorem Mid.bd {x : FVal} (h : Mid x) : Bd 100 (x.q : ℝ) := by
  constructor
  · have := h.lower; have : (((1 / 2 ^ 100 : ℚ)) : ℝ) ≤ ((|x.q| : ℚ) : ℝ) := Rat.cast_le.mpr this
    push_cast at this ⊢; exact this
  · have := h.upper; have : ((|x.q| : ℚ) : ℝ) ≤ (((2 ^ 100 : ℚ)) : ℝ) := Rat.cast_le.mpr this
    push_cast at this ⊢; exact this

/-- A part with a known type and an exact amount of moderate size is in the normal range. -/
theorem Bd.normal {E : Env} {e : ExprI} {t : QTy} {x : FNum} {k : ℕ} {s : ℚ} (he : e.eval E = .ok ⟨t, x⟩) (hg : goodTy t = true) (ht : t.rep = .flt .f64)
    (hs : t.size refSizes = s) (hk : k ≤ 900) (s0 : 1 / 2 ^ 100 ≤ s) (s1 : s ≤ 2 ^ 100) (h : Bd k (e.exact refSizes)) : e.Normal E refSizes .f64 := by
  intro r hr
  rw [he] at hr
  cases hr
  have s0' : (1 / 2 ^ 100 : ℝ) ≤ (s : ℝ) := by have := (Rat.cast_le (K := ℝ)).mpr s0; push_cast at this; exact this
  have s1' : (s : ℝ) ≤ 2 ^ 100 := by have := (Rat.cast_le (K := ℝ)).mpr s1; push_cast at this; exact this
  refine ⟨goodTy_sound hg, .f64, ht, le_rfl, ?_, ?_⟩
  · rw [hs]
    refine le_trans ?_ h.1
    have a : (2 : ℝ) ^ (FltTy.f64.emin + 2) = 1 / 2 ^ 1020 := by
      rw [show FltTy.f64.emin + 2 = -((1020 : ℕ) : Int) by decide, zpow_neg, zpow_natCast, one_div]
    have b : (1 : ℝ) / 2 ^ 900 ≤ 1 / 2 ^ k := one_div_le_one_div_of_le (by positivity) (pow_le_pow_right₀ (by norm_num) hk)
    refine le_trans ?_ b
    rw [a]
    refine (mul_le_mul_of_nonneg_left s1' (by positivity)).trans ?_
    rw [one_div_mul_eq_div, div_le_div_iff₀ (by positivity) (by positivity), ← pow_add, one_mul]
    exact pow_le_pow_right₀ (by norm_num) (by norm_num)
  · rw [hs]
    refine h.2.trans ?_
    have a : (2 : ℝ) ^ (FltTy.f64.emax - 3) = 2 ^ 1021 := by rw [show FltTy.f64.emax - 3 = ((1021 : ℕ) : Int) by decide, zpow_natCast]
    rw [a]
    refine le_trans ?_ (mul_le_mul_of_nonneg_left s0' (by positivity))
    rw [mul_one_div, le_div_iff₀ (by positivity), ← pow_add]
    exact pow_le_pow_right₀ (by norm_num) (by omega)

theorem mulEI {t1 t2 t : QTy} {f : FltTy} (h1 : t1.rep = .flt f) (h2 : t2.rep = .flt f) (h3 : t.rep = .flt f)
    (h : refMultiply demoEnv t1.dim t1.unit t2.dim t2.unit = .ok (t.dim, t.unit)) (v w : FVal) :
    mulQtyI demoEnv ⟨t1, .f v⟩ ⟨t2, .f w⟩ = .ok ⟨t, .f (v.mul f w)⟩ := by
  obtain ⟨d, u, r⟩ := t
  obtain ⟨d1, u1, r1⟩ := t1
  obtain ⟨d2, u2, r2⟩ := t2
  dsimp only at *
  subst h1 h2 h3
  unfold mulQtyI
  dsimp only
  rw [h]
  cases f <;> rfl

theorem divEI {t1 t2 t : QTy} {f : FltTy} (h1 : t1.rep = .flt f) (h2 : t2.rep = .flt f) (h3 : t.rep = .flt f)
    (h : refDivide demoEnv t1.dim t1.unit t2.dim t2.unit = .ok (t.dim, t.unit)) (v w : FVal) :
    divQtyI demoEnv ⟨t1, .f v⟩ ⟨t2, .f w⟩ = .ok ⟨t, .f (v.div f w)⟩ := by
  obtain ⟨d, u, r⟩ := t
  obtain ⟨d1, u1, r1⟩ := t1
  obtain ⟨d2, u2, r2⟩ := t2
  dsimp only at *
  subst h1 h2 h3
  unfold divQtyI
  dsimp only
  rw [h]
  cases f <;> rfl

theorem len_size : (lenTy (.flt .f64)).size refSizes = ((1 : ℚ) : ℝ) := denote_size (b := ⟨1, [1, 0, 0, 0, 0, 0, 0, 0, 0, 0, 0]⟩) (by decide +kernel)
theorem time_size : (timeTy (.flt .f64)).size refSizes = ((1 : ℚ) : ℝ) := denote_size (b := ⟨1, [0, 0, 1, 0, 0, 0, 0, 0, 0, 0, 0]⟩) (by decide +kernel)
theorem speed_size : (Demos.speedTy (.flt .f64)).size refSizes = ((1 : ℚ) : ℝ) := denote_size (b := ⟨1, [1, 0, -1, 0, 0, 0, 0, 0, 0, 0, 0]⟩) (by decide +kernel)
theorem temp_size : (tempTy (.flt .f64)).size refSizes = ((1 : ℚ) : ℝ) := denote_size (b := ⟨1, [2, 0, -1, 0, 0, 0, 0, 0, 0, 0, 0]⟩) (by decide +kernel)

/-- Every part of the program computes as in the theorem on exact arithmetic, with the operations of the format. -/
theorem unknownExpr_eval (d t a b c : FVal) :
    (ExprI.div (.lit ⟨lenTy (.flt .f64), .f d⟩) (.lit ⟨timeTy (.flt .f64), .f t⟩)).eval demoEnv = .ok ⟨Demos.speedTy (.flt .f64), .f (d.div .f64 t)⟩ ∧
    (ExprI.mul (.div (.lit ⟨lenTy (.flt .f64), .f d⟩) (.lit ⟨timeTy (.flt .f64), .f t⟩)) (.lit ⟨lenTy (.flt .f64), .f a⟩)).eval demoEnv =
      .ok ⟨tempTy (.flt .f64), .f ((d.div .f64 t).mul .f64 a)⟩ ∧
    (ExprI.div (.mul (.div (.lit ⟨lenTy (.flt .f64), .f d⟩) (.lit ⟨timeTy (.flt .f64), .f t⟩)) (.lit ⟨lenTy (.flt .f64), .f a⟩))
      (.lit ⟨lenTy (.flt .f64), .f b⟩)).eval demoEnv = .ok ⟨Demos.speedTy (.flt .f64), .f (((d.div .f64 t).mul .f64 a).div .f64 b)⟩ ∧
    (unknownExpr (.flt .f64) (.f d) (.f t) (.f a) (.f b) (.f c)).eval demoEnv =
      .ok ⟨lenTy (.flt .f64), .f ((((d.div .f64 t).mul .f64 a).div .f64 b).mul .f64 c)⟩ := by
  have h1 := divEI (t1 := lenTy (.flt .f64)) (t2 := timeTy (.flt .f64)) (t := Demos.speedTy (.flt .f64)) rfl rfl rfl (by kernel_rfl) d t
  have h2 := mulEI (t1 := Demos.speedTy (.flt .f64)) (t2 := lenTy (.flt .f64)) (t := tempTy (.flt .f64)) rfl rfl rfl (by kernel_rfl) (d.div .f64 t) a
  have h3 := divEI (t1 := tempTy (.flt .f64)) (t2 := lenTy (.flt .f64)) (t := Demos.speedTy (.flt .f64)) rfl rfl rfl (by kernel_rfl)
    ((d.div .f64 t).mul .f64 a) b
  have h4 := mulEI (t1 := Demos.speedTy (.flt .f64)) (t2 := timeTy (.flt .f64)) (t := lenTy (.flt .f64)) rfl rfl rfl (by kernel_rfl)
    (((d.div .f64 t).mul .f64 a).div .f64 b) c
  refine ⟨?_, ?_, ?_, ?_⟩ <;> simp only [unknownExpr, ExprI.eval, ok_bind, h1, h2, h3, h4]

theorem unknownExpr_fine {d t a b c : FVal} (hd : Mid d) (ht : Mid t) (ha : Mid a) (hb : Mid b) (hc : Mid c) :
    (unknownExpr (.flt .f64) (.f d) (.f t) (.f a) (.f b) (.f c)).Fine demoEnv refSizes .f64 ∧
    (unknownExpr (.flt .f64) (.f d) (.f t) (.f a) (.f b) (.f c)).exact refSizes = (d.q : ℝ) / t.q * a.q / b.q * c.q := by
  obtain ⟨e1, e2, e3, e4⟩ := unknownExpr_eval d t a b c
  have len (x : FVal) : (⟨lenTy (.flt .f64), .f x⟩ : QtyI).amount refSizes = x.q := by simp only [QtyI.amount, len_size]; push_cast; simp [FNum.q]
  have time (x : FVal) : (⟨timeTy (.flt .f64), .f x⟩ : QtyI).amount refSizes = x.q := by simp only [QtyI.amount, time_size]; push_cast; simp [FNum.q]
  have glen : goodTy (lenTy (.flt .f64)) = true := by decide +kernel
  have gtime : goodTy (timeTy (.flt .f64)) = true := by decide +kernel
  have flen {x : FVal} (h : Mid x) : (ExprI.lit ⟨lenTy (.flt .f64), .f x⟩).Fine demoEnv refSizes .f64 :=
    ⟨goodTy_sound glen, ⟨_, rfl, h.within⟩, h.finite⟩
  have ftime {x : FVal} (h : Mid x) : (ExprI.lit ⟨timeTy (.flt .f64), .f x⟩).Fine demoEnv refSizes .f64 :=
    ⟨goodTy_sound gtime, ⟨_, rfl, h.within⟩, h.finite⟩
  have b1 := hd.bd.div ht.bd
  have b2 := b1.mul ha.bd
  have b3 := b2.div hb.bd
  have b4 := b3.mul hc.bd
  have n1 : ((1 : ℚ) / 2 ^ 100 ≤ 1) := by norm_num
  have n2 : ((1 : ℚ) ≤ 2 ^ 100) := by norm_num
  refine ⟨⟨⟨⟨⟨flen hd, ftime ht, ?_⟩, flen ha, ?_⟩, flen hb, ?_⟩, ftime hc, ?_⟩, ?_⟩
  · exact Bd.normal (k := 200) e1 (by decide +kernel) rfl speed_size (by norm_num) n1 n2 (by simp only [ExprI.exact, len, time]; exact b1)
  · exact Bd.normal (k := 300) e2 (by decide +kernel) rfl temp_size (by norm_num) n1 n2 (by simp only [ExprI.exact, len, time]; exact b2)
  · exact Bd.normal (k := 400) e3 (by decide +kernel) rfl speed_size (by norm_num) n1 n2
      (by simp only [ExprI.exact, len, time]; exact b3)
  · exact Bd.normal (k := 500) e4 (by decide +kernel) rfl len_size (by norm_num) n1 n2
      (by simp only [ExprI.exact, len, time]; exact b4)
  · simp only [unknownExpr, ExprI.exact, len, time]

/-- C93: with `double` numbers of moderate size, the distance computed by the program through an unknown dimension is `d / t * a / b * c` metres up to a
relative error of 40 times the unit roundoff. -/
theorem C93_unknown_dimension {d t a b c : FVal} (hd : Mid d) (ht : Mid t) (ha : Mid a) (hb : Mid b) (hc : Mid c) :
    ∃ z, (unknownExpr (.flt .f64) (.f d) (.f t) (.f a) (.f b) (.f c)).eval demoEnv = .ok ⟨lenTy (.flt .f64), .f z⟩ ∧ z.Finite ∧
      |z.q - d.q / t.q * a.q / b.q * c.q| ≤ 40 / 2 ^ 53 * |d.q / t.q * a.q / b.q * c.q| := by
  obtain ⟨-, -, -, e4⟩ := unknownExpr_eval d t a b c
  obtain ⟨F, X⟩ := unknownExpr_fine hd ht ha hb hc
  refine ⟨_, e4, ?_⟩
  have st : (unknownExpr (.flt .f64) (.f d) (.f t) (.f a) (.f b) (.f c)).steps demoEnv = 20 := rfl
  have hu : ((FltTy.f64.u : ℚ) : ℝ) = 1 / 2 ^ 53 := by norm_num [FltTy.u, FltTy.prec]
  obtain ⟨-, fr, er, -⟩ := C93_expression demoEnv demoEnv_ok refSizes refSizes_pos .f64 _ _ F (by rw [st, hu]; norm_num) e4
  refine ⟨fr, ?_⟩
  rw [X, st, hu, QtyI.amount, len_size] at er
  refine (Rat.cast_le (K := ℝ)).mp ?_
  push_cast at er ⊢
  rw [mul_one] at er
  refine er.trans (le_of_eq ?_)
  ring

theorem Mid.of {x : ℚ} (h1 : 1 ≤ x) (h2 : x ≤ 2 ^ 100) (h3 : FltTy.f64.rndMag x = some x) : Mid (.fin false x) := by
  have e : |(FVal.fin false x).q| = x := abs_of_nonneg (by show 0 ≤ x; linarith)
  exact ⟨trivial, ⟨by linarith, h3⟩, by rw [e]; exact le_trans (by norm_num) h1, by rw [e]; exact h2⟩

/-- 123 m, 10 s, 50 m, 100 m and 60 s, as in the program: 369 m up to rounding. -/
example : ∃ z, (unknownExpr (.flt .f64) (.f (.fin false 123)) (.f (.fin false 10)) (.f (.fin false 50)) (.f (.fin false 100)) (.f (.fin false 60))).eval demoEnv =
    .ok ⟨lenTy (.flt .f64), .f z⟩ ∧ z.Finite ∧ |z.q - 369| ≤ 40 / 2 ^ 53 * 369 := by
  have := C93_unknown_dimension (d := .fin false 123) (t := .fin false 10) (a := .fin false 50) (b := .fin false 100) (c := .fin false 60)
    (.of (by norm_num) (by norm_num) (by decide +kernel)) (.of (by norm_num) (by norm_num) (by decide +kernel)) (.of (by norm_num) (by norm_num) (by decide +kernel))
    (.of (by norm_num) (by norm_num) (by decide +kernel)) (.of (by norm_num) (by norm_num) (by decide +kernel))
  norm_num [FVal.q] at this ⊢
  exact this

/-- `C93_expression` and `C93_agree` apply: the lengths 123 m and 50 m may change places. -/
example : ∃ r r', (unknownExpr (.flt .f64) (.f (.fin false 123)) (.f (.fin false 17)) (.f (.fin false 50)) (.f (.fin false 3)) (.f (.fin false 60))).eval demoEnv = .ok r ∧
    (unknownExpr (.flt .f64) (.f (.fin false 50)) (.f (.fin false 17)) (.f (.fin false 123)) (.f (.fin false 3)) (.f (.fin false 60))).eval demoEnv = .ok r' ∧
    r ≠ r' ∧ |r.amount refSizes - r'.amount refSizes| ≤ 80 / 2 ^ 53 * (123 / 17 * 50 / 3 * 60) := by
  have m123 : Mid (.fin false 123) := .of (by norm_num) (by norm_num) (by decide +kernel)
  have m50 : Mid (.fin false 50) := .of (by norm_num) (by norm_num) (by decide +kernel)
  have m17 : Mid (.fin false 17) := .of (by norm_num) (by norm_num) (by decide +kernel)
  have m3 : Mid (.fin false 3) := .of (by norm_num) (by norm_num) (by decide +kernel)
  have m60 : Mid (.fin false 60) := .of (by norm_num) (by norm_num) (by decide +kernel)
  obtain ⟨F, X⟩ := unknownExpr_fine m123 m17 m50 m3 m60
  obtain ⟨F', X'⟩ := unknownExpr_fine m50 m17 m123 m3 m60
  have h := (unknownExpr_eval (.fin false 123) (.fin false 17) (.fin false 50) (.fin false 3) (.fin false 60)).2.2.2
  have h' := (unknownExpr_eval (.fin false 50) (.fin false 17) (.fin false 123) (.fin false 3) (.fin false 60)).2.2.2
  have hu : ((FltTy.f64.u : ℚ) : ℝ) = 1 / 2 ^ 53 := by norm_num [FltTy.u, FltTy.prec]
  have st (d t a b c : FNum) : (unknownExpr (.flt .f64) d t a b c).steps demoEnv = 20 := rfl
  refine ⟨_, _, h, h', by decide +kernel, ?_⟩
  have := C93_agree demoEnv demoEnv_ok refSizes refSizes_pos .f64 _ _ _ _ F F' (by rw [st, hu]; norm_num) (by rw [st, hu]; norm_num) h h'
    (by rw [X, X']; norm_num [FVal.q])
  rw [X, st, st, hu] at this
  refine this.trans (le_of_eq ?_)
  norm_num [FVal.q]

/-- A quotient of two literals, cast to another unit of the same dimension.  The sizes of the types are arbitrary. -/
theorem quotientCast {t1 t2 t3 t : QTy} {c : Ratio} {s1 s2 s3 s : ℚ} (r1 : t1.rep = .flt .f64) (r2 : t2.rep = .flt .f64) (r3 : t3.rep = .flt .f64)
    (r4 : t.rep = .flt .f64) (g1 : goodTy t1 = true) (g2 : goodTy t2 = true) (g3 : goodTy t3 = true) (g4 : goodTy t = true)
    (h : refDivide demoEnv t1.dim t1.unit t2.dim t2.unit = .ok (t3.dim, t3.unit)) (hd : t.dim = t3.dim) (he : dimEquivalent t.dim t3.dim = .ok true)
    (hc : castRatio demoEnv.est t3.dim t3.unit t.dim t.unit = .ok c) (he0 : c.exp.natAbs ≤ 20) (z1 : t1.size refSizes = s1) (z2 : t2.size refSizes = s2)
    (z3 : t3.size refSizes = s3) (z4 : t.size refSizes = s) (p1 : 1 / 2 ^ 100 ≤ s1 ∧ s1 ≤ 2 ^ 100) (p2 : 1 / 2 ^ 100 ≤ s2 ∧ s2 ≤ 2 ^ 100)
    (p3 : 1 / 2 ^ 100 ≤ s3 ∧ s3 ≤ 2 ^ 100) (p4 : 1 / 2 ^ 100 ≤ s ∧ s ≤ 2 ^ 100) {x y : FVal} (hx : Mid x) (hy : Mid y) :
    ∃ z, (ExprI.cast t (.div (.lit ⟨t1, .f x⟩) (.lit ⟨t2, .f y⟩))).eval demoEnv = .ok ⟨t, .f z⟩ ∧ z.Finite ∧ z.In .f64 ∧
      |z.q - x.q / y.q * (s1 / (s2 * s))| ≤ 2 * (c.exp.natAbs + 13) / 2 ^ 53 * |x.q / y.q * (s1 / (s2 * s))| := by
  have e1 : (ExprI.div (.lit ⟨t1, .f x⟩) (.lit ⟨t2, .f y⟩)).eval demoEnv = .ok ⟨t3, .f (x.div .f64 y)⟩ := by
    simp only [ExprI.eval, ok_bind]; exact divEI r1 r2 r3 h x y
  have e2 : (ExprI.cast t (.div (.lit ⟨t1, .f x⟩) (.lit ⟨t2, .f y⟩))).eval demoEnv = .ok ⟨t, .f (castFltI .f64 c (x.div .f64 y))⟩ := by
    rw [ExprI.eval, e1, ok_bind, quantityCastI_eq he hc]
    show (castNumI t3.rep t.rep c (.f (x.div .f64 y))).bind _ = _
    rw [r3, r4]; rfl
  have amt {t : QTy} {s : ℚ} (hs : t.size refSizes = s) (v : FVal) : (⟨t, .f v⟩ : QtyI).amount refSizes = v.q * s := by
    unfold QtyI.amount; rw [hs]; rfl
  have bd {s : ℚ} (p : 1 / 2 ^ 100 ≤ s ∧ s ≤ 2 ^ 100) : Bd 100 (s : ℝ) := by
    have s0 : 0 ≤ s := le_trans (by positivity) p.1
    unfold Bd
    rw [abs_of_nonneg (by exact_mod_cast s0)]
    constructor
    · have := (Rat.cast_le (K := ℝ)).mpr p.1; push_cast at this; exact this
    · have := (Rat.cast_le (K := ℝ)).mpr p.2; push_cast at this; exact this
  have B := (hx.bd.mul (bd p1)).div (hy.bd.mul (bd p2))
  have X : (ExprI.div (.lit ⟨t1, .f x⟩) (.lit ⟨t2, .f y⟩)).exact refSizes = x.q * s1 / (y.q * s2) := by simp only [ExprI.exact, amt z1, amt z2]
  have X' : (ExprI.cast t (.div (.lit ⟨t1, .f x⟩) (.lit ⟨t2, .f y⟩))).exact refSizes = x.q * s1 / (y.q * s2) := by rw [← X]; rfl
  have cv : convExp demoEnv.est ((ExprI.div (.lit ⟨t1, .f x⟩) (.lit ⟨t2, .f y⟩)).eval demoEnv)
      ((ExprI.cast t (.div (.lit ⟨t1, .f x⟩) (.lit ⟨t2, .f y⟩))).eval demoEnv) = c.exp.natAbs := by rw [e1, e2]; unfold convExp; dsimp only; rw [hc]
  have F : (ExprI.cast t (.div (.lit ⟨t1, .f x⟩) (.lit ⟨t2, .f y⟩))).Fine demoEnv refSizes .f64 := by
    refine ⟨⟨⟨goodTy_sound g1, ⟨_, r1, hx.within⟩, hx.finite⟩, ⟨goodTy_sound g2, ⟨_, r2, hy.within⟩, hy.finite⟩, ?_⟩, ?_, fun w g hw hg => ?_⟩
    · exact Bd.normal (k := 400) e1 g3 r3 z3 (by norm_num) p3.1 p3.2 (by rw [X]; exact B)
    · exact Bd.normal (k := 400) e2 g4 r4 z4 (by norm_num) p4.1 p4.2 (by rw [X']; exact B)
    · rw [e1] at hw; cases hw
      rw [r4] at hg; cases hg
      refine ⟨by rw [hd]; exact Coherent.refl _ _, ?_⟩
      rw [cv]; exact he0.trans (by decide)
  have st : (ExprI.cast t (.div (.lit ⟨t1, .f x⟩) (.lit ⟨t2, .f y⟩))).steps demoEnv = 5 + (c.exp.natAbs + 8) := by
    rw [ExprI.steps, cv]; rfl
  have hu : ((FltTy.f64.u : ℚ) : ℝ) = 1 / 2 ^ 53 := by norm_num [FltTy.u, FltTy.prec]
  have hk : (((ExprI.cast t (.div (.lit ⟨t1, .f x⟩) (.lit ⟨t2, .f y⟩))).steps demoEnv : ℕ) : ℝ) * (FltTy.f64.u : ℚ) ≤ 1 / 2 := by
    rw [st, hu]
    have : ((5 + (c.exp.natAbs + 8) : ℕ) : ℝ) ≤ (33 : ℕ) := Nat.cast_le.mpr (by omega)
    rw [mul_one_div, div_le_iff₀ (by positivity)]
    exact this.trans (by norm_num)
  obtain ⟨tr, fr, er, -⟩ := C93_expression demoEnv demoEnv_ok refSizes refSizes_pos .f64 _ _ F hk e2
  refine ⟨_, e2, fr, ?_, ?_⟩
  · obtain ⟨g, hg, hi⟩ := tr
    dsimp only at hg
    rw [r4] at hg; cases hg
    exact hi
  · rw [X', st, hu, amt z4] at er
    have s0 : (0 : ℝ) < s := by
      have := (by positivity : (0 : ℚ) < 1 / 2 ^ 100).trans_le p4.1
      exact_mod_cast this
    refine (Rat.cast_le (K := ℝ)).mp (le_of_mul_le_mul_right ?_ s0)
    have k1 : (x.q : ℝ) * s1 / (y.q * s2) = x.q / y.q * (s1 / (s2 * s)) * s := by
      rw [mul_div_mul_comm]; field_simp
    rw [k1, ← sub_mul, abs_mul, abs_mul _ (s : ℝ), abs_of_pos s0] at er
    push_cast at er ⊢
    refine er.trans (le_of_eq ?_)
    ring

theorem mile_size : (⟨d_isq_si_dim_length, u_international_mile, .flt .f64⟩ : QTy).size refSizes = ((201168 / 125 : ℚ) : ℝ) :=
  denote_size (b := ⟨201168 / 125, [1, 0, 0, 0, 0, 0, 0, 0, 0, 0, 0]⟩) (by decide +kernel)
theorem hour_size : (⟨d_isq_si_dim_time, u_hour, .flt .f64⟩ : QTy).size refSizes = ((3600 : ℚ) : ℝ) :=
  denote_size (b := ⟨3600, [0, 0, 1, 0, 0, 0, 0, 0, 0, 0, 0]⟩) (by decide +kernel)
theorem mph_size : (⟨d_isq_si_dim_speed, u_international_mile_per_hour, .flt .f64⟩ : QTy).size refSizes = ((1397 / 3125 : ℚ) : ℝ) :=
  denote_size (b := ⟨1397 / 3125, [1, 0, -1, 0, 0, 0, 0, 0, 0, 0, 0]⟩) (by decide +kernel)
theorem kmh_size : (⟨d_isq_si_dim_speed, u_kilometre_per_hour, .flt .f64⟩ : QTy).size refSizes = ((5 / 18 : ℚ) : ℝ) :=
  denote_size (b := ⟨5 / 18, [1, 0, -1, 0, 0, 0, 0, 0, 0, 0, 0]⟩) (by decide +kernel)

/-- C93: `x` miles in `y` hours are `x / y * 0.44704` metres per second up to a relative error of 26 times the unit roundoff. -/
theorem C93_hello {x y : FVal} (hx : Mid x) (hy : Mid y) :
    ∃ z, (helloExpr (.f x) (.f y)).eval demoEnv = .ok ⟨Demos.speedTy (.flt .f64), .f z⟩ ∧ z.Finite ∧ z.In .f64 ∧
      |z.q - x.q / y.q * (44704 / 100000)| ≤ 26 / 2 ^ 53 * |x.q / y.q * (44704 / 100000)| := by
  obtain ⟨z, h1, h2, h3, h4⟩ := quotientCast (t1 := ⟨d_isq_si_dim_length, u_international_mile, .flt .f64⟩) (t2 := ⟨d_isq_si_dim_time, u_hour, .flt .f64⟩)
    (t3 := ⟨d_isq_si_dim_speed, u_international_mile_per_hour, .flt .f64⟩) (t := Demos.speedTy (.flt .f64)) (c := ⟨1397, 3125, 0⟩) rfl rfl rfl rfl
    (by decide +kernel) (by decide +kernel) (by decide +kernel) (by decide +kernel) (by kernel_rfl) rfl (by decide +kernel) (by decide +kernel)
    (by decide) mile_size hour_size mph_size speed_size (by norm_num) (by norm_num) (by norm_num) (by norm_num) hx hy
  refine ⟨z, h1, h2, h3, ?_⟩
  norm_num at h4 ⊢
  exact h4

/-- C93: `x` metres in `y` seconds are printed as `x / y * 3.6` kilometres per hour, up to a relative error of 28 times the unit roundoff. -/
theorem C93_avg_speed {x y : FVal} (hx : Mid x) (hy : Mid y) :
    ∃ z, (avgSpeedExpr (.f x) (.f y)).eval demoEnv = .ok ⟨⟨d_isq_si_dim_speed, u_kilometre_per_hour, .flt .f64⟩, .f z⟩ ∧ z.Finite ∧ z.In .f64 ∧
      |z.q - x.q / y.q * (36 / 10)| ≤ 28 / 2 ^ 53 * |x.q / y.q * (36 / 10)| := by
  obtain ⟨z, h1, h2, h3, h4⟩ := quotientCast (t1 := lenTy (.flt .f64)) (t2 := timeTy (.flt .f64))
    (t3 := Demos.speedTy (.flt .f64)) (t := ⟨d_isq_si_dim_speed, u_kilometre_per_hour, .flt .f64⟩) (c := ⟨36, 1, -1⟩) rfl rfl rfl rfl
    (by decide +kernel) (by decide +kernel) (by decide +kernel) (by decide +kernel) (by kernel_rfl) rfl (by decide +kernel) (by decide +kernel)
    (by decide) len_size time_size speed_size kmh_size (by norm_num) (by norm_num) (by norm_num) (by norm_num) hx hy
  refine ⟨z, h1, h2, h3, ?_⟩
  norm_num at h4 ⊢
  exact h4

/-- 140 miles in 2 hours, as in the program: 31.2928 m/s up to rounding; 1000 m in 3 s: 1200 km/h. -/
example : (∃ z, (helloExpr (.f (.fin false 140)) (.f (.fin false 2))).eval demoEnv = .ok ⟨Demos.speedTy (.flt .f64), .f z⟩ ∧
      |z.q - 312928 / 10000| ≤ 26 / 2 ^ 53 * (312928 / 10000)) ∧
    ∃ z, (avgSpeedExpr (.f (.fin false 1000)) (.f (.fin false 3))).eval demoEnv = .ok ⟨⟨d_isq_si_dim_speed, u_kilometre_per_hour, .flt .f64⟩, .f z⟩ ∧
      |z.q - 1200| ≤ 28 / 2 ^ 53 * 1200 := by
  constructor
  · obtain ⟨z, h1, -, -, h2⟩ := C93_hello (x := .fin false 140) (y := .fin false 2) (.of (by norm_num) (by norm_num) (by decide +kernel))
      (.of (by norm_num) (by norm_num) (by decide +kernel))
    exact ⟨z, h1, by norm_num [FVal.q] at h2 ⊢; exact h2⟩
  · obtain ⟨z, h1, -, -, h2⟩ := C93_avg_speed (x := .fin false 1000) (y := .fin false 3) (.of (by norm_num) (by norm_num) (by decide +kernel))
      (.of (by norm_num) (by norm_num) (by decide +kernel))
    exact ⟨z, h1, by norm_num [FVal.q] at h2 ⊢; exact h2⟩

/-! ### What is not guaranteed -/

/-- The last step of the first program, `quantity_cast<int>`, can lose a whole metre per second: 3125 miles in 11 hours are exactly 127 m/s, but 126 m/s are
printed. -/
theorem C93_truncated_wrong : (3125 : ℚ) / 11 * (44704 / 100000) = 127 ∧
    (ExprI.cast (Demos.speedTy (.int .i32)) (helloExpr (.f (.fin false 3125)) (.f (.fin false 11)))).eval demoEnv = .ok ⟨Demos.speedTy (.int .i32), .i 126⟩ :=
  ⟨by norm_num, by decide +kernel⟩

/-- Without the condition on signs there is no bound: `(2^53 m + 1 m) - 2^53 m` is computed as 0 m. -/
theorem C93_cancellation_wrong :
    (ExprI.addSub true (.addSub false (.lit ⟨lenTy (.flt .f64), .f (.fin false (2 ^ 53))⟩) (.lit ⟨lenTy (.flt .f64), .f (.fin false 1)⟩))
      (.lit ⟨lenTy (.flt .f64), .f (.fin false (2 ^ 53))⟩)).eval demoEnv = .ok ⟨lenTy (.flt .f64), .f (.fin false 0)⟩ ∧
    (ExprI.addSub true (.addSub false (.lit ⟨lenTy (.flt .f64), .f (.fin false (2 ^ 53))⟩) (.lit ⟨lenTy (.flt .f64), .f (.fin false 1)⟩))
      (.lit ⟨lenTy (.flt .f64), .f (.fin false (2 ^ 53))⟩)).exact refSizes = 1 := by
  refine ⟨by decide +kernel, ?_⟩
  simp only [ExprI.exact, QtyI.amount, len_size, FNum.q, FVal.q]
  norm_num

/-- Without the condition on the parts there is none either: the speed `2^600 m / 1 s` times `2^600 m` by `2^600 m` is computed as infinity. -/
theorem C93_overflow_wrong :
    (unknownExpr (.flt .f64) (.f (.fin false (2 ^ 600))) (.f (.fin false 1)) (.f (.fin false (2 ^ 600))) (.f (.fin false (2 ^ 600))) (.f (.fin false 1))).eval demoEnv =
      .ok ⟨lenTy (.flt .f64), .f (.inf false)⟩ ∧
    (2 : ℚ) ^ 600 / 1 * 2 ^ 600 / 2 ^ 600 * 1 = 2 ^ 600 := ⟨by decide +kernel, by field_simp⟩

end Verif
