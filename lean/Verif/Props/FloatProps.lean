import Verif.Props.AssignProps

/-!
# Floating point conversions (C33)
-/

namespace Verif

/-- The standard model of floating point arithmetic without overflow and underflow: every rounding has a
relative error of at most `u`. -/
def StdModel (u : ℚ) (fl : Rounding) : Prop := ∀ f x, |fl f x - x| ≤ u * |x|

/-- `y` is `x` up to `k` relative errors in a product and `j` in a divisor. -/
def Near (u : ℚ) (k j : ℕ) (x y : ℚ) : Prop :=
  ∃ θ, y = x * θ ∧ (1 - u) ^ k / (1 + u) ^ j ≤ θ ∧ θ ≤ (1 + u) ^ k / (1 - u) ^ j

section
variable {u : ℚ} (h0 : 0 ≤ u) (h1 : u < 1)
include h0 h1

omit h0 h1 in
theorem Near.refl' (x : ℚ) : Near u 0 0 x x := ⟨1, by ring, by simp, by simp⟩

theorem Near.refl (x : ℚ) : Near u 0 0 x x := by
  have := h0; have := h1; exact Near.refl' x

theorem Near.mul {k j k' j' : ℕ} {x y x' y' : ℚ} (h : Near u k j x y) (h' : Near u k' j' x' y') :
    Near u (k + k') (j + j') (x * x') (y * y') := by
  obtain ⟨θ, e, l, r⟩ := h
  obtain ⟨θ', e', l', r'⟩ := h'
  have p : 0 < 1 - u := by linarith
  have p' : 0 < 1 + u := by linarith
  have a : 0 < (1 - u) ^ k / (1 + u) ^ j := by positivity
  have a' : 0 < (1 - u) ^ k' / (1 + u) ^ j' := by positivity
  refine ⟨θ * θ', by rw [e, e']; ring, ?_, ?_⟩
  · calc (1 - u) ^ (k + k') / (1 + u) ^ (j + j') = ((1 - u) ^ k / (1 + u) ^ j) * ((1 - u) ^ k' / (1 + u) ^ j') := by
          rw [pow_add, pow_add]; field_simp
      _ ≤ θ * θ' := mul_le_mul l l' a'.le (a.le.trans l)
  · calc θ * θ' ≤ ((1 + u) ^ k / (1 - u) ^ j) * ((1 + u) ^ k' / (1 - u) ^ j') :=
          mul_le_mul r r' (a'.le.trans l') (by positivity)
      _ = _ := by rw [pow_add, pow_add]; field_simp

theorem Near.div {k j k' j' : ℕ} {x y x' y' : ℚ} (h : Near u k j x y) (h' : Near u k' j' x' y') :
    Near u (k + j') (j + k') (x / x') (y / y') := by
  obtain ⟨θ, e, l, r⟩ := h
  obtain ⟨θ', e', l', r'⟩ := h'
  have p : 0 < 1 - u := by linarith
  have p' : 0 < 1 + u := by linarith
  have a : 0 < (1 - u) ^ k / (1 + u) ^ j := by positivity
  have a' : 0 < (1 - u) ^ k' / (1 + u) ^ j' := by positivity
  have hθ : 0 < θ := a.trans_le l
  have hθ' : 0 < θ' := a'.trans_le l'
  refine ⟨θ / θ', by rw [e, e', mul_div_mul_comm], ?_, ?_⟩
  · calc (1 - u) ^ (k + j') / (1 + u) ^ (j + k') = ((1 - u) ^ k / (1 + u) ^ j) / ((1 + u) ^ k' / (1 - u) ^ j') := by
          rw [pow_add, pow_add]; field_simp
      _ ≤ θ / θ' := div_le_div₀ hθ.le l hθ' r'
  · calc θ / θ' ≤ ((1 + u) ^ k / (1 - u) ^ j) / ((1 - u) ^ k' / (1 + u) ^ j') :=
          div_le_div₀ (by positivity) r a' l'
      _ = _ := by rw [pow_add, pow_add]; field_simp

theorem Near.round {fl : Rounding} (hfl : StdModel u fl) {k j : ℕ} {x y : ℚ} (h : Near u k j x y) (f : FltTy) :
    Near u (k + 1) j x (fl f y) := by
  have : Near u 1 0 1 (fl f y / y) ∨ (y = 0) := by
    by_cases hy : y = 0
    · exact Or.inr hy
    · left
      have hb := hfl f y
      refine ⟨fl f y / y, by ring, ?_, ?_⟩
      · have : |fl f y / y - 1| ≤ u := by
          rw [show fl f y / y - 1 = (fl f y - y) / y by field_simp, abs_div, div_le_iff₀ (abs_pos.mpr hy)]
          exact hb
        have := (abs_le.mp this).1
        simp; linarith
      · have : |fl f y / y - 1| ≤ u := by
          rw [show fl f y / y - 1 = (fl f y - y) / y by field_simp, abs_div, div_le_iff₀ (abs_pos.mpr hy)]
          exact hb
        have := (abs_le.mp this).2
        simp; linarith
  rcases this with h' | hy
  · have hm := Near.mul h0 h1 h h'
    by_cases hy : y = 0
    · rw [hy] at h'
      obtain ⟨θ, e, l, -⟩ := h'
      simp at e l
      linarith
    · rwa [mul_one, add_zero, mul_div_cancel₀ _ hy] at hm
  · have hz : fl f y = 0 := by
      have := hfl f y
      rw [hy] at this ⊢
      simpa using this
    rw [hz]
    obtain ⟨θ, e, l, r⟩ := h
    have p : 0 < 1 - u := by linarith
    have p' : 0 < 1 + u := by linarith
    have a : 0 < (1 - u) ^ k / (1 + u) ^ j := by positivity
    have hx : x = 0 := by
      rw [hy] at e
      rcases mul_eq_zero.mp e.symm with h | h
      · exact h
      · exact absurd h (a.trans_le l).ne'
    refine ⟨(1 - u) ^ (k + 1) / (1 + u) ^ j, by rw [hx]; ring, le_refl _, ?_⟩
    have : (1 - u) ^ (k + 1) / (1 + u) ^ j ≤ (1 + u) ^ (k + 1) / (1 - u) ^ j := by
      apply div_le_div₀ (by positivity) (pow_le_pow_left₀ p.le (by linarith) _) (by positivity)
        (pow_le_pow_left₀ p.le (by linarith) _)
    exact this

theorem Near.weaken {k j k' j' : ℕ} {x y : ℚ} (hk : k ≤ k') (hj : j ≤ j') (h : Near u k j x y) : Near u k' j' x y := by
  obtain ⟨θ, e, l, r⟩ := h
  have p : 0 < 1 - u := by linarith
  have p' : 0 < 1 + u := by linarith
  refine ⟨θ, e, le_trans ?_ l, le_trans r ?_⟩
  · exact div_le_div₀ (by positivity) (pow_le_pow_of_le_one p.le (by linarith) hk) (by positivity)
      (pow_le_pow_right₀ (by linarith) hj)
  · exact div_le_div₀ (by positivity) (pow_le_pow_right₀ (by linarith) hk) (by positivity)
      (pow_le_pow_of_le_one p.le (by linarith) hj)

theorem fpow10Loop_near {fl : Rounding} (hfl : StdModel u fl) (f : FltTy) (n : ℕ) {k : ℕ} {x y z : ℚ}
    (h : Near u k 0 x y) :
    (fpow10Loop fl f .mul n y = .ok z → Near u (k + n) 0 (x * 10 ^ n) z) ∧
    (fpow10Loop fl f .div n y = .ok z → Near u (k + n) 0 (x / 10 ^ n) z) := by
  induction n generalizing k x y with
  | zero =>
    simp only [fpow10Loop, Except.ok.injEq, pow_zero, mul_one, div_one, add_zero]
    exact ⟨fun e => e ▸ h, fun e => e ▸ h⟩
  | succ n ih =>
    simp only [fpow10Loop, fltOp, bind_ok, Except.ok.injEq]
    have t := Near.refl h0 h1 (u := u) 10
    constructor
    · rintro ⟨w, rfl, hw⟩
      have := (ih (Near.round h0 h1 hfl (Near.mul h0 h1 h t) f)).1 hw
      rw [show k + (n + 1) = k + 0 + 1 + n by ring, pow_succ']
      rw [show x * (10 * 10 ^ n) = x * 10 * 10 ^ n by ring]; exact this
    · rw [if_neg (by norm_num)]
      rintro ⟨w, hw', hw⟩
      cases hw'
      have := (ih (Near.round h0 h1 hfl (Near.div h0 h1 h t) f)).2 hw
      rw [show k + (n + 1) = k + 0 + 1 + n by ring, pow_succ']
      rw [show x / (10 * 10 ^ n) = x / 10 / 10 ^ n by rw [div_div]]; exact this

theorem fpow10_near {fl : Rounding} (hfl : StdModel u fl) {f : FltTy} {e : Int} {z : ℚ} (h : fpow10 fl f e = .ok z) :
    Near u e.natAbs 0 ((10 : ℚ) ^ e) z := by
  have hr := Near.refl h0 h1 (u := u) 1
  unfold fpow10 at h
  split at h
  · rename_i he
    simp only [Except.ok.injEq] at h
    subst he
    rw [← h]; simpa using hr
  · split at h
    · rename_i he
      have := (fpow10Loop_near h0 h1 hfl f _ hr).2 h
      obtain ⟨n, hn⟩ : ∃ n : ℕ, e = -(n : ℤ) := ⟨e.natAbs, by omega⟩
      subst hn
      simp only [Int.natAbs_neg, Int.natAbs_natCast, zpow_neg, zpow_natCast, zero_add] at this ⊢
      simpa [div_eq_mul_inv] using this
    · rename_i he
      have := (fpow10Loop_near h0 h1 hfl f _ hr).1 h
      obtain ⟨n, hn⟩ : ∃ n : ℕ, e = (n : ℤ) := ⟨e.natAbs, by omega⟩
      subst hn
      simp only [Int.natAbs_natCast, zpow_natCast, zero_add] at this ⊢
      simpa using this

theorem castFlt_near {fl : Rounding} (hfl : StdModel u fl) {f : FltTy} {c : Ratio} {k : ℕ} {v v' y : ℚ}
    (hv : Near u k 0 v v') (h : castFlt fl f c v' = .ok y) : Near u (k + c.exp.natAbs + 4) 1 (v * c.val) y := by
  unfold castFlt at h
  simp only [bind_ok, fltOp, Except.ok.injEq] at h
  obtain ⟨p, hp, a, rfl, b, hb, rfl⟩ := h
  split at hb
  · cases hb
  simp only [Except.ok.injEq] at hb
  subst hb
  have hn := Near.round h0 h1 hfl (Near.refl h0 h1 (u := u) (c.num : ℚ)) f
  have hd := Near.round h0 h1 hfl (Near.refl h0 h1 (u := u) (c.den : ℚ)) f
  have h2 := Near.round h0 h1 hfl (Near.mul h0 h1 hn (fpow10_near h0 h1 hfl hp)) f
  have h3 := Near.round h0 h1 hfl (Near.div h0 h1 h2 hd) f
  have h4 := Near.round h0 h1 hfl (Near.mul h0 h1 hv h3) f
  have e : v * c.val = v * ((c.num : ℚ) * 10 ^ c.exp / c.den) := by unfold Ratio.val; ring
  rw [e]
  exact Near.weaken h0 h1 (by omega) (by omega) h4

theorem convNum_near {fl : Rounding} (hfl : StdModel u fl) {r : Rep} {f : FltTy} {v y : Num} {k j : ℕ} {x : ℚ}
    (hv : v.Typed r) (hx : Near u k j x v.q) (h : convNum fl r (.flt f) v = .ok y) : Near u (k + 1) j x y.q := by
  unfold convNum at h
  split at h
  · simp only [Except.ok.injEq] at h
    rw [← h]; exact Near.weaken h0 h1 (by omega) le_rfl hx
  · cases v with
    | i z => simp only [Except.ok.injEq] at h; rw [← h]; exact Near.round h0 h1 hfl hx f
    | f z => simp only [Except.ok.injEq] at h; rw [← h]; exact Near.round h0 h1 hfl hx f

/-- C33 for numbers: the result of a conversion with a floating point type involved is the exact one up to a
number of roundings determined by the exponent of the ratio. -/
theorem castNum_near {fl : Rounding} (hfl : StdModel u fl) {s t : Rep} {c : Ratio} {v y : Num}
    (hf : s.floating = true ∨ t.floating = true) (hv : v.Typed s) (h : castNum fl s t c v = .ok y) :
    (t.floating = true → Near u (c.exp.natAbs + 6) 1 (v.q * c.val) y.q) ∧
    (∀ ty, t = .int ty → ∃ z, Near u (c.exp.natAbs + 5) 1 (v.q * c.val) z ∧ ty.In (truncQ z) ∧ y = .i (truncQ z)) := by
  obtain ⟨f, hcr⟩ := castRep_flt hf
  unfold castNum at h
  rw [hcr] at h
  simp only [bind_ok] at h
  obtain ⟨v', hv', h⟩ := h
  obtain ⟨x, rfl⟩ := (convNum_typed hv hv').flt
  dsimp only at h
  simp only [bind_ok] at h
  obtain ⟨z, hz, h⟩ := h
  have n1 : Near u 1 0 v.q x := by
    have := convNum_near h0 h1 hfl hv (Near.refl h0 h1 v.q) hv'
    simpa [Num.q] using this
  have n2 := castFlt_near h0 h1 hfl n1 hz
  constructor
  · intro ht
    cases t with
    | int ty => cases ht
    | flt g =>
      have := convNum_near h0 h1 hfl (r := .flt f) (v := .f z) ⟨f, rfl⟩ n2 h
      exact Near.weaken h0 h1 (by omega) le_rfl this
  · rintro ty rfl
    obtain ⟨a, b⟩ := convNum_fint h
    exact ⟨z, Near.weaken h0 h1 (by omega) le_rfl n2, a, b⟩

end

/-- C33: the amount of a quantity converted to a floating point representation is the exact amount up to
`|exp| + 7` roundings, `exp` being the exponent of the conversion ratio: no catastrophic loss.  Partial: the
sizes of the dimensions must agree (`Coherent`), see `C32_unknown_dimensions_wrong`. -/
theorem C33_error_bounded_partial (E : Env) (β : String → ℝ) (hβ : Sizes β) (u : ℚ) (h0 : 0 ≤ u) (h1 : u < 1)
    (hfl : StdModel u E.fl) (t : QTy) (q r : Qty) (c : Ratio) (gq : q.Good E) (gt : t.Good E)
    (hco : Coherent β q.ty.dim t.dim) (ht : t.rep.floating = true)
    (hc : castRatio E.est q.ty.dim q.ty.unit t.dim t.unit = .ok c) (h : quantityCast E t q = .ok r) :
    ∃ θ : ℚ, r.ty = t ∧ r.amount β = q.amount β * θ ∧
      (1 - u) ^ (c.exp.natAbs + 6) / (1 + u) ≤ θ ∧ θ ≤ (1 + u) ^ (c.exp.natAbs + 6) / (1 - u) := by
  obtain ⟨heq, c', x, hc', hx, rfl⟩ := quantityCast_eq_ok h
  rw [hc] at hc'; cases hc'
  obtain ⟨-, -, e⟩ := castRatio_size hβ gq.ty gt (C17_symmetric _ _ heq) hco hc
  have hsz := gt.size_pos hβ
  obtain ⟨θ, hθ, l, r⟩ := (castNum_near h0 h1 hfl (Or.inr ht) gq.num hx).1 ht
  rw [pow_one] at l r
  refine ⟨θ, rfl, ?_, l, r⟩
  rw [Qty.amount_eq, Qty.amount_eq]
  simp only
  rw [hθ]
  push_cast
  rw [e]
  field_simp

/-- C33, as a relative error. -/
theorem C33_relative_error_partial (E : Env) (β : String → ℝ) (hβ : Sizes β) (u : ℚ) (h0 : 0 ≤ u) (h1 : u < 1)
    (hfl : StdModel u E.fl) (t : QTy) (q r : Qty) (c : Ratio) (gq : q.Good E) (gt : t.Good E)
    (hco : Coherent β q.ty.dim t.dim) (ht : t.rep.floating = true)
    (hc : castRatio E.est q.ty.dim q.ty.unit t.dim t.unit = .ok c) (h : quantityCast E t q = .ok r) :
    |r.amount β - q.amount β| ≤ ((1 + (u : ℝ)) ^ (c.exp.natAbs + 6) / (1 - u) - 1) * |q.amount β| := by
  obtain ⟨θ, -, e, l, r'⟩ := C33_error_bounded_partial E β hβ u h0 h1 hfl t q r c gq gt hco ht hc h
  have hθ : |(θ : ℝ) - 1| ≤ (1 + (u : ℝ)) ^ (c.exp.natAbs + 6) / (1 - u) - 1 := by
    have l' : ((1 : ℝ) - u) ^ (c.exp.natAbs + 6) / (1 + u) ≤ θ := by exact_mod_cast l
    have r'' : (θ : ℝ) ≤ (1 + u) ^ (c.exp.natAbs + 6) / (1 - u) := by exact_mod_cast r'
    have hu0 : (0 : ℝ) ≤ u := by exact_mod_cast h0
    have hu1 : (u : ℝ) < 1 := by exact_mod_cast h1
    have p : 0 < 1 - (u : ℝ) := by linarith
    have p' : 0 < 1 + (u : ℝ) := by linarith
    rw [abs_le]
    refine ⟨?_, by linarith⟩
    -- A + 1/A ≥ 2 for A = upper bound, and the lower bound is at least 1/A
    set n := c.exp.natAbs + 6
    have hA : 0 < (1 + (u : ℝ)) ^ n / (1 - u) := by positivity
    have hinv : ((1 + (u : ℝ)) ^ n / (1 - u))⁻¹ * (((1 + (u : ℝ)) ^ n / (1 - u))) = 1 := inv_mul_cancel₀ hA.ne'
    have hlow : 2 - (1 + (u : ℝ)) ^ n / (1 - u) ≤ (1 - (u : ℝ)) ^ n / (1 + u) := by
      have b1 : 1 + (n : ℝ) * u ≤ (1 + u) ^ n := one_add_mul_le_pow (by linarith) n
      have b2 : 1 + (n : ℝ) * (-u) ≤ (1 + -u) ^ n := one_add_mul_le_pow (by linarith) n
      have b2 : 1 - (n : ℝ) * u ≤ (1 - u) ^ n := by simpa [sub_eq_add_neg] using b2
      have hn : (1 : ℝ) ≤ n := by exact_mod_cast (show 1 ≤ n by omega)
      have hn0 : (0 : ℝ) ≤ n * u := by positivity
      have c1 : (1 + (n : ℝ) * u) / (1 - u) ≤ (1 + u) ^ n / (1 - u) := div_le_div_of_nonneg_right b1 p.le
      have c2 : (1 - (n : ℝ) * u) / (1 + u) ≤ (1 - u) ^ n / (1 + u) := div_le_div_of_nonneg_right b2 p'.le
      have c3 : 2 ≤ (1 + (n : ℝ) * u) / (1 - u) + (1 - (n : ℝ) * u) / (1 + u) := by
        rw [div_add_div _ _ p.ne' p'.ne', le_div_iff₀ (by positivity)]
        nlinarith [mul_nonneg hn0 hu0, sq_nonneg (u : ℝ)]
      linarith
    linarith
  calc |r.amount β - q.amount β| = |(θ : ℝ) - 1| * |q.amount β| := by
        rw [← abs_mul, e]; congr 1; ring
    _ ≤ _ := mul_le_mul_of_nonneg_right hθ (abs_nonneg _)

/-- C33: a floating point quantity converted to an integral representation is truncated once, after at most
`|exp| + 6` roundings. -/
theorem C33_truncated_once_partial (E : Env) (β : String → ℝ) (hβ : Sizes β) (u : ℚ) (h0 : 0 ≤ u) (h1 : u < 1)
    (hfl : StdModel u E.fl) (t : QTy) (q r : Qty) (c : Ratio) (gq : q.Good E) (gt : t.Good E)
    (hco : Coherent β q.ty.dim t.dim) (ty : IntTy) (hq : q.ty.rep.floating = true) (ht : t.rep = .int ty)
    (hc : castRatio E.est q.ty.dim q.ty.unit t.dim t.unit = .ok c) (h : quantityCast E t q = .ok r) :
    ∃ z θ : ℚ, (z : ℝ) * t.size β = q.amount β * θ ∧ r = ⟨t, .i (truncQ z)⟩ ∧
      (1 - u) ^ (c.exp.natAbs + 5) / (1 + u) ≤ θ ∧ θ ≤ (1 + u) ^ (c.exp.natAbs + 5) / (1 - u) := by
  obtain ⟨heq, c', x, hc', hx, rfl⟩ := quantityCast_eq_ok h
  rw [hc] at hc'; cases hc'
  obtain ⟨-, -, e⟩ := castRatio_size hβ gq.ty gt (C17_symmetric _ _ heq) hco hc
  have hsz := gt.size_pos hβ
  obtain ⟨z, ⟨θ, hθ, l, r⟩, -, hz⟩ := (castNum_near h0 h1 hfl (Or.inl hq) gq.num hx).2 ty ht
  rw [pow_one] at l r
  refine ⟨z, θ, ?_, by rw [hz], l, r⟩
  rw [hθ, Qty.amount_eq]
  push_cast
  rw [e]
  field_simp

/-- C33: an exact representation type converts exactly. -/
theorem C33_exact_partial (E : Env) (β : String → ℝ) (hβ : Sizes β) (hfl : FlExact E.fl) (t : QTy) (q r : Qty)
    (gq : q.Good E) (gt : t.Good E) (hco : Coherent β q.ty.dim t.dim) (ht : t.rep.floating = true)
    (h : quantityCast E t q = .ok r) : r.ty = t ∧ r.amount β = q.amount β := by
  obtain ⟨-, c, -, hc, -, -⟩ := quantityCast_eq_ok h
  have hstd : StdModel 0 E.fl := fun f x => by rw [hfl]; simp
  obtain ⟨θ, h1, h2, h3, h4⟩ := C33_error_bounded_partial E β hβ 0 le_rfl (by norm_num) hstd t q r c gq gt hco ht hc h
  refine ⟨h1, ?_⟩
  have : θ = 1 := by
    simp at h3 h4
    linarith
  rw [h2, this]; simp

example : quantityCast exEnv (exCms (.flt .f32)) ⟨exKms (.flt .f64), .f (1 / 3)⟩ =
    .ok ⟨exCms (.flt .f32), .f (100000 / 3)⟩ := by decide +kernel

/-- A rounding that always errs by one part in a thousand, for the examples. -/
def exRound : Rounding := fun _ x => x * (1001 / 1000)

theorem exRound_std : StdModel (1 / 1000) exRound := by
  intro f x
  unfold exRound
  rw [show x * (1001 / 1000) - x = (1 / 1000) * x by ring, abs_mul]
  norm_num

def exEnvR : Env := { exEnv with fl := exRound }

example : castRatio exEnvR.est (exKms (.flt .f64)).dim (exKms (.flt .f64)).unit (exMetres (.flt .f32)).dim (exMetres (.flt .f32)).unit =
      .ok ⟨1, 1, 3⟩ ∧
    quantityCast exEnvR (exMetres (.flt .f32)) ⟨exKms (.flt .f64), .f 2⟩ =
      .ok ⟨exMetres (.flt .f32), .f (2000 * (1001 / 1000) ^ 7)⟩ ∧
    quantityCast exEnvR (exMetres (.int .i32)) ⟨exKms (.flt .f64), .f 2⟩ = .ok ⟨exMetres (.int .i32), .i 2012⟩ := by
  refine ⟨by decide +kernel, by decide +kernel, by decide +kernel⟩

end Verif
