import Verif.Props.FloatProps
import Verif.Props.RatioProps
import Verif.Math

/-!
# Powers, roots, exponential, absolute value (C34, C35)
-/

namespace Verif

open Ratio

/-! ### Helper lemmas -/

/-- The square of a ratio in normal form needs no normalisation. -/
theorem mul_self_eq {r x : Ratio} (hr : r.WF) (h : mul r r = .ok x) : x = ⟨r.num * r.num, r.den * r.den, r.exp + r.exp⟩ := by
  rw [mul_eq_ok hr hr, hr.coprime] at h
  simp only [Nat.cast_one, Int.tdiv_one] at h
  obtain ⟨h1, h2, h3, h4⟩ := h
  have ten : ∀ a : ℤ, (10 : ℤ) ∣ a * a → (10 : ℤ) ∣ a := by
    intro a ha
    have h0 : a % 10 = 0 ∨ a % 10 = 1 ∨ a % 10 = 2 ∨ a % 10 = 3 ∨ a % 10 = 4 ∨ a % 10 = 5 ∨ a % 10 = 6 ∨ a % 10 = 7 ∨
        a % 10 = 8 ∨ a % 10 = 9 := by omega
    have h1 := Int.emod_eq_zero_of_dvd ha
    rw [Int.mul_emod] at h1
    rcases h0 with h | h | h | h | h | h | h | h | h | h <;> rw [h] at h1 <;> first | exact Int.dvd_of_emod_eq_zero h | exact absurd h1 (by decide)
  have w : (⟨r.num * r.num, r.den * r.den, r.exp + r.exp⟩ : Ratio).WF := by
    have hd := hr.den_pos
    refine ⟨by positivity, ?_, ?_, ?_, ?_, I64_of_abs h1, (le_abs_self _).trans h2, h3⟩
    · show Int.gcd (r.num * r.num) (r.den * r.den) = 1
      have := hr.coprime
      have c : IsCoprime r.num r.den := Int.isCoprime_iff_gcd_eq_one.mpr this
      exact Int.isCoprime_iff_gcd_eq_one.mp ((c.mul_left c).mul_right (c.mul_left c))
    · intro h0 h10
      have : r.num ≠ 0 := by rintro h; simp [h] at h0
      exact hr.num10 this (ten _ h10)
    · intro h10; exact hr.den10 (ten _ h10)
    · intro h0
      have h0 : r.num = 0 := by simpa using h0
      obtain ⟨z1, z2⟩ := hr.zero h0
      simp [z1, z2]
  have := w.make_self
  simp only at this
  rw [this] at h4
  simp only [Except.ok.injEq] at h4
  exact h4.symm

/-- Powers of dimensions and of ratios give powers of sizes, when the ratios of the coherent units agree. -/
theorem pow_size {Γ : DimReg} (hΓ : Γ.OK) {β : String → ℝ} (hβ : Sizes β) {d d' : Dim} {u u' : MUnit} {num : ℤ} {den : ℕ}
    (hden : 0 < den) (g : d.Good) (g' : d'.Good) (h : dimPow Γ d num den = .ok d')
    (hx : (∀ b, d ≠ .base b) → PowExact d num den)
    (hu : u'.ratio.val ^ den = u.ratio.val ^ num) (hc : d'.unit.ratio.val ^ den = d.unit.ratio.val ^ num) :
    (d'.size β u') ^ den = (d.size β u) ^ num := by
  obtain ⟨e, he, hw⟩ := g.exps
  obtain ⟨e', he', hw'⟩ := g'.exps
  have hp := dimSize_pos hβ hw
  have hs : dimSize β e' ^ den = dimSize β e ^ num := by
    have := dimSize_combine hβ (k1 := (num : ℚ) / den) (k2 := 0) hw' hw hw fun b => by
      rw [Dim.exps_exp he, Dim.exps_exp he', dimPow_exp hΓ h hx]; push_cast; ring
    rw [this]
    simp only [Rat.cast_zero, Real.rpow_zero, mul_one]
    rw [← Real.rpow_natCast, ← Real.rpow_mul hp.le, ← Real.rpow_intCast]
    congr 1
    have : (den : ℝ) ≠ 0 := by positivity
    push_cast
    field_simp
  rw [Dim.size_eq he, Dim.size_eq he', mul_pow, div_pow, mul_zpow, div_zpow, hs]
  congr 2
  · exact_mod_cast hu
  · exact_mod_cast hc

/-- The functions of `<cmath>` return the exact result whenever they return. -/
structure Libm.Exact (L : Libm) : Prop where
  pow : ∀ f x (n : ℤ) y, L.pow f x n = .ok y → y = x ^ n
  sqrt : ∀ f x y, L.sqrt f x = .ok y → 0 ≤ y ∧ y ^ 2 = x
  cbrt : ∀ f x y, L.cbrt f x = .ok y → y ^ 3 = x

/-- An exact `<cmath>` on the arguments that have a rational result (for the examples). -/
def exLibm : Libm where
  pow _ x e := if e.den = 1 then .ok (x ^ e.num) else .error .nonfinite
  sqrt _ x := if 0 ≤ x ∧ (Int.sqrt x.num / (Nat.sqrt x.den : ℚ)) ^ 2 = x then .ok (Int.sqrt x.num / (Nat.sqrt x.den : ℚ)) else .error .nonfinite
  cbrt _ x := if x = 27 then .ok 3 else if x = 8 then .ok 2 else .error .nonfinite
  exp _ x := .ok (1 + x + x ^ 2 / 2)

theorem exLibm_exact : exLibm.Exact := by
  refine ⟨?_, ?_, ?_⟩
  · intro f x n y h
    have h : (if ((n : ℤ) : ℚ).den = 1 then (.ok (x ^ ((n : ℤ) : ℚ).num) : C ℚ) else .error .nonfinite) = .ok y := h
    rw [if_pos (by simp)] at h
    simp only [Rat.num_intCast, Except.ok.injEq] at h
    exact h.symm
  · intro f x y h
    simp only [exLibm] at h
    split at h
    · rename_i hc
      simp only [Except.ok.injEq] at h
      rw [← h]
      refine ⟨?_, hc.2⟩
      have : (0 : ℤ) ≤ Int.sqrt x.num := Int.sqrt_nonneg _
      have : (0 : ℚ) ≤ Int.sqrt x.num := by exact_mod_cast this
      positivity
    · cases h
  · intro f x y h
    simp only [exLibm] at h
    split at h
    · rename_i hc; simp only [Except.ok.injEq] at h; rw [← h, hc]; norm_num
    · split at h
      · rename_i hc; simp only [Except.ok.injEq] at h; rw [← h, hc]; norm_num
      · cases h

/-! ## C34 -/

/-- C34: `pow<0>` returns the plain number one, whatever the quantity. -/
theorem C34_pow_zero (E : Env) (L : Libm) (den : ℤ) (hden : den ≠ 0) (q : Qty) (β : String → ℝ) :
    ∃ v, powQty E L 0 den q = .ok (.inl v) ∧ (v.q : ℝ) = q.amount β ^ 0 := by
  refine ⟨q.ty.rep.one, by unfold powQty; rw [if_neg hden, if_pos rfl], ?_⟩
  cases q.ty.rep <;> simp [Rep.one, Num.q]

example : powQty exEnv exLibm 0 3 ⟨exKms (.flt .f64), .f 2⟩ = .ok (.inl (.f 1)) := by decide +kernel

/-- C34, any rational power: when the number and the ratio of the unit are powers, so is the amount.
Partial: the ratios of the coherent units have to be powers as well, see `C34_pow_ignores_unit`; no power of
ten may appear in the exponents (`PowExact`), see `C15_pow_ten_lost`. -/
theorem C34_pow_rational_partial (E : Env) (hE : E.OK) (β : String → ℝ) (hβ : Sizes β) (L : Libm) (num : ℤ) (den : ℕ)
    (q r : Qty) (gq : q.Good E) (gr : r.ty.dim.Good) (hx : (∀ b, q.ty.dim ≠ .base b) → PowExact q.ty.dim num den)
    (h : powQty E L num den q = .ok (.inr r)) (hnum : r.num.q ^ den = q.num.q ^ num)
    (hroot : r.ty.unit.ratio.val ^ den = q.ty.unit.ratio.val ^ num)
    (hcoh : r.ty.dim.unit.ratio.val ^ den = q.ty.dim.unit.ratio.val ^ num) :
    r.amount β ^ den = q.amount β ^ num := by
  unfold powQty at h
  split at h
  · cases h
  rename_i hden
  split at h
  · cases h
  simp only [bind_ok, Except.ok.injEq, Sum.inr.injEq] at h
  obtain ⟨d, hd, p, hp, u, hu, x, hx', y, hy, rfl⟩ := h
  have hden : 0 < den := by
    rcases Nat.eq_zero_or_pos den with h | h
    · simp [h] at hden
    · exact h
  have := pow_size hE.dims hβ hden gq.ty.dim gr hd hx hroot hcoh
  rw [Qty.amount, Qty.amount, mul_pow, mul_zpow, this]
  congr 1
  exact_mod_cast hnum

example : powQty { exEnv with est := fun _ v => Nat.sqrt v.toNat } { exLibm with pow := fun _ x _ => .ok (x * x * x / 4) } 3 2
      ⟨⟨.base exL, ⟨.scaled ⟨9, 4, 0⟩ "metre", ⟨9, 4, 0⟩, "metre", [], false, "", none⟩, .flt .f64⟩, .f 4⟩ =
    .ok (.inr ⟨⟨.unknown [⟨exL, 3, 2⟩], ⟨.scaled ⟨27, 8, 0⟩ "unknown_coherent_unit", ⟨27, 8, 0⟩, "unknown_coherent_unit", [], false, "", none⟩,
      .flt .f64⟩, .f 16⟩) := by decide +kernel

/-- C34: `pow<N>(q)` denotes the `N`-th power of the amount of `q`, for an exact `<cmath>` and a
representable result.  Partial as `C34_pow_rational_partial`. -/
theorem C34_pow_exact_partial (E : Env) (hE : E.OK) (β : String → ℝ) (hβ : Sizes β) (L : Libm) (hL : L.Exact)
    (hfl : FlExact E.fl) (num : ℤ) (q r : Qty) (gq : q.Good E) (gr : r.ty.dim.Good)
    (hx : (∀ b, q.ty.dim ≠ .base b) → PowExact q.ty.dim num 1) (h : powQty E L num 1 q = .ok (.inr r))
    (hfit : RFits q.ty.rep (q.num.q ^ num)) (hcoh : r.ty.dim.unit.ratio.val = q.ty.dim.unit.ratio.val ^ num) :
    r.ty.rep = q.ty.rep ∧ r.amount β = q.amount β ^ num := by
  have key : r.ty.rep = q.ty.rep ∧ r.num.q = q.num.q ^ num ∧ r.ty.unit.ratio.val = q.ty.unit.ratio.val ^ num := by
    unfold powQty at h
    rw [if_neg one_ne_zero] at h
    split at h
    · cases h
    simp only [bind_ok, Except.ok.injEq, Sum.inr.injEq] at h
    obtain ⟨d, hd, p, hp, u, hu, x, hx', y, hy, rfl⟩ := h
    refine ⟨rfl, ?_, ?_⟩
    · unfold libmPow at hx'
      simp only [bind_ok, fltOp, hfl _ _, Int.cast_one, div_one, if_neg (one_ne_zero (α := ℚ)), Except.ok.injEq] at hx'
      obtain ⟨a, ha, e, rfl, e', he', z, hz, rfl⟩ := hx'
      rw [convNum_flt hfl gq.num ha, convNum_flt hfl (r := .flt .f64) (v := .f _) ⟨.f64, rfl⟩ he'] at hz
      have := hL.pow _ _ _ _ hz
      simp only [Num.q] at this
      have hq : (Num.f z).q = q.num.q ^ num := this
      rw [convNum_fits (r := .flt q.ty.rep.libm2) (v := .f z) ⟨_, rfl⟩ (fun _ => hfl) (by rw [hq]; exact hfit) hy, hq]
    · show u.ratio.val = _
      rw [(downcastUnit_eq_ok hE.units hu).1, (powR_one_sound gq.ty.unit.ratio hp).1]
  refine ⟨key.1, ?_⟩
  have := C34_pow_rational_partial E hE β hβ L num 1 q r gq gr (by simpa using hx) (by simpa using h)
    (by simpa using key.2.1) (by simpa using key.2.2) (by simpa using hcoh)
  simpa using this

example : powQty exEnv exLibm 3 1 ⟨exKms (.int .i32), .i (-5)⟩ =
      .ok (.inr ⟨⟨.unknown [⟨exL, 3, 1⟩], ⟨.scaled ⟨1, 1, 9⟩ "unknown_coherent_unit", ⟨1, 1, 9⟩, "unknown_coherent_unit", [], false, "", none⟩,
        .int .i32⟩, .i (-125)⟩) ∧
    powQty exEnv exLibm (-1) 1 ⟨exKms (.flt .f32), .f (-5)⟩ =
      .ok (.inr ⟨⟨.unknown [⟨exL, -1, 1⟩], ⟨.scaled ⟨1, 1, -3⟩ "unknown_coherent_unit", ⟨1, 1, -3⟩, "unknown_coherent_unit", [], false, "", none⟩,
        .flt .f32⟩, .f (-1 / 5)⟩) := by decide +kernel

/-- C34: `sqrt(q)` denotes the non-negative square root of the amount.  Partial: the ratio of the unit has
an exact root that the library finds (`C09_sqrt_of_25`), and the coherent units agree. -/
theorem C34_sqrt_exact_partial (E : Env) (hE : E.OK) (β : String → ℝ) (hβ : Sizes β) (L : Libm) (hL : L.Exact)
    (hfl : FlExact E.fl) (q r : Qty) (gq : q.Good E) (gr : r.ty.dim.Good) (wr : r.ty.unit.WF)
    (hx : (∀ b, q.ty.dim ≠ .base b) → PowExact q.ty.dim 1 2) (h : sqrtQty E L q = .ok r)
    (hfit : ∀ y, y ^ 2 = q.num.q → 0 ≤ y → RFits q.ty.rep y)
    (hroot : r.ty.unit.ratio.val ^ 2 = q.ty.unit.ratio.val)
    (hcoh : r.ty.dim.unit.ratio.val ^ 2 = q.ty.dim.unit.ratio.val) :
    r.ty.rep = q.ty.rep ∧ 0 ≤ r.amount β ∧ r.amount β ^ 2 = q.amount β := by
  unfold sqrtQty at h
  simp only [bind_ok, Except.ok.injEq] at h
  obtain ⟨d, hd, p, hp, u, hu, x, hx', y, hy, rfl⟩ := h
  have hnum : 0 ≤ y.q ∧ y.q ^ 2 = q.num.q := by
    unfold libm1 at hx'
    simp only [bind_ok, Except.ok.injEq] at hx'
    obtain ⟨a, ha, z, hz, rfl⟩ := hx'
    rw [convNum_flt hfl gq.num ha] at hz
    obtain ⟨z0, z2⟩ := hL.sqrt _ _ _ hz
    have : y.q = z := convNum_fits (r := .flt q.ty.rep.libm) (v := .f z) ⟨_, rfl⟩ (fun _ => hfl) (hfit z z2 z0) hy
    rw [this]; exact ⟨z0, z2⟩
  have := pow_size (u := q.ty.unit) (u' := u) hE.dims hβ (num := 1) (den := 2) (by norm_num) gq.ty.dim gr (by exact_mod_cast hd)
    (by exact_mod_cast hx) (by simpa using hroot) (by simpa using hcoh)
  have hpos := Dim.size_pos hβ gr wr
  refine ⟨rfl, mul_nonneg (by exact_mod_cast hnum.1) hpos.le, ?_⟩
  rw [Qty.amount, Qty.amount, mul_pow, this, zpow_one, ← hnum.2]
  push_cast; ring

def exSqrtEnv : Env := { exEnv with est := fun _ v => Nat.sqrt v.toNat }

example : sqrtQty exSqrtEnv exLibm ⟨⟨.unknown [⟨exL, 2, 1⟩], ⟨.scaled ⟨1, 1, 6⟩ "unknown_coherent_unit", ⟨1, 1, 6⟩, "unknown_coherent_unit", [], false, "", none⟩,
      .int .i32⟩, .i 49⟩ =
    .ok ⟨⟨.base exL, ⟨.scaled ⟨1, 1, 3⟩ "metre", ⟨1, 1, 3⟩, "metre", [], false, "", none⟩, .int .i32⟩, .i 7⟩ := by decide +kernel

/-- C34: `cbrt(q)` denotes the cube root of the amount, under the same conditions. -/
theorem C34_cbrt_exact_partial (E : Env) (hE : E.OK) (β : String → ℝ) (hβ : Sizes β) (L : Libm) (hL : L.Exact)
    (hfl : FlExact E.fl) (q r : Qty) (gq : q.Good E) (gr : r.ty.dim.Good)
    (hx : (∀ b, q.ty.dim ≠ .base b) → PowExact q.ty.dim 1 3) (h : cbrtQty E L q = .ok r)
    (hfit : ∀ y, y ^ 3 = q.num.q → RFits q.ty.rep y)
    (hroot : r.ty.unit.ratio.val ^ 3 = q.ty.unit.ratio.val)
    (hcoh : r.ty.dim.unit.ratio.val ^ 3 = q.ty.dim.unit.ratio.val) :
    r.ty.rep = q.ty.rep ∧ r.amount β ^ 3 = q.amount β := by
  unfold cbrtQty at h
  simp only [bind_ok, Except.ok.injEq] at h
  obtain ⟨d, hd, p, hp, u, hu, x, hx', y, hy, rfl⟩ := h
  have hnum : y.q ^ 3 = q.num.q := by
    unfold libm1 at hx'
    simp only [bind_ok, Except.ok.injEq] at hx'
    obtain ⟨a, ha, z, hz, rfl⟩ := hx'
    rw [convNum_flt hfl gq.num ha] at hz
    have z2 := hL.cbrt _ _ _ hz
    have : y.q = z := convNum_fits (r := .flt q.ty.rep.libm) (v := .f z) ⟨_, rfl⟩ (fun _ => hfl) (hfit z z2) hy
    rw [this]; exact z2
  have := pow_size (u := q.ty.unit) (u' := u) hE.dims hβ (num := 1) (den := 3) (by norm_num) gq.ty.dim gr (by exact_mod_cast hd)
    (by exact_mod_cast hx) (by simpa using hroot) (by simpa using hcoh)
  refine ⟨rfl, ?_⟩
  rw [Qty.amount, Qty.amount, mul_pow, this, zpow_one, ← hnum]
  push_cast; ring

example : cbrtQty { exEnv with est := fun _ v => if v = 8 then 2 else 1 } exLibm
      ⟨⟨.unknown [⟨exL, 3, 1⟩], ⟨.scaled ⟨8, 1, 6⟩ "unknown_coherent_unit", ⟨8, 1, 6⟩, "unknown_coherent_unit", [], false, "", none⟩,
      .flt .f64⟩, .f 27⟩ =
    .ok ⟨⟨.base exL, ⟨.scaled ⟨2, 1, 2⟩ "metre", ⟨2, 1, 2⟩, "metre", [], false, "", none⟩, .flt .f64⟩, .f 3⟩ := by decide +kernel

/-- C34: `sqrt(pow<2>(q))` gives back the amount of a non-negative `q`, whatever the ratios of its unit and
of the coherent units.  Partial: no power of ten may appear in the exponents of the dimension. -/
theorem C34_sqrt_of_square_partial (E : Env) (hE : E.OK) (β : String → ℝ) (hβ : Sizes β) (L : Libm) (hL : L.Exact)
    (hfl : FlExact E.fl) (hest : ∀ t : Int, 0 < t → t ^ 2 ≤ intMax → |E.est 2 (t ^ 2) - t| ≤ 1)
    (q p r : Qty) (gq : q.Good E) (gp : p.ty.dim.Good) (gr : r.ty.dim.Good) (hq : 0 ≤ q.num.q)
    (hx : (∀ b, q.ty.dim ≠ .base b) → PowExact q.ty.dim 2 1) (hx' : (∀ b, p.ty.dim ≠ .base b) → PowExact p.ty.dim 1 2)
    (h : powQty E L 2 1 q = .ok (.inr p)) (h' : sqrtQty E L p = .ok r)
    (hfit : RFits q.ty.rep (q.num.q ^ 2)) (hcoh : r.ty.dim.unit.ratio.val = q.ty.dim.unit.ratio.val) :
    r.ty.rep = q.ty.rep ∧ r.num.q = q.num.q ∧ r.ty.unit.ratio.val = q.ty.unit.ratio.val ∧ r.amount β = q.amount β := by
  unfold powQty at h
  rw [if_neg one_ne_zero, if_neg two_ne_zero] at h
  simp only [bind_ok, Except.ok.injEq, Sum.inr.injEq] at h
  obtain ⟨d, hd, s, hs, u, hu, x, hx1, y, hy, rfl⟩ := h
  unfold sqrtQty at h'
  simp only [bind_ok, Except.ok.injEq] at h'
  obtain ⟨d2, hd2, s2, hs2, u2, hu2, x2, hx2, y2, hy2, rfl⟩ := h'
  dsimp only at hd2 hs2 hx2 hy2 gp gr hx' hcoh ⊢
  -- the numbers
  have ty : y.Typed q.ty.rep ∧ y.q = q.num.q ^ 2 := by
    unfold libmPow at hx1
    simp only [bind_ok, fltOp, hfl _ _, Int.cast_one, div_one, if_neg (one_ne_zero (α := ℚ)), Except.ok.injEq] at hx1
    obtain ⟨a, ha, e, rfl, e', he', z, hz, rfl⟩ := hx1
    rw [convNum_flt hfl gq.num ha, convNum_flt hfl (r := .flt .f64) (v := .f _) ⟨.f64, rfl⟩ he'] at hz
    have hz' : z = q.num.q ^ (2 : ℤ) := hL.pow _ _ _ _ hz
    have hq : (Num.f z).q = q.num.q ^ 2 := by rw [show (Num.f z).q = z from rfl, hz']; norm_cast
    refine ⟨convNum_typed (r := .flt q.ty.rep.libm2) (v := .f z) ⟨_, rfl⟩ hy, ?_⟩
    rw [convNum_fits (r := .flt q.ty.rep.libm2) (v := .f z) ⟨_, rfl⟩ (fun _ => hfl) (by rw [hq]; exact hfit) hy, hq]
  have hnum : y2.q = q.num.q := by
    unfold libm1 at hx2
    simp only [bind_ok, Except.ok.injEq] at hx2
    obtain ⟨a, ha, z, hz, rfl⟩ := hx2
    rw [convNum_flt hfl ty.1 ha] at hz
    obtain ⟨z0, z2⟩ := hL.sqrt _ _ _ hz
    have hzq : z = q.num.q := by
      have z2 : z ^ 2 = q.num.q ^ 2 := by rw [z2]; exact ty.2
      exact (pow_left_inj₀ z0 hq two_ne_zero).mp z2
    have := convNum_fits (r := .flt q.ty.rep.libm) (v := .f z) ⟨_, rfl⟩ (fun _ => hfl)
      (by show RFits q.ty.rep z; rw [hzq]; exact gq.num.rfits) hy2
    rw [this]; exact hzq
  -- the units
  have e1 := (downcastUnit_eq_ok hE.units hu).1
  have e2 := (downcastUnit_eq_ok hE.units hu2).1
  obtain ⟨sv, sw⟩ := powR_one_sound gq.ty.unit.ratio hs
  have hsm : s = ⟨q.ty.unit.ratio.num * q.ty.unit.ratio.num, q.ty.unit.ratio.den * q.ty.unit.ratio.den,
      q.ty.unit.ratio.exp + q.ty.unit.ratio.exp⟩ := by
    unfold powR at hs
    rw [if_neg one_ne_zero, if_neg two_ne_zero, if_neg (by norm_num)] at hs
    simp only [bind_ok, sgcd_eq_ok, div64_eq_ok, mul64_eq_ok] at hs
    obtain ⟨g, ⟨-, -, rfl⟩, a, ⟨-, hI, rfl⟩, n', hn', dd, ⟨-, hId, rfl⟩, d', hd', p', hp', res, hres, t, ⟨hIs, rfl⟩, hs⟩ := hs
    obtain ⟨-, rfl⟩ := (abs64_eq_ok hI).mp hn'
    obtain ⟨-, rfl⟩ := (abs64_eq_ok hId).mp hd'
    have c1 : (|((2 : ℤ).tdiv ((Int.gcd 2 1 : ℕ) : ℤ))|).toNat = 2 := by decide
    have c2 : (|((1 : ℤ).tdiv ((Int.gcd 2 1 : ℕ) : ℤ))|).toNat = 1 := by decide
    rw [c1] at hp'
    rw [c2] at hres
    unfold rootR at hres
    rw [if_pos rfl] at hres
    simp only [Except.ok.injEq] at hres
    rw [if_neg (by norm_num)] at hs
    simp only [Except.ok.injEq] at hs
    rw [← hs, ← hres]
    unfold powImpl at hp'
    rw [if_neg two_ne_zero, if_neg (by norm_num), if_pos (by norm_num)] at hp'
    simp only [bind_ok] at hp'
    obtain ⟨w, hw, hp'⟩ := hp'
    unfold powImpl at hp'
    rw [if_neg (by norm_num), if_pos (by norm_num)] at hp'
    simp only [Except.ok.injEq] at hp'
    rw [← hp']
    exact mul_self_eq gq.ty.unit.ratio hw
  have hpos := gq.ty.unit.val_pos
  have hroot : s2.val = q.ty.unit.ratio.val := by
    rw [e1] at hs2
    unfold sqrtR at hs2
    have hp1 : powImpl (1 : ℤ).toNat s = .ok s := by
      unfold powImpl; rw [if_neg (by decide), if_pos (by decide)]
    have hdvd : (2 : ℤ) ∣ s.exp := by rw [hsm]; exact ⟨q.ty.unit.ratio.exp, by ring⟩
    refine C09_pow_rational_partial E.est 1 2 s s s2 q.ty.unit.ratio.val sw (by norm_num) (by norm_num) (by decide) (by norm_num) hp1 hdvd
      hpos ?_ ?_ hs2
    · rw [show (1 : ℤ).toNat = 1 from rfl, show (2 : ℤ).toNat = 2 from rfl, sv]; norm_cast; ring
    · intro _ t ht hle; exact hest t ht hle
  refine ⟨rfl, hnum, by rw [e2, hroot], ?_⟩
  -- the sizes
  obtain ⟨es, he, hw⟩ := gq.ty.dim.exps
  obtain ⟨es2, he2, hw2⟩ := gr.exps
  have hds : dimSize β es2 = dimSize β es := by
    have := dimSize_combine hβ (k1 := 1) (k2 := 0) hw2 hw hw fun b => by
      rw [Dim.exps_exp he, Dim.exps_exp he2, dimPow_exp hE.dims hd2 hx', dimPow_exp hE.dims hd hx]; push_cast; ring
    simpa using this
  rw [Qty.amount, Qty.amount, Dim.size_eq he, Dim.size_eq he2, hds]
  simp only
  rw [hnum, e2, hroot, hcoh]

example : powQty exSqrtEnv exLibm 2 1 ⟨exKgs (.flt .f64), .f (7 / 2)⟩ =
      .ok (.inr ⟨⟨.unknown [⟨exM, 2, 1⟩], ⟨.scaled ⟨1, 1, 6⟩ "unknown_coherent_unit", ⟨1, 1, 6⟩, "unknown_coherent_unit", [], false, "", none⟩,
        .flt .f64⟩, .f (49 / 4)⟩) ∧
    sqrtQty exSqrtEnv exLibm ⟨⟨.unknown [⟨exM, 2, 1⟩], ⟨.scaled ⟨1, 1, 6⟩ "unknown_coherent_unit", ⟨1, 1, 6⟩, "unknown_coherent_unit", [], false, "", none⟩,
        .flt .f64⟩, .f (49 / 4)⟩ =
      .ok ⟨⟨.base exM, ⟨.scaled ⟨1, 1, 3⟩ "gram", ⟨1, 1, 3⟩, "gram", [], false, "", none⟩, .flt .f64⟩, .f (7 / 2)⟩ := by decide +kernel

theorem exKgs_size (β : String → ℝ) (r : Rep) : (exKgs r).size β = 1000 * β "gram" := by
  unfold QTy.size exKgs
  rw [Dim.size_base exKg_wf]
  norm_num [exKg, exM, Ratio.val]

theorem exM2_exps : (Dim.unknown [⟨exM, 2, 1⟩]).exps = .ok [⟨exM, 2, 1⟩] := by decide +kernel

/-- C34 is violated when the coherent unit has a ratio, as the kilogram: the square of two kilograms is a
million times the product of two kilograms with themselves, and the square root of that product is two
grams. -/
theorem C34_pow_ignores_unit (β : String → ℝ) (hβ : Sizes β) :
    ∃ p m s, powQty exSqrtEnv exLibm 2 1 ⟨exKgs (.flt .f64), .f 2⟩ = .ok (.inr p) ∧
      mulQty exSqrtEnv ⟨exKgs (.flt .f64), .f 2⟩ ⟨exKgs (.flt .f64), .f 2⟩ = .ok m ∧
      sqrtQty exSqrtEnv exLibm m = .ok s ∧
      m.amount β = (⟨exKgs (.flt .f64), .f 2⟩ : Qty).amount β ^ 2 ∧
      p.amount β = 10 ^ 6 * (⟨exKgs (.flt .f64), .f 2⟩ : Qty).amount β ^ 2 ∧
      s.amount β = (⟨exKgs (.flt .f64), .f 2⟩ : Qty).amount β / 1000 ∧ s.amount β ≠ (⟨exKgs (.flt .f64), .f 2⟩ : Qty).amount β := by
  refine ⟨⟨⟨.unknown [⟨exM, 2, 1⟩], ⟨.scaled ⟨1, 1, 6⟩ "unknown_coherent_unit", ⟨1, 1, 6⟩, "unknown_coherent_unit", [], false, "", none⟩,
        .flt .f64⟩, .f 4⟩,
    ⟨⟨.unknown [⟨exM, 2, 1⟩], ⟨.scaled ⟨1, 1, 0⟩ "unknown_coherent_unit", ⟨1, 1, 0⟩, "unknown_coherent_unit", [], false, "", none⟩,
        .flt .f64⟩, .f 4⟩,
    ⟨⟨.base exM, ⟨.scaled ⟨1, 1, 0⟩ "gram", ⟨1, 1, 0⟩, "gram", [], false, "", none⟩, .flt .f64⟩, .f 2⟩,
    by decide +kernel, by decide +kernel, by decide +kernel, ?_, ?_, ?_, ?_⟩
  all_goals have hb : 0 < β "gram" := hβ _
  all_goals rw [Qty.amount_eq _ ⟨exKgs _, _⟩, exKgs_size]
  · rw [Qty.amount, Dim.size_eq exM2_exps]
    simp only [dimSize, Dim.unit, exM, exKg, unknownCoherentUnit, Ratio.val, Exp.q, baseSize, Ratio.one, List.map_cons, List.map_nil,
      List.prod_cons, List.prod_nil, Num.q]
    norm_num
    ring
  · rw [Qty.amount, Dim.size_eq exM2_exps]
    simp only [dimSize, Dim.unit, exM, exKg, unknownCoherentUnit, Ratio.val, Exp.q, baseSize, Ratio.one, List.map_cons, List.map_nil,
      List.prod_cons, List.prod_nil, Num.q]
    norm_num
    ring
  · rw [Qty.amount, Dim.size_base exKg_wf]
    norm_num [Ratio.val, Num.q, exM, exKg]; ring
  · rw [Qty.amount, Dim.size_base exKg_wf]
    norm_num [Ratio.val, Num.q, exM, exKg]
    intro h
    linarith

/-! ## C35 -/

/-- C35: `abs(q)` has the type of `q` and the absolute value of its amount, when that value is representable. -/
theorem C35_abs_exact (E : Env) (β : String → ℝ) (hβ : Sizes β) (q r : Qty) (gq : q.Good E) (h : absQty E q = .ok r)
    (hfit : RFits q.ty.rep |q.num.q|) : r.ty = q.ty ∧ r.amount β = |q.amount β| := by
  have hs := gq.ty.size_pos hβ
  suffices hh : r.ty = q.ty ∧ r.num.q = |q.num.q| by
    refine ⟨hh.1, ?_⟩
    rw [Qty.amount_eq, Qty.amount_eq, hh.1, hh.2, abs_mul, abs_of_pos hs]
    push_cast; ring
  unfold absQty mkQty at h
  have hnum := gq.num
  revert h hnum hfit
  cases hr : q.ty.rep with
  | flt f =>
    intro h hfit hnum
    obtain ⟨x, hx⟩ := hnum.flt
    rw [hx] at h
    simp only [stdAbs, bind_ok, Except.ok.injEq] at h
    obtain ⟨_, rfl, h⟩ := h
    simp only [convNum_self, Rep.floating, true_or, if_true, bind_ok, Except.ok.injEq] at h
    obtain ⟨_, rfl, rfl⟩ := h
    exact ⟨rfl, by rw [hx]; rfl⟩
  | int t =>
    intro h hfit hnum
    obtain ⟨x, hx, hin⟩ := hnum.int
    rw [hx] at h
    simp only [stdAbs] at h
    split at h
    · rename_i hs
      simp only [bind_ok, Except.ok.injEq] at h
      obtain ⟨_, ⟨y, hy, rfl⟩, h⟩ := h
      dsimp only at h
      rw [if_pos (Or.inr (by simp [Rep.floating]))] at h
      simp only [bind_ok, Except.ok.injEq] at h
      obtain ⟨z, hz, rfl⟩ := h
      refine ⟨rfl, ?_⟩
      have hy' : t.promote.In y ∧ y = |x| := by
        unfold IntTy.arith at hy
        rw [if_pos hs] at hy
        split at hy
        · rename_i h1
          simp only [Except.ok.injEq] at hy
          rw [← hy]; exact ⟨h1, rfl⟩
        · cases hy
      have he : (Num.i y).q = |q.num.q| := by rw [hx, Num.q_i, Num.q_i, hy'.2]; push_cast; rfl
      have := convNum_fits (r := .int t.promote) (r' := .int t) (v := .i y) ⟨_, rfl, hy'.1⟩ (by intro h; cases h)
        (by rw [he]; exact hfit) hz
      rw [this, he]
    · cases h

example : absQty exEnv ⟨exKms (.int .i16), .i (-32767)⟩ = .ok ⟨exKms (.int .i16), .i 32767⟩ ∧
    absQty exEnv ⟨exKms (.flt .f32), .f (-5 / 2)⟩ = .ok ⟨exKms (.flt .f32), .f (5 / 2)⟩ := by decide +kernel

/-- C35 is violated by narrow representations: the absolute value of −128 stored in a signed byte is −128. -/
theorem C35_abs_wraps (β : String → ℝ) (hβ : Sizes β) :
    ∃ q r : Qty, absQty exEnv q = .ok r ∧ r.ty = q.ty ∧ r.amount β < 0 ∧ r.amount β = q.amount β := by
  refine ⟨⟨exMetres (.int .i8), .i (-128)⟩, ⟨exMetres (.int .i8), .i (-128)⟩, by decide +kernel, rfl, ?_, rfl⟩
  rw [Qty.amount_eq]
  have := (exMetres_good exEnv (.int .i8)).size_pos hβ
  have : (((Num.i (-128)).q : ℚ) : ℝ) < 0 := by norm_num [Num.q]
  exact mul_neg_of_neg_of_pos this ‹_›

/-- C35: `abs` is never given an unsigned representation as wide as `int` (the call of `std::abs` is
ambiguous), and in particular never changes one. -/
theorem C35_abs_unsigned_rejected (E : Env) (q : Qty) (t : IntTy) (ht : t = .u32 ∨ t = .u64) (hr : q.ty.rep = .int t)
    (hn : q.num.Typed q.ty.rep) : absQty E q = .error .rejected := by
  rw [hr] at hn
  obtain ⟨x, hx, -⟩ := hn.int
  unfold absQty
  rw [hr, hx]
  rcases ht with rfl | rfl <;> rfl

example : absQty exEnv ⟨exKms (.int .u32), .i 5⟩ = .error .rejected := by decide +kernel

theorem dimOne_size (β : String → ℝ) (u : MUnit) : (Dim.named dimOne).size β u = u.ratio.val := by
  rw [Dim.size_eq (es := []) rfl]
  simp [dimSize, Dim.unit, dimOne, unitOne, Ratio.val, Ratio.one]

theorem ones_good (E : Env) (r : Rep) : QTy.Good E ⟨.named dimOne, unitOne, r⟩ := by
  have w : unitOne.WF := ⟨one_wf, by decide⟩
  refine ⟨⟨⟨[], rfl, by simp⟩, w⟩, w, rfl, ?_⟩
  intro es he
  have : es = [] := by cases he; rfl
  subst this; simp

/-- C35: `exp(q)` of a dimensionless quantity in any unit is the exponential of the plain number it denotes,
given back in the same unit, when the floating point conversions are exact. -/
theorem C35_exp_exact (E : Env) (β : String → ℝ) (hβ : Sizes β) (L : Libm) (hfl : FlExact E.fl) (q r : Qty)
    (gq : q.Good E) (h : expQty E L q = .ok r) :
    r.ty = q.ty ∧ ∃ x y : ℚ, (x : ℝ) = q.amount β ∧ L.exp q.ty.rep.libm x = .ok y ∧ r.amount β = y := by
  have gone := ones_good E q.ty.rep
  unfold expQty at h
  split at h
  · rename_i hd
    simp only [bind_ok] at h
    obtain ⟨a, ha, x, hx, b, hb, h⟩ := h
    obtain ⟨⟨D, U, R⟩, n⟩ := q
    simp only at hd ha hx hb h gone ⊢
    subst hd
    unfold mkQty at hb
    split at hb
    · rename_i hf
      obtain ⟨f, rfl⟩ : ∃ f, R = .flt f := by
        cases R with
        | flt f => exact ⟨f, rfl⟩
        | int _ => rcases hf with hf | hf
                   · cases hf
                   · exact absurd rfl hf
      simp only [bind_ok, Except.ok.injEq] at hb
      obtain ⟨z, hz, rfl⟩ := hb
      unfold libm1 at hx
      simp only [bind_ok, Except.ok.injEq] at hx
      obtain ⟨w, hw, y, hy, rfl⟩ := hx
      have hz' : z = .f y := by
        have : convNum E.fl (.flt f) (.flt f) (.f y) = .ok (.f y) := convNum_self
        rw [show (Rep.flt f).libm = f from rfl] at hz
        rw [this] at hz; exact (Except.ok.inj hz).symm
      subst hz'
      obtain ⟨at1, at2, at3⟩ := quantityCast_exact hβ gq.ty gone (Coherent.refl _ _) gq.num (fun _ => hfl)
        (no_guard (by simp) (by simp)) (fun ty h => by cases h) ha
      obtain ⟨bt1, bt2, bt3⟩ := quantityCast_exact (q := ⟨⟨.named dimOne, unitOne, .flt f⟩, .f y⟩) hβ gone gq.ty
        (Coherent.refl _ _) ⟨f, rfl⟩ (fun _ => hfl) (no_guard (by simp) (by simp)) (fun ty h => by cases h) h
      refine ⟨bt1, w.q, y, ?_, hy, ?_⟩
      · rw [← at3, Qty.amount_eq, at1, convNum_flt hfl at2 hw]
        simp only [QTy.size, dimOne_size]
        norm_num [unitOne, Ratio.val, Ratio.one, Num.q]
      · rw [bt3, Qty.amount_eq]
        simp only [QTy.size, dimOne_size]
        norm_num [unitOne, Ratio.val, Ratio.one, Num.q]
    · cases hb
  · cases h

example : expQty exEnv exLibm ⟨⟨.named dimOne, exPercent, .flt .f64⟩, .f 200⟩ =
    .ok ⟨⟨.named dimOne, exPercent, .flt .f64⟩, .f 500⟩ := by decide +kernel

/-- C35: `exp` of a quantity that is not dimensionless, or has an integral representation, is rejected. -/
theorem C35_exp_rejected (E : Env) (L : Libm) (q r : Qty) (h : expQty E L q = .ok r) :
    q.ty.dim = .named dimOne ∧ q.ty.rep.floating = true := by
  unfold expQty at h
  split at h
  · rename_i hd
    refine ⟨hd, ?_⟩
    simp only [bind_ok] at h
    obtain ⟨a, ha, x, hx, b, hb, h⟩ := h
    unfold mkQty at hb
    split at hb
    · rename_i hf
      simpa [Rep.floating] using hf
    · cases hb
  · cases h

example : expQty exEnv exLibm ⟨⟨.named dimOne, unitOne, .int .i32⟩, .i 2⟩ = .error .rejected := by decide +kernel

/-- C35: `epsilon<Q>()` is a quantity of the type asked for; its number is zero for integral
representations and `2 ^ (1 - p)` for a floating point type with a significand of `p` bits. -/
theorem C35_epsilon (E : Env) (β : String → ℝ) (t : QTy) (p : FltTy → ℕ) (hp : p .f32 = 24 ∧ p .f64 = 53 ∧ p .f80 = 64) :
    ∃ r, epsilonQty E t = .ok r ∧ r.ty = t ∧ r.num.Typed t.rep ∧
      (∀ ty, t.rep = .int ty → r.amount β = 0) ∧
      (∀ f, t.rep = .flt f → r.amount β = (2 : ℝ) ^ (1 - (p f : ℤ)) * t.size β) := by
  refine ⟨⟨t, t.rep.epsilon⟩, ?_, rfl, ?_, ?_, ?_⟩
  · unfold epsilonQty mkQty
    rw [if_pos (by cases t.rep.floating <;> simp), convNum_self]; rfl
  · cases ht : t.rep with
    | int ty => exact ⟨ty, rfl, by cases ty <;> decide⟩
    | flt f => cases f <;> exact ⟨_, rfl⟩
  · intro ty ht
    rw [Qty.amount_eq]; simp [ht, Rep.epsilon, Num.q]
  · intro f ht
    rw [Qty.amount_eq]
    obtain ⟨h1, h2, h3⟩ := hp
    cases f <;> simp only [ht, Rep.epsilon, Num.q, h1, h2, h3] <;> norm_num

example : epsilonQty exEnv (exKms (.flt .f32)) = .ok ⟨exKms (.flt .f32), .f (1 / 8388608)⟩ ∧
    epsilonQty exEnv (exKms (.int .i16)) = .ok ⟨exKms (.int .i16), .i 0⟩ := by decide +kernel

/-! ## C36 -/

theorem ones_size (β : String → ℝ) (r : Rep) : (⟨.named dimOne, unitOne, r⟩ : QTy).size β = 1 := by
  rw [QTy.size, dimOne_size]; norm_num [unitOne, Ratio.val, Ratio.one]

/-- C36: a number converts implicitly only to a quantity of dimension one in the unit one, and then denotes
itself whenever the representation can hold it. -/
theorem C36_implicit_number (E : Env) (β : String → ℝ) (t : QTy) (r : Rep) (v : Num) (q : Qty) (hv : v.Typed r)
    (hfl : t.rep.floating = true → FlExact E.fl) (h : implicitNum E t r v = .ok q) :
    t.dim = .named dimOne ∧ t.unit = unitOne ∧ q.ty = t ∧ q.num.Typed t.rep ∧
      (RFits t.rep v.q → q.amount β = v.q) := by
  unfold implicitNum at h
  split at h
  · rename_i hd
    obtain ⟨D, U, R⟩ := t
    obtain ⟨h1, h2⟩ := hd
    simp only at h1 h2
    subst h1 h2
    unfold mkQty at h
    split at h
    · simp only [bind_ok, Except.ok.injEq] at h
      obtain ⟨x, hx, rfl⟩ := h
      refine ⟨rfl, rfl, rfl, convNum_typed hv hx, fun hf => ?_⟩
      rw [Qty.amount_eq, ones_size, mul_one, convNum_fits hv hfl hf hx]
    · cases h
  · cases h

example : implicitNum exEnv ⟨.named dimOne, unitOne, .flt .f32⟩ (.int .i16) (.i (-7)) =
      .ok ⟨⟨.named dimOne, unitOne, .flt .f32⟩, .f (-7)⟩ ∧
    implicitNum exEnv ⟨.named dimOne, exPercent, .flt .f32⟩ (.int .i16) (.i (-7)) = .error .rejected ∧
    implicitNum exEnv (exMetres (.flt .f32)) (.int .i16) (.i (-7)) = .error .rejected := by decide +kernel

/-- C36: adding a number to, or subtracting it from, a dimensionless quantity is accepted only in the unit
one, and the result denotes the exact sum or difference, on either side. -/
theorem C36_sum_exact (E : Env) (β : String → ℝ) (op : BinOp) (hop : op = .add ∨ op = .sub) (q s : Qty) (r : Rep) (v : Num)
    (hd : q.ty.dim = .named dimOne) (hq : q.num.Typed q.ty.rep) (hv : v.Typed r)
    (hfl : (q.ty.rep.arith r).floating = true → FlExact E.fl)
    (uq : UFits (q.ty.rep.arith r) q.num.q) (uv : UFits (q.ty.rep.arith r) v.q)
    (us : UFits (q.ty.rep.arith r) (op.val q.num.q v.q)) (h : addSubNum E op q r v = .ok s) :
    q.ty.unit = unitOne ∧ s.ty = ⟨.named dimOne, unitOne, q.ty.rep.arith r⟩ ∧ s.num.Typed s.ty.rep ∧
      s.amount β = if op = .add then q.amount β + v.q else q.amount β - v.q := by
  unfold addSubNum at h
  split at h
  · rename_i hu
    simp only [bind_ok, Except.ok.injEq] at h
    obtain ⟨z, hz, rfl⟩ := h
    have ht := numOp_typed hq hv hz
    obtain ⟨-, e⟩ := numOp_exact hq hv hfl uq uv (fun _ => us) hz
    refine ⟨hu, rfl, ht, ?_⟩
    have e : z.q = op.result (q.ty.rep.arith r) q.num.q v.q := e
    unfold BinOp.result at e
    rw [if_neg (by rcases hop with rfl | rfl <;> simp)] at e
    have hq1 : q.amount β = q.num.q := by
      rw [Qty.amount_eq, QTy.size, hd, hu, dimOne_size]; norm_num [unitOne, Ratio.val, Ratio.one]
    rw [Qty.amount_eq, ones_size, mul_one, hq1, e]
    rcases hop with rfl | rfl <;> simp [BinOp.val]
  · cases h

example : addSubNum exEnv .sub ⟨⟨.named dimOne, unitOne, .int .i32⟩, .i 5⟩ (.flt .f32) (.f (15 / 2)) =
      .ok ⟨⟨.named dimOne, unitOne, .flt .f32⟩, .f (-5 / 2)⟩ ∧
    addSubNum exEnv .add ⟨⟨.named dimOne, exPercent, .int .i32⟩, .i 5⟩ (.int .i32) (.i 1) = .error .rejected := by
  decide +kernel

/-- C36: the same with the number on the left. -/
theorem C36_sum_left_exact (E : Env) (β : String → ℝ) (op : BinOp) (hop : op = .add ∨ op = .sub) (q s : Qty) (r : Rep) (v : Num)
    (hd : q.ty.dim = .named dimOne) (hq : q.num.Typed q.ty.rep) (hv : v.Typed r)
    (hfl : (r.arith q.ty.rep).floating = true → FlExact E.fl)
    (uq : UFits (r.arith q.ty.rep) q.num.q) (uv : UFits (r.arith q.ty.rep) v.q)
    (us : UFits (r.arith q.ty.rep) (op.val v.q q.num.q)) (h : addSubNumLeft E op r v q = .ok s) :
    q.ty.unit = unitOne ∧ s.ty = ⟨.named dimOne, unitOne, r.arith q.ty.rep⟩ ∧ s.num.Typed s.ty.rep ∧
      s.amount β = if op = .add then v.q + q.amount β else v.q - q.amount β := by
  unfold addSubNumLeft at h
  split at h
  · rename_i hu
    simp only [bind_ok, Except.ok.injEq] at h
    obtain ⟨z, hz, rfl⟩ := h
    have ht := numOp_typed hv hq hz
    obtain ⟨-, e⟩ := numOp_exact hv hq hfl uv uq (fun _ => us) hz
    refine ⟨hu, rfl, ht, ?_⟩
    have e : z.q = op.result (r.arith q.ty.rep) v.q q.num.q := e
    unfold BinOp.result at e
    rw [if_neg (by rcases hop with rfl | rfl <;> simp)] at e
    have hq1 : q.amount β = q.num.q := by
      rw [Qty.amount_eq, QTy.size, hd, hu, dimOne_size]; norm_num [unitOne, Ratio.val, Ratio.one]
    rw [Qty.amount_eq, ones_size, mul_one, hq1, e]
    rcases hop with rfl | rfl <;> simp [BinOp.val]
  · cases h

example : addSubNumLeft exEnv .sub (.int .i64) (.i 5) ⟨⟨.named dimOne, unitOne, .int .i16⟩, .i (-7)⟩ =
    .ok ⟨⟨.named dimOne, unitOne, .int .i64⟩, .i 12⟩ := by decide +kernel

/-- C36: comparing a quantity with a number is accepted only for dimension one in the unit one, and compares
the amounts.  Partial: the number is first converted to the representation of the quantity and has to be
a value of it, see `C36_comparison_narrows`. -/
theorem C36_comparison_exact_partial (E : Env) (β : String → ℝ) (q : Qty) (r : Rep) (v : Num) (hv : v.Typed r)
    (hfl : q.ty.rep.floating = true → FlExact E.fl) (hfit : RFits q.ty.rep v.q) :
    (∀ o, compareNumQ E q r v = .ok o → q.ty.dim = .named dimOne ∧ q.ty.unit = unitOne ∧
      (o = .lt ↔ q.amount β < v.q) ∧ (o = .eq ↔ q.amount β = v.q) ∧ (o = .gt ↔ (v.q : ℝ) < q.amount β)) ∧
    (∀ b, eqNumQ E q r v = .ok b → q.ty.dim = .named dimOne ∧ q.ty.unit = unitOne ∧ (b = true ↔ q.amount β = v.q)) := by
  have key : ∀ b, implicitNum E q.ty r v = .ok b → q.ty.dim = .named dimOne ∧ q.ty.unit = unitOne ∧
      q.amount β = (q.num.q : ℝ) ∧ b.num.q = v.q := by
    intro b hb
    obtain ⟨h1, h2, h3, h4, h5⟩ := C36_implicit_number E β q.ty r v b hv hfl hb
    refine ⟨h1, h2, ?_, ?_⟩
    · rw [Qty.amount_eq, QTy.size, h1, h2, dimOne_size]; norm_num [unitOne, Ratio.val, Ratio.one]
    · have := h5 hfit
      rw [Qty.amount_eq, h3, QTy.size, h1, h2, dimOne_size] at this
      have : (b.num.q : ℝ) = v.q := by simpa [unitOne, Ratio.val, Ratio.one] using this
      exact_mod_cast this
  constructor
  · intro o h
    unfold compareNumQ at h
    simp only [bind_ok, Except.ok.injEq] at h
    obtain ⟨b, hb, rfl⟩ := h
    obtain ⟨h1, h2, h3, h4⟩ := key b hb
    refine ⟨h1, h2, ?_⟩
    rw [h3]
    simp only [Rat.cast_lt, Rat.cast_inj]
    unfold numCompare
    rw [h4]
    split
    · rename_i hlt; simp [hlt, hlt.ne, hlt.le]
    · split
      · rename_i he; simp [he]
      · rename_i h1 h2
        have : v.q < q.num.q := lt_of_le_of_ne (not_lt.mp h1) (Ne.symm h2)
        simp [this, this.le, h2]
  · intro o h
    unfold eqNumQ at h
    simp only [bind_ok, Except.ok.injEq] at h
    obtain ⟨b, hb, rfl⟩ := h
    obtain ⟨h1, h2, h3, h4⟩ := key b hb
    refine ⟨h1, h2, ?_⟩
    rw [h3, h4]
    simp only [decide_eq_true_eq, Rat.cast_inj]

example : compareNumQ exEnv ⟨⟨.named dimOne, unitOne, .flt .f64⟩, .f (5 / 2)⟩ (.int .i32) (.i 3) = .ok .lt ∧
    eqNumQ exEnv ⟨⟨.named dimOne, unitOne, .int .i16⟩, .i (-2)⟩ (.int .i64) (.i (-2)) = .ok true ∧
    eqNumQ exEnv ⟨⟨.named dimOne, exPercent, .int .i16⟩, .i (-2)⟩ (.int .i64) (.i (-2)) = .error .rejected ∧
    eqNumQ exEnv ⟨⟨.named dimOne, unitOne, .int .i16⟩, .i (-2)⟩ (.flt .f32) (.f (-2)) = .error .rejected := by decide +kernel

/-- C36 is violated by wider numbers: an `int` quantity of one compares equal to `2 ^ 32 + 1`. -/
theorem C36_comparison_narrows (β : String → ℝ) :
    ∃ (q : Qty) (v : Num), q.num.Typed q.ty.rep ∧ v.Typed (.int .i64) ∧ eqNumQ exEnv q (.int .i64) v = .ok true ∧
      q.amount β ≠ v.q := by
  refine ⟨⟨⟨.named dimOne, unitOne, .int .i32⟩, .i 1⟩, .i 4294967297, ⟨.i32, rfl, by decide⟩, ⟨.i64, rfl, by decide⟩,
    by decide +kernel, ?_⟩
  rw [Qty.amount_eq, ones_size]
  norm_num [Num.q]

/-- C36: the remainder of a number by a quantity of dimension one in the unit one is that of the numbers.  Partial: the representation of the
quantity must hold the number, see `C36_remainder_narrows`. -/
theorem C36_remainder_partial (E : Env) (β : String → ℝ) (q s : Qty) (r : Rep) (v : Num) (hq : q.num.Typed q.ty.rep) (hv : v.Typed r)
    (hfit : RFits q.ty.rep v.q) (h : modNumLeft E r v q = .ok s) :
    q.ty.dim = .named dimOne ∧ q.ty.unit = unitOne ∧ r.floating = false ∧ q.ty.rep.floating = false ∧ q.amount β ≠ 0 ∧
      s.ty = ⟨.named dimOne, unitOne, q.ty.rep.arith q.ty.rep⟩ ∧
      s.amount β = v.q - q.amount β * truncQ (v.q / q.num.q) := by
  unfold modNumLeft at h
  simp only [bind_ok] at h
  obtain ⟨a, ha, h⟩ := h
  unfold modQty at h
  simp only [bind_ok] at h
  obtain ⟨e, -, x, -, h⟩ := h
  split at h
  swap
  · cases h
  rename_i hc
  obtain ⟨-, fa, fb⟩ := hc
  have fb' : q.ty.rep.floating = false := by simpa using fb
  obtain ⟨h1, h2, h3, h4, h5⟩ := C36_implicit_number E β q.ty r v a hv (fun hf => by rw [fb'] at hf; cases hf) ha
  have hr : r.floating = false := by
    unfold implicitNum mkQty at ha
    rw [if_pos ⟨h1, h2⟩] at ha
    split at ha
    · rename_i hc; simp only [fb', Bool.false_eq_true, false_or] at hc; simpa using hc
    · cases ha
  have eq : q.amount β = (q.num.q : ℝ) := by
    rw [Qty.amount_eq, QTy.size, h1, h2, dimOne_size]; norm_num [unitOne, Ratio.val, Ratio.one]
  have ea : a.num.q = v.q := by
    have := h5 hfit
    rw [Qty.amount_eq, h3, QTy.size, h1, h2, dimOne_size] at this
    have : (a.num.q : ℝ) = v.q := by simpa [unitOne, Ratio.val, Ratio.one] using this
    exact_mod_cast this
  simp only [bind_ok, Except.ok.injEq] at h
  obtain ⟨n, hn, rfl⟩ := h
  rw [h3] at hn
  have hfl : (q.ty.rep.arith q.ty.rep).floating = true → FlExact E.fl := by
    rw [Rep.arith_self_floating]; intro h; rw [fb'] at h; cases h
  obtain ⟨h0, hz⟩ := numOp_exact h4 hq hfl h4.rfits.ufits hq.rfits.ufits (fun h => by rcases h with h | h | h <;> cases h) hn
  have h0 := h0 (Or.inr rfl)
  simp only [reduceCtorEq, false_and, if_false, BinOp.val, ea] at hz
  refine ⟨h1, h2, hr, fb', by rw [eq]; exact_mod_cast h0, by simp only [h3, h1, h2], ?_⟩
  rw [Qty.amount_eq]
  simp only [h3, h1, h2]
  rw [ones_size, mul_one, eq, hz]
  push_cast; ring

example : modNumLeft exEnv (.int .i64) (.i (-17)) ⟨⟨.named dimOne, unitOne, .int .i32⟩, .i 5⟩ =
      .ok ⟨⟨.named dimOne, unitOne, .int .i32⟩, .i (-2)⟩ ∧
    modNumLeft exEnv (.flt .f64) (.f 17) ⟨⟨.named dimOne, unitOne, .int .i32⟩, .i 5⟩ = .error .rejected ∧
    modNumLeft exEnv (.int .i64) (.i (-17)) ⟨exMetres (.int .i32), .i 5⟩ = .error .rejected := by decide +kernel

/-- The exact remainder with a number on the left is violated: the number is converted to the representation of the quantity first.  Here
5000000000 % 7 is 2, but `5'000'000'000 % quantity<dim_one, one, int>(7)` is 5. -/
theorem C36_remainder_narrows :
    modNumLeft exEnv (.int .i64) (.i 5000000000) ⟨⟨.named dimOne, unitOne, .int .i32⟩, .i 7⟩ =
      .ok ⟨⟨.named dimOne, unitOne, .int .i32⟩, .i 5⟩ ∧ (5000000000 : ℤ) % 7 = 2 := by
  decide +kernel

end Verif
