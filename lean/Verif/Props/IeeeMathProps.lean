import Verif.IeeeMath
import Verif.Props.IeeePointProps
import Mathlib.Analysis.SpecialFunctions.Pow.Real
import Mathlib.Analysis.Convex.SpecificFunctions.Basic
import Mathlib.Analysis.Complex.ExponentialBounds

/-!
# Powers, cube roots and exponentials with IEEE numbers and an inexact `<cmath>` (C89)
-/

namespace Verif

open FltTy

/-! ### Specification of the functions of `<cmath>` -/

/-- `y` is a finite value of the type, and none is nearer to the real number `t`. -/
def Nearest (f : FltTy) (t : ℝ) (y : FVal) : Prop :=
  y.Finite ∧ y.In f ∧ ∀ z : FVal, z.Finite → z.In f → |(y.q : ℝ) - t| ≤ |(z.q : ℝ) - t|

/-- `y` is a finite value of the type with relative error at most `δ`. -/
def RelErr (δ : ℝ) (f : FltTy) (t : ℝ) (y : FVal) : Prop :=
  y.Finite ∧ y.In f ∧ |(y.q : ℝ) - t| ≤ δ * |t|

/-- The real numbers neither too large nor too small for the type. -/
def NormalR (f : FltTy) (t : ℝ) : Prop := (2 : ℝ) ^ f.emin ≤ |t| ∧ |t| ≤ 2 ^ (f.emax - 1)

/-- `x ^ e` for a positive `x`, or a negative `x` and a whole `e`. -/
noncomputable def realPow (x e : ℚ) : ℝ := if 0 < x then (x : ℝ) ^ (e : ℝ) else (x : ℝ) ^ e.num

/-- The function `std::pow` satisfies the specification `P` where the result is neither too large nor too small. -/
def LibmI.PowSpec (L : LibmI) (P : FltTy → ℝ → FVal → Prop) : Prop :=
  ∀ f x e, x.In f → e.In f → x.Finite → e.Finite → 0 < x.q ∨ (x.q < 0 ∧ e.q.den = 1) →
    NormalR f (realPow x.q e.q) → P f (realPow x.q e.q) (L.pow f x e)

/-- The function `std::cbrt` satisfies the specification `P` on all finite numbers. -/
def LibmI.CbrtSpec (L : LibmI) (P : FltTy → ℝ → FVal → Prop) : Prop :=
  ∀ f x, x.In f → x.Finite → ∀ t : ℝ, t ^ 3 = x.q → P f t (L.cbrt f x)

/-- The function `std::exp` satisfies the specification `P` where the result is neither too large nor too small. -/
def LibmI.ExpSpec (L : LibmI) (P : FltTy → ℝ → FVal → Prop) : Prop :=
  ∀ f x, x.In f → x.Finite → NormalR f (Real.exp x.q) → P f (Real.exp x.q) (L.exp f x)

/-! ### Nearest values -/

theorem FVal.In.grid {f : FltTy} {x : FVal} (hx : x.In f) (hf : x.Finite) :
    ∃ k : ℤ, |(k : ℚ)| ≤ 2 ^ (f.emax - (f.emin - (f.prec - 1))) ∧ x.q = k * 2 ^ (f.emin - (f.prec - 1)) := by
  obtain ⟨k, e, -, he, hq⟩ := hx.form hf
  obtain ⟨n, hn⟩ := Int.eq_ofNat_of_zero_le (show 0 ≤ e - (f.emin - (f.prec - 1)) by omega)
  have eq : x.q = ((k * 2 ^ n : ℤ) : ℚ) * 2 ^ (f.emin - (f.prec - 1)) := by
    rw [hq, show e = n + (f.emin - (f.prec - 1)) by omega, zpow_add₀ (by norm_num), zpow_natCast]; push_cast; ring
  refine ⟨k * 2 ^ n, ?_, eq⟩
  obtain ⟨s, m, rfl, m0, em⟩ := hf.abs_eq hx
  have hm := hx.lt.2
  rw [← em, eq, abs_mul, abs_of_pos (two_zpow_pos _)] at hm
  rw [zpow_sub₀ (by norm_num), le_div_iff₀ (two_zpow_pos _)]
  exact hm.le

/-- Every real number has a nearest value. -/
theorem nearest_exists (f : FltTy) (t : ℝ) : ∃ y, Nearest f t y := by
  obtain ⟨N, hN⟩ : ∃ N : ℕ, f.emax - (f.emin - (f.prec - 1)) = N := ⟨_, (Int.toNat_of_nonneg (by cases f <;> decide)).symm⟩
  let S : Set ℚ := {x | ∃ y : FVal, y.Finite ∧ y.In f ∧ y.q = x}
  have fin : S.Finite := by
    refine ((Set.finite_Icc (-(2 ^ N) : ℤ) (2 ^ N)).image (fun k : ℤ => (k : ℚ) * 2 ^ (f.emin - (f.prec - 1)))).subset ?_
    rintro x ⟨y, hf, hy, rfl⟩
    obtain ⟨k, hk, e⟩ := hy.grid hf
    rw [hN, zpow_natCast] at hk
    have hk : |k| ≤ 2 ^ N := by exact_mod_cast hk
    exact ⟨k, abs_le.mp hk, e.symm⟩
  obtain ⟨x, ⟨y, hf, hy, rfl⟩, hmin⟩ := Set.exists_min_image S (fun x : ℚ => |(x : ℝ) - t|) fin ⟨0, .fin false 0, trivial, ⟨le_rfl, rndMag_zero f⟩, rfl⟩
  exact ⟨y, hf, hy, fun z hz iz => hmin z.q ⟨z, hz, iz, rfl⟩⟩

theorem Nearest.eq {f : FltTy} {t : ℝ} {y z : FVal} (h : Nearest f t y) (hz : z.Finite) (iz : z.In f) (e : t = z.q) : y.q = z.q := by
  have := h.2.2 z hz iz
  rw [e, sub_self, abs_zero] at this
  have := abs_eq_zero.mp (le_antisymm this (abs_nonneg _))
  exact_mod_cast sub_eq_zero.mp this

theorem Nearest.neg {f : FltTy} {t : ℝ} {y : FVal} (h : Nearest f t y) : Nearest f (-t) y.neg := by
  refine ⟨h.1.neg, h.2.1.neg, fun z hz iz => ?_⟩
  have := h.2.2 z.neg hz.neg iz.neg
  rw [FVal.neg_q] at this ⊢
  push_cast at this ⊢
  rw [show -(y.q : ℝ) - -t = -(y.q - t) by ring, abs_neg, show (z.q : ℝ) - -t = -(-z.q - t) by ring, abs_neg]
  exact this

theorem u_quarter (f : FltTy) : (f.u : ℝ) ≤ 1 / 4 := by
  have := f.u_small
  have : ((f.u : ℚ) : ℝ) ≤ ((1 / 4 : ℚ) : ℝ) := by exact_mod_cast this.trans (by norm_num)
  push_cast at this; exact this

/-- A correctly rounded result has the error of one rounding. -/
theorem Nearest.within {f : FltTy} {t : ℝ} {y : FVal} (h : Nearest f t y) (ht : NormalR f t) : RelErr f.u f t y := by
  refine ⟨h.1, h.2.1, le_of_forall_pos_le_add fun ε hε => ?_⟩
  have u0 : (0 : ℝ) < f.u := by exact_mod_cast f.u_pos
  have u1 : (f.u : ℝ) ≤ 1 / 4 := u_quarter f
  have emaxp : (1 : ℝ) ≤ 2 ^ (f.emax - 1) := one_le_zpow₀ (by norm_num) (by have := f.emax_ge; omega)
  obtain ⟨p, hp1, hp2⟩ := exists_rat_btwn (show |t| < |t| + min (ε / 2) (1 / 4) by have := lt_min (half_pos hε) (by norm_num : (0 : ℝ) < 1 / 4); linarith)
  have m1 := min_le_left (ε / 2) (1 / 4)
  have m2 := min_le_right (ε / 2) (1 / 4)
  have p0 : (2 : ℚ) ^ f.emin ≤ p := by
    have := ht.1.trans hp1.le
    have e : ((2 : ℝ) ^ f.emin) = (((2 : ℚ) ^ f.emin : ℚ) : ℝ) := by push_cast; rfl
    rw [e] at this; exact_mod_cast this
  have pp : 0 < p := (two_zpow_pos _).trans_le p0
  have hr := rndU_rel p0
  have hrR : |(f.rndU p : ℝ) - p| ≤ f.u * p := by exact_mod_cast hr
  have hlt : f.rndU p < 2 ^ f.emax := by
    have e2 : (2 : ℝ) ^ f.emax = 2 * 2 ^ (f.emax - 1) := by rw [zpow_sub₀ (by norm_num)]; field_simp
    have a := (abs_le.mp hrR).2
    have pR : (0 : ℝ) < p := by exact_mod_cast pp
    have : (f.rndU p : ℝ) < 2 ^ f.emax := by
      rw [e2]
      have h2 := ht.2
      nlinarith
    have e : ((2 : ℝ) ^ f.emax) = (((2 : ℚ) ^ f.emax : ℚ) : ℝ) := by push_cast; rfl
    rw [e] at this; exact_mod_cast this
  have iz : ∀ s, (FVal.fin s (f.rndU p)).In f := fun s => ⟨rndU_nonneg pp.le, rndMag_some.mpr ⟨(rndU_idem pp.le).symm, hlt⟩⟩
  have key : ∃ s, |((FVal.fin s (f.rndU p)).q : ℝ) - t| = |(f.rndU p : ℝ) - (|t|)| := by
    rcases le_total 0 t with h0 | h0
    · exact ⟨false, by rw [abs_of_nonneg h0]; rfl⟩
    · refine ⟨true, ?_⟩
      rw [abs_of_nonpos h0]
      simp only [FVal.q]
      push_cast
      rw [show -(f.rndU p : ℝ) - t = -(f.rndU p - -t) by ring, abs_neg]
  obtain ⟨s, hs⟩ := key
  refine (h.2.2 (.fin s (f.rndU p)) trivial (iz s)).trans ?_
  rw [hs]
  have := abs_add_le ((f.rndU p : ℝ) - p) (p - (|t|))
  rw [show (f.rndU p : ℝ) - p + (p - (|t|)) = f.rndU p - (|t|) by ring, abs_of_nonneg (by linarith : (0 : ℝ) ≤ p - |t|)] at this
  have := abs_nonneg t
  nlinarith

/-- There is a `<cmath>` whose functions are correctly rounded. -/
theorem libm_exists : ∃ L : LibmI, L.PowSpec Nearest ∧ L.CbrtSpec Nearest ∧ L.ExpSpec Nearest := by
  choose near hnear using nearest_exists
  have root : ∀ x : ℝ, ∃ t : ℝ, t ^ 3 = x := fun x => by
    rcases le_total 0 x with h | h
    · exact ⟨x ^ ((1 : ℝ) / 3), by rw [← Real.rpow_natCast, ← Real.rpow_mul h]; norm_num⟩
    · refine ⟨-((-x) ^ ((1 : ℝ) / 3)), ?_⟩
      have : ((-x) ^ ((1 : ℝ) / 3)) ^ 3 = -x := by rw [← Real.rpow_natCast, ← Real.rpow_mul (by linarith)]; norm_num
      rw [neg_pow, this]; norm_num
  choose cb hcb using root
  refine ⟨⟨fun f x e => near f (realPow x.q e.q), fun f x => near f (cb x.q), fun f x => near f (Real.exp x.q)⟩, ?_, ?_, ?_⟩
  · intro f x e _ _ _ _ _ _; exact hnear _ _
  · intro f x _ _ t ht
    have : t = cb x.q := (Odd.strictMono_pow (by decide : Odd 3)).injective (by rw [ht]; exact (hcb _).symm)
    rw [this]; exact hnear _ _
  · intro f x _ _ _; exact hnear _ _

theorem LibmI.PowSpec.within {L : LibmI} (h : L.PowSpec Nearest) : L.PowSpec fun f => RelErr f.u f :=
  fun f x e ix ie fx fe hx hn => (h f x e ix ie fx fe hx hn).within hn

/-! ### Powers -/

theorem realPow_int (x : ℚ) (n : ℤ) : realPow x n = (x : ℝ) ^ n := by
  unfold realPow
  split
  · push_cast; exact Real.rpow_intCast _ _
  · simp

theorem ofInt_whole {f : FltTy} {k : Int} (hk : |k| ≤ 2 ^ f.prec.toNat) : FVal.ofInt f k = .fin (decide (k < 0)) |(k : ℚ)| := by
  unfold FVal.ofInt FVal.round
  rw [rndMag_whole hk]

theorem signed_abs (k : ℤ) : (FVal.fin (decide (k < 0)) |(k : ℚ)|).q = k := by
  rcases lt_or_ge k 0 with h | h
  · have : (k : ℚ) < 0 := by exact_mod_cast h
    simp [h, FVal.q, abs_of_neg this]
  · have : (0 : ℚ) ≤ k := by exact_mod_cast h
    simp [not_lt.mpr h, FVal.q, abs_of_nonneg this]

/-- A whole exponent is exact. -/
theorem powExponent_whole {num : ℤ} (h : |num| ≤ 2 ^ 53) :
    (powExponent num 1).Finite ∧ (powExponent num 1).In .f64 ∧ (powExponent num 1).q = num := by
  have hw := rndMag_whole (f := .f64) (k := num) h
  have : powExponent num 1 = .fin (decide (num < 0)) |(num : ℚ)| := by
    unfold powExponent
    rw [ofInt_whole h, ofInt_one]
    simp [FVal.div, FVal.round, hw]
  rw [this]
  exact ⟨trivial, ⟨abs_nonneg _, hw⟩, signed_abs num⟩

/-- The exponent of a root has the error of three roundings. -/
theorem powExponent_near {num den : ℤ} (hn : IntTy.i64.In num) (hd : IntTy.i64.In den) (n0 : num ≠ 0) (d0 : den ≠ 0) :
    (powExponent num den).Finite ∧ (powExponent num den).In .f64 ∧ |(powExponent num den).q - num / den| ≤ gammaErr .f64 3 * |(num : ℚ) / den| := by
  obtain ⟨a, a0, ha, na⟩ := convI_first (s := .int .i64) (f := .f64) (fun g e => by cases e) (v := .i num) ⟨.i64, rfl, hn⟩ trivial
  obtain ⟨b, b0, hb, nb⟩ := convI_first (s := .int .i64) (f := .f64) (fun g e => by cases e) (v := .i den) ⟨.i64, rfl, hd⟩ trivial
  have ea : FVal.ofInt .f64 num = .fin (FNum.i num).neg a := by
    simpa [convI] using ha
  have eb : FVal.ofInt .f64 den = .fin (FNum.i den).neg b := by
    simpa [convI] using hb
  have d1 : (1 : ℚ) ≤ |(den : ℚ)| := by exact_mod_cast Int.one_le_abs d0
  have n1 : (1 : ℚ) ≤ |(num : ℚ)| := by exact_mod_cast Int.one_le_abs n0
  have hb0 : 0 < b := by
    have := (Near.bounds (by omega) (by omega) (abs_nonneg _) nb).1
    have : (1 : ℚ) ≤ |(FNum.i den).q| := d1
    linarith
  have nz := Near.div FltTy.f64.u_pos.le FltTy.f64.u_lt_one na nb
  have nz : Near FltTy.f64.u 2 1 |(num : ℚ) / den| (a / b) := by
    rw [abs_div]
    exact Near.weaken FltTy.f64.u_pos.le FltTy.f64.u_lt_one (by omega) (by omega) nz
  have up : |(num : ℚ) / den| ≤ 2 ^ 64 := by
    rw [abs_div, div_le_iff₀ (by linarith)]
    have := int_mag hn
    nlinarith
  have lo : ((2 : ℚ) ^ 64)⁻¹ ≤ |(num : ℚ) / den| := by
    rw [abs_div, le_div_iff₀ (by linarith)]
    have := int_mag hd
    rw [inv_mul_le_iff₀ (by norm_num)]; nlinarith
  obtain ⟨y, hy, iy, e1, e2⟩ := round_small (f := .f64) (abs_nonneg _) ((FNum.i num).neg != (FNum.i den).neg) nz (up.trans (by
    rw [← zpow_natCast]; exact two_zpow_le (by decide)))
  have e2 := e2 (le_trans (by rw [← zpow_natCast, ← zpow_neg]; exact two_zpow_le (by decide)) lo)
  have hs := exact_sign (op := .div) (ra := .int .i64) (rb := .int .i64) (a := .i num) (b := .i den) ⟨_, rfl, hn⟩ ⟨_, rfl, hd⟩ trivial trivial (.inr rfl)
  have he : powExponent num den = .fin ((FNum.i num).neg != (FNum.i den).neg) y := by
    unfold powExponent
    rw [ea, eb]
    simp only [FVal.div, hb0.ne', if_false]
    exact hy
  rw [he]
  refine ⟨trivial, iy, ?_⟩
  have := signed_mag (y := y) hs
  simp only [BinOp.exact, FNum.q] at this
  rw [this]; exact e2

/-- The relative error of a power: that of `std::pow`, and of the conversion of its result to `float`. -/
noncomputable def powErr (f : FltTy) (δ : ℝ) : ℝ := if f = .f32 then (1 + δ) * (1 + f.u) - 1 else δ

theorem libm2_le {f : FltTy} : FltTy.Le f (Rep.flt f).libm2 := by cases f <;> exact ⟨by decide, by decide⟩

theorem f64_le_libm2 (r : Rep) : FltTy.Le .f64 r.libm2 := by
  cases r with
  | int t => exact ⟨le_rfl, le_rfl⟩
  | flt f => cases f <;> exact ⟨by decide, by decide⟩

theorem FVal.In.signed {f : FltTy} {x : FVal} (hx : x.In f) (hf : x.Finite) : FVal.fin (FNum.f x).neg |x.q| = x := by
  cases x with
  | inf b => exact hf.elim
  | nan => exact hf.elim
  | fin b m => cases b <;> simp [FNum.neg, FVal.q, abs_of_nonneg hx.1]

theorem convI_wider {g f : FltTy} (h : FltTy.Le g f) {x : FVal} (hx : x.In g) (hf : x.Finite) : convI (.flt g) (.flt f) (.f x) = .ok (.f x) := by
  rw [convI_exact (v := .f x) (fun g' e => by cases e; exact h) ⟨g, rfl, hx⟩ hf (fun z e => by cases e), show (FNum.f x).q = x.q from rfl, hx.signed hf]

theorem FVal.In.wider {g f : FltTy} (h : FltTy.Le g f) {x : FVal} (hx : x.In g) : x.In f := by
  cases x with
  | fin b m => exact ⟨hx.1, rndMag_wider h hx.1 hx.2⟩
  | inf b => trivial
  | nan => trivial

theorem normalR_wider {g f : FltTy} (h : FltTy.Le g f) {t : ℝ} (h1 : (2 : ℝ) ^ (g.emin + 1) ≤ |t|) (h2 : |t| ≤ 2 ^ (g.emax - 2)) : NormalR f t := by
  refine ⟨le_trans (zpow_le_zpow_right₀ (by norm_num) ?_) h1, h2.trans (zpow_le_zpow_right₀ (by norm_num) ?_)⟩
  · have := h.2; unfold FltTy.emin; omega
  · have := h.2; omega

theorem zcast (n : ℤ) : ((2 : ℝ) ^ n) = (((2 : ℚ) ^ n : ℚ) : ℝ) := by push_cast; rfl

/-- A result converted to a narrower type. -/
theorem conv_rel {g f : FltTy} {y : FVal} {t δ : ℝ} (hy : y.In f) (fy : y.Finite) (d1 : δ ≤ 1 / 2)
    (he : |(y.q : ℝ) - t| ≤ δ * |t|) (h1 : (2 : ℝ) ^ (g.emin + 1) ≤ |t|) (h2 : |t| ≤ 2 ^ (g.emax - 2)) :
    (y.conv g).Finite ∧ (y.conv g).In g ∧ |((y.conv g).q : ℝ) - t| ≤ ((1 + δ) * (1 + g.u) - 1) * |t| := by
  obtain ⟨s, m, rfl, m0, em⟩ := fy.abs_eq hy
  have t0 := abs_nonneg t
  have emR : |((FVal.fin s m).q : ℝ)| = (m : ℝ) := by exact_mod_cast em
  have a1 : (1 - δ) * |t| ≤ m := by
    have := abs_sub_abs_le_abs_sub t ((FVal.fin s m).q : ℝ)
    rw [abs_sub_comm] at this
    rw [← emR]; linarith
  have a2 : (m : ℝ) ≤ (1 + δ) * |t| := by
    have := abs_sub_abs_le_abs_sub ((FVal.fin s m).q : ℝ) t
    rw [← emR]; linarith
  have e1 : (2 : ℝ) ^ (g.emin + 1) = 2 * 2 ^ g.emin := by rw [zpow_add₀ (by norm_num)]; ring
  have e4 : (2 : ℝ) ^ (g.emax - 1) = 2 * 2 ^ (g.emax - 2) := by
    rw [show g.emax - 1 = g.emax - 2 + 1 by ring, zpow_add₀ (by norm_num)]; ring
  have lo : (2 : ℚ) ^ g.emin ≤ m := by
    have : (2 : ℝ) ^ g.emin ≤ m := by rw [e1] at h1; nlinarith
    rw [zcast] at this; exact_mod_cast this
  have hi : m ≤ (2 : ℚ) ^ (g.emax - 1) := by
    have : (m : ℝ) ≤ 2 ^ (g.emax - 1) := by rw [e4]; nlinarith
    rw [zcast] at this; exact_mod_cast this
  have hle := rndU_le_pow (f := g) (by unfold FltTy.emin; have := g.emax_ge; omega) m0 hi
  have hlt := hle.trans_lt (two_zpow_lt (show g.emax - 1 < g.emax by omega))
  have hr : g.rndMag m = some (g.rndU m) := rndMag_some.mpr ⟨rfl, hlt⟩
  have hc : (FVal.fin s m).conv g = .fin s (g.rndU m) := by simp [FVal.conv, FVal.round, hr]
  rw [hc]
  refine ⟨trivial, ⟨rndU_nonneg m0, rndMag_some.mpr ⟨(rndU_idem m0).symm, hlt⟩⟩, ?_⟩
  have er : |(g.rndU m : ℝ) - m| ≤ g.u * m := by exact_mod_cast rndU_rel lo
  have es : |((FVal.fin s (g.rndU m)).q : ℝ) - (FVal.fin s m).q| = |(g.rndU m : ℝ) - m| := by
    cases s
    · rfl
    · simp only [FVal.q]; push_cast; rw [show -(g.rndU m : ℝ) - -m = -(g.rndU m - m) by ring, abs_neg]
  have u0 : (0 : ℝ) < g.u := by exact_mod_cast g.u_pos
  have tri := abs_add_le (((FVal.fin s (g.rndU m)).q : ℝ) - (FVal.fin s m).q) ((FVal.fin s m).q - t)
  rw [show ((FVal.fin s (g.rndU m)).q : ℝ) - (FVal.fin s m).q + ((FVal.fin s m).q - t) = (FVal.fin s (g.rndU m)).q - t by ring, es] at tri
  nlinarith

theorem powNumI_flt {L : LibmI} {δ : ℝ} (hL : L.PowSpec (RelErr δ)) (d1 : δ ≤ 1 / 2) {f : FltTy} {x : FVal} (ix : x.In f)
    (fx : x.Finite) {num den : ℤ} (fe : (powExponent num den).Finite) (ie : (powExponent num den).In .f64)
    (hx : 0 < x.q ∨ (x.q < 0 ∧ (powExponent num den).q.den = 1)) (h1 : (2 : ℝ) ^ (f.emin + 1) ≤ |realPow x.q (powExponent num den).q|)
    (h2 : |realPow x.q (powExponent num den).q| ≤ 2 ^ (f.emax - 2)) :
    ∃ y : FVal, powNumI L num den (.flt f) (.f x) = .ok (.f y) ∧ y.Finite ∧ y.In f ∧
      |(y.q : ℝ) - realPow x.q (powExponent num den).q| ≤ powErr f δ * |realPow x.q (powExponent num den).q| := by
  obtain ⟨p1, p2, p3⟩ := hL (Rep.flt f).libm2 x (powExponent num den) (ix.wider libm2_le) (ie.wider (f64_le_libm2 _)) fx fe hx
    (normalR_wider libm2_le h1 h2)
  have h : powNumI L num den (.flt f) (.f x) = convI (.flt (Rep.flt f).libm2) (.flt f) (.f (L.pow (Rep.flt f).libm2 x (powExponent num den))) := by
    unfold powNumI
    rw [convI_wider libm2_le ix fx, ok_bind, convI_wider (f64_le_libm2 _) ie fe, ok_bind]
  rw [h]
  rcases eq_or_ne f .f32 with rfl | hf
  · obtain ⟨q1, q2, q3⟩ := conv_rel (g := .f32) p2 p1 d1 p3 h1 h2
    exact ⟨_, rfl, q1, q2, by simpa [powErr] using q3⟩
  · have e : (Rep.flt f).libm2 = f := by cases f <;> first | rfl | exact absurd rfl hf
    rw [e] at p1 p2 p3 ⊢
    exact ⟨_, if_pos rfl, p1, p2, by simpa [powErr, hf] using p3⟩

theorem powQtyI_inr {E : Env} {L : LibmI} {num den : ℤ} {q r : QtyI} (h : powQtyI E L num den q = .ok (.inr r)) :
    num ≠ 0 ∧ den ≠ 0 ∧ r.ty.rep = q.ty.rep ∧ dimPow E.dims q.ty.dim num den = .ok r.ty.dim ∧
      (∃ p, powR E.est num den q.ty.unit.ratio = .ok p ∧ downcastUnit E.units r.ty.dim p = .ok r.ty.unit) ∧
      powNumI L num den q.ty.rep q.num = .ok r.num := by
  unfold powQtyI at h
  split at h
  · cases h
  rename_i hd
  split at h
  · cases h
  rename_i hn
  simp only [bind_ok, Except.ok.injEq, Sum.inr.injEq] at h
  obtain ⟨d, h1, p, h2, u, h3, y, h4, rfl⟩ := h
  exact ⟨hn, hd, rfl, h1, ⟨p, h2, h3⟩, h4⟩

/-- The size of the unit of a whole power. -/
theorem powQtyI_size {E : Env} (hE : E.OK) {β : String → ℝ} (hβ : Sizes β) {L : LibmI} {num : ℤ} {q r : QtyI} (gq : q.ty.Good E)
    (gr : r.ty.dim.Good) (hx : (∀ b, q.ty.dim ≠ .base b) → PowExact q.ty.dim num 1) (h : powQtyI E L num 1 q = .ok (.inr r))
    (hcoh : r.ty.dim.unit.ratio.val = q.ty.dim.unit.ratio.val ^ num) : r.ty.size β = q.ty.size β ^ num := by
  obtain ⟨-, -, -, h1, ⟨p, h2, h3⟩, -⟩ := powQtyI_inr h
  have hu : r.ty.unit.ratio.val = q.ty.unit.ratio.val ^ num := by
    rw [(downcastUnit_eq_ok hE.units h3).1, (powR_one_sound gq.unit.ratio h2).1]
  have := pow_size (u := q.ty.unit) (u' := r.ty.unit) hE.dims hβ (num := num) (den := 1) (by norm_num) gq.dim gr (by exact_mod_cast h1)
    (by exact_mod_cast hx) (by simpa using hu) (by simpa using hcoh)
  rw [pow_one] at this
  exact this

/-! ### Assembling powers and cube roots (for the examples) -/

theorem powQtyI_ok {E : Env} {L : LibmI} {num den : ℤ} {q : QtyI} {d : Dim} {p : Ratio} {u : MUnit} {y : FNum} (hd : den ≠ 0) (hn : num ≠ 0)
    (h1 : dimPow E.dims q.ty.dim num den = .ok d) (h2 : powR E.est num den q.ty.unit.ratio = .ok p) (h3 : downcastUnit E.units d p = .ok u)
    (h4 : powNumI L num den q.ty.rep q.num = .ok y) : powQtyI E L num den q = .ok (.inr ⟨⟨d, u, q.ty.rep⟩, y⟩) := by
  unfold powQtyI
  rw [if_neg hd, if_neg hn, h1, ok_bind, h2, ok_bind, h3, ok_bind, h4, ok_bind]

theorem cbrtQtyI_mk {E : Env} {L : LibmI} {q : QtyI} {d : Dim} {p : Ratio} {u : MUnit} {y : FNum}
    (h1 : dimPow E.dims q.ty.dim 1 3 = .ok d) (h2 : cbrtR E.est q.ty.unit.ratio = .ok p) (h3 : downcastUnit E.units d p = .ok u)
    (h4 : cbrtNumI L q.ty.rep q.num = .ok y) : cbrtQtyI E L q = .ok ⟨⟨d, u, q.ty.rep⟩, y⟩ := by
  unfold cbrtQtyI
  rw [h1, ok_bind, h2, ok_bind, h3, ok_bind, h4, ok_bind]

/-- The unit of a power of kilometres. -/
def exKmPowU (n : ℤ) : MUnit :=
  ⟨.scaled ⟨1, 1, 3 * n⟩ "unknown_coherent_unit", ⟨1, 1, 3 * n⟩, "unknown_coherent_unit", [], false, "", none⟩

/-- A power of kilometres. -/
def exKmPow (n : ℤ) (r : Rep) : QTy := ⟨.unknown [⟨exL, n, 1⟩], exKmPowU n, r⟩

theorem exLn_good {n : ℤ} (h : (Dim.unknown [⟨exL, n, 1⟩]).exps = .ok [⟨exL, n, 1⟩]) : (Dim.unknown [⟨exL, n, 1⟩]).Good := by
  refine ⟨⟨_, h, ?_⟩, unknownCoherentUnit_wf⟩
  intro e he; simp only [List.mem_singleton] at he; subst he; exact exL_good.unit

theorem exL3_exps : (Dim.unknown [⟨exL, 3, 1⟩]).exps = .ok [⟨exL, 3, 1⟩] := by decide +kernel

theorem exKm3U_wf : (exKmPowU 3).WF := ⟨⟨by decide, by decide, fun _ => by decide, by decide, by decide, by decide, by decide, by decide⟩, by decide⟩

theorem exKm3_good (E : Env) (r : Rep) : (exKmPow 3 r).Good E := by
  refine ⟨exLn_good exL3_exps, exKm3U_wf, rfl, ?_⟩
  intro es hes e he
  rw [show (exKmPow 3 r).dim = .unknown [⟨exL, 3, 1⟩] from rfl, exL3_exps] at hes
  cases hes
  simp only [List.mem_singleton] at he; subst he
  intro h; cases h

theorem exKm3_pow : PowExact (Dim.unknown [⟨exL, 3, 1⟩]) 1 3 := by
  refine ⟨⟨by decide, by decide⟩, noTen_of (n := 1) (d := 3) (by simp) (by decide) (by decide) (by decide) (by decide), ?_⟩
  intro es hes e he
  rw [exL3_exps] at hes
  cases hes
  simp only [List.mem_singleton] at he; subst he
  exact ⟨by decide, by decide, noTen_of (n := 3) (d := 1) rfl (by decide) (by decide) (by decide) (by decide),
      noTen_of (n := 1) (d := 1) (by norm_num [Exp.q]) (by decide) (by decide) (by decide) (by decide)⟩

theorem exKm_base {P : Prop} {r : Rep} : (∀ b, (exKms r).dim ≠ .base b) → P := fun h => absurd rfl (h _)

/-- C89: `pow<N>(q)` of a floating point quantity is the `N`-th power of its amount with the relative error of `std::pow` (and one more rounding for
`float`, which is computed in `double`), for a power neither too large nor too small.  Partial: the coherent units agree, and no power of ten may appear in
the exponents of the dimension, as for C34. -/
theorem C89_pow_partial (E : Env) (hE : E.OK) (β : String → ℝ) (hβ : Sizes β) (L : LibmI) (δ : ℝ) (hL : L.PowSpec (RelErr δ)) (hδ : δ ≤ 1 / 2)
    (num : ℤ) (hnum : |num| ≤ 2 ^ 53) (q r : QtyI) (f : FltTy) (x : FVal) (gq : q.ty.Good E) (gr : r.ty.dim.Good) (hrep : q.ty.rep = .flt f)
    (hn : q.num = .f x) (tx : x.In f) (fx : x.Finite) (hx0 : x.q ≠ 0) (hx : (∀ b, q.ty.dim ≠ .base b) → PowExact q.ty.dim num 1)
    (hlo : (2 : ℝ) ^ (f.emin + 1) ≤ |(x.q : ℝ) ^ num|) (hhi : |(x.q : ℝ) ^ num| ≤ 2 ^ (f.emax - 2))
    (h : powQtyI E L num 1 q = .ok (.inr r)) (hcoh : r.ty.dim.unit.ratio.val = q.ty.dim.unit.ratio.val ^ num) :
    r.ty.rep = .flt f ∧ r.num.Typed (.flt f) ∧ r.num.Finite ∧
      |r.amount β - q.amount β ^ num| ≤ powErr f δ * |q.amount β ^ num| := by
  have hS := powQtyI_size hE hβ gq gr hx h hcoh
  obtain ⟨-, -, h1, -, -, h4⟩ := powQtyI_inr h
  obtain ⟨e1, e2, e3⟩ := powExponent_whole hnum
  rw [hrep, hn] at h4
  have hx' : 0 < x.q ∨ (x.q < 0 ∧ (powExponent num 1).q.den = 1) := by
    rcases lt_or_gt_of_ne hx0 with h | h
    · exact .inr ⟨h, by rw [e3]; exact Rat.den_intCast _⟩
    · exact .inl h
  have hp : realPow x.q (powExponent num 1).q = (x.q : ℝ) ^ num := by rw [e3, realPow_int]
  obtain ⟨y, hy, fy, iy, err⟩ := powNumI_flt hL hδ tx fx e1 e2 hx' (by rw [hp]; exact hlo) (by rw [hp]; exact hhi)
  rw [hy] at h4
  have h4 : r.num = .f y := (Except.ok.inj h4).symm
  rw [hp] at err
  refine ⟨h1.trans hrep, by rw [h4]; exact ⟨f, rfl, iy⟩, by rw [h4]; exact fy, ?_⟩
  have sz := gq.size_pos hβ
  have sp : 0 < q.ty.size β ^ num := zpow_pos sz _
  unfold QtyI.amount
  rw [hS, h4, hn, mul_zpow]
  show |(y.q : ℝ) * _ - (x.q : ℝ) ^ num * _| ≤ powErr f δ * |(x.q : ℝ) ^ num * _|
  rw [← sub_mul, abs_mul, abs_mul, abs_of_pos sp, ← mul_assoc]
  exact mul_le_mul_of_nonneg_right err sp.le

/-- `pow<-2>` of 5 km in `float` is 1/25 km⁻², up to the errors of `std::pow` and of the conversion to `float`. -/
example (β : String → ℝ) (hβ : Sizes β) (L : LibmI) (δ : ℝ) (hL : L.PowSpec (RelErr δ)) (hδ : δ ≤ 1 / 2) :
    ∃ r, powQtyI exEnv L (-2) 1 ⟨exKms (.flt .f32), .f (.fin false 5)⟩ = .ok (.inr r) ∧ r.ty = exKmPow (-2) (.flt .f32) ∧
      |r.amount β - (⟨exKms (.flt .f32), .f (.fin false 5)⟩ : QtyI).amount β ^ (-2 : ℤ)| ≤
        powErr .f32 δ * |(⟨exKms (.flt .f32), .f (.fin false 5)⟩ : QtyI).amount β ^ (-2 : ℤ)| := by
  have i5 : (FVal.fin false 5).In .f32 := ⟨by norm_num, by decide +kernel⟩
  have lo : (2 : ℝ) ^ (FltTy.f32.emin + 1) ≤ |(((FVal.fin false 5).q : ℚ) : ℝ) ^ (-2 : ℤ)| := by
    rw [show FltTy.f32.emin + 1 = -125 from rfl]; norm_num [FVal.q]
  have hi : |(((FVal.fin false 5).q : ℚ) : ℝ) ^ (-2 : ℤ)| ≤ 2 ^ (FltTy.f32.emax - 2) := by
    rw [show FltTy.f32.emax - 2 = 126 from rfl]; norm_num [FVal.q]
  obtain ⟨e1, e2, e3⟩ := powExponent_whole (num := -2) (by decide)
  have hp : realPow (FVal.fin false 5).q (powExponent (-2) 1).q = (((FVal.fin false 5).q : ℚ) : ℝ) ^ (-2 : ℤ) := by rw [e3, realPow_int]
  obtain ⟨y, hy, -, -, -⟩ := powNumI_flt hL hδ i5 trivial e1 e2 (.inl (by norm_num [FVal.q])) (by rw [hp]; exact lo) (by rw [hp]; exact hi)
  have h := powQtyI_ok (E := exEnv) (L := L) (q := ⟨exKms (.flt .f32), .f (.fin false 5)⟩) (d := .unknown [⟨exL, -2, 1⟩]) (p := ⟨1, 1, -6⟩) (u := exKmPowU (-2))
    (by decide) (by decide) (by decide +kernel) (by decide +kernel) (by decide +kernel) hy
  exact ⟨_, h, rfl, (C89_pow_partial exEnv exEnv_ok β hβ L δ hL hδ (-2) (by decide) _ _ .f32 (.fin false 5) (exKms_good _ _) (exLn_good (by decide +kernel)) rfl rfl i5 trivial
    (by norm_num [FVal.q]) exKm_base lo hi h (by exact (by decide +kernel : unknownCoherentUnit.ratio.val = exL.unit.ratio.val ^ (-2 : ℤ)))).2.2.2⟩

theorem abs_exp_sub_one_le (a : ℝ) : |Real.exp a - 1| ≤ Real.exp |a| - 1 := by
  rcases le_total 0 a with h | h
  · rw [abs_of_nonneg h, abs_of_nonneg (by have := Real.one_le_exp h; linarith)]
  · rw [abs_of_nonpos h, abs_of_nonpos (by have := Real.exp_le_one_iff.mpr h; linarith)]
    have h1 : Real.exp a * Real.exp (-a) = 1 := by rw [← Real.exp_add]; simp
    have h2 := Real.exp_pos a
    have h3 : Real.exp a ≤ 1 := Real.exp_le_one_iff.mpr h
    nlinarith [Real.add_one_le_exp a, Real.add_one_le_exp (-a)]

theorem powErr_nonneg {f : FltTy} {δ : ℝ} (h : 0 ≤ δ) : 0 ≤ powErr f δ := by
  have u0 : (0 : ℝ) < f.u := by exact_mod_cast f.u_pos
  unfold powErr
  split
  · nlinarith
  · exact h

/-- C89: `pow<Num, Den>(q)` of a positive floating point quantity is the power of its amount, with the error of `std::pow` and the effect of the rounded
exponent: the number `x` is raised to an exponent with the relative error of three roundings, which multiplies the result by at most
`exp (ε |Num / Den| |log x|)`.  Partial as `C34_pow_rational_partial`; for integers see `C89_third_power_of_cube`. -/
theorem C89_pow_rational_partial (E : Env) (hE : E.OK) (β : String → ℝ) (hβ : Sizes β) (L : LibmI) (δ : ℝ) (hL : L.PowSpec (RelErr δ)) (hδ0 : 0 ≤ δ)
    (hδ : δ ≤ 1 / 2) (num : ℤ) (den : ℕ) (tn : IntTy.i64.In num) (td : IntTy.i64.In den) (q r : QtyI) (f : FltTy) (x : FVal) (gq : q.ty.Good E)
    (gr : r.ty.dim.Good) (wr : r.ty.unit.WF) (hrep : q.ty.rep = .flt f) (hn : q.num = .f x) (tx : x.In f) (fx : x.Finite) (hx0 : 0 < x.q)
    (hx : (∀ b, q.ty.dim ≠ .base b) → PowExact q.ty.dim num den)
    (hlo : (2 : ℝ) ^ (f.emin + 1) ≤ (x.q : ℝ) ^ ((powExponent num den).q : ℝ)) (hhi : (x.q : ℝ) ^ ((powExponent num den).q : ℝ) ≤ 2 ^ (f.emax - 2))
    (h : powQtyI E L num den q = .ok (.inr r)) (hroot : r.ty.unit.ratio.val ^ den = q.ty.unit.ratio.val ^ num)
    (hcoh : r.ty.dim.unit.ratio.val ^ den = q.ty.dim.unit.ratio.val ^ num) :
    r.ty.rep = .flt f ∧ r.num.Typed (.flt f) ∧ r.num.Finite ∧
      |r.amount β - q.amount β ^ ((num : ℝ) / den)| ≤
        ((1 + powErr f δ) * Real.exp (gammaErr .f64 3 * |(num : ℝ) / den| * |Real.log x.q|) - 1) * q.amount β ^ ((num : ℝ) / den) := by
  obtain ⟨n0, dn0, h1, hd, -, h4⟩ := powQtyI_inr h
  have den0 : 0 < den := by
    rcases Nat.eq_zero_or_pos den with h | h
    · simp [h] at dn0
    · exact h
  have hS := pow_size (u := q.ty.unit) (u' := r.ty.unit) hE.dims hβ den0 gq.dim gr hd hx hroot hcoh
  obtain ⟨e1, e2, e3⟩ := powExponent_near tn td n0 dn0
  have xR : (0 : ℝ) < x.q := by exact_mod_cast hx0
  rw [hrep, hn] at h4
  have hp : realPow x.q (powExponent num den).q = (x.q : ℝ) ^ ((powExponent num den).q : ℝ) := if_pos hx0
  have tp : 0 < (x.q : ℝ) ^ ((powExponent num den).q : ℝ) := Real.rpow_pos_of_pos xR _
  obtain ⟨y, hy, fy, iy, err⟩ := powNumI_flt hL hδ tx fx e1 e2 (.inl hx0) (by rw [hp, abs_of_pos tp]; exact hlo) (by rw [hp, abs_of_pos tp]; exact hhi)
  rw [hy] at h4
  have h4 : r.num = .f y := (Except.ok.inj h4).symm
  rw [hp, abs_of_pos tp] at err
  refine ⟨h1.trans hrep, by rw [h4]; exact ⟨f, rfl, iy⟩, by rw [h4]; exact fy, ?_⟩
  have sz := gq.size_pos hβ
  have sp := Dim.size_pos hβ gr wr
  have hsz : r.ty.size β = q.ty.size β ^ ((num : ℝ) / den) := by
    have d0' : (den : ℝ) ≠ 0 := by exact_mod_cast den0.ne'
    have : r.ty.size β = ((r.ty.size β) ^ den) ^ ((1 : ℝ) / den) := by
      rw [← Real.rpow_natCast, ← Real.rpow_mul (show 0 ≤ r.ty.size β from sp.le)]; field_simp; simp
    rw [this, show r.ty.size β ^ den = q.ty.size β ^ num from hS, ← Real.rpow_intCast, ← Real.rpow_mul sz.le]
    congr 1; field_simp
  set a : ℝ := (num : ℝ) / den
  set b : ℝ := ((powExponent num den).q : ℝ) with hb
  have hab : |b - a| ≤ gammaErr .f64 3 * |a| := by
    have : ((|(powExponent num den).q - num / (den : ℤ)| : ℚ) : ℝ) ≤ ((gammaErr .f64 3 * |(num : ℚ) / (den : ℤ)| : ℚ) : ℝ) := by exact_mod_cast e3
    push_cast at this
    exact this
  have hbx : (x.q : ℝ) ^ b = (x.q : ℝ) ^ a * Real.exp (Real.log x.q * (b - a)) := by
    rw [← Real.rpow_def_of_pos xR, ← Real.rpow_add xR]; congr 1; ring
  have ta : 0 < (x.q : ℝ) ^ a := Real.rpow_pos_of_pos xR _
  set X := (x.q : ℝ) ^ a
  have pe := powErr_nonneg (f := f) hδ0
  have g1 : |Real.exp (Real.log x.q * (b - a)) - 1| ≤ Real.exp (gammaErr .f64 3 * |a| * |Real.log x.q|) - 1 := by
    refine (abs_exp_sub_one_le _).trans ?_
    rw [sub_le_sub_iff_right, Real.exp_le_exp, abs_mul, mul_comm]
    exact mul_le_mul_of_nonneg_right hab (abs_nonneg _)
  set G := Real.exp (gammaErr .f64 3 * |a| * |Real.log x.q|)
  set W := Real.exp (Real.log x.q * (b - a))
  have W0 : W ≤ G := by have := (abs_le.mp g1).2; linarith
  have key : |(y.q : ℝ) - X| ≤ ((1 + powErr f δ) * G - 1) * X := by
    have tri := abs_add_le ((y.q : ℝ) - X * W) (X * W - X)
    rw [show (y.q : ℝ) - X * W + (X * W - X) = y.q - X by ring, show X * W - X = X * (W - 1) by ring, abs_mul, abs_of_pos ta] at tri
    rw [hbx] at err
    have k1 := mul_le_mul_of_nonneg_left g1 ta.le
    have k2 : powErr f δ * (X * W) ≤ powErr f δ * (X * G) := mul_le_mul_of_nonneg_left (mul_le_mul_of_nonneg_left W0 ta.le) pe
    nlinarith
  unfold QtyI.amount
  rw [hsz, h4, hn]
  show |(y.q : ℝ) * _ - ((x.q : ℝ) * _) ^ a| ≤ _ * ((x.q : ℝ) * _) ^ a
  rw [Real.mul_rpow xR.le sz.le, ← sub_mul, abs_mul, abs_of_pos (Real.rpow_pos_of_pos sz a), ← mul_assoc]
  exact mul_le_mul_of_nonneg_right key (Real.rpow_pos_of_pos sz a).le

/-- `pow<1, 2>` of 2 km² is the root of 2 in kilometres, up to the errors of the exponent and of `std::pow`. -/
example (β : String → ℝ) (hβ : Sizes β) (L : LibmI) (δ : ℝ) (hL : L.PowSpec (RelErr δ)) (h0 : 0 ≤ δ) (hδ : δ ≤ 1 / 2) :
    ∃ r, powQtyI exSqrtEnv L 1 2 ⟨exKm2 (.flt .f64), .f (.fin false 2)⟩ = .ok (.inr r) ∧ r.ty = exKmRoot (.flt .f64) ∧
      |r.amount β - (⟨exKm2 (.flt .f64), .f (.fin false 2)⟩ : QtyI).amount β ^ ((1 : ℝ) / 2)| ≤
        ((1 + powErr .f64 δ) * Real.exp (gammaErr .f64 3 * |(1 : ℝ) / 2| * |Real.log 2|) - 1) *
          (⟨exKm2 (.flt .f64), .f (.fin false 2)⟩ : QtyI).amount β ^ ((1 : ℝ) / 2) := by
  have i2 : (FVal.fin false 2).In .f64 := ⟨by norm_num, by decide +kernel⟩
  have he : powExponent 1 2 = .fin false (1 / 2) := by decide +kernel
  have q2 : (((FVal.fin false 2).q : ℚ) : ℝ) = 2 := by norm_num [FVal.q]
  have qe : ((powExponent 1 2).q : ℝ) = 1 / 2 := by rw [he]; norm_num [FVal.q]
  have b1 : (1 : ℝ) ≤ 2 ^ ((1 : ℝ) / 2) := Real.one_le_rpow (by norm_num) (by norm_num)
  have b2 : (2 : ℝ) ^ ((1 : ℝ) / 2) ≤ 2 := Real.rpow_le_self_of_one_le (by norm_num) (by norm_num)
  have lo : (2 : ℝ) ^ (FltTy.f64.emin + 1) ≤ (((FVal.fin false 2).q : ℚ) : ℝ) ^ ((powExponent 1 2).q : ℝ) := by
    rw [q2, qe]; exact le_trans (zpow_le_one_of_nonpos₀ (by norm_num) (by decide)) b1
  have hi : (((FVal.fin false 2).q : ℚ) : ℝ) ^ ((powExponent 1 2).q : ℝ) ≤ 2 ^ (FltTy.f64.emax - 2) := by
    rw [q2, qe]
    refine b2.trans ?_
    calc (2 : ℝ) = 2 ^ (1 : ℤ) := by norm_num
      _ ≤ _ := zpow_le_zpow_right₀ (by norm_num) (by decide)
  have hp : realPow (FVal.fin false 2).q (powExponent 1 2).q = (((FVal.fin false 2).q : ℚ) : ℝ) ^ ((powExponent 1 2).q : ℝ) := if_pos (by norm_num [FVal.q])
  have ap : |(((FVal.fin false 2).q : ℚ) : ℝ) ^ ((powExponent 1 2).q : ℝ)| = (((FVal.fin false 2).q : ℚ) : ℝ) ^ ((powExponent 1 2).q : ℝ) :=
    abs_of_pos (Real.rpow_pos_of_pos (by rw [q2]; norm_num) _)
  obtain ⟨y, hy, -, -, -⟩ := powNumI_flt hL hδ i2 trivial (powExponent_near (num := 1) (den := 2) (by decide) (by decide) (by decide) (by decide)).1
    (powExponent_near (num := 1) (den := 2) (by decide) (by decide) (by decide) (by decide)).2.1 (.inl (by norm_num [FVal.q])) (by rw [hp, ap]; exact lo)
    (by rw [hp, ap]; exact hi)
  have h := powQtyI_ok (E := exSqrtEnv) (L := L) (q := ⟨exKm2 (.flt .f64), .f (.fin false 2)⟩) (d := .base exL) (p := ⟨1, 1, 3⟩) (u := exKmRootU)
    (by decide) (by decide) (by decide +kernel) (by decide +kernel) (by decide +kernel) hy
  have := (C89_pow_rational_partial exSqrtEnv exSqrtEnv_ok β hβ L δ hL h0 hδ 1 2 (by decide) (by decide) _ _ .f64 (.fin false 2) (exKm2_good _) exL_good
    exKmRootU_wf rfl rfl i2 trivial (by norm_num [FVal.q]) (fun _ => exKm2_pow) lo hi h
    (by exact (by decide +kernel : exKmRootU.ratio.val ^ 2 = exKm2U.ratio.val ^ (1 : ℤ)))
    (by exact (by decide +kernel : exL.unit.ratio.val ^ 2 = unknownCoherentUnit.ratio.val ^ (1 : ℤ)))).2.2.2
  rw [q2] at this
  exact ⟨_, h, rfl, by simpa using this⟩

/-- C89: `pow<0>(q)` is the number one of the representation, whatever the quantity. -/
theorem C89_pow_zero (E : Env) (L : LibmI) (den : ℤ) (hden : den ≠ 0) (q : QtyI) :
    ∃ v, powQtyI E L 0 den q = .ok (.inl v) ∧ v.Typed q.ty.rep ∧ v.Finite ∧ v.q = 1 := by
  refine ⟨q.ty.rep.oneI, by unfold powQtyI; rw [if_neg hden, if_pos rfl], ?_⟩
  cases hr : q.ty.rep with
  | int t => exact ⟨⟨t, rfl, by cases t <;> decide⟩, trivial, by simp [Rep.oneI, FNum.q]⟩
  | flt f =>
    simp only [Rep.oneI, ofInt_one]
    exact ⟨⟨f, rfl, zero_le_one, by cases f <;> decide +kernel⟩, trivial, rfl⟩

example : powQtyI exEnv ⟨fun _ _ _ => .nan, fun _ _ => .nan, fun _ _ => .nan⟩ 0 7 ⟨exKms (.flt .f32), .f .nan⟩ = .ok (.inl (.f (.fin false 1))) := by
  decide +kernel

/-! ### Powers of integers -/

theorem powNumI_int (L : LibmI) {num den : ℤ} (t : IntTy) (z : ℤ) :
    powNumI L num den (.int t) (.i z) = ((L.pow .f64 (FVal.ofInt .f64 z) (powExponent num den)).toInt t).bind fun w => .ok (.i w) := by
  unfold powNumI
  rw [show convI (.int t) (.flt (Rep.int t).libm2) (.i z) = .ok (.f (FVal.ofInt .f64 z)) from if_neg (by simp), ok_bind,
    show convI (.flt .f64) (.flt (Rep.int t).libm2) (.f (powExponent num den)) = .ok (.f (powExponent num den)) from if_pos rfl, ok_bind]
  exact if_neg (by simp)

theorem toInt_of {t : IntTy} {y : FVal} (fy : y.Finite) {w : ℤ} (h : truncQ y.q = w) (hw : t.In w) : y.toInt t = .ok w := by
  obtain ⟨s, m, rfl⟩ := fy.eq
  simp only [FVal.toInt, h, hw, if_true]

theorem pow_int_num {L : LibmI} (hL : L.PowSpec Nearest) {n : ℕ} (hn53 : n ≤ 2 ^ 53) (n0 : n ≠ 0) {t : IntTy} {z : ℤ} (hz0 : z ≠ 0)
    (hb : |z ^ n| < 2 ^ 53) (hfit : t.In (z ^ n)) : powNumI L n 1 (.int t) (.i z) = .ok (.i (z ^ n)) := by
  obtain ⟨e1, e2, e3⟩ := powExponent_whole (num := n) (by rw [abs_of_nonneg (by positivity)]; exact_mod_cast hn53)
  have z1 : 1 ≤ |z| := Int.one_le_abs hz0
  have hzb : |z| < 2 ^ 53 := by
    refine lt_of_le_of_lt ?_ hb
    rw [abs_pow]; exact le_self_pow₀ z1 n0
  have ez := ofInt_whole (f := .f64) (k := z) hzb.le
  have iz : (FVal.ofInt .f64 z).In .f64 := by rw [ez]; exact ⟨abs_nonneg _, rndMag_whole hzb.le⟩
  have qz : (FVal.ofInt .f64 z).q = z := by rw [ez]; exact signed_abs z
  have fz : (FVal.ofInt .f64 z).Finite := by rw [ez]; trivial
  have hx' : 0 < (FVal.ofInt .f64 z).q ∨ ((FVal.ofInt .f64 z).q < 0 ∧ (powExponent n 1).q.den = 1) := by
    rw [qz, e3]
    rcases lt_or_gt_of_ne hz0 with h | h
    · exact .inr ⟨by exact_mod_cast h, Rat.den_intCast _⟩
    · exact .inl (by exact_mod_cast h)
  have hp : realPow (FVal.ofInt .f64 z).q (powExponent n 1).q = ((z ^ n : ℤ) : ℝ) := by
    rw [e3, qz, realPow_int]; push_cast; simp
  have pw : (1 : ℤ) ≤ |z ^ n| := by rw [abs_pow]; exact one_le_pow₀ z1
  have hN : NormalR .f64 ((z ^ n : ℤ) : ℝ) := by
    have p1 : (1 : ℝ) ≤ |((z ^ n : ℤ) : ℝ)| := by exact_mod_cast pw
    have p2 : |((z ^ n : ℤ) : ℝ)| ≤ 2 ^ (53 : ℤ) := by have := hb.le; exact_mod_cast this
    refine ⟨le_trans ?_ p1, p2.trans (zpow_le_zpow_right₀ (by norm_num) (by decide))⟩
    exact zpow_le_one_of_nonpos₀ (by norm_num) (by decide)
  have near := hL .f64 (FVal.ofInt .f64 z) (powExponent n 1) iz e2 fz e1 hx' (by rw [hp]; exact hN)
  rw [hp] at near
  have iw : (FVal.fin (decide (z ^ n < 0)) |((z ^ n : ℤ) : ℚ)|).In .f64 := ⟨abs_nonneg _, rndMag_whole hb.le⟩
  have hy := near.eq (z := .fin (decide (z ^ n < 0)) |((z ^ n : ℤ) : ℚ)|) trivial iw (by rw [signed_abs]; push_cast; rfl)
  rw [signed_abs] at hy
  rw [powNumI_int, toInt_of near.1 (by rw [hy]; exact truncQ_int _) hfit]; rfl

/-- C89: `pow<N>(q)` of an integral quantity is exact when the power is below `2^53`, for a correctly rounded `std::pow`.  Partial: see
`C89_pow_int_loses` for larger powers, and C34 for the coherent units. -/
theorem C89_pow_int_partial (E : Env) (hE : E.OK) (β : String → ℝ) (hβ : Sizes β) (L : LibmI) (hL : L.PowSpec Nearest) (n : ℕ) (hn53 : n ≤ 2 ^ 53)
    (q r : QtyI) (t : IntTy) (z : ℤ) (gq : q.ty.Good E) (gr : r.ty.dim.Good) (hrep : q.ty.rep = .int t) (hn : q.num = .i z) (hz0 : z ≠ 0)
    (hx : (∀ b, q.ty.dim ≠ .base b) → PowExact q.ty.dim n 1) (hb : |z ^ n| < 2 ^ 53) (hfit : t.In (z ^ n))
    (h : powQtyI E L n 1 q = .ok (.inr r)) (hcoh : r.ty.dim.unit.ratio.val = q.ty.dim.unit.ratio.val ^ n) :
    r.ty.rep = .int t ∧ r.num = .i (z ^ n) ∧ r.amount β = q.amount β ^ n := by
  have hS := powQtyI_size hE hβ gq gr hx h (by exact_mod_cast hcoh)
  obtain ⟨n0, -, h1, -, -, h4⟩ := powQtyI_inr h
  have n0 : n ≠ 0 := by exact_mod_cast n0
  rw [hrep, hn, pow_int_num hL hn53 n0 hz0 hb hfit] at h4
  have h4 : r.num = .i (z ^ n) := (Except.ok.inj h4).symm
  refine ⟨h1.trans hrep, h4, ?_⟩
  unfold QtyI.amount
  rw [hS, h4, hn, zpow_natCast, mul_pow]
  simp [FNum.q]

/-- `pow<3>` of −5 km in integers is −125 km³. -/
example (β : String → ℝ) (hβ : Sizes β) (L : LibmI) (hL : L.PowSpec Nearest) :
    powQtyI exEnv L 3 1 ⟨exKms (.int .i16), .i (-5)⟩ = .ok (.inr ⟨exKmPow 3 (.int .i16), .i (-125)⟩) ∧
      (⟨exKmPow 3 (.int .i16), .i (-125)⟩ : QtyI).amount β = (⟨exKms (.int .i16), .i (-5)⟩ : QtyI).amount β ^ 3 := by
  have h : powQtyI exEnv L 3 1 ⟨exKms (.int .i16), .i (-5)⟩ = .ok (.inr ⟨exKmPow 3 (.int .i16), .i (-125)⟩) :=
    powQtyI_ok (p := ⟨1, 1, 9⟩) (by decide) (by decide) (by decide +kernel) (by decide +kernel) (by decide +kernel)
      (pow_int_num hL (n := 3) (by decide) (by decide) (by decide) (by decide) (by decide))
  exact ⟨h, (C89_pow_int_partial exEnv exEnv_ok β hβ L hL 3 (by decide) _ _ .i16 (-5) (exKms_good _ _) (exLn_good (by decide +kernel)) rfl rfl (by decide) exKm_base (by decide)
    (by decide) h (by decide +kernel)).2.2⟩

theorem pow_negative_num {L : LibmI} {δ : ℝ} (hL : L.PowSpec (RelErr δ)) (hδ : δ < 1) {n : ℕ} (hn53 : n ≤ 2 ^ 53) (n0 : n ≠ 0) {t : IntTy} {z : ℤ}
    (hz : 2 ≤ |z|) (hz53 : |z| ≤ 2 ^ 53) (hlo : (2 : ℝ) ^ FltTy.f64.emin ≤ |((z : ℝ) ^ n)⁻¹|) :
    powNumI L (-n) 1 (.int t) (.i z) = .ok (.i 0) := by
  obtain ⟨e1, e2, e3⟩ := powExponent_whole (num := -n) (by rw [abs_neg, abs_of_nonneg (by positivity)]; exact_mod_cast hn53)
  have ez := ofInt_whole (f := .f64) (k := z) hz53
  have iz : (FVal.ofInt .f64 z).In .f64 := by rw [ez]; exact ⟨abs_nonneg _, rndMag_whole hz53⟩
  have qz : (FVal.ofInt .f64 z).q = z := by rw [ez]; exact signed_abs z
  have fz : (FVal.ofInt .f64 z).Finite := by rw [ez]; trivial
  have hz0 : z ≠ 0 := by rintro rfl; simp at hz
  have hx' : 0 < (FVal.ofInt .f64 z).q ∨ ((FVal.ofInt .f64 z).q < 0 ∧ (powExponent (-n) 1).q.den = 1) := by
    rw [qz, e3]
    rcases lt_or_gt_of_ne hz0 with h | h
    · exact .inr ⟨by exact_mod_cast h, Rat.den_intCast _⟩
    · exact .inl (by exact_mod_cast h)
  have hp : realPow (FVal.ofInt .f64 z).q (powExponent (-n) 1).q = ((z : ℝ) ^ n)⁻¹ := by
    rw [e3, qz, realPow_int]; push_cast; simp
  have zR : (2 : ℝ) ≤ |(z : ℝ)| := by exact_mod_cast hz
  have small : |((z : ℝ) ^ n)⁻¹| ≤ 1 / 2 := by
    rw [abs_inv, abs_pow, one_div]
    refine inv_anti₀ (by norm_num) (zR.trans (le_self_pow₀ (by linarith) n0))
  have hN : NormalR .f64 ((z : ℝ) ^ n)⁻¹ :=
    ⟨hlo, small.trans (le_trans (by norm_num) (one_le_zpow₀ (by norm_num : (1 : ℝ) ≤ 2) (by decide)))⟩
  obtain ⟨y1, y2, y3⟩ := hL .f64 (FVal.ofInt .f64 z) (powExponent (-n) 1) iz e2 fz e1 hx' (by rw [hp]; exact hN)
  rw [hp] at y3
  have hy : |((L.pow .f64 (FVal.ofInt .f64 z) (powExponent (-n) 1)).q : ℝ)| < 1 := by
    have := abs_sub_abs_le_abs_sub ((L.pow .f64 (FVal.ofInt .f64 z) (powExponent (-n) 1)).q : ℝ) ((z : ℝ) ^ n)⁻¹
    have := abs_nonneg ((z : ℝ) ^ n)⁻¹
    have p : 0 < |((z : ℝ) ^ n)⁻¹| := abs_pos.mpr (inv_ne_zero (pow_ne_zero _ (by exact_mod_cast hz0)))
    nlinarith
  have hy : |(L.pow .f64 (FVal.ofInt .f64 z) (powExponent (-n) 1)).q| < 1 := by exact_mod_cast hy
  have tr : truncQ (L.pow .f64 (FVal.ofInt .f64 z) (powExponent (-n) 1)).q = 0 := by
    obtain ⟨l, u⟩ := abs_lt.mp hy
    unfold truncQ
    split
    · rename_i h; exact Int.floor_eq_zero_iff.mpr ⟨h, u⟩
    · rename_i h; exact Int.ceil_eq_zero_iff.mpr ⟨l, (not_le.mp h).le⟩
  rw [powNumI_int, toInt_of y1 tr (by cases t <;> decide)]; rfl

/-- C89: a negative power of an integral quantity of two or more is zero. -/
theorem C89_pow_negative_int (E : Env) (L : LibmI) (δ : ℝ) (hL : L.PowSpec (RelErr δ)) (hδ : δ < 1) (n : ℕ) (hn53 : n ≤ 2 ^ 53) (q r : QtyI) (t : IntTy)
    (z : ℤ) (hrep : q.ty.rep = .int t) (hn : q.num = .i z) (hz : 2 ≤ |z|) (hz53 : |z| ≤ 2 ^ 53) (hlo : (2 : ℝ) ^ FltTy.f64.emin ≤ |((z : ℝ) ^ n)⁻¹|)
    (h : powQtyI E L (-n) 1 q = .ok (.inr r)) : r.num = .i 0 := by
  obtain ⟨n0, -, h1, -, -, h4⟩ := powQtyI_inr h
  have n0 : n ≠ 0 := by rintro rfl; simp at n0
  rw [hrep, hn, pow_negative_num hL hδ hn53 n0 hz hz53 hlo] at h4
  exact (Except.ok.inj h4).symm

/-- `pow<-1>` of 5 km in integers is zero. -/
example (L : LibmI) (hL : L.PowSpec (RelErr (1 / 2))) :
    powQtyI exEnv L (-1) 1 ⟨exKms (.int .i32), .i 5⟩ = .ok (.inr ⟨exKmPow (-1) (.int .i32), .i 0⟩) :=
  powQtyI_ok (p := ⟨1, 1, -3⟩) (by decide) (by decide) (by decide +kernel) (by decide +kernel) (by decide +kernel)
    (pow_negative_num hL (by norm_num) (n := 1) (by decide) (by decide) (by decide) (by decide) (by
      refine le_trans (zpow_le_zpow_right₀ (by norm_num) (show FltTy.f64.emin ≤ -3 by decide)) ?_
      norm_num))

/-- A large value is even. -/
theorem trunc_even {f : FltTy} {y : FVal} (iy : y.In f) (fy : y.Finite) (hb : (2 : ℚ) ^ f.prec < |((truncQ y.q : ℤ) : ℚ)|) : Even (truncQ y.q) := by
  obtain ⟨k, e, hk, -, hq⟩ := iy.form fy
  have h1 : |((truncQ y.q : ℤ) : ℚ)| ≤ |y.q| := by
    unfold truncQ
    split
    · rename_i h
      rw [abs_of_nonneg h, abs_of_nonneg (by exact_mod_cast Int.floor_nonneg.mpr h)]; exact Int.floor_le _
    · rename_i h
      have h := (not_le.mp h).le
      have : ⌈y.q⌉ ≤ 0 := Int.ceil_le.mpr (by simpa using h)
      rw [abs_of_nonpos h, abs_of_nonpos (by exact_mod_cast this)]
      exact neg_le_neg (Int.le_ceil _)
  have he : 0 < e := by
    by_contra hc
    have : (2 : ℚ) ^ e ≤ 1 := zpow_le_one_of_nonpos₀ (by norm_num) (by omega)
    have h2 := hb.trans_le h1
    rw [hq, abs_mul, abs_of_pos (two_zpow_pos e)] at h2
    have := abs_nonneg (k : ℚ)
    nlinarith
  obtain ⟨n, rfl⟩ : ∃ n : ℕ, e = n + 1 := ⟨(e - 1).toNat, by omega⟩
  have : y.q = ((2 * (k * 2 ^ n) : ℤ) : ℚ) := by
    rw [hq, zpow_add₀ (by norm_num), zpow_natCast]; push_cast; ring
  rw [this, truncQ_int]
  exact even_two_mul _

/-- C89 is violated by integers: a power above `2^53` of an odd number is never returned, whatever `std::pow` computes, as it is rounded to a `double`.
So `pow<2>(q)` differs from `q * q`, which is exact. -/
theorem C89_pow_int_loses (E : Env) (L : LibmI) (hL : ∀ f x e, (L.pow f x e).In f) (n : ℕ) (q r : QtyI) (t : IntTy) (z : ℤ) (hrep : q.ty.rep = .int t)
    (hn : q.num = .i z) (hodd : Odd z) (hb : 2 ^ 53 < |z ^ n|) (h : powQtyI E L n 1 q = .ok (.inr r)) : r.num ≠ .i (z ^ n) := by
  obtain ⟨-, -, -, -, -, h4⟩ := powQtyI_inr h
  intro hc
  rw [hrep, hn, powNumI_int, hc] at h4
  have h4 : (L.pow .f64 (FVal.ofInt .f64 z) (powExponent n 1)).toInt t = .ok (z ^ n) := by
    revert h4
    cases (L.pow .f64 (FVal.ofInt .f64 z) (powExponent n 1)).toInt t with
    | error e => intro h; cases h
    | ok w => intro h; have := Except.ok.inj h; injection this with this; rw [this]
  have iy := hL .f64 (FVal.ofInt .f64 z) (powExponent n 1)
  revert h4 iy
  cases hy : L.pow .f64 (FVal.ofInt .f64 z) (powExponent n 1) with
  | inf s => intro h; cases h
  | nan => intro h; cases h
  | fin s m =>
    intro h4 iy
    simp only [FVal.toInt] at h4
    split at h4
    · have e := Except.ok.inj h4
      have := trunc_even iy trivial (by
        rw [e]
        have : (2 : ℚ) ^ (53 : ℤ) < |((z ^ n : ℤ) : ℚ)| := by exact_mod_cast hb
        exact this)
      rw [e] at this
      exact (Int.not_even_iff_odd.mpr hodd.pow) this
    · cases h4

/-- A `std::pow` that rounds squares correctly (for the example). -/
def exLibmI : LibmI where
  pow f x e := if e.q = 2 then FVal.round f false (x.q * x.q) else .nan
  cbrt _ _ := .nan
  exp _ _ := .nan

/-- The square of 2^27 + 1 km by `pow<2>` lacks 1 km²; the hypotheses of `C89_pow_int_loses` hold.  The product `q * q` is exact. -/
example : powQtyI exEnv exLibmI 2 1 ⟨exKms (.int .i64), .i (2 ^ 27 + 1)⟩ = .ok (.inr ⟨⟨.named exArea, exKm2U, .int .i64⟩, .i (2 ^ 54 + 2 ^ 28)⟩) ∧
    (∀ f x e, (exLibmI.pow f x e).In f) ∧ Odd ((2 : ℤ) ^ 27 + 1) ∧ 2 ^ 53 < |((2 : ℤ) ^ 27 + 1) ^ 2| ∧
    (∃ r, mulQtyI exEnv ⟨exKms (.int .i64), .i (2 ^ 27 + 1)⟩ ⟨exKms (.int .i64), .i (2 ^ 27 + 1)⟩ = .ok r ∧ r.num = .i (2 ^ 54 + 2 ^ 28 + 1)) := by
  refine ⟨by decide +kernel, fun f x e => by simp only [exLibmI]; split; exacts [round_in (mul_self_nonneg _), trivial], by decide, by decide, ?_⟩
  have : (match mulQtyI exEnv ⟨exKms (.int .i64), .i (2 ^ 27 + 1)⟩ ⟨exKms (.int .i64), .i (2 ^ 27 + 1)⟩ with
    | .ok r => decide (r.num = .i (2 ^ 54 + 2 ^ 28 + 1)) | _ => false) = true := by decide +kernel
  revert this
  cases mulQtyI exEnv ⟨exKms (.int .i64), .i (2 ^ 27 + 1)⟩ ⟨exKms (.int .i64), .i (2 ^ 27 + 1)⟩ with
  | error e => simp
  | ok r => intro h; exact ⟨r, rfl, of_decide_eq_true h⟩

theorem fin_in {f : FltTy} {k e : ℤ} (hk : 0 ≤ k) (hp : (k : ℚ) < 2 ^ f.prec) (he : f.emin - (f.prec - 1) ≤ e) (he' : e ≤ f.emax - f.prec) :
    (FVal.fin false ((k : ℚ) * 2 ^ e)).In f := by
  refine ⟨mul_nonneg (by exact_mod_cast hk) (two_zpow_pos _).le, rndMag_some.mpr ⟨(rndU_exact hk hp he).symm, ?_⟩⟩
  calc (k : ℚ) * 2 ^ e < 2 ^ f.prec * 2 ^ e := mul_lt_mul_of_pos_right hp (two_zpow_pos _)
    _ = 2 ^ (f.prec + e) := by rw [zpow_add₀ (by norm_num)]
    _ ≤ 2 ^ f.emax := two_zpow_le (by omega)

/-- The exponent of a cube root is less than one third. -/
theorem powExponent_third : powExponent 1 3 = .fin false (6004799503160661 / 2 ^ 54) := by decide +kernel

theorem third_in : (powExponent 1 3).In .f64 := by rw [powExponent_third]; exact ⟨by norm_num, by decide +kernel⟩

/-- The power of `8^k` with that exponent. -/
theorem third_power (k : ℕ) : realPow ((8 ^ k : ℤ) : ℚ) (powExponent 1 3).q = 2 ^ k * (1 / 2 : ℝ) ^ ((k : ℝ) / 2 ^ 54) := by
  unfold realPow
  rw [if_pos (by positivity), powExponent_third]
  have e1 : ((((8 ^ k : ℤ) : ℚ)) : ℝ) = (2 : ℝ) ^ (3 * k : ℝ) := by
    rw [show (3 * k : ℝ) = ((3 * k : ℕ) : ℝ) by push_cast; ring, Real.rpow_natCast, pow_mul]; push_cast; norm_num
  have e2 : (((FVal.fin false (6004799503160661 / 2 ^ 54)).q : ℚ) : ℝ) = 1 / 3 - 1 / (3 * 2 ^ 54) := by
    simp only [FVal.q]; push_cast; norm_num
  rw [e1, e2, ← Real.rpow_mul (by norm_num), one_div 2, Real.inv_rpow (by norm_num), ← Real.rpow_neg (by norm_num),
    ← Real.rpow_natCast 2 k, ← Real.rpow_add (by norm_num)]
  congr 1
  field_simp
  ring

theorem third_bounds {k : ℕ} (h1 : 2 ≤ k) (h2 : k ≤ 20) :
    (2 : ℝ) ^ k - 1 ≤ 2 ^ k * (1 / 2 : ℝ) ^ ((k : ℝ) / 2 ^ 54) ∧ 2 ^ k * (1 / 2 : ℝ) ^ ((k : ℝ) / 2 ^ 54) < 2 ^ k * (1 - 1 / 2 ^ 54) := by
  have k1 : (2 : ℝ) ≤ k := by exact_mod_cast h1
  have k2 : (k : ℝ) ≤ 20 := by exact_mod_cast h2
  have p2 : (2 : ℝ) ^ k ≤ 2 ^ 20 := pow_le_pow_right₀ (by norm_num) h2
  have p0 : (0 : ℝ) < 2 ^ k := by positivity
  set p : ℝ := (k : ℝ) / 2 ^ 54 with hp
  have pp : 0 < p := by positivity
  have p1 : p ≤ 20 / 2 ^ 54 := by rw [hp]; gcongr
  have p1' : p < 1 := lt_of_le_of_lt p1 (by norm_num)
  have pl : 2 / 2 ^ 54 ≤ p := by rw [hp]; gcongr
  constructor
  · have b := rpow_one_add_le_one_add_mul_self (s := 1) (by norm_num) pp.le p1'.le
    rw [one_div 2, Real.inv_rpow (by norm_num)]
    have e : (1 + 1 : ℝ) = 2 := by norm_num
    rw [e] at b
    have q0 : (0 : ℝ) < 2 ^ p := Real.rpow_pos_of_pos (by norm_num) _
    have : 1 - p ≤ ((2 : ℝ) ^ p)⁻¹ := by
      rw [le_inv_comm₀ (by linarith) q0]
      refine b.trans ?_
      rw [le_inv_comm₀ (by linarith) (by linarith), ← one_div, le_div_iff₀ (by linarith)]
      nlinarith
    have h3 := mul_le_mul_of_nonneg_left this p0.le
    have h4 : (2 : ℝ) ^ k * p ≤ 2 ^ 20 * (20 / 2 ^ 54) := mul_le_mul p2 p1 pp.le (by norm_num)
    norm_num at h4
    nlinarith
  · have b := rpow_one_add_lt_one_add_mul_self (s := -(1 / 2)) (by norm_num) (by norm_num) pp p1'
    rw [show (1 + -(1 / 2) : ℝ) = 1 / 2 by norm_num] at b
    refine mul_lt_mul_of_pos_left ?_ p0
    linarith

theorem third_num {L : LibmI} (hL : L.PowSpec Nearest) {k : ℕ} (h1 : 2 ≤ k) (h2 : k ≤ 20) {t : IntTy} (ht : t.In (8 ^ k)) :
    powNumI L 1 3 (.int t) (.i (8 ^ k)) = .ok (.i (2 ^ k - 1)) := by
  obtain ⟨b1, b2⟩ := third_bounds h1 h2
  have hex : |(8 : ℤ) ^ k| = 8 ^ k := abs_of_pos (by positivity)
  have ez : FVal.ofInt .f64 (8 ^ k) = .fin false ((8 : ℚ) ^ k) := by
    have : k = 2 ∨ k = 3 ∨ k = 4 ∨ k = 5 ∨ k = 6 ∨ k = 7 ∨ k = 8 ∨ k = 9 ∨ k = 10 ∨ k = 11 ∨ k = 12 ∨ k = 13 ∨ k = 14 ∨ k = 15 ∨ k = 16 ∨ k = 17 ∨
      k = 18 ∨ k = 19 ∨ k = 20 := by omega
    rcases this with rfl|rfl|rfl|rfl|rfl|rfl|rfl|rfl|rfl|rfl|rfl|rfl|rfl|rfl|rfl|rfl|rfl|rfl|rfl <;> decide +kernel
  have iz : (FVal.ofInt .f64 (8 ^ k)).In .f64 := round_in (abs_nonneg _)
  have qz : (FVal.ofInt .f64 (8 ^ k)).q = ((8 ^ k : ℤ) : ℚ) := by rw [ez]; simp [FVal.q]
  have fz : (FVal.ofInt .f64 (8 ^ k)).Finite := by rw [ez]; trivial
  have fe : (powExponent 1 3).Finite := by rw [powExponent_third]; trivial
  have hp : realPow (FVal.ofInt .f64 (8 ^ k)).q (powExponent 1 3).q = 2 ^ k * (1 / 2 : ℝ) ^ ((k : ℝ) / 2 ^ 54) := by rw [qz, third_power]
  set T : ℝ := 2 ^ k * (1 / 2 : ℝ) ^ ((k : ℝ) / 2 ^ 54)
  have p4 : (4 : ℝ) ≤ 2 ^ k := by
    calc (4 : ℝ) = 2 ^ 2 := by norm_num
      _ ≤ 2 ^ k := pow_le_pow_right₀ (by norm_num) h1
  have p2 : (2 : ℝ) ^ k ≤ 2 ^ 20 := pow_le_pow_right₀ (by norm_num) h2
  have hN : NormalR .f64 T := by
    have T0 : 1 ≤ T := by linarith
    have T1 : T ≤ 2 ^ (20 : ℤ) := by
      have : (2 : ℝ) ^ k * (1 - 1 / 2 ^ 54) ≤ 2 ^ k := by nlinarith
      exact_mod_cast b2.le.trans (this.trans p2)
    rw [NormalR, abs_of_nonneg (by linarith)]
    refine ⟨le_trans ?_ T0, T1.trans (zpow_le_zpow_right₀ (by norm_num) (by decide))⟩
    exact zpow_le_one_of_nonpos₀ (by norm_num) (by decide)
  have near := hL .f64 (FVal.ofInt .f64 (8 ^ k)) (powExponent 1 3) iz third_in fz fe (.inl (by rw [qz]; positivity)) (by rw [hp]; exact hN)
  rw [hp] at near
  set y := L.pow .f64 (FVal.ofInt .f64 (8 ^ k)) (powExponent 1 3)
  have k1 : (1 : ℤ) ≤ 2 ^ k := by exact_mod_cast Nat.one_le_two_pow
  have k2 : (2 : ℤ) ^ k ≤ 2 ^ 20 := pow_le_pow_right₀ (by norm_num) h2
  have iw : (FVal.fin false (((2 ^ k - 1 : ℤ) : ℚ) * 2 ^ (0 : ℤ))).In .f64 := by
    have k0 : (0 : ℤ) ≤ 2 ^ k - 1 := by omega
    have kp : (2 : ℤ) ^ k - 1 < 2 ^ 53 := by omega
    generalize (2 : ℤ) ^ k - 1 = m at k0 kp
    exact fin_in k0 (by
      have : (m : ℚ) < 2 ^ (53 : ℤ) := by exact_mod_cast kp
      exact this) (by decide) (by decide)
  have iv : (FVal.fin false (((2 ^ 53 - 1 : ℤ) : ℚ) * 2 ^ ((k : ℤ) - 53))).In .f64 := by
    have kp : (2 : ℤ) ^ 53 - 1 < 2 ^ 53 := by omega
    have k0 : (0 : ℤ) ≤ 2 ^ 53 - 1 := by omega
    generalize (2 : ℤ) ^ 53 - 1 = m at k0 kp
    exact fin_in k0 (by
      have : (m : ℚ) < 2 ^ (53 : ℤ) := by exact_mod_cast kp
      exact this) (by show (_ : ℤ) ≤ _; have : FltTy.f64.emin - (FltTy.f64.prec - 1) ≤ -53 := by decide
                      omega) (by have : 0 ≤ FltTy.f64.emax - FltTy.f64.prec := by decide
                                 omega)
  have l : (2 : ℝ) ^ k - 1 ≤ y.q := by
    have := near.2.2 (.fin false (((2 ^ k - 1 : ℤ) : ℚ) * 2 ^ (0 : ℤ))) trivial iw
    rw [show (((FVal.fin false (((2 ^ k - 1 : ℤ) : ℚ) * 2 ^ (0 : ℤ))).q : ℚ) : ℝ) = 2 ^ k - 1 by simp [FVal.q]] at this
    by_contra hc
    rw [abs_of_nonpos (by linarith), abs_of_nonpos (by linarith)] at this
    linarith
  have u : (y.q : ℝ) < 2 ^ k := by
    have := near.2.2 (.fin false (((2 ^ 53 - 1 : ℤ) : ℚ) * 2 ^ ((k : ℤ) - 53))) trivial iv
    have e : (((FVal.fin false (((2 ^ 53 - 1 : ℤ) : ℚ) * 2 ^ ((k : ℤ) - 53))).q : ℚ) : ℝ) = 2 ^ k * (1 - 1 / 2 ^ 53) := by
      simp only [FVal.q]; push_cast; rw [zpow_sub₀ (by norm_num), zpow_natCast]
      norm_num; ring
    rw [e] at this
    by_contra hc
    rw [abs_of_nonneg (by nlinarith : (0 : ℝ) ≤ y.q - T)] at this
    have m : (2 : ℝ) ^ k * (1 - 1 / 2 ^ 53) + 2 ^ k = 2 * (2 ^ k * (1 - 1 / 2 ^ 54)) := by ring
    rcases abs_cases ((2 : ℝ) ^ k * (1 - 1 / 2 ^ 53) - T) with ⟨e, -⟩ | ⟨e, -⟩ <;> rw [e] at this
    · have : (2 : ℝ) ^ k * (1 - 1 / 2 ^ 53) < 2 ^ k := by nlinarith
      linarith
    · linarith
  have l' : (2 : ℚ) ^ k - 1 ≤ y.q := by exact_mod_cast l
  have u' : y.q < (2 : ℚ) ^ k := by exact_mod_cast u
  have one : (1 : ℚ) ≤ 2 ^ k := one_le_pow₀ (by norm_num)
  have tr : truncQ y.q = 2 ^ k - 1 := by
    unfold truncQ
    rw [if_pos (by linarith), Int.floor_eq_iff]
    push_cast
    exact ⟨l', by linarith⟩
  have hin : t.In (2 ^ k - 1) := by
    have hlo : t.lo ≤ 0 := by cases t <;> decide
    have : (2 : ℤ) ^ k ≤ 8 ^ k := pow_le_pow_left₀ (by norm_num) (by norm_num) k
    obtain ⟨a, b⟩ := ht
    exact ⟨by omega, by omega⟩
  rw [powNumI_int, toInt_of near.1 tr hin]; rfl

/-- C89 is violated by fractional powers of integers: with a correctly rounded `std::pow`, `pow<1, 3>(q)` of the cube `8^k` is `2^k − 1`, as the exponent
is the `double` below one third.  `cbrt(q)` is exact, by `C89_cbrt_int_partial`. -/
theorem C89_third_power_of_cube (E : Env) (L : LibmI) (hL : L.PowSpec Nearest) (k : ℕ) (h1 : 2 ≤ k) (h2 : k ≤ 20) (q r : QtyI) (t : IntTy)
    (hrep : q.ty.rep = .int t) (hn : q.num = .i (8 ^ k)) (ht : t.In (8 ^ k)) (h : powQtyI E L 1 3 q = .ok (.inr r)) : r.num = .i (2 ^ k - 1) := by
  obtain ⟨-, -, -, -, -, h4⟩ := powQtyI_inr h
  rw [hrep, hn, third_num hL h1 h2 ht] at h4
  exact (Except.ok.inj h4).symm

/-- `pow<1, 3>` of 64 km³ is 3 km. -/
example (L : LibmI) (hL : L.PowSpec Nearest) :
    powQtyI exSqrtEnv L 1 3 ⟨exKmPow 3 (.int .i32), .i 64⟩ = .ok (.inr ⟨exKmRoot (.int .i32), .i 3⟩) :=
  powQtyI_ok (p := ⟨1, 1, 3⟩) (by decide) (by decide) (by decide +kernel) (by decide +kernel) (by decide +kernel)
    (third_num hL (k := 2) (by decide) (by decide) (by decide))

/-- C89 is violated by large integers: `pow<1>(q)` of the largest 64-bit number is undefined, as it is converted to the `double` above it and back. -/
theorem C89_first_power_undefined (E : Env) (L : LibmI) (hL : L.PowSpec Nearest) (q : QtyI) (hrep : q.ty.rep = .int .i64) (hn : q.num = .i (2 ^ 63 - 1)) :
    powNumI L 1 1 q.ty.rep q.num = .error .overflow ∧ ∀ r, powQtyI E L 1 1 q ≠ .ok r := by
  have ez : FVal.ofInt .f64 (2 ^ 63 - 1) = .fin false (2 ^ 63) := by decide +kernel
  have iz : (FVal.fin false (2 ^ 63)).In .f64 := by rw [← ez]; exact round_in (abs_nonneg _)
  obtain ⟨e1, e2, e3⟩ := powExponent_whole (num := 1) (by decide)
  have hp : realPow (FVal.fin false (2 ^ 63)).q (powExponent 1 1).q = (2 : ℝ) ^ 63 := by
    rw [e3, realPow_int]; simp [FVal.q]
  have hN : NormalR .f64 ((2 : ℝ) ^ 63) := by
    rw [NormalR, abs_of_pos (by positivity), ← zpow_natCast]
    exact ⟨zpow_le_zpow_right₀ (by norm_num) (by decide), zpow_le_zpow_right₀ (by norm_num) (by decide)⟩
  have near := hL .f64 (.fin false (2 ^ 63)) (powExponent 1 1) iz e2 trivial e1 (.inl (by norm_num [FVal.q])) (by rw [hp]; exact hN)
  rw [hp] at near
  have hy := near.eq (z := .fin false (2 ^ 63)) trivial iz (by norm_num [FVal.q])
  have h0 : powNumI L 1 1 q.ty.rep q.num = .error .overflow := by
    rw [hrep, hn, powNumI_int, ez]
    revert near hy
    cases L.pow .f64 (FVal.fin false (2 ^ 63)) (powExponent 1 1) with
    | inf s => intro near; exact near.1.elim
    | nan => intro near; exact near.1.elim
    | fin s m =>
      intro _ hy
      have : truncQ (FVal.fin s m).q = 2 ^ 63 := by
        rw [hy, show (FVal.fin false (2 ^ 63)).q = ((2 ^ 63 : ℤ) : ℚ) by norm_num [FVal.q], truncQ_int]
      simp only [FVal.toInt]
      rw [this]
      rfl
  refine ⟨h0, fun r h => ?_⟩
  cases r with
  | inl v =>
    unfold powQtyI at h
    rw [if_neg (by decide), if_neg (by decide)] at h
    simp only [bind_ok] at h
    obtain ⟨d, -, p, -, u, -, y, -, h⟩ := h
    cases h
  | inr r =>
    obtain ⟨-, -, -, -, -, h4⟩ := powQtyI_inr h
    rw [h0] at h4; cases h4

/-- `pow<1>` of 2^63 − 1 km is undefined. -/
example (L : LibmI) (hL : L.PowSpec Nearest) : powQtyI exEnv L 1 1 ⟨exKms (.int .i64), .i (2 ^ 63 - 1)⟩ = .error .overflow := by
  have := (C89_first_power_undefined exEnv L hL ⟨exKms (.int .i64), .i (2 ^ 63 - 1)⟩ rfl rfl).1
  unfold powQtyI
  rw [if_neg (by decide), if_neg (by decide), show dimPow exEnv.dims (exKms (.int .i64)).dim 1 1 = .ok (.base exL) by decide +kernel, ok_bind,
    show powR exEnv.est 1 1 (exKms (.int .i64)).unit.ratio = .ok ⟨1, 1, 3⟩ by decide +kernel, ok_bind]
  cases hu : downcastUnit exEnv.units (.base exL) ⟨1, 1, 3⟩ with
  | error e => exact absurd (show (downcastUnit exEnv.units (.base exL) ⟨1, 1, 3⟩).isOk = true by decide +kernel) (by rw [hu]; simp [Except.isOk, Except.toBool])
  | ok u => rw [ok_bind, this]; rfl

/-! ### Cube roots -/

theorem cbrtQtyI_ok {E : Env} {L : LibmI} {q r : QtyI} (h : cbrtQtyI E L q = .ok r) :
    r.ty.rep = q.ty.rep ∧ dimPow E.dims q.ty.dim 1 3 = .ok r.ty.dim ∧ cbrtNumI L q.ty.rep q.num = .ok r.num := by
  unfold cbrtQtyI at h
  simp only [bind_ok, Except.ok.injEq] at h
  obtain ⟨d, h1, p, h2, u, h3, y, h4, rfl⟩ := h
  exact ⟨rfl, h1, h4⟩

theorem cbrtQtyI_size {E : Env} (hE : E.OK) {β : String → ℝ} (hβ : Sizes β) {L : LibmI} {q r : QtyI} (gq : q.ty.Good E)
    (gr : r.ty.dim.Good) (hx : (∀ b, q.ty.dim ≠ .base b) → PowExact q.ty.dim 1 3) (h : cbrtQtyI E L q = .ok r)
    (hroot : r.ty.unit.ratio.val ^ 3 = q.ty.unit.ratio.val) (hcoh : r.ty.dim.unit.ratio.val ^ 3 = q.ty.dim.unit.ratio.val) :
    r.ty.size β ^ 3 = q.ty.size β := by
  obtain ⟨-, h1, -⟩ := cbrtQtyI_ok h
  have := pow_size (u := q.ty.unit) (u' := r.ty.unit) hE.dims hβ (num := 1) (den := 3) (by norm_num) gq.dim gr (by exact_mod_cast h1)
    (by exact_mod_cast hx) (by simpa using hroot) (by simpa using hcoh)
  rw [zpow_one] at this
  exact this

/-- C89: `cbrt(q)` of a finite floating point quantity is the cube root of its amount, of either sign, with the relative error of `std::cbrt` alone.
Partial: the ratio of the unit has an exact root that the library finds, and the coherent units agree. -/
theorem C89_cbrt_partial (E : Env) (hE : E.OK) (β : String → ℝ) (hβ : Sizes β) (L : LibmI) (δ : ℝ) (hL : L.CbrtSpec (RelErr δ)) (q r : QtyI) (f : FltTy)
    (x : FVal) (gq : q.ty.Good E) (gr : r.ty.dim.Good) (wr : r.ty.unit.WF) (hx : (∀ b, q.ty.dim ≠ .base b) → PowExact q.ty.dim 1 3)
    (hrep : q.ty.rep = .flt f) (hn : q.num = .f x) (tx : x.In f) (fx : x.Finite) (h : cbrtQtyI E L q = .ok r)
    (hroot : r.ty.unit.ratio.val ^ 3 = q.ty.unit.ratio.val) (hcoh : r.ty.dim.unit.ratio.val ^ 3 = q.ty.dim.unit.ratio.val)
    (t : ℝ) (ht : t ^ 3 = q.amount β) :
    r.ty.rep = .flt f ∧ r.num.Typed (.flt f) ∧ r.num.Finite ∧ |r.amount β - t| ≤ δ * |t| := by
  have hS := cbrtQtyI_size hE hβ gq gr hx h hroot hcoh
  have sp : 0 < r.ty.size β := Dim.size_pos hβ gr wr
  obtain ⟨h1, -, h4⟩ := cbrtQtyI_ok h
  have ht' : (t / r.ty.size β) ^ 3 = x.q := by
    rw [div_pow, hS, ht, div_eq_iff (gq.size_pos hβ).ne']
    unfold QtyI.amount; rw [hn]; rfl
  obtain ⟨y1, y2, y3⟩ := hL f x tx fx _ ht'
  have e : r.num = .f (L.cbrt f x) := by
    rw [hrep, hn] at h4
    unfold cbrtNumI at h4
    rw [show convI (.flt f) (.flt (Rep.flt f).libm) (.f x) = .ok (.f x) from if_pos rfl, ok_bind] at h4
    have h5 : convI (.flt f) (.flt f) (.f (L.cbrt f x)) = .ok r.num := h4
    rw [show convI (.flt f) (.flt f) (.f (L.cbrt f x)) = .ok (.f (L.cbrt f x)) from if_pos rfl] at h5
    exact (Except.ok.inj h5).symm
  refine ⟨h1.trans hrep, by rw [e]; exact ⟨f, rfl, y2⟩, by rw [e]; exact y1, ?_⟩
  have ea : r.amount β = (L.cbrt f x).q * r.ty.size β := by unfold QtyI.amount; rw [e]; rfl
  have et : t = t / r.ty.size β * r.ty.size β := by field_simp
  rw [ea]
  calc |((L.cbrt f x).q : ℝ) * r.ty.size β - t| = |(((L.cbrt f x).q : ℝ) - t / r.ty.size β) * r.ty.size β| := by rw [sub_mul, ← et]
    _ = |((L.cbrt f x).q : ℝ) - t / r.ty.size β| * r.ty.size β := by rw [abs_mul, abs_of_pos sp]
    _ ≤ δ * |t / r.ty.size β| * r.ty.size β := mul_le_mul_of_nonneg_right y3 sp.le
    _ = δ * |t| := by rw [abs_div, abs_of_pos sp]; field_simp

/-- The cube root of 2 km³ in kilometres, with the error of `std::cbrt`. -/
example (β : String → ℝ) (hβ : Sizes β) (L : LibmI) (δ : ℝ) (hL : L.CbrtSpec (RelErr δ)) (t : ℝ)
    (ht : t ^ 3 = (⟨exKmPow 3 (.flt .f32), .f (.fin true 2)⟩ : QtyI).amount β) :
    ∃ r, cbrtQtyI exSqrtEnv L ⟨exKmPow 3 (.flt .f32), .f (.fin true 2)⟩ = .ok r ∧ r.ty = exKmRoot (.flt .f32) ∧ |r.amount β - t| ≤ δ * |t| := by
  have h : cbrtQtyI exSqrtEnv L ⟨exKmPow 3 (.flt .f32), .f (.fin true 2)⟩ = .ok ⟨exKmRoot (.flt .f32), .f (L.cbrt .f32 (.fin true 2))⟩ :=
    cbrtQtyI_mk (p := ⟨1, 1, 3⟩) (by decide +kernel) (by decide +kernel) (by decide +kernel) rfl
  exact ⟨_, h, rfl, (C89_cbrt_partial exSqrtEnv exSqrtEnv_ok β hβ L δ hL _ _ .f32 (.fin true 2) (exKm3_good _ _) exL_good exKmRootU_wf (fun _ => exKm3_pow) rfl rfl
    ⟨by norm_num, by decide +kernel⟩ trivial h (by exact (by decide +kernel : exKmRootU.ratio.val ^ 3 = (exKmPowU 3).ratio.val))
    (by exact (by decide +kernel : exL.unit.ratio.val ^ 3 = unknownCoherentUnit.ratio.val)) t ht).2.2.2⟩

/-- The truncated value nearest to the cube root of a natural number. -/
theorem cbrt_floor {y : FVal} {T : ℝ} {z m : ℕ} (hT : T ^ 3 = z) (near : Nearest .f64 T y) (h1 : m ^ 3 ≤ z) (h2 : z < (m + 1) ^ 3) (hz : z < 2 ^ 51) :
    truncQ y.q = m := by
  have hm : m + 1 ≤ 2 ^ 17 := by
    by_contra hc
    have : 2 ^ 17 ≤ m := by omega
    have := Nat.pow_le_pow_left this 3
    omega
  have mono := (Odd.strictMono_pow (R := ℝ) (by decide : Odd 3))
  have t1 : (m : ℝ) ≤ T := by
    refine mono.le_iff_le.mp ?_
    rw [hT]; exact_mod_cast h1
  have mR : (0 : ℝ) ≤ m := Nat.cast_nonneg m
  have t2 : T ≤ (m : ℝ) + 1 - 1 / 2 ^ 36 := by
    refine mono.le_iff_le.mp ?_
    show T ^ 3 ≤ ((m : ℝ) + 1 - 1 / 2 ^ 36) ^ 3
    rw [hT]
    have hz' : (z : ℝ) ≤ ((m : ℝ) + 1) ^ 3 - 1 := by
      have : z + 1 ≤ (m + 1) ^ 3 := h2
      have : ((z + 1 : ℕ) : ℝ) ≤ ((m + 1) ^ 3 : ℕ) := by exact_mod_cast this
      push_cast at this; linarith
    have hmR : (m : ℝ) + 1 ≤ 2 ^ 17 := by exact_mod_cast hm
    set M := (m : ℝ) + 1
    have M1 : 1 ≤ M := by simp only [M]; linarith
    have sq : M ^ 2 ≤ 2 ^ 34 := by nlinarith
    have : (M - 1 / 2 ^ 36) ^ 3 = M ^ 3 - 3 * M ^ 2 / 2 ^ 36 + 3 * M / 2 ^ 72 - 1 / 2 ^ 108 := by ring
    rw [this]
    have : 3 * M / 2 ^ 72 ≥ 1 / 2 ^ 108 := by
      rw [ge_iff_le, div_le_div_iff₀ (by norm_num) (by norm_num)]; nlinarith
    have : 3 * M ^ 2 / 2 ^ 36 ≤ 1 := by
      rw [div_le_one (by norm_num)]; norm_num at sq ⊢; linarith
    linarith
  have im : (FVal.fin false (m : ℚ)).In .f64 := by
    have := rndMag_int (f := .f64) (k := m) (by omega) (by
      have : ((m : ℤ) : ℚ) < 2 ^ (53 : ℤ) := by
        have : m < 2 ^ 53 := by omega
        exact_mod_cast this
      exact this)
    exact ⟨by positivity, by simpa using this⟩
  have iw : (FVal.fin false ((((m + 1) * 2 ^ 36 - 1 : ℤ) : ℚ) * 2 ^ (-36 : ℤ))).In .f64 := by
    have k0 : (0 : ℤ) ≤ (m + 1) * 2 ^ 36 - 1 := by omega
    have kp : ((m : ℤ) + 1) * 2 ^ 36 - 1 < 2 ^ 53 := by omega
    generalize ((m : ℤ) + 1) * 2 ^ 36 - 1 = k at k0 kp
    exact fin_in k0 (by
      have : (k : ℚ) < 2 ^ (53 : ℤ) := by exact_mod_cast kp
      exact this) (by decide) (by decide)
  have l : (m : ℝ) ≤ y.q := by
    have := near.2.2 (.fin false (m : ℚ)) trivial im
    rw [show ((FVal.fin false (m : ℚ)).q : ℝ) = m by simp [FVal.q]] at this
    by_contra hc
    rw [abs_of_nonpos (by linarith), abs_of_nonpos (by linarith)] at this
    linarith
  have r : (y.q : ℝ) < m + 1 := by
    have := near.2.2 (.fin false ((((m + 1) * 2 ^ 36 - 1 : ℤ) : ℚ) * 2 ^ (-36 : ℤ))) trivial iw
    have e : (((FVal.fin false ((((m + 1) * 2 ^ 36 - 1 : ℤ) : ℚ) * 2 ^ (-36 : ℤ))).q : ℚ) : ℝ) = (m : ℝ) + 1 - 1 / 2 ^ 36 := by
      simp only [FVal.q]; push_cast; norm_num; ring
    rw [e] at this
    by_contra hc
    rw [abs_of_nonneg (by norm_num at t2 ⊢; linarith), abs_of_nonneg (by linarith)] at this
    norm_num at this
    linarith
  have l' : (m : ℚ) ≤ y.q := by exact_mod_cast l
  have r' : y.q < (m : ℚ) + 1 := by exact_mod_cast r
  have y0 : 0 ≤ y.q := le_trans (by positivity) l'
  unfold truncQ
  rw [if_pos y0, Int.floor_eq_iff]
  exact ⟨by exact_mod_cast l', by exact_mod_cast r'⟩

theorem truncQ_neg' (x : ℚ) : truncQ (-x) = -truncQ x := by
  unfold truncQ
  rcases lt_trichotomy x 0 with h | h | h
  · rw [if_pos (by linarith), if_neg (by linarith), Int.floor_neg]
  · subst h; simp
  · rw [if_neg (by linarith), if_pos h.le, Int.ceil_neg]

theorem cbrtNumI_int (L : LibmI) (t : IntTy) (z : ℤ) :
    cbrtNumI L (.int t) (.i z) = ((L.cbrt .f64 (FVal.ofInt .f64 z)).toInt t).bind fun w => .ok (.i w) := by
  unfold cbrtNumI
  rw [show convI (.int t) (.flt (Rep.int t).libm) (.i z) = .ok (.f (FVal.ofInt .f64 z)) from if_neg (by simp), ok_bind]
  exact if_neg (by simp)

theorem cbrt_int_num {L : LibmI} (hL : L.CbrtSpec Nearest) {t : IntTy} {z : ℤ} (tz : t.In z) (hz : |z| < 2 ^ 51) :
    ∃ m : ℕ, m ^ 3 ≤ z.natAbs ∧ z.natAbs < (m + 1) ^ 3 ∧ t.In (if z < 0 then -(m : ℤ) else m) ∧
      cbrtNumI L (.int t) (.i z) = .ok (.i (if z < 0 then -(m : ℤ) else m)) := by
  have hz53 : |z| ≤ 2 ^ 53 := by omega
  have ez := ofInt_whole (f := .f64) (k := z) hz53
  have iz : (FVal.ofInt .f64 z).In .f64 := by rw [ez]; exact ⟨abs_nonneg _, rndMag_whole hz53⟩
  have qz : (FVal.ofInt .f64 z).q = z := by rw [ez]; exact signed_abs z
  have fz : (FVal.ofInt .f64 z).Finite := by rw [ez]; trivial
  have hm : ∃ m : ℕ, m ^ 3 ≤ z.natAbs ∧ z.natAbs < (m + 1) ^ 3 := by
    have : ∃ m : ℕ, z.natAbs < (m + 1) ^ 3 := ⟨z.natAbs, lt_of_lt_of_le (Nat.lt_succ_self _) (Nat.le_self_pow (by norm_num) _)⟩
    classical
    refine ⟨Nat.find this, ?_, Nat.find_spec this⟩
    rcases Nat.eq_zero_or_pos (Nat.find this) with h0 | h0
    · rw [h0]; simp
    · have := Nat.find_min this (Nat.sub_lt h0 one_pos)
      rw [show Nat.find _ - 1 + 1 = Nat.find _ from Nat.sub_add_cancel h0] at this
      omega
  obtain ⟨m, m1, m2⟩ := hm
  have zb : z.natAbs < 2 ^ 51 := by have := hz; rw [Int.abs_eq_natAbs] at this; exact_mod_cast this
  obtain ⟨T, hT⟩ : ∃ T : ℝ, T ^ 3 = z.natAbs := by
    refine ⟨(z.natAbs : ℝ) ^ ((1 : ℝ) / 3), ?_⟩
    rw [← Real.rpow_natCast, ← Real.rpow_mul (by positivity)]; norm_num
  have tr : (L.cbrt .f64 (FVal.ofInt .f64 z)).Finite ∧ truncQ (L.cbrt .f64 (FVal.ofInt .f64 z)).q = if z < 0 then -(m : ℤ) else m := by
    rcases lt_or_ge z 0 with h0 | h0
    · have near := hL .f64 _ iz fz (-T) (by
        rw [qz, neg_pow, hT]
        have : ((z.natAbs : ℕ) : ℤ) = -z := by omega
        have : (((z.natAbs : ℕ) : ℤ) : ℝ) = ((-z : ℤ) : ℝ) := by rw [this]
        rw [Int.cast_natCast] at this
        rw [this]; push_cast; ring)
      have k := near.neg
      rw [neg_neg] at k
      have := cbrt_floor hT k m1 m2 zb
      rw [FVal.neg_q, truncQ_neg'] at this
      rw [if_pos h0]
      exact ⟨near.1, by omega⟩
    · have near := hL .f64 _ iz fz T (by
        rw [qz, hT]
        have : ((z.natAbs : ℕ) : ℤ) = z := by omega
        have : (((z.natAbs : ℕ) : ℤ) : ℝ) = (z : ℝ) := by rw [this]
        rw [Int.cast_natCast] at this
        rw [this]; push_cast; rfl)
      rw [if_neg (not_lt.mpr h0)]
      exact ⟨near.1, cbrt_floor hT near m1 m2 zb⟩
  have hle : m ≤ z.natAbs := by
    rcases Nat.eq_zero_or_pos m with h | h
    · omega
    · exact (Nat.le_self_pow (by norm_num) m).trans m1
  have hin : t.In (if z < 0 then -(m : ℤ) else m) := by
    have hlo : t.lo ≤ 0 ∧ 0 ≤ t.hi := by cases t <;> decide
    obtain ⟨a, b⟩ := tz
    split <;> exact ⟨by omega, by omega⟩
  exact ⟨m, m1, m2, hin, by rw [cbrtNumI_int, toInt_of tr.1 tr.2 hin]; rfl⟩

/-- C89: `cbrt(q)` of an integral quantity below `2^51` is the truncated cube root, of either sign, for a correctly rounded `std::cbrt`: cubes have their
exact roots.  Partial: see `C89_cbrt_partial` for the units. -/
theorem C89_cbrt_int_partial (E : Env) (hE : E.OK) (β : String → ℝ) (hβ : Sizes β) (L : LibmI) (hL : L.CbrtSpec Nearest) (q r : QtyI) (t : IntTy) (z : ℤ)
    (gq : q.ty.Good E) (gr : r.ty.dim.Good) (wr : r.ty.unit.WF) (hx : (∀ b, q.ty.dim ≠ .base b) → PowExact q.ty.dim 1 3) (hrep : q.ty.rep = .int t)
    (hn : q.num = .i z) (tz : t.In z) (hz : |z| < 2 ^ 51) (h : cbrtQtyI E L q = .ok r)
    (hroot : r.ty.unit.ratio.val ^ 3 = q.ty.unit.ratio.val) (hcoh : r.ty.dim.unit.ratio.val ^ 3 = q.ty.dim.unit.ratio.val) :
    r.ty.rep = .int t ∧ (∃ c : ℤ, r.num = .i c ∧ t.In c ∧ |c| ^ 3 ≤ |z| ∧ |z| < (|c| + 1) ^ 3 ∧ 0 ≤ c * z) ∧
      |r.amount β| ^ 3 ≤ |q.amount β| ∧ |q.amount β| < (|r.amount β| + r.ty.size β) ^ 3 := by
  have hS := cbrtQtyI_size hE hβ gq gr hx h hroot hcoh
  have sp : 0 < r.ty.size β := Dim.size_pos hβ gr wr
  obtain ⟨h1, -, h4⟩ := cbrtQtyI_ok h
  obtain ⟨m, m1, m2, hin, hm⟩ := cbrt_int_num hL tz hz
  rw [hrep, hn, hm] at h4
  have h4 : r.num = .i (if z < 0 then -(m : ℤ) else m) := (Except.ok.inj h4).symm
  have ac : |(if z < 0 then -(m : ℤ) else m)| = m := by split <;> simp
  have az : |z| = z.natAbs := Int.abs_eq_natAbs z
  have er : |r.amount β| = (m : ℝ) * r.ty.size β := by
    unfold QtyI.amount
    rw [abs_mul, abs_of_pos sp, h4]
    congr 1
    show |(((if z < 0 then -(m : ℤ) else m : ℤ) : ℚ) : ℝ)| = m
    split <;> simp
  have eq : |q.amount β| = (z.natAbs : ℝ) * r.ty.size β ^ 3 := by
    unfold QtyI.amount
    rw [abs_mul, abs_of_pos (gq.size_pos hβ), hn, hS]
    congr 1
    show |((z : ℚ) : ℝ)| = _
    rw [Rat.cast_intCast, Nat.cast_natAbs, Int.cast_abs]
  refine ⟨h1.trans hrep, ⟨_, h4, hin, ?_, ?_, ?_⟩, ?_, ?_⟩
  · rw [ac, az]; exact_mod_cast m1
  · rw [ac, az]; exact_mod_cast m2
  · split
    · rename_i h; nlinarith
    · rename_i h; have := not_lt.mp h; positivity
  · rw [er, eq, mul_pow]
    exact mul_le_mul_of_nonneg_right (by exact_mod_cast m1) (by positivity)
  · rw [er, eq, ← add_one_mul, mul_pow]
    exact mul_lt_mul_of_pos_right (by exact_mod_cast m2) (by positivity)

/-- The cube root of −70 km³ in integers is −4 km. -/
example (β : String → ℝ) (hβ : Sizes β) (L : LibmI) (hL : L.CbrtSpec Nearest) :
    cbrtQtyI exSqrtEnv L ⟨exKmPow 3 (.int .i8), .i (-70)⟩ = .ok ⟨exKmRoot (.int .i8), .i (-4)⟩ ∧
      |(⟨exKmRoot (.int .i8), .i (-4)⟩ : QtyI).amount β| ^ 3 ≤ |(⟨exKmPow 3 (.int .i8), .i (-70)⟩ : QtyI).amount β| := by
  have h : cbrtQtyI exSqrtEnv L ⟨exKmPow 3 (.int .i8), .i (-70)⟩ = .ok ⟨exKmRoot (.int .i8), .i (-4)⟩ := by
    refine cbrtQtyI_mk (p := ⟨1, 1, 3⟩) (by decide +kernel) (by decide +kernel) (by decide +kernel) ?_
    obtain ⟨m, m1, m2, -, hm⟩ := cbrt_int_num hL (t := .i8) (z := -70) (by decide) (by decide)
    have m1 : m ^ 3 ≤ 70 := m1
    have m2 : 70 < (m + 1) ^ 3 := m2
    have : m = 4 := by
      have a : m < 5 := by by_contra hc; have := Nat.pow_le_pow_left (not_lt.mp hc) 3; omega
      have b : 3 < m := by by_contra hc; have := Nat.pow_le_pow_left (show m + 1 ≤ 4 by omega) 3; omega
      omega
    subst this
    exact hm
  exact ⟨h, (C89_cbrt_int_partial exSqrtEnv exSqrtEnv_ok β hβ L hL _ _ .i8 (-70) (exKm3_good _ _) exL_good exKmRootU_wf (fun _ => exKm3_pow) rfl rfl
    (by decide) (by decide) h (by decide +kernel) (by decide +kernel)).2.2.1⟩

/-! ### Exponentials -/

theorem expQtyI_ok {E : Env} {L : LibmI} {q a r : QtyI} {f : FltTy} {x : FVal} (hd : q.ty.dim = .named dimOne) (hf : q.ty.rep = .flt f)
    (ha : quantityCastI E.est ⟨.named dimOne, unitOne, q.ty.rep⟩ q = .ok a) (hx : a.num = .f x)
    (hr : quantityCastI E.est ⟨.named dimOne, q.ty.unit, q.ty.rep⟩ ⟨⟨.named dimOne, unitOne, q.ty.rep⟩, .f (L.exp f x)⟩ = .ok r) :
    expQtyI E L q = .ok r := by
  unfold expQtyI
  rw [if_pos hd, ha, ok_bind]
  rw [hf] at hr ⊢
  rw [hx]
  exact hr

/-- C89: `exp(q)` of a floating point quantity of dimension one, in any unit, is the exponential of the number it denotes, given back in the same unit.
The relative error is that of `std::exp` and of the conversion back, multiplied by the effect of the error of the conversion to the unit one, which
grows with the argument.  Partial: the result is neither too large nor too small, and the exponents of the conversion ratios are limited as in C69. -/
theorem C89_exp_partial (E : Env) (β : String → ℝ) (hβ : Sizes β) (L : LibmI) (δ : ℝ) (hL : L.ExpSpec (RelErr δ)) (hδ0 : 0 ≤ δ) (hδ : δ ≤ 1 / 2)
    (q : QtyI) (f : FltTy) (c c' : Ratio) (gq : q.ty.Good E) (hd : q.ty.dim = .named dimOne) (hrep : q.ty.rep = .flt f) (tq : q.num.Typed q.ty.rep) (fq : q.num.Finite)
    (hc : castRatio E.est q.ty.dim q.ty.unit (.named dimOne) unitOne = .ok c) (hs : c.exp.natAbs ≤ f.safeExp)
    (hc' : castRatio E.est (.named dimOne) unitOne (.named dimOne) q.ty.unit = .ok c') (hs' : c'.exp.natAbs ≤ f.safeExp)
    (w : ℝ) (hw : w = gammaErr f (c.exp.natAbs + 6) * |q.amount β| + f.tiny)
    (hlo : 2 ^ (f.emin + 2) * max 1 (q.ty.size β) ≤ Real.exp (q.amount β - w))
    (hhi : Real.exp (q.amount β + w) ≤ 2 ^ (f.emax - 4) * min 1 (q.ty.size β)) :
    ∃ r, expQtyI E L q = .ok r ∧ r.ty = q.ty ∧ r.num.Typed (.flt f) ∧ r.num.Finite ∧
      |r.amount β - Real.exp (q.amount β)| ≤
        ((1 + gammaErr f (c'.exp.natAbs + 6)) * (1 + δ) * Real.exp w - 1) * Real.exp (q.amount β) := by
  have gone := ones_good E q.ty.rep
  have sone : (⟨.named dimOne, unitOne, q.ty.rep⟩ : QTy).size β = 1 := by
    show (Dim.named dimOne).size β unitOne = 1
    rw [dimOne_size]; norm_num [unitOne, Ratio.val, Ratio.one]
  have eqv : dimEquivalent (.named dimOne) (.named dimOne) = .ok true := by decide +kernel
  have hcr : castRep (.flt f) (.flt f) = .flt f := by cases f <;> rfl
  have gw : 0 ≤ w := by
    have : (0 : ℝ) ≤ gammaErr f (c.exp.natAbs + 6) := by exact_mod_cast gammaErr_nonneg _ _
    have : (0 : ℝ) ≤ f.tiny := by exact_mod_cast f.tiny_pos.le
    rw [hw]; positivity
  set A := q.amount β with hA
  have sz := gq.size_pos hβ
  have small : |A| ≤ 2 ^ (f.emax - 2) := by
    have e := Real.add_one_le_exp |A|
    have : Real.exp |A| ≤ 2 ^ (f.emax - 4) := by
      rcases abs_cases A with ⟨h, -⟩ | ⟨h, -⟩ <;> rw [h]
      · calc Real.exp A ≤ Real.exp (A + w) := Real.exp_le_exp.mpr (by linarith)
          _ ≤ _ := hhi
          _ ≤ 2 ^ (f.emax - 4) * 1 := mul_le_mul_of_nonneg_left (min_le_left _ _) (by positivity)
          _ = _ := mul_one _
      · have : 2 ^ (f.emin + 2) ≤ Real.exp A :=
          calc (2 : ℝ) ^ (f.emin + 2) = 2 ^ (f.emin + 2) * 1 := (mul_one _).symm
            _ ≤ 2 ^ (f.emin + 2) * max 1 (q.ty.size β) := mul_le_mul_of_nonneg_left (le_max_left _ _) (by positivity)
            _ ≤ _ := hlo
            _ ≤ _ := Real.exp_le_exp.mpr (by linarith)
        rw [Real.exp_neg, inv_le_comm₀ (Real.exp_pos _) (by positivity), ← zpow_neg]
        refine le_trans (zpow_le_zpow_right₀ (by norm_num) ?_) this
        cases f <;> decide
    have : (2 : ℝ) ^ (f.emax - 4) ≤ 2 ^ (f.emax - 2) := zpow_le_zpow_right₀ (by norm_num) (by omega)
    linarith
  obtain ⟨a, ha, ta, tya, fa, err, -⟩ := (C69_amounts_partial E β hβ ⟨.named dimOne, unitOne, q.ty.rep⟩ q c f f gq gone (by rw [hd]; exact Coherent.refl _ _)
    tq fq hrep (by rw [hrep]; exact hcr) (by rw [hd]; exact eqv) hc hs).1 (by rw [sone, mul_one]; exact small)
  obtain ⟨x, hx⟩ : ∃ x, a.num = .f x := by
    have := tya
    rw [hrep] at this
    cases hn : a.num with
    | f x => exact ⟨x, rfl⟩
    | i z => rw [hn] at this; obtain ⟨t, ht, -⟩ := this; cases ht
  have ax : a.amount β = x.q := by
    unfold QtyI.amount; rw [ta, sone, hx, mul_one]; rfl
  rw [ax, sone, mul_one, ← hw] at err
  obtain ⟨el, eu⟩ := abs_le.mp err
  have ix : x.In f := by
    have : a.num.Typed q.ty.rep := tya
    rw [hx, hrep] at this
    obtain ⟨g, hg, hi⟩ := this
    cases hg; exact hi
  have fx : x.Finite := by rw [hx] at fa; exact fa
  have E1 : Real.exp (A - w) ≤ Real.exp x.q := Real.exp_le_exp.mpr (by linarith)
  have E2 : Real.exp x.q ≤ Real.exp (A + w) := Real.exp_le_exp.mpr (by linarith)
  have l1 : 2 ^ (f.emin + 2) * max 1 (q.ty.size β) ≤ Real.exp x.q := hlo.trans E1
  have u1 : Real.exp x.q ≤ 2 ^ (f.emax - 4) * min 1 (q.ty.size β) := E2.trans hhi
  have xp := Real.exp_pos x.q
  have hN : NormalR f (Real.exp x.q) := by
    rw [NormalR, abs_of_pos xp]
    constructor
    · calc (2 : ℝ) ^ f.emin ≤ 2 ^ (f.emin + 2) := zpow_le_zpow_right₀ (by norm_num) (by omega)
        _ = 2 ^ (f.emin + 2) * 1 := (mul_one _).symm
        _ ≤ 2 ^ (f.emin + 2) * max 1 (q.ty.size β) := mul_le_mul_of_nonneg_left (le_max_left _ _) (by positivity)
        _ ≤ _ := l1
    · calc Real.exp x.q ≤ _ := u1
        _ ≤ 2 ^ (f.emax - 4) * 1 := mul_le_mul_of_nonneg_left (min_le_left _ _) (by positivity)
        _ = 2 ^ (f.emax - 4) := mul_one _
        _ ≤ _ := zpow_le_zpow_right₀ (by norm_num) (by omega)
  obtain ⟨fy, iy, ey⟩ := hL f x ix fx hN
  rw [abs_of_pos xp] at ey
  set y := L.exp f x
  obtain ⟨yl, yu⟩ := abs_le.mp ey
  have yl' : Real.exp x.q / 2 ≤ y.q := by nlinarith
  have yu' : (y.q : ℝ) ≤ 2 * Real.exp x.q := by nlinarith
  have yp : (0 : ℝ) < y.q := by linarith
  have gt : (⟨.named dimOne, q.ty.unit, q.ty.rep⟩ : QTy).Good E := by rw [← hd]; exact gq
  have st : (⟨.named dimOne, q.ty.unit, q.ty.rep⟩ : QTy) = q.ty := by rw [← hd]
  have ya : (⟨⟨.named dimOne, unitOne, q.ty.rep⟩, .f y⟩ : QtyI).amount β = y.q := by
    unfold QtyI.amount; rw [sone, mul_one]; rfl
  have ty : (FNum.f y).Typed q.ty.rep := ⟨f, hrep, iy⟩
  obtain ⟨r, hb, tr, tyr, fr, -, errr⟩ := (C69_amounts_partial E β hβ ⟨.named dimOne, q.ty.unit, q.ty.rep⟩ ⟨⟨.named dimOne, unitOne, q.ty.rep⟩, .f y⟩ c' f f gone gt
    (Coherent.refl _ _) ty fy hrep (by rw [hrep]; exact hcr) eqv hc' hs').1 (by
      rw [ya, st, abs_of_pos yp]
      calc (y.q : ℝ) ≤ 2 * (2 ^ (f.emax - 4) * min 1 (q.ty.size β)) := by linarith
        _ ≤ 2 * (2 ^ (f.emax - 4) * q.ty.size β) := by gcongr; exact min_le_right _ _
        _ ≤ 2 ^ (f.emax - 2) * q.ty.size β := by
          rw [show f.emax - 2 = f.emax - 4 + 2 by ring, zpow_add₀ (by norm_num)]
          have : (0 : ℝ) < 2 ^ (f.emax - 4) * q.ty.size β := by positivity
          norm_num; linarith)
  have errr := errr (by
    rw [ya, st, abs_of_pos yp]
    refine le_trans ?_ yl'
    have : (2 : ℝ) ^ (f.emin + 2) * q.ty.size β ≤ Real.exp x.q := le_trans (mul_le_mul_of_nonneg_left (le_max_right _ _) (by positivity)) l1
    rw [show f.emin + 2 = f.emin + 1 + 1 by ring, zpow_add_one₀ (by norm_num)] at this
    linarith)
  rw [ya, abs_of_pos yp] at errr
  refine ⟨r, expQtyI_ok hd hrep ha hx hb, tr.trans st, by rw [← hrep]; exact tyr, fr, ?_⟩
  have G0 : (0 : ℝ) ≤ gammaErr f (c'.exp.natAbs + 6) := by exact_mod_cast gammaErr_nonneg _ _
  set G : ℝ := ((gammaErr f (c'.exp.natAbs + 6) : ℚ) : ℝ)
  have hW : Real.exp x.q = Real.exp A * Real.exp (x.q - A) := by rw [← Real.exp_add]; congr 1; ring
  have hW1 : |Real.exp (x.q - A) - 1| ≤ Real.exp w - 1 := (abs_exp_sub_one_le _).trans (by
    rw [sub_le_sub_iff_right, Real.exp_le_exp]; exact err)
  obtain ⟨wl, wu⟩ := abs_le.mp hW1
  have Ap := Real.exp_pos A
  have t1 : |Real.exp x.q - Real.exp A| ≤ (Real.exp w - 1) * Real.exp A := by
    rw [hW, show Real.exp A * Real.exp (x.q - A) - Real.exp A = (Real.exp (x.q - A) - 1) * Real.exp A by ring, abs_mul, abs_of_pos Ap]
    exact mul_le_mul_of_nonneg_right hW1 Ap.le
  have t2 : Real.exp x.q ≤ Real.exp w * Real.exp A := by
    rw [hW, mul_comm]; exact mul_le_mul_of_nonneg_right (by linarith) Ap.le
  have t3 : |(y.q : ℝ) - Real.exp A| ≤ ((1 + δ) * Real.exp w - 1) * Real.exp A := by
    have tri := abs_add_le ((y.q : ℝ) - Real.exp x.q) (Real.exp x.q - Real.exp A)
    rw [sub_add_sub_cancel] at tri
    have := mul_le_mul_of_nonneg_left t2 hδ0
    nlinarith
  have t4 : (y.q : ℝ) ≤ (1 + δ) * Real.exp w * Real.exp A := by
    have := (abs_le.mp t3).2
    linarith
  have tri := abs_add_le (r.amount β - y.q) ((y.q : ℝ) - Real.exp A)
  rw [sub_add_sub_cancel] at tri
  have := mul_le_mul_of_nonneg_left t4 G0
  nlinarith

/-- `exp` of 200 % in `double`, given in per cent; the hypotheses of `C89_exp_partial` hold. -/
example (β : String → ℝ) (hβ : Sizes β) (L : LibmI) (δ : ℝ) (hL : L.ExpSpec (RelErr δ)) (h0 : 0 ≤ δ) (hδ : δ ≤ 1 / 2) :
    ∃ r, expQtyI exEnv L ⟨⟨.named dimOne, exPercent, .flt .f64⟩, .f (.fin false 200)⟩ = .ok r ∧ r.ty = ⟨.named dimOne, exPercent, .flt .f64⟩ ∧
      |r.amount β - Real.exp 2| ≤ ((1 + gammaErr .f64 8) * (1 + δ) * Real.exp (gammaErr .f64 8 * 2 + FltTy.f64.tiny) - 1) * Real.exp 2 := by
  have wP : exPercent.WF := ⟨⟨by decide, by decide, fun _ => by decide, by decide, by decide, by decide, by decide, by decide⟩, by decide⟩
  have gq : (⟨.named dimOne, exPercent, .flt .f64⟩ : QTy).Good exEnv :=
    ⟨(ones_good exEnv (.flt .f64)).dim, wP, rfl, (ones_good exEnv (.flt .f64)).rooted⟩
  have sz : (⟨.named dimOne, exPercent, .flt .f64⟩ : QTy).size β = 1 / 100 := by
    show (Dim.named dimOne).size β exPercent = 1 / 100
    rw [dimOne_size]; norm_num [exPercent, Ratio.val]
  have am : (⟨⟨.named dimOne, exPercent, .flt .f64⟩, .f (.fin false 200)⟩ : QtyI).amount β = 2 := by
    unfold QtyI.amount; rw [sz]; norm_num [FNum.q, FVal.q]
  have g0 : (0 : ℝ) ≤ gammaErr .f64 8 := by exact_mod_cast gammaErr_nonneg _ _
  have g1 : ((gammaErr .f64 8 : ℚ) : ℝ) ≤ 1 / 4 := by
    have : gammaErr .f64 8 ≤ 1 / 4 := by norm_num [gammaErr, FltTy.u, FltTy.prec]
    have : ((gammaErr .f64 8 : ℚ) : ℝ) ≤ ((1 / 4 : ℚ) : ℝ) := Rat.cast_le.mpr this
    push_cast at this; exact this
  have t0 : (0 : ℝ) ≤ FltTy.f64.tiny := by exact_mod_cast FltTy.f64.tiny_pos.le
  have t1 : ((FltTy.f64.tiny : ℚ) : ℝ) ≤ 1 / 2 := by
    have : FltTy.f64.tiny ≤ 1 / 2 := by
      unfold FltTy.tiny
      calc (2 : ℚ) ^ (FltTy.f64.emin - FltTy.f64.prec + 1) ≤ 2 ^ (-1 : ℤ) := two_zpow_le (by decide)
        _ = 1 / 2 := by norm_num
    have : ((FltTy.f64.tiny : ℚ) : ℝ) ≤ ((1 / 2 : ℚ) : ℝ) := Rat.cast_le.mpr this
    push_cast at this; exact this
  have e1 : Real.exp 1 ≤ 3 := Real.exp_one_lt_three.le
  have e3 : Real.exp 3 ≤ 27 := by
    rw [show (3 : ℝ) = ((3 : ℕ) : ℝ) * 1 by norm_num, Real.exp_nat_mul]
    calc Real.exp 1 ^ 3 ≤ 3 ^ 3 := pow_le_pow_left₀ (Real.exp_pos _).le e1 3
      _ = 27 := by norm_num
  obtain ⟨r, h, h1, -, -, h4⟩ := C89_exp_partial exEnv β hβ L δ hL h0 hδ ⟨⟨.named dimOne, exPercent, .flt .f64⟩, .f (.fin false 200)⟩ .f64 ⟨1, 1, -2⟩ ⟨1, 1, 2⟩
    gq rfl rfl ⟨.f64, rfl, by norm_num, by decide +kernel⟩ trivial (by decide +kernel) (by decide) (by decide +kernel) (by decide)
    (gammaErr .f64 8 * 2 + FltTy.f64.tiny) (by rw [am]; norm_num)
    (by
      rw [am, sz]
      have : (1 : ℝ) ≤ Real.exp (2 - (gammaErr .f64 8 * 2 + FltTy.f64.tiny)) := Real.one_le_exp (by linarith)
      refine le_trans ?_ this
      rw [max_eq_left (by norm_num), mul_one]
      exact zpow_le_one_of_nonpos₀ (by norm_num) (by decide))
    (by
      rw [am, sz]
      have : Real.exp (2 + (gammaErr .f64 8 * 2 + FltTy.f64.tiny)) ≤ Real.exp 3 := Real.exp_le_exp.mpr (by linarith)
      refine this.trans (e3.trans ?_)
      rw [min_eq_right (by norm_num)]
      have : (2 : ℝ) ^ (12 : ℤ) ≤ 2 ^ (FltTy.f64.emax - 4) := zpow_le_zpow_right₀ (by norm_num) (by decide)
      norm_num at this
      linarith)
  rw [am] at h4
  exact ⟨r, h, h1, by simpa using h4⟩

end Verif
