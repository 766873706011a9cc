import Verif.Props.IeeeProps
import Verif.Props.ShippedProps

/-!
# Floating point conversions between the shipped units (C69)
-/

namespace Verif

open Systems Standards

set_option Elab.async false

namespace Systems

/-- All named amounts lie within these limits (the extremes are the cubic yottametre and the cubic yoctometre). -/
def checkFactors (l : List URow) : Bool :=
  l.all fun r => match meaning r.scope.code r.name.code with
    | some a => decide ((1 : ℚ) / 10 ^ 72 ≤ a.factor) && decide (a.factor ≤ 10 ^ 72)
    | none => true

theorem checkFactors_ok : checkFactors unitTable = true := by decide +kernel

theorem Uses.factor {S : Sys} (hS : everything = .ok S) {t : QTy} {d : DEnt} {x : Entry} {a : Amount} (h : Uses S t d x a) :
    1 / 10 ^ 72 ≤ a.factor ∧ a.factor ≤ 10 ^ 72 := by
  obtain ⟨u, hu, -⟩ := h.unit
  have hc := checkFactors_ok
  unfold checkFactors at hc
  rw [List.all_eq_true] at hc
  have hc := hc _ (unit_row hS h.mem hu)
  simp only [h.meaning, Bool.and_eq_true, decide_eq_true_eq] at hc
  exact hc

end Systems

/-- The decimal exponent of the ratio of any conversion between shipped units is far from the limits of `double`. -/
theorem shipped_exp {S : Sys} (hS : everything = .ok S) {t t' : QTy} {d d' : DEnt} {x x' : Entry} {a a' : Amount} (h : Uses S t d x a)
    (h' : Uses S t' d' x' a') {c : Ratio} (he : dimEquivalent t.dim t'.dim = .ok true)
    (hc : castRatio est t.dim t.unit t'.dim t'.unit = .ok c) : c.WF ∧ 0 < c.num ∧ c.val = a.factor / a'.factor ∧ c.exp.natAbs ≤ 162 := by
  obtain ⟨w, p, e⟩ := castRatio_size (E := shEnv) refSizes_pos (h.good hS rfl) (h'.good hS rfl) he (h.coherent hS h') hc
  rw [h.size hS, h'.size hS] at e
  have e : c.val = a.factor / a'.factor := by exact_mod_cast e
  obtain ⟨l, r⟩ := h.factor hS
  obtain ⟨l', r'⟩ := h'.factor hS
  have pos := h.pos hS
  have pos' := h'.pos hS
  refine ⟨w, p, e, exp_of_val (k := 144) w p ?_ ?_⟩
  · rw [e, le_div_iff₀ pos']
    calc ((10 : ℚ) ^ 144)⁻¹ * a'.factor ≤ (10 ^ 144)⁻¹ * 10 ^ 72 := mul_le_mul_of_nonneg_left r' (by positivity)
      _ = 1 / 10 ^ 72 := by norm_num
      _ ≤ a.factor := l
  · rw [e, div_le_iff₀ pos']
    calc a.factor ≤ 10 ^ 72 := r
      _ = 10 ^ 144 * (1 / 10 ^ 72) := by norm_num
      _ ≤ 10 ^ 144 * a'.factor := mul_le_mul_of_nonneg_left l' (by positivity)

theorem gammaErr_mono {f : FltTy} {m n : ℕ} (h : m ≤ n) : gammaErr f m ≤ gammaErr f n := by
  have u0 := f.u_pos
  have u1 := f.u_lt_one
  unfold gammaErr
  have := pow_le_pow_right₀ (by linarith : 1 ≤ 1 + f.u) h
  have := div_le_div_of_nonneg_right this (by linarith : 0 ≤ 1 - f.u)
  linarith

/-- C69 for the units the library ships, in `double`: converting a `double`, a `float` or an integer of any shipped unit to a `double` of another one
keeps the amount, as the standards define it, with a relative error of at most `2 * 10^-14` (plus at most the least positive `double`); amounts that
are too large become infinities.  Partial: `misdefined` and `rounded` units are left out (`Uses`), and the conversion ratio must exist. -/
theorem C69_shipped_double_partial (S : Sys) (hS : everything = .ok S) (t : QTy) (q : QtyI) (d d' : DEnt) (x x' : Entry) (a a' : Amount)
    (hq : Uses S q.ty d x a) (ht : Uses S t d' x' a') (hv : q.num.Typed q.ty.rep) (hfin : q.num.Finite) (hr : t.rep = .flt .f64)
    (hr' : q.ty.rep ≠ .flt .f80) (he : dimEquivalent t.dim q.ty.dim = .ok true) (c : Ratio)
    (hc : castRatio est q.ty.dim q.ty.unit t.dim t.unit = .ok c) :
    (|q.num.q * a.factor| ≤ 2 ^ 1022 * a'.factor → ∃ y : FVal, quantityCastI est t q = .ok ⟨t, .f y⟩ ∧ y.Finite ∧ y.In .f64 ∧
      |y.q * a'.factor - q.num.q * a.factor| ≤ 2 / 10 ^ 14 * |q.num.q * a.factor| + 2 ^ (-1074 : Int) * a'.factor ∧
      (2 ^ (-1021 : Int) * a'.factor ≤ |q.num.q * a.factor| →
        |y.q * a'.factor - q.num.q * a.factor| ≤ 2 / 10 ^ 14 * |q.num.q * a.factor|)) ∧
    (2 ^ 1025 * a'.factor ≤ |q.num.q * a.factor| → quantityCastI est t q = .ok ⟨t, .f (.inf q.num.neg)⟩) := by
  have hsym := C17_symmetric _ _ he
  obtain ⟨w, p, e, hexp⟩ := shipped_exp hS hq ht hsym hc
  have pos' := ht.pos hS
  have hf : castRep q.ty.rep (.flt .f64) = .flt .f64 := by
    rcases hrep : q.ty.rep with ty | ty
    · cases ty <;> decide
    · cases ty <;> first | decide | exact absurd hrep hr'
  have hsafe : SafeRatio .f64 c := safe_of_exp w p (by simp only [FltTy.safeExp]; omega)
  obtain ⟨m1, m2⟩ := C69_number_partial q.ty.rep .f64 .f64 c w hf hsafe q.num hv hfin
  have hqc := quantityCastI_eq he hc (q := q) (t := t)
  rw [hr] at hqc
  have ev : q.num.q * c.val = q.num.q * a.factor / a'.factor := by rw [e]; ring
  have eabs : |q.num.q * c.val| = |q.num.q * a.factor| / a'.factor := by rw [ev, abs_div, abs_of_pos pos']
  have hg : gammaErr .f64 (c.exp.natAbs + 6) ≤ 2 / 10 ^ 14 := by
    refine (gammaErr_mono (n := 168) (by omega)).trans ?_
    unfold gammaErr FltTy.u FltTy.prec
    norm_num
  rw [eabs] at m1 m2
  constructor
  · intro h
    obtain ⟨y, h1, h2, h3, h4, h5⟩ := m1 (by
      rw [div_le_iff₀ pos']
      exact h)
    have er : ∀ b : ℚ, |y.q - q.num.q * c.val| ≤ b → |y.q * a'.factor - q.num.q * a.factor| ≤ b * a'.factor := by
      intro b hb
      have : y.q * a'.factor - q.num.q * a.factor = (y.q - q.num.q * c.val) * a'.factor := by rw [ev]; field_simp
      rw [this, abs_mul, abs_of_pos pos']
      exact mul_le_mul_of_nonneg_right hb pos'.le
    have Y : gammaErr .f64 (c.exp.natAbs + 6) * (|q.num.q * a.factor| / a'.factor) * a'.factor ≤ 2 / 10 ^ 14 * |q.num.q * a.factor| := by
      rw [mul_assoc, div_mul_cancel₀ _ pos'.ne']
      exact mul_le_mul_of_nonneg_right hg (abs_nonneg _)
    refine ⟨y, by rw [hqc, h1]; rfl, h2, h3, ?_, fun hn => ?_⟩
    · refine (er _ h4).trans ?_
      rw [add_mul]
      exact add_le_add Y (le_of_eq rfl)
    · refine (er _ (h5 ?_)).trans Y
      rw [le_div_iff₀ pos']
      exact hn
  · intro h
    rw [hqc, m2 (by rw [le_div_iff₀ pos']; exact h)]; rfl

/-! ### Examples and counterexamples -/

/-- Lengths, src/systems/si/include/units/isq/si/length.h:37, 61. -/
def exLengthDim : Dim :=
  .base ⟨"units::isq::si::dim_length", "L", ⟨.named "units::isq::si::metre", ⟨1, 1, 0⟩, "units::isq::si::metre",
      [.scaled ⟨1, 1, 0⟩ "units::isq::si::metre"], true, "m", some "units::isq::si::prefix"⟩⟩

/-- Yottametres, src/systems/si/include/units/isq/si/length.h:57. -/
def exYotta (rep : Rep) : QTy := ⟨exLengthDim, exNamed "units::isq::si::yottametre" ⟨1, 1, 24⟩ "units::isq::si::metre" true "Ym", rep⟩

/-- Yoctometres, src/systems/si/include/units/isq/si/length.h:38. -/
def exYocto (rep : Rep) : QTy := ⟨exLengthDim, exNamed "units::isq::si::yoctometre" ⟨1, 1, -24⟩ "units::isq::si::metre" true "ym", rep⟩

theorem exYotta_uses {S : Sys} (hS : everything = .ok S) (rep : Rep) :
    ∃ d x, d.name = "units::isq::si::dim_length" ∧ Uses S (exYotta rep) d x ⟨10 ^ 24, [1, 0, 0, 0, 0, 0, 0, 0, 0, 0, 0]⟩ :=
  uses_of_rows hS _ "units::isq::si::yottametre" _ _ _ _ (by decide +kernel) (by decide +kernel) (by decide +kernel) (by decide +kernel)
    (by decide +kernel)

theorem exYocto_uses {S : Sys} (hS : everything = .ok S) (rep : Rep) :
    ∃ d x, d.name = "units::isq::si::dim_length" ∧ Uses S (exYocto rep) d x ⟨1 / 10 ^ 24, [1, 0, 0, 0, 0, 0, 0, 0, 0, 0, 0]⟩ :=
  uses_of_rows hS _ "units::isq::si::yoctometre" _ _ _ _ (by decide +kernel) (by decide +kernel) (by decide +kernel) (by decide +kernel)
    (by decide +kernel)

/-- One mile per hour is 1.609344 kilometres per hour; the result is the second nearest `double`. -/
example : castRatio est (exMph (.flt .f64)).dim (exMph (.flt .f64)).unit (exKmh (.flt .f64)).dim (exKmh (.flt .f64)).unit =
      .ok ⟨50292, 3125, -1⟩ ∧
    quantityCastI est (exKmh (.flt .f64)) ⟨exMph (.flt .f64), .f (.fin false 1)⟩ = .ok ⟨exKmh (.flt .f64), .f (.fin false (7247841038710945 / 2 ^ 52))⟩ ∧
    quantityCastI est (exKmh (.flt .f64)) ⟨exMph (.flt .f64), .f (.inf true)⟩ = .ok ⟨exKmh (.flt .f64), .f (.inf true)⟩ := by
  decide +kernel

/-- The hypotheses of `C69_shipped_double_partial` and the error bound in this case. -/
example (S : Sys) (hS : everything = .ok S) :
    ∃ y : FVal, quantityCastI est (exKmh (.flt .f64)) ⟨exMph (.flt .f64), .f (.fin false 1)⟩ = .ok ⟨exKmh (.flt .f64), .f y⟩ ∧ y.Finite ∧
      |y.q * (5 / 18) - 1 * (1397 / 3125)| ≤ 2 / 10 ^ 14 * |1 * (1397 / 3125)| := by
  obtain ⟨d, x, -, h⟩ := exMph_uses hS (.flt .f64)
  obtain ⟨d', x', -, h'⟩ := exKmh_uses hS (.flt .f64)
  obtain ⟨y, h1, h2, -, -, h5⟩ := (C69_shipped_double_partial S hS (exKmh (.flt .f64)) ⟨exMph (.flt .f64), .f (.fin false 1)⟩ d d' x x' _ _ h h'
    ⟨.f64, rfl, by norm_num, by decide +kernel⟩ trivial rfl (by decide) (by decide +kernel) ⟨50292, 3125, -1⟩ (by decide +kernel)).1
      (by decide +kernel)
  exact ⟨y, h1, h2, h5 (by decide +kernel)⟩

/-- C69 does not hold for `float` where the conversion factor leaves the range of the type, although the converted amounts are within that range: of
the shipped units, `1.7 * 10^38` yoctometres are converted to no yottametres at all, no yottametres at all to a NaN number of yoctometres, and
`7.9 * 10^-31` yottametres to infinitely many yoctometres instead of `7.9 * 10^17`. -/
theorem C69_float_range_wrong (S : Sys) (hS : everything = .ok S) :
    (∃ d x, Uses S (exYotta (.flt .f32)) d x ⟨10 ^ 24, [1, 0, 0, 0, 0, 0, 0, 0, 0, 0, 0]⟩) ∧
    (∃ d x, Uses S (exYocto (.flt .f32)) d x ⟨1 / 10 ^ 24, [1, 0, 0, 0, 0, 0, 0, 0, 0, 0, 0]⟩) ∧
    quantityCastI est (exYotta (.flt .f32)) ⟨exYocto (.flt .f32), .f (.fin false (2 ^ 127))⟩ = .ok ⟨exYotta (.flt .f32), .f (.fin false 0)⟩ ∧
    quantityCastI est (exYocto (.flt .f32)) ⟨exYotta (.flt .f32), .f (.fin false 0)⟩ = .ok ⟨exYocto (.flt .f32), .f .nan⟩ ∧
    quantityCastI est (exYocto (.flt .f32)) ⟨exYotta (.flt .f32), .f (.fin false (1 / 2 ^ 100))⟩ = .ok ⟨exYocto (.flt .f32), .f (.inf false)⟩ := by
  obtain ⟨d, x, -, h⟩ := exYotta_uses hS (.flt .f32)
  obtain ⟨d', x', -, h'⟩ := exYocto_uses hS (.flt .f32)
  exact ⟨⟨d, x, h⟩, ⟨d', x', h'⟩, by decide +kernel, by decide +kernel, by decide +kernel⟩

end Verif
