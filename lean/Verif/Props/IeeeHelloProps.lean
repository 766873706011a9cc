import Verif.IeeeHello
import Verif.Props.IeeeSpeedProps
import Verif.Props.DemosProps

/-!
# C102: the response and the first program in IEEE floating point
-/

namespace Verif

open FltTy Demos Systems

set_option maxRecDepth 100000

/-- A cast between doubles. -/
theorem castDI {t t' : QTy} {c : Ratio} {F : ℚ} (x : FVal) (h1 : t.rep = .flt .f64) (h2 : t'.rep = .flt .f64) (hd : dimEquivalent t'.dim t.dim = .ok true)
    (hc : castRatio dE.est t.dim t.unit t'.dim t'.unit = .ok c) (h : castFactorI c = .fin false F) :
    quantityCastI dE.est t' ⟨t, .f x⟩ = .ok ⟨t', .f (x.mul .f64 (.fin false F))⟩ := by
  simp only [quantityCastI, hd, ok_bind, hc, if_true, h1, h2, castNumI_factor h x]

/-! ### The response -/

/-- The metres in the units of the program: astronomical unit, ångström, chain, fathom, US fathom, foot, US foot, inch, light year, mile, nautical mile, parsec,
picas, points, rod, yard. -/
def responseMetres : List ℚ :=
  [149597870700, 1 / 10 ^ 10, 20116800 / 10 ^ 6, 18288 / 10 ^ 4, 7200 / 3937, 3048 / 10 ^ 4, 1200 / 3937, 254 / 10 ^ 4, 9460730472580800, 1609344 / 10 ^ 3, 1852,
    30856775814913673, 4233333 / 10 ^ 9, 4217518 / 10 ^ 9, 3527778 / 10 ^ 10, 3514598 / 10 ^ 10, 50292 / 10 ^ 4, 9144 / 10 ^ 4]

/-- The factors of the conversions. -/
def responseFactors : List ℚ :=
  responseUnits.map fun u => match castRatio (compileEst rnd53) d_isq_si_dim_length u_metre d_isq_si_dim_length u with
    | .ok c => match castFactorI c with
      | .fin _ F => F
      | _ => 0
    | _ => 0

/-- A factor that is one rounding from the exact one. -/
def FactorOk (u : MUnit) (m F : ℚ) : Prop :=
  ∃ c, castRatio (compileEst rnd53) d_isq_si_dim_length u_metre d_isq_si_dim_length u = .ok c ∧ castFactorI c = .fin false F ∧ 0 < F ∧ FltTy.f64.rndMag F = some F ∧
    1 - 1 / 2 ^ 53 ≤ F * m ∧ F * m * (1 - 1 / 2 ^ 53) ≤ 1 ∧ 1 / 2 ^ 60 ≤ m ∧ m ≤ 2 ^ 60 ∧ u.ref = d_isq_si_dim_length.unit.ref

/-- The same as a computation. -/
def factorOkB (u : MUnit) (m F : ℚ) : Bool :=
  match castRatio (compileEst rnd53) d_isq_si_dim_length u_metre d_isq_si_dim_length u with
  | .ok c => decide (castFactorI c = .fin false F ∧ 0 < F ∧ FltTy.f64.rndMag F = some F ∧ 1 - 1 / 2 ^ 53 ≤ F * m ∧ F * m * (1 - 1 / 2 ^ 53) ≤ 1 ∧ 1 / 2 ^ 60 ≤ m ∧
      m ≤ 2 ^ 60 ∧ u.ref = d_isq_si_dim_length.unit.ref)
  | _ => false

theorem factorOk_of {u : MUnit} {m F : ℚ} (h : factorOkB u m F = true) : FactorOk u m F := by
  unfold factorOkB at h
  split at h
  · rename_i c hc
    exact ⟨c, hc, of_decide_eq_true h⟩
  · cases h

theorem response_table : ∀ x ∈ responseUnits.zip (responseMetres.zip responseFactors), factorOkB x.1 x.2.1 x.2.2 = true := by decide +kernel
theorem response_length : responseUnits.length = 18 ∧ responseMetres.length = 18 ∧ responseFactors.length = 18 := by decide +kernel

theorem response_unit {x : FVal} (hx : MidZero x) {u : MUnit} {m F : ℚ} (h : FactorOk u m F) :
    ∃ y, (do let q ← quantityCastByI demoEnv (.unit u) ⟨lenTy (.flt .f64), .f x⟩; Except.ok q.num) = .ok (.f y) ∧
      y.Finite ∧ |(y.q : ℝ) - x.q / m| ≤ 4 / 2 ^ 53 * |(x.q / m : ℝ)| := by
  have hδ : (1 / 2 ^ 53 : ℝ) ≤ 1 / 400 := by norm_num
  obtain ⟨c, hc, hF, h0, h1, h2, h3, h4, h5, hr⟩ := h
  have hm : 0 < m := lt_of_lt_of_le (by norm_num) h4
  have hm' : (0 : ℝ) < m := by exact_mod_cast hm
  have h2' : (1 - 1 / 2 ^ 53 : ℝ) ≤ F * m := by
    have := Rat.cast_le (K := ℝ) |>.mpr h2
    push_cast at this
    exact this
  have h3' : (F * m * (1 - 1 / 2 ^ 53) : ℝ) ≤ 1 := by
    have := Rat.cast_le (K := ℝ) |>.mpr h3
    push_cast at this
    exact this
  have h4' : (1 / 2 ^ 60 : ℝ) ≤ m := by
    have := Rat.cast_le (K := ℝ) |>.mpr h4
    push_cast at this
    exact this
  have h5' : (m : ℝ) ≤ 2 ^ 60 := by exact_mod_cast h5
  have gF : Got (1 / 2 ^ 53) 1 60 (1 / m : ℝ) (.fin false F) := by
    refine ⟨trivial, ⟨h0.le, h1⟩, ⟨F * m, ?_, ?_, ?_⟩, .inr ?_⟩
    · show (F : ℝ) = _
      field_simp
    · rw [pow_one]; exact h2'
    · rw [pow_one, ← one_div, le_div_iff₀ (by norm_num)]; exact h3'
    · unfold Bd
      rw [abs_of_pos (by positivity)]
      refine ⟨one_div_le_one_div_of_le hm' h5', ?_⟩
      rw [div_le_iff₀ hm']
      calc (1 : ℝ) = 2 ^ 60 * (1 / 2 ^ 60) := by norm_num
        _ ≤ _ := by gcongr
  have g := (hx.got u_le hδ).mul u_le hδ gF (by norm_num) (by norm_num)
  refine ⟨x.mul .f64 (.fin false F), ?_, g.finite, ?_⟩
  · show (do let q ← quantityCastByI dE (.unit u) ⟨lenTy (.flt .f64), .f x⟩; Except.ok q.num) = _
    have ht : castTarget dE (.unit u) (lenTy (.flt .f64)) = .ok ⟨d_isq_si_dim_length, u, .flt .f64⟩ := if_pos hr
    unfold quantityCastByI
    rw [ht, ok_bind, castDI (c := c) (F := F) x rfl rfl (show dimEquivalent d_isq_si_dim_length d_isq_si_dim_length = _ by decide +kernel) hc hF, ok_bind]
  · have := g.err u_le hδ (by norm_num)
    rw [mul_one_div] at this
    refine this.trans (le_of_eq ?_)
    push_cast
    ring

theorem mapM_pairs {α β : Type} (f : α → C FNum) (P : β → FVal → Prop) : ∀ (l : List α) (ms : List β), l.length = ms.length →
    (∀ x ∈ l.zip ms, ∃ z, f x.1 = .ok (.f z) ∧ P x.2 z) →
    ∃ zs : List FVal, l.mapM f = .ok (zs.map .f) ∧ List.Forall₂ P ms zs := by
  intro l
  induction l with
  | nil =>
    intro ms h _
    obtain rfl : ms = [] := by cases ms <;> simp_all
    exact ⟨[], rfl, .nil⟩
  | cons a l ih =>
    intro ms h hf
    cases ms with
    | nil => simp at h
    | cons b ms =>
      obtain ⟨z, hz, hp⟩ := hf (a, b) (by simp)
      obtain ⟨zs, hzs, hps⟩ := ih ms (by simpa using h) fun x hx => hf x (by simp [hx])
      refine ⟨z :: zs, ?_, .cons hp hps⟩
      rw [List.mapM_cons, hz, ok_bind, hzs]
      rfl

/-- C102: a length in metres is printed in each of the eighteen units as its number divided by the metres in the unit, with a relative error of at most `4 * 2 ^ -53`. -/
theorem C102_response {x : FVal} (hx : MidZero x) :
    ∃ ys : List FVal, responseI demoEnv (.flt .f64) (.f x) = .ok (ys.map .f) ∧
      List.Forall₂ (fun (m : ℚ) y => y.Finite ∧ |(y.q : ℝ) - x.q / m| ≤ 4 / 2 ^ 53 * |(x.q / m : ℝ)|) responseMetres ys := by
  obtain ⟨n1, n2, n3⟩ := response_length
  obtain ⟨zs, h1, h2⟩ := mapM_pairs (fun u => do let q ← quantityCastByI demoEnv (.unit u) ⟨lenTy (.flt .f64), .f x⟩; Except.ok q.num)
    (fun (m : ℚ) y => y.Finite ∧ |(y.q : ℝ) - x.q / m| ≤ 4 / 2 ^ 53 * |(x.q / m : ℝ)|) responseUnits responseMetres (n1.trans n2.symm) (by
      rintro ⟨u, m⟩ hum
      obtain ⟨i, hi, e⟩ := List.mem_iff_getElem.mp hum
      rw [List.length_zip, n1, n2] at hi
      have hi' : i < 18 := by simpa using hi
      rw [List.getElem_zip] at e
      obtain ⟨e1, e2⟩ := Prod.mk.inj e
      have hm : (u, m, responseFactors[i]'(by omega)) ∈ responseUnits.zip (responseMetres.zip responseFactors) := by
        refine List.mem_iff_getElem.mpr ⟨i, by simp [List.length_zip, n1, n2, n3, hi'], ?_⟩
        rw [List.getElem_zip, List.getElem_zip, e1, e2]
      exact response_unit hx (factorOk_of (response_table _ hm)))
  exact ⟨zs, h1, h2⟩

/-- Three metres. -/
example : ∃ ys : List FVal, responseI demoEnv (.flt .f64) (.f (.fin false 3)) = .ok (ys.map .f) ∧
    List.Forall₂ (fun (m : ℚ) y => y.Finite ∧ |(y.q : ℝ) - ((FVal.fin false 3).q : ℚ) / m| ≤ 4 / 2 ^ 53 * |(((FVal.fin false 3).q : ℚ) / m : ℝ)|) responseMetres ys :=
  C102_response ⟨trivial, ⟨by norm_num, by decide +kernel⟩, .inr (by show _ ≤ |(3 : ℚ)| ∧ |(3 : ℚ)| ≤ _; norm_num)⟩

/-! ### Hello -/

/-- The factor from miles per hour to metres per second. -/
def hMph : ℚ := 4026578354839413 / 2 ^ 53
/-- The factor from kilometres per hour to metres per second. -/
def hKmh : ℚ := 2501999792983609 / 2 ^ 53

theorem small_factor {F : ℚ} {X : ℝ} (h0 : 0 ≤ F) (h3 : FltTy.f64.rndMag F = some F) (hl : (1 - 1 / 2 ^ 53) * X ≤ (F : ℝ)) (hr : (F : ℝ) * (1 - 1 / 2 ^ 53) ≤ X)
    (hX : 1 / 2 ^ 12 ≤ X) (hX' : X ≤ 2 ^ 12) : Got (1 / 2 ^ 53) 1 12 X (.fin false F) := by
  have p : 0 < X := lt_of_lt_of_le (by norm_num) hX
  refine ⟨trivial, ⟨h0, h3⟩, ⟨(F : ℝ) / X, ?_, ?_, ?_⟩, .inr ?_⟩
  · show (F : ℝ) = _
    field_simp
  · rw [pow_one, le_div_iff₀ p]; exact hl
  · rw [pow_one, ← one_div, div_le_div_iff₀ p (by norm_num)]; linarith
  · unfold Bd
    rw [abs_of_pos p]
    exact ⟨hX, hX'⟩

theorem hMph_got : Got (1 / 2 ^ 53) 1 12 (44704 / 100000) (.fin false hMph) :=
  small_factor (by norm_num [hMph]) (by decide +kernel) (by norm_num [hMph]) (by norm_num [hMph]) (by norm_num) (by norm_num)
theorem hKmh_got : Got (1 / 2 ^ 53) 1 12 (10 / 36) (.fin false hKmh) :=
  small_factor (by norm_num [hKmh]) (by decide +kernel) (by norm_num [hKmh]) (by norm_num [hKmh]) (by norm_num) (by norm_num)

theorem tdiv_abs {a b : ℤ} (n : ℤ) (h : |a| ≤ n) : |a.tdiv b| ≤ n := by
  have : (a.tdiv b).natAbs ≤ a.natAbs := by rw [Int.natAbs_tdiv]; exact Nat.div_le_self _ _
  rw [Int.abs_eq_natAbs] at h ⊢
  omega

theorem truncQ_abs (q : ℚ) : |(truncQ q : ℚ)| ≤ |q| := by
  unfold truncQ
  split
  · rename_i h
    rw [abs_of_nonneg h, abs_of_nonneg (by exact_mod_cast Int.floor_nonneg.mpr h)]
    exact Int.floor_le q
  · rename_i h
    have h' : q ≤ 0 := (not_le.mp h).le
    have : (⌈q⌉ : ℚ) ≤ 0 := by exact_mod_cast Int.ceil_le.mpr (by exact_mod_cast h')
    rw [abs_of_nonpos h', abs_of_nonpos this]
    linarith [Int.le_ceil q]

/-- C102: the program that greets, in doubles: kilometres by hours as literals give a truncated quotient, in metres per second with a relative error of at most `4 * 2 ^ -53`;
miles by hours give the quotient in metres per second with at most `6 * 2 ^ -53`, and as `int` the truncation of what was computed. -/
theorem C102_hello {km h1 : ℤ} {mi h2 : FVal} (hkm : |km| ≤ 2 ^ 31) (hh : h1 ≠ 0) (hmi : MidZero mi) (hh2 : Mid h2) (hv : |mi.q / h2.q| ≤ 2 ^ 31) :
    ∃ a b : FVal, helloI demoEnv (.i km) (.i h1) (.f mi) (.f h2) = .ok {
      v3 := ⟨⟨d_isq_si_dim_speed, u_kilometre_per_hour, .int .i64⟩, .i (km.tdiv h1)⟩
      v4 := ⟨⟨d_isq_si_dim_speed, u_international_mile_per_hour, .flt .f64⟩, .f (mi.div .f64 h2)⟩
      v5 := ⟨Demos.speedTy (.flt .f64), .f a⟩
      v6 := ⟨Demos.speedTy (.flt .f64), .f b⟩
      v7 := ⟨Demos.speedTy (.int .i32), .i (truncQ b.q)⟩ } ∧
      a.Finite ∧ |(a.q : ℝ) - km.tdiv h1 * (10 / 36)| ≤ 4 / 2 ^ 53 * |(km.tdiv h1 * (10 / 36) : ℝ)| ∧
      b.Finite ∧ |(b.q : ℝ) - mi.q / h2.q * (44704 / 100000)| ≤ 6 / 2 ^ 53 * |(mi.q / h2.q * (44704 / 100000) : ℝ)| := by
  have hδ : (1 / 2 ^ 53 : ℝ) ≤ 1 / 400 := by norm_num
  have hq := tdiv_abs (b := h1) _ hkm
  have ga := (k_int u_le hδ hq).mul u_le hδ hKmh_got (by norm_num) (by norm_num)
  have gb := ((hmi.got u_le hδ).div u_le hδ hh2.got98 hh2.ne (by norm_num) (by norm_num)).mul u_le hδ hMph_got (by norm_num) (by norm_num)
  have eb : |(((mi.div .f64 h2).mul .f64 (.fin false hMph)).q : ℝ) - mi.q / h2.q * (44704 / 100000)| ≤ 6 / 2 ^ 53 * |(mi.q / h2.q * (44704 / 100000) : ℝ)| := by
    refine (gb.err u_le hδ (by norm_num)).trans (le_of_eq ?_)
    push_cast
    ring
  refine ⟨(FVal.ofInt .f64 (km.tdiv h1)).mul .f64 (.fin false hKmh), (mi.div .f64 h2).mul .f64 (.fin false hMph), ?_, ga.finite, ?_, gb.finite, eb⟩
  · have hin : IntTy.i64.In (km.tdiv h1) := by
      have := abs_le.mp hq
      refine ⟨?_, ?_⟩
      · exact le_trans (by decide) this.1
      · exact le_trans this.2 (by decide)
    have e3 : divQtyI dE ⟨⟨d_isq_si_dim_length, u_kilometre, .int .i64⟩, .i km⟩ ⟨⟨d_isq_si_dim_time, u_hour, .int .i64⟩, .i h1⟩ =
        .ok ⟨⟨d_isq_si_dim_speed, u_kilometre_per_hour, .int .i64⟩, .i (km.tdiv h1)⟩ := by
      have hr : refDivide dE d_isq_si_dim_length u_kilometre d_isq_si_dim_time u_hour = .ok (d_isq_si_dim_speed, u_kilometre_per_hour) := by kernel_rfl
      have ha : (Rep.int .i64).arith (.int .i64) = .int .i64 := rfl
      simp only [divQtyI, hr, ok_bind, numOpI, ha, convI, if_true, sameOpI, intOp, if_neg hh, IntTy.arith, IntTy.signed, if_pos hin]
    have e4 : divQtyI dE ⟨⟨d_isq_si_dim_length, u_international_mile, .flt .f64⟩, .f mi⟩ ⟨⟨d_isq_si_dim_time, u_hour, .flt .f64⟩, .f h2⟩ =
        .ok ⟨⟨d_isq_si_dim_speed, u_international_mile_per_hour, .flt .f64⟩, .f (mi.div .f64 h2)⟩ := by
      have hr : refDivide dE d_isq_si_dim_length u_international_mile d_isq_si_dim_time u_hour = .ok (d_isq_si_dim_speed, u_international_mile_per_hour) := by kernel_rfl
      unfold divQtyI
      dsimp only
      rw [hr]
      rfl
    have hdd : dimEquivalent d_isq_si_dim_speed d_isq_si_dim_speed = .ok true := by decide +kernel
    have e5 : quantityCastI dE.est (Demos.speedTy (.flt .f64)) ⟨⟨d_isq_si_dim_speed, u_kilometre_per_hour, .int .i64⟩, .i (km.tdiv h1)⟩ =
        .ok ⟨Demos.speedTy (.flt .f64), .f ((FVal.ofInt .f64 (km.tdiv h1)).mul .f64 (.fin false hKmh))⟩ := by
      have hc : castRatio dE.est d_isq_si_dim_speed u_kilometre_per_hour d_isq_si_dim_speed d_isq_si_dim_speed.unit = .ok ⟨1, 36, 1⟩ := by decide +kernel
      have n : castNumI (.int .i64) (.flt .f64) ⟨1, 36, 1⟩ (.i (km.tdiv h1)) = .ok (.f ((FVal.ofInt .f64 (km.tdiv h1)).mul .f64 (.fin false hKmh))) := by
        rw [← show castFactorI ⟨1, 36, 1⟩ = .fin false hKmh by decide +kernel]
        rfl
      simp only [quantityCastI, Demos.speedTy, hdd, ok_bind, hc, if_true, n]
    have e6 : quantityCastI dE.est (Demos.speedTy (.flt .f64)) ⟨⟨d_isq_si_dim_speed, u_international_mile_per_hour, .flt .f64⟩, .f (mi.div .f64 h2)⟩ =
        .ok ⟨Demos.speedTy (.flt .f64), .f ((mi.div .f64 h2).mul .f64 (.fin false hMph))⟩ :=
      castDI (c := ⟨1397, 3125, 0⟩) _ rfl rfl hdd (by decide +kernel) (by decide +kernel)
    have e7 : quantityCastI dE.est (Demos.speedTy (.int .i32)) ⟨Demos.speedTy (.flt .f64), .f ((mi.div .f64 h2).mul .f64 (.fin false hMph))⟩ =
        .ok ⟨Demos.speedTy (.int .i32), .i (truncQ ((mi.div .f64 h2).mul .f64 (.fin false hMph)).q)⟩ := by
      have hw := gb.within
      have hf := gb.finite
      have hv' : |(mi.q / h2.q : ℝ)| ≤ 2 ^ 31 := by exact_mod_cast hv
      have hb : |(((mi.div .f64 h2).mul .f64 (.fin false hMph)).q : ℝ)| ≤ 2 ^ 30 := by
        have h44 : |(mi.q / h2.q * (44704 / 100000) : ℝ)| ≤ 2 ^ 31 * (44704 / 100000) := by
          rw [abs_mul, abs_of_pos (show (0 : ℝ) < 44704 / 100000 by norm_num)]
          gcongr
        have t := abs_sub_abs_le_abs_sub (((mi.div .f64 h2).mul .f64 (.fin false hMph)).q : ℝ) (mi.q / h2.q * (44704 / 100000))
        nlinarith
      generalize (mi.div .f64 h2).mul .f64 (.fin false hMph) = b at hw hf hb ⊢
      have hb' : |b.q| ≤ 2 ^ 30 := by exact_mod_cast hb
      have hz : |truncQ b.q| ≤ 2 ^ 30 := by exact_mod_cast (truncQ_abs b.q).trans hb'
      have hi : IntTy.i32.In (truncQ b.q) := by
        have := abs_le.mp hz
        exact ⟨le_trans (by decide) this.1, le_trans this.2 (by decide)⟩
      have hc : castRatio dE.est d_isq_si_dim_speed d_isq_si_dim_speed.unit d_isq_si_dim_speed d_isq_si_dim_speed.unit = .ok ⟨1, 1, 0⟩ := by decide +kernel
      have n : castNumI (.flt .f64) (.int .i32) ⟨1, 1, 0⟩ (.f b) = convI (.flt .f64) (.int .i32) (.f (b.mul .f64 (.fin false 1))) := by
        rw [← show castFactorI ⟨1, 1, 0⟩ = .fin false 1 by decide +kernel]
        rfl
      have m : convI (.flt .f64) (.int .i32) (.f b) = .ok (.i (truncQ b.q)) := by
        rcases b with ⟨s, q⟩ | s | _
        · simp only [convI, reduceCtorEq, if_false, FVal.toInt, if_pos hi, ok_bind]
        · exact hf.elim
        · exact hf.elim
      rw [mul_one_in hw, m] at n
      simp only [quantityCastI, Demos.speedTy, hdd, ok_bind, hc, if_true, n]
    show helloI dE _ _ _ _ = _
    unfold helloI
    rw [e3, ok_bind, e4, ok_bind]
    have t6 : castTarget dE (.unit d_isq_si_dim_speed.unit) ⟨d_isq_si_dim_speed, u_international_mile_per_hour, .flt .f64⟩ = .ok (Demos.speedTy (.flt .f64)) :=
      if_pos (e := .error .rejected) (show d_isq_si_dim_speed.unit.ref = d_isq_si_dim_speed.unit.ref from rfl)
    have t7 : castTarget dE (.rep (.int .i32)) (Demos.speedTy (.flt .f64)) = .ok (Demos.speedTy (.int .i32)) := rfl
    have t5 : castTarget dE (.qty (Demos.speedTy (.flt .f64))) ⟨d_isq_si_dim_speed, u_kilometre_per_hour, .int .i64⟩ = .ok (Demos.speedTy (.flt .f64)) := rfl
    simp only [quantityCastByI, t5, t6, t7, e5, e6, e7, ok_bind]
  · refine (ga.err u_le hδ (by norm_num)).trans (le_of_eq ?_)
    push_cast
    ring

/-- The numbers of the program: 220 km and 140 miles in two hours. -/
example : ∃ a b : FVal, helloI demoEnv (.i 220) (.i 2) (.f (.fin false 140)) (.f (.fin false 2)) = .ok {
    v3 := ⟨⟨d_isq_si_dim_speed, u_kilometre_per_hour, .int .i64⟩, .i 110⟩
    v4 := ⟨⟨d_isq_si_dim_speed, u_international_mile_per_hour, .flt .f64⟩, .f (.fin false 70)⟩
    v5 := ⟨Demos.speedTy (.flt .f64), .f a⟩
    v6 := ⟨Demos.speedTy (.flt .f64), .f b⟩
    v7 := ⟨Demos.speedTy (.int .i32), .i 31⟩ } := ⟨.fin false (2150156072095289 / 2 ^ 46), .fin false (550508759450701 / 2 ^ 44), by decide +kernel⟩
example : Mid (.fin false 2) ∧ MidZero (.fin false 140) ∧ |(FVal.fin false 140).q / (FVal.fin false 2).q| ≤ 2 ^ 31 :=
  ⟨⟨trivial, ⟨by norm_num, by decide +kernel⟩, by show _ ≤ |(2 : ℚ)|; norm_num, by show |(2 : ℚ)| ≤ _; norm_num⟩,
    ⟨trivial, ⟨by norm_num, by decide +kernel⟩, .inr (by show _ ≤ |(140 : ℚ)| ∧ |(140 : ℚ)| ≤ _; norm_num)⟩, by show |(140 : ℚ) / 2| ≤ _; norm_num⟩

/-- C102: as `int` a speed that is a whole number of metres per second comes out one too small: 3125 miles in 11 hours are 127 m/s, and the program gives 126. -/
theorem C102_whole_wrong : (3125 / 11 * (44704 / 100000) : ℚ) = 127 ∧
    (helloI demoEnv (.i 220) (.i 2) (.f (.fin false 3125)) (.f (.fin false 11))).map (·.v7) = .ok ⟨Demos.speedTy (.int .i32), .i 126⟩ :=
  ⟨by norm_num, by decide +kernel⟩

end Verif
