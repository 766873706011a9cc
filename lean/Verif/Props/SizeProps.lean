import Verif.Size
import Verif.Props.EquivalentProps

/-! # Properties C20 (unnamed derived units), C31 (common quantity) and C32 (conversions between systems)

Sizes are real numbers relative to an arbitrary choice `β` of the sizes of the reference units of the base
dimensions (`Verif/Size.lean`, "Specification"). -/

namespace Verif

open Ratio

/-! ### Helper lemmas -/

theorem dimSize_recipe {β : String → ℝ} (hβ : Sizes β) {recipe : List RecipeItem} {es : List Exp}
    (hw : ∀ e ∈ es, e.dim.unit.WF) (hg : ∀ i ∈ recipe, i.dim.Good)
    (h : ∀ b, expOf es b = recipeExp recipe b) :
    dimSize β es = (recipe.map fun i => (i.dim.size β i.dim.unit) ^ (((i.num : ℚ) / i.den : ℚ) : ℝ)).prod := by
  induction recipe generalizing es with
  | nil =>
    have : dimSize β es = dimSize β [] ^ (((0 : ℚ)) : ℝ) * dimSize β [] ^ ((0 : ℚ) : ℝ) :=
      dimSize_combine hβ hw (by simp) (by simp) (fun b => by rw [h b]; simp [recipeExp])
    simpa [dimSize] using this
  | cons i r ih =>
    obtain ⟨ies, hi, hiw⟩ := (hg i (by simp)).exps
    -- a list carrying the exponents of the rest of the recipe
    obtain ⟨res, hrw, hr⟩ : ∃ res : List Exp, (∀ e ∈ res, e.dim.unit.WF) ∧ ∀ b, expOf res b = recipeExp r b := by
      have hg' : ∀ i ∈ r, i.dim.Good := fun j hj => hg j (by simp [hj])
      clear ih h hg
      induction r with
      | nil => exact ⟨[], by simp, fun b => by simp [recipeExp, expOf]⟩
      | cons j r ih =>
        obtain ⟨res, h1, h2⟩ := ih fun k hk => hg' k (by simp [hk])
        obtain ⟨jes, hj, hjw⟩ := (hg' j (by simp)).exps
        refine ⟨jes.map (fun e => ⟨e.dim, e.num * j.num, e.den * j.den⟩) ++ res, ?_, ?_⟩
        · intro e he
          rcases List.mem_append.mp he with he | he
          · obtain ⟨e', he', rfl⟩ := List.mem_map.mp he
            exact hjw e' he'
          · exact h1 e he
        · intro b
          rw [expOf_append, h2 b]
          have : expOf (jes.map fun e => (⟨e.dim, e.num * j.num, e.den * j.den⟩ : Exp)) b
              = ((j.num : ℚ) / j.den) * expOf jes b := by
            clear hj hjw
            induction jes with
            | nil => simp [expOf]
            | cons a l ih =>
              rw [List.map_cons, expOf_cons, expOf_cons, ih]
              have hq : (⟨a.dim, a.num * j.num, a.den * j.den⟩ : Exp).q = ((j.num : ℚ) / j.den) * a.q := by
                unfold Exp.q; push_cast
                by_cases h1 : (a.den : ℚ) = 0
                · simp [h1]
                · by_cases h2 : (j.den : ℚ) = 0
                  · simp [h2]
                  · field_simp
              rw [hq]
              show (if a.dim = b then _ else _) + _ = _
              split <;> ring
          rw [this, Dim.exps_exp hj b]
          simp [recipeExp]
    have := dimSize_combine (k1 := (i.num : ℚ) / i.den) (k2 := 1) hβ hw hiw hrw (fun b => by
      rw [h b, hr b, Dim.exps_exp hi b]; simp [recipeExp])
    rw [this, ih hrw (fun j hj => hg j (by simp [hj])) hr, List.map_cons, List.prod_cons]
    have hu : (i.dim.unit.ratio.val : ℝ) ≠ 0 := by exact_mod_cast (hg i (by simp)).unit.val_pos.ne'
    rw [Dim.size_eq hi, div_self hu, one_mul]
    simp

theorem derivedFactor_sound {est : RootEstimate} {i : RecipeItem} {u : MUnit} {f : Ratio} (hn : I64 i.num)
    (hd : i.dim.unit.WF) (hu : u.WF) (hden : i.den = 1)
    (hunit : i.num = 1 ∨ i.num = -1 ∨ i.dim.unit.ratio.val = 1) (h : derivedFactor est i u = .ok f) :
    f.WF ∧ 0 < f.val ∧ f.val = (u.ratio.val / i.dim.unit.ratio.val) ^ i.num := by
  unfold derivedFactor at h
  simp only [bind_ok] at h
  obtain ⟨n, hn', p, hp, q, hq, h⟩ := h
  obtain ⟨-, rfl⟩ := (abs64_eq_ok hn).mp hn'
  obtain ⟨pv, pw⟩ := powR_one_sound hu.ratio hp
  obtain ⟨qw, qv, -⟩ := div_sound pw hd.ratio hq
  have hup := hu.val_pos
  have hdp := hd.val_pos
  have key : q.val = (u.ratio.val / i.dim.unit.ratio.val) ^ |i.num| := by
    rw [qv, pv]
    rcases hunit with h | h | h
    · rw [h]; simp
    · rw [h]; simp
    · rw [h]; simp
  have qpos : 0 < q.val := by rw [key]; positivity
  unfold inverseIfNegative at h
  simp only [bind_ok, mul64_eq_ok] at h
  obtain ⟨s, ⟨-, rfl⟩, h⟩ := h
  rw [hden, mul_one] at h
  split at h
  · rename_i hpos
    simp only [Except.ok.injEq] at h
    subst h
    exact ⟨qw, qpos, by rw [key, abs_of_pos hpos]⟩
  · rename_i hneg
    obtain ⟨fw, fv, -⟩ := inverse_sound qw h
    refine ⟨fw, by rw [fv]; positivity, ?_⟩
    rw [fv, key, abs_of_nonpos (by omega), zpow_neg, inv_inv]

theorem derivedRatioGo_sound {est : RootEstimate} {recipe : List RecipeItem} {us : List MUnit} {acc r : Ratio}
    (hn : ∀ i ∈ recipe, I64 i.num) (hd : ∀ i ∈ recipe, i.dim.unit.WF) (hu : ∀ u ∈ us, u.WF)
    (hden : ∀ i ∈ recipe, i.den = 1)
    (hunit : ∀ i ∈ recipe, i.num = 1 ∨ i.num = -1 ∨ i.dim.unit.ratio.val = 1) (ha : acc.WF) (hap : 0 < acc.val)
    (h : derivedRatioGo est acc recipe us = .ok r) :
    r.WF ∧ 0 < r.val ∧ r.val = acc.val *
      ((recipe.zip us).map fun p => (p.2.ratio.val / p.1.dim.unit.ratio.val) ^ p.1.num).prod := by
  induction recipe generalizing us acc with
  | nil =>
    cases us with
    | nil => simp only [derivedRatioGo, Except.ok.injEq] at h; subst h; simp [ha, hap]
    | cons _ _ => simp [derivedRatioGo] at h
  | cons i recipe ih =>
    cases us with
    | nil => simp [derivedRatioGo] at h
    | cons u us =>
      simp only [derivedRatioGo, bind_ok] at h
      obtain ⟨f, hf, acc', hacc, h⟩ := h
      obtain ⟨fw, fp, fv⟩ := derivedFactor_sound (hn i (by simp)) (hd i (by simp)) (hu u (by simp))
        (hden i (by simp)) (hunit i (by simp)) hf
      obtain ⟨aw, av⟩ := mul_sound ha fw hacc
      obtain ⟨rw1, rp, rv⟩ := ih (fun i hi => hn i (by simp [hi])) (fun i hi => hd i (by simp [hi]))
        (fun u h => hu u (by simp [h])) (fun i hi => hden i (by simp [hi]))
        (fun i hi => hunit i (by simp [hi])) aw (by rw [av]; positivity) h
      refine ⟨rw1, rp, ?_⟩
      rw [rv, av, fv]
      simp only [List.zip_cons_cons, List.map_cons, List.prod_cons]
      ring

/-! ## C20 -/

/-- C20: the size of a derived unit is the product of the sizes of its component units raised to the
recipe's exponents.  Partial: the exponents must be integers, the coherent unit of a component dimension
must have ratio one unless its exponent is 1 or -1, and the coherent unit of the dimension itself must
have ratio one; the recipe must be one for which the exponents add up (`RecipeItem.Exact`, C13).  See
`C20_prefixed_base_unit_power_wrong` and `C20_fraction_ignored`. -/
theorem C20_derived_unit_size_partial (est : RootEstimate) (β : String → ℝ) (hβ : Sizes β) (name : String)
    (coherent u : MUnit) (recipe : List RecipeItem) (us : List MUnit) (n : NamedDim)
    (hdef : defineDim name coherent recipe = .ok n) (hx : ∀ i ∈ recipe, i.Exact)
    (hg : ∀ i ∈ recipe, i.dim.Good) (hw : (Dim.named n).Good) (hus : ∀ v ∈ us, v.WF)
    (hone : coherent.ratio.val = 1) (hden : ∀ i ∈ recipe, i.den = 1)
    (hunit : ∀ i ∈ recipe, i.num = 1 ∨ i.num = -1 ∨ i.dim.unit.ratio.val = 1)
    (h : derivedUnit est recipe coherent us = .ok u) :
    u.WF ∧ u.ref = coherent.ref ∧
    (Dim.named n).size β u = ((recipe.zip us).map fun p => (p.1.dim.size β p.2) ^ p.1.num).prod := by
  unfold defineDim at hdef
  simp only [bind_ok, Except.ok.injEq] at hdef
  obtain ⟨es, hes, rfl⟩ := hdef
  have hexp := C13_exponents_sum_partial recipe es hes hx
  obtain ⟨es', he', hes'⟩ := hw.exps
  simp only [Dim.exps, Except.ok.injEq] at he'
  subst he'
  unfold derivedUnit at h
  split at h
  · rename_i hlen
    simp only [bind_ok] at h
    obtain ⟨r, hr, h⟩ := h
    obtain ⟨⟨hp, -⟩, rfl⟩ := scaledUnit_eq_ok.mp h
    have hprod : r.WF ∧ 0 < r.val ∧ r.val =
        ((recipe.zip us).map fun p => (p.2.ratio.val / p.1.dim.unit.ratio.val) ^ p.1.num).prod := by
      cases recipe with
      | nil => simp [derivedRatio] at hr
      | cons i recipe =>
        cases us with
        | nil => simp [derivedRatio] at hr
        | cons v us =>
          simp only [derivedRatio, bind_ok] at hr
          obtain ⟨f, hf, hr⟩ := hr
          have hI : ∀ j ∈ (i :: recipe), I64 j.num := fun j hj => (hx j hj).i64.1
          obtain ⟨fw, fp, fv⟩ := derivedFactor_sound (hI i (by simp)) (hg i (by simp)).unit (hus v (by simp))
            (hden i (by simp)) (hunit i (by simp)) hf
          obtain ⟨rw1, rp, rv⟩ := derivedRatioGo_sound (fun j hj => hI j (by simp [hj]))
            (fun j hj => (hg j (by simp [hj])).unit) (fun u h => hus u (by simp [h]))
            (fun j hj => hden j (by simp [hj])) (fun j hj => hunit j (by simp [hj])) fw fp hr
          refine ⟨rw1, rp, ?_⟩
          rw [rv, fv]; simp
    refine ⟨⟨hprod.1, hp⟩, rfl, ?_⟩
    rw [Dim.size_eq (d := .named _) rfl, dimSize_recipe hβ hes' hg hexp]
    show ((r.val : ℚ) : ℝ) / ((coherent.ratio.val : ℚ) : ℝ) * _ = _
    rw [hone, hprod.2.2]
    have hlen' := hlen.1
    clear hr h hprod hlen hes hexp hes' hw hx hunit
    push_cast
    rw [div_one]
    induction recipe generalizing us with
    | nil => simp
    | cons i recipe ih =>
      cases us with
      | nil => simp at hlen'
      | cons v us =>
        simp only [List.zip_cons_cons, List.map_cons, List.prod_cons]
        have ih' := ih us (fun i hi => hg i (by simp [hi])) (fun v hv => hus v (by simp [hv]))
          (fun i hi => hden i (by simp [hi])) (by simpa using hlen')
        obtain ⟨ies, hi, hiw⟩ := (hg i (by simp)).exps
        have hu : (i.dim.unit.ratio.val : ℝ) ≠ 0 := by exact_mod_cast (hg i (by simp)).unit.val_pos.ne'
        rw [← ih']
        have hi1 : ((i.num : ℝ) / (i.den : ℝ)) = (i.num : ℝ) := by
          rw [hden i (by simp)]; push_cast; simp
        rw [hi1, Real.rpow_intCast, Dim.size_eq hi, Dim.size_eq hi, div_self hu, one_mul]
        push_cast
        rw [mul_zpow]
        ring
  · cases h

/-- Example units. -/
def exMetre : MUnit := exL.unit
def exSecond : MUnit := exT.unit
def exKm : MUnit := ⟨.named "kilometre", ⟨1, 1, 3⟩, "metre", [.scaled ⟨1, 1, 3⟩ "metre"], true, "km", none⟩
def exHour : MUnit := ⟨.named "hour", ⟨36, 1, 2⟩, "second", [.scaled ⟨36, 1, 2⟩ "second"], true, "h", none⟩
def exMps : MUnit := ⟨.named "metre_per_second", Ratio.one, "metre_per_second", [], false, "m/s", none⟩
/-- Example: speed with its own coherent unit. -/
def exSpeedRecipe : List RecipeItem := [⟨.base exL, 1, 1⟩, ⟨.base exT, -1, 1⟩]

example : defineDim "dim_speed" exMps exSpeedRecipe = .ok ⟨"dim_speed", [⟨exL, 1, 1⟩, ⟨exT, -1, 1⟩], exMps⟩ ∧
    derivedUnit (fun _ v => v) exSpeedRecipe exMps [exKm, exHour] =
      .ok ⟨.scaled ⟨1, 36, 1⟩ "metre_per_second", ⟨1, 36, 1⟩, "metre_per_second", [], false, "", none⟩ ∧
    (∀ i ∈ exSpeedRecipe, i.den = 1) := by
  refine ⟨by decide +kernel, by decide +kernel, by decide⟩

theorem exL_good : (Dim.base exL).Good := ⟨⟨_, rfl, by
  intro e he; simp only [List.mem_singleton] at he; subst he; exact ⟨one_wf, by decide⟩⟩, ⟨one_wf, by decide⟩⟩

theorem exT_good : (Dim.base exT).Good := ⟨⟨_, rfl, by
  intro e he; simp only [List.mem_singleton] at he; subst he; exact ⟨one_wf, by decide⟩⟩, ⟨one_wf, by decide⟩⟩

example : (∀ i ∈ exSpeedRecipe, i.dim.Good) ∧ ∀ i ∈ exSpeedRecipe, i.Exact := by
  constructor
  · intro i hi
    simp only [exSpeedRecipe, List.mem_cons, List.not_mem_nil, or_false] at hi
    rcases hi with rfl | rfl
    · exact exL_good
    · exact exT_good
  · intro i hi
    simp only [exSpeedRecipe, List.mem_cons, List.not_mem_nil, or_false] at hi
    rcases hi with rfl | rfl
    · exact ⟨by rintro b ⟨⟩; exact ⟨by decide, by decide, by decide⟩, by decide, fun h => absurd rfl (h _)⟩
    · exact ⟨by rintro b ⟨⟩; exact ⟨by decide, by decide, by decide⟩, by decide, fun h => absurd rfl (h _)⟩

/-- Example base dimension with a prefixed base unit. -/
def exKg : MUnit := ⟨.named "kilogram", ⟨1, 1, 3⟩, "gram", [], true, "kg", none⟩
def exM : BaseDim := ⟨"si::dim_mass", "M", exKg⟩
def exKg2 : MUnit := ⟨.named "kilogram_squared", Ratio.one, "kilogram_squared", [], false, "kg2", none⟩

theorem exKg_wf : exKg.WF :=
  ⟨⟨by decide, by decide, fun _ => by decide, by decide, by decide, by decide, by decide, by decide⟩, by decide⟩

/-- C20 fails for powers of a base dimension whose base unit has a ratio: the derived unit "kilogram
squared" of mass squared comes out a thousand times as large as the square of the kilogram, because only
one factor of the base unit's ratio is divided out. -/
theorem C20_prefixed_base_unit_power_wrong (est : RootEstimate) (β : String → ℝ) (hβ : Sizes β) :
    ∃ (n : NamedDim) (u : MUnit), defineDim "dim_mass_squared" exKg2 [⟨.base exM, 2, 1⟩] = .ok n ∧
      derivedUnit est [⟨.base exM, 2, 1⟩] exKg2 [exKg] = .ok u ∧
      (Dim.named n).size β u = 1000 * ((Dim.base exM).size β exKg) ^ 2 := by
  refine ⟨⟨"dim_mass_squared", [⟨exM, 2, 1⟩], exKg2⟩,
    ⟨.scaled ⟨1, 1, 3⟩ "kilogram_squared", ⟨1, 1, 3⟩, "kilogram_squared", [], false, "", none⟩,
    by decide +kernel, ?_, ?_⟩
  · have : powR est 2 1 ⟨1, 1, 3⟩ = powR (fun _ v => v) 2 1 ⟨1, 1, 3⟩ := by
      unfold powR
      have h1 : sgcd 2 1 = .ok 1 := by decide +kernel
      have h2 : div64 2 1 = .ok 2 := by decide +kernel
      have h3 : div64 1 1 = .ok 1 := by decide +kernel
      have h4 : abs64 2 = .ok 2 := by decide +kernel
      have h5 : abs64 1 = .ok 1 := by decide +kernel
      simp only [h1, h2, h3, h4, h5, ok_bind, rootR]
      rfl
    unfold derivedUnit
    rw [if_pos (by decide +kernel)]
    unfold derivedRatio derivedFactor
    have h4 : abs64 2 = .ok 2 := by decide +kernel
    have h6 : powR (fun _ v => v) 2 1 ⟨1, 1, 3⟩ = .ok ⟨1, 1, 6⟩ := by decide +kernel
    have h7 : Ratio.div ⟨1, 1, 6⟩ ⟨1, 1, 3⟩ = .ok ⟨1, 1, 3⟩ := by decide +kernel
    have h8 : inverseIfNegative ⟨.base exM, 2, 1⟩ ⟨1, 1, 3⟩ = .ok ⟨1, 1, 3⟩ := by decide +kernel
    have h9 : scaledUnit ⟨1, 1, 3⟩ exKg2.ref = .ok
      ⟨.scaled ⟨1, 1, 3⟩ "kilogram_squared", ⟨1, 1, 3⟩, "kilogram_squared", [], false, "", none⟩ := by decide +kernel
    have e1 : exKg.ratio = ⟨1, 1, 3⟩ := rfl
    have e2 : (Dim.base exM).unit.ratio = ⟨1, 1, 3⟩ := rfl
    simp only [h4, ok_bind, e1, e2, this, h6, h7, h8, derivedRatioGo, h9]
  · have hb : 0 < β "gram" := hβ _
    rw [Dim.size_eq (d := .named _) rfl, Dim.size_base exKg_wf]
    simp only [dimSize, Dim.unit, exM, exKg, exKg2, Ratio.val, Exp.q, baseSize, Ratio.one, List.map_cons, List.map_nil,
      List.prod_cons, List.prod_nil]
    norm_num

/-- C20 fails for fractional exponents: the denominator of the exponent is ignored, so that the derived
unit "root of the square kilometre" (of the square root of length) comes out 1000 times the root of the
metre instead of the root of 1000. -/
theorem C20_fraction_ignored (β : String → ℝ) (hβ : Sizes β) :
    ∃ (n : NamedDim) (u : MUnit), defineDim "dim_root_length" exMps [⟨.base exL, 1, 2⟩] = .ok n ∧
      derivedUnit (fun _ v => v) [⟨.base exL, 1, 2⟩] exMps [exKm] = .ok u ∧
      (Dim.named n).size β u ≠ ((Dim.base exL).size β exKm) ^ ((1 : ℝ) / 2) := by
  refine ⟨⟨"dim_root_length", [⟨exL, 1, 2⟩], exMps⟩,
    ⟨.scaled ⟨1, 1, 3⟩ "metre_per_second", ⟨1, 1, 3⟩, "metre_per_second", [], false, "", none⟩,
    by decide +kernel, by decide +kernel, ?_⟩
  have hb : 0 < β "metre" := hβ _
  rw [Dim.size_eq (d := .named _) rfl, Dim.size_base exL_good.unit]
  simp only [dimSize, Dim.unit, exL, exKm, exMps, Ratio.val, Exp.q, baseSize, Ratio.one, List.map_cons, List.map_nil,
    List.prod_cons, List.prod_nil]
  norm_num
  rw [Real.mul_rpow (by norm_num) hb.le]
  intro h
  have hs : 0 < β "metre" ^ ((1 : ℝ) / 2) := Real.rpow_pos_of_pos hb _
  norm_num at hs h
  rcases h with h | h
  · have h3 : (1000 : ℝ) < 1000 := by
      calc (1000 : ℝ) = (1000 : ℝ) ^ ((1 : ℝ) / 2) := by norm_num at h ⊢; exact h
        _ < (1000 : ℝ) ^ (1 : ℝ) := Real.rpow_lt_rpow_of_exponent_lt (by norm_num) (by norm_num)
        _ = 1000 := by norm_num
    exact lt_irrefl _ h3
  · exact hs.ne' h

/-! ## C32 -/

/-- C32: the ratio used to convert between units of equivalent dimensions is the quotient of the physical
sizes of the two units, whichever systems they belong to.  Partial: fractional exponents need exact roots
(`Rooted`, vacuous for integral exponents), and dimensions that share the reference of their coherent unit
must be coherent with each other (`Coherent`; automatic for base dimensions and for one and the same
dimension, false for unknown dimensions of different systems, see `C32_unknown_dimensions_wrong`). -/
theorem C32_cast_ratio_is_size_quotient_partial (est : RootEstimate) (β : String → ℝ) (hβ : Sizes β)
    (d1 d2 : Dim) (u1 u2 : MUnit) (x : Ratio) (g1 : d1.Good) (g2 : d2.Good) (r1 : d1.Rooted est)
    (r2 : d2.Rooted est) (w1 : u1.WF) (w2 : u2.WF) (f1 : u1.ref = d1.unit.ref) (f2 : u2.ref = d2.unit.ref)
    (heq : dimEquivalent d1 d2 = .ok true) (hc : Coherent β d1 d2)
    (h : castRatio est d1 u1 d2 u2 = .ok x) : (x.val : ℝ) = d1.size β u1 / d2.size β u2 :=
  (castRatio_sound hβ g1 g2 r1 r2 w1 w2 f1 f2 heq hc h).2.2

/-- C32 for base dimensions, without restrictions. -/
theorem C32_base_dimensions (est : RootEstimate) (β : String → ℝ) (hβ : Sizes β) (b1 b2 : BaseDim)
    (u1 u2 : MUnit) (x : Ratio) (g1 : b1.unit.WF) (g2 : b2.unit.WF) (w1 : u1.WF) (w2 : u2.WF)
    (f1 : u1.ref = b1.unit.ref) (f2 : u2.ref = b2.unit.ref)
    (heq : dimEquivalent (.base b1) (.base b2) = .ok true)
    (h : castRatio est (.base b1) u1 (.base b2) u2 = .ok x) :
    (x.val : ℝ) = ((u1.ratio.val : ℝ) * β b1.unit.ref) / ((u2.ratio.val : ℝ) * β b2.unit.ref) := by
  have good : ∀ b : BaseDim, b.unit.WF → (Dim.base b).Good := fun b hb => ⟨⟨_, rfl, by
    intro e he; simp only [List.mem_singleton] at he; subst he; exact hb⟩, hb⟩
  have rooted : ∀ b : BaseDim, (Dim.base b).Rooted est := by
    intro b es he e hm
    simp only [Dim.exps, Except.ok.injEq] at he
    subst he
    simp only [List.mem_singleton] at hm; subst hm
    intro h2; simp at h2
  rw [(castRatio_sound hβ (good _ g1) (good _ g2) (rooted _) (rooted _) w1 w2 f1 f2 heq
    (Coherent.base g1 g2) h).2.2, Dim.size_base g1, Dim.size_base g2]

example : castRatio (fun _ v => v) (.base exL) exKm (.base exLcgs) exLcgs.unit = .ok ⟨1, 1, 5⟩ := by
  decide +kernel

/-- C32: converting from A to B and then from B to C uses the same overall ratio as converting directly.
Partial: as for `C32_cast_ratio_is_size_quotient_partial`. -/
theorem C32_conversions_compose_partial (est : RootEstimate) (β : String → ℝ) (hβ : Sizes β)
    (d1 d2 d3 : Dim) (u1 u2 u3 : MUnit) (x12 x23 x13 : Ratio)
    (g1 : d1.Good) (g2 : d2.Good) (g3 : d3.Good) (r1 : d1.Rooted est) (r2 : d2.Rooted est) (r3 : d3.Rooted est)
    (w1 : u1.WF) (w2 : u2.WF) (w3 : u3.WF) (f1 : u1.ref = d1.unit.ref) (f2 : u2.ref = d2.unit.ref)
    (f3 : u3.ref = d3.unit.ref) (h12 : dimEquivalent d1 d2 = .ok true) (h23 : dimEquivalent d2 d3 = .ok true)
    (c12 : Coherent β d1 d2) (c23 : Coherent β d2 d3) (c13 : Coherent β d1 d3)
    (e12 : castRatio est d1 u1 d2 u2 = .ok x12) (e23 : castRatio est d2 u2 d3 u3 = .ok x23)
    (e13 : castRatio est d1 u1 d3 u3 = .ok x13) : x13.val = x12.val * x23.val := by
  obtain ⟨es1, k1, -⟩ := g1.exps
  obtain ⟨es2, k2, -⟩ := g2.exps
  obtain ⟨es3, k3, -⟩ := g3.exps
  have h13 := C17_transitive d1 d2 d3 es1 es2 es3 k1 k2 k3 h12 h23
  have a := (castRatio_sound hβ g1 g2 r1 r2 w1 w2 f1 f2 h12 c12 e12).2.2
  have b := (castRatio_sound hβ g2 g3 r2 r3 w2 w3 f2 f3 h23 c23 e23).2.2
  have c := (castRatio_sound hβ g1 g3 r1 r3 w1 w3 f1 f3 h13 c13 e13).2.2
  have p2 := Dim.size_pos hβ g2 w2
  have p3 := Dim.size_pos hβ g3 w3
  have : (x13.val : ℝ) = (x12.val : ℝ) * x23.val := by rw [a, b, c]; field_simp
  exact_mod_cast this

/-- Example: speed in the other system with its own coherent unit. -/
def exCmps : MUnit := ⟨.named "centimetre_per_second", Ratio.one, "centimetre_per_second", [], false, "cm/s", none⟩
def exSpeedSi : NamedDim := ⟨"si::dim_speed", [⟨exL, 1, 1⟩, ⟨exT, -1, 1⟩], exMps⟩
def exSpeedC : NamedDim := ⟨"cgs::dim_speed", [⟨exLcgs, 1, 1⟩, ⟨exT, -1, 1⟩], exCmps⟩

example : castRatio (fun _ v => v) (.named exSpeedSi) exMps (.named exSpeedC) exCmps = .ok ⟨1, 1, 2⟩ ∧
    dimEquivalent (.named exSpeedSi) (.named exSpeedC) = .ok true ∧
    exMps.ref ≠ exCmps.ref := by decide +kernel

theorem exLcgs_wf : exLcgs.unit.WF :=
  ⟨⟨by decide, by decide, fun _ => by decide, by decide, by decide, by decide, by decide, by decide⟩, by decide⟩

theorem exSpeedSi_good : (Dim.named exSpeedSi).Good := ⟨⟨_, rfl, by
  intro e he
  simp only [exSpeedSi, List.mem_cons, List.not_mem_nil, or_false] at he
  rcases he with rfl | rfl <;> exact ⟨one_wf, by decide⟩⟩, ⟨one_wf, by decide⟩⟩

theorem exSpeedC_good : (Dim.named exSpeedC).Good := ⟨⟨_, rfl, by
  intro e he
  simp only [exSpeedC, List.mem_cons, List.not_mem_nil, or_false] at he
  rcases he with rfl | rfl
  · exact exLcgs_wf
  · exact ⟨one_wf, by decide⟩⟩, ⟨one_wf, by decide⟩⟩

theorem rooted_of_den_one {est : RootEstimate} {d : Dim} {es : List Exp} (h : d.exps = .ok es)
    (h1 : ∀ e ∈ es, e.den = 1) : d.Rooted est := by
  intro es' he e hm h2
  rw [h] at he; simp only [Except.ok.injEq] at he; subst he
  rw [h1 e hm] at h2; norm_num at h2

example (est : RootEstimate) (β : String → ℝ) :
    (Dim.named exSpeedSi).Rooted est ∧ (Dim.named exSpeedC).Rooted est ∧
      Coherent β (.named exSpeedSi) (.named exSpeedC) :=
  ⟨rooted_of_den_one rfl (by decide), rooted_of_den_one rfl (by decide),
    fun h => absurd h (by decide)⟩

/-- C32 fails for unknown dimensions: the fifth power of a length is an unknown dimension in both systems,
both use `unknown_coherent_unit`, and the conversion ratio between cubic-and-square metres and the same in
centimetres comes out as one although the sizes differ by a factor 10^10. -/
theorem C32_unknown_dimensions_wrong (est : RootEstimate) (β : String → ℝ) (hβ : Sizes β) :
    ∃ (d1 d2 : Dim) (x : Ratio), dimPow exReg (.base exL) 5 1 = .ok d1 ∧ dimPow exReg (.base exLcgs) 5 1 = .ok d2 ∧
      dimEquivalent d1 d2 = .ok true ∧ castRatio est d1 d1.unit d2 d2.unit = .ok x ∧ x.val = 1 ∧
      d1.size β d1.unit = 10 ^ 10 * d2.size β d2.unit := by
  refine ⟨.unknown [⟨exL, 5, 1⟩], .unknown [⟨exLcgs, 5, 1⟩], ⟨1, 1, 0⟩, by decide +kernel, by decide +kernel,
    by decide +kernel, ?_, by simp [Ratio.val], ?_⟩
  · have h1 : sameUnitReference (Dim.unknown [⟨exL, 5, 1⟩]).unit (Dim.unknown [⟨exLcgs, 5, 1⟩]).unit = true := by
      decide +kernel
    unfold castRatio
    rw [if_pos h1]
    decide +kernel
  · have e1 : (Dim.unknown [⟨exL, 5, 1⟩]).exps = .ok [⟨exL, 5, 1⟩] := by decide +kernel
    have e2 : (Dim.unknown [⟨exLcgs, 5, 1⟩]).exps = .ok [⟨exLcgs, 5, 1⟩] := by decide +kernel
    have hb : 0 < β "metre" := hβ _
    rw [Dim.size_eq e1, Dim.size_eq e2]
    simp only [dimSize, Dim.unit, exL, exLcgs, unknownCoherentUnit, Ratio.val, Exp.q, baseSize, Ratio.one,
      List.map_cons, List.map_nil, List.prod_cons, List.prod_nil]
    norm_num
    ring

/-! ## C31 -/

/-- C31: the common unit of two equivalent quantity types is the coarsest unit of which both units are
integral multiples.  Partial: as for C32, and coherent units with different references must have ratio
one (`C31_coherent_ratio_ignored`). -/
theorem C31_common_unit_exact_partial (est : RootEstimate) (Υ : UnitReg) (hΥ : Υ.OK) (β : String → ℝ)
    (hβ : Sizes β) (d1 d2 d : Dim) (u1 u2 u : MUnit) (g1 : d1.Good) (g2 : d2.Good) (r1 : d1.Rooted est)
    (r2 : d2.Rooted est) (w1 : u1.WF) (w2 : u2.WF) (f1 : u1.ref = d1.unit.ref)
    (heq : dimEquivalent d1 d2 = .ok true) (hc : Coherent β d1 d2)
    (hone : d1.unit.ref ≠ d2.unit.ref → d1.unit.ratio.val = 1 ∧ d2.unit.ratio.val = 1)
    (h : commonUnit est Υ d1 u1 d2 u2 = .ok (d, u)) :
    u.ref = d.unit.ref ∧ (d = d1 ∨ d = d2) ∧
    (∃ a : ℤ, d1.size β u1 = a * d.size β u) ∧ (∃ b : ℤ, d2.size β u2 = b * d.size β u) ∧
    ∀ z : ℝ, (∃ a : ℤ, d1.size β u1 = a * z) → (∃ b : ℤ, d2.size β u2 = b * z) → ∃ k : ℤ, d.size β u = k * z := by
  obtain ⟨-, h2, h3, h4⟩ := commonUnit_sound hΥ hβ g1 g2 r1 r2 w1 w2 f1 heq hc hone h
  exact ⟨h2, h3, h4.left, h4.right, h4.greatest⟩

/-- C31: the size of the common unit does not depend on the order of the operands.  Partial: as above. -/
theorem C31_common_unit_symmetric_partial (est : RootEstimate) (Υ : UnitReg) (hΥ : Υ.OK) (β : String → ℝ)
    (hβ : Sizes β) (d1 d2 d d' : Dim) (u1 u2 u u' : MUnit) (g1 : d1.Good) (g2 : d2.Good)
    (r1 : d1.Rooted est) (r2 : d2.Rooted est) (w1 : u1.WF) (w2 : u2.WF) (f1 : u1.ref = d1.unit.ref)
    (f2 : u2.ref = d2.unit.ref) (heq : dimEquivalent d1 d2 = .ok true) (hc : Coherent β d1 d2)
    (hone : d1.unit.ref ≠ d2.unit.ref → d1.unit.ratio.val = 1 ∧ d2.unit.ratio.val = 1)
    (h : commonUnit est Υ d1 u1 d2 u2 = .ok (d, u)) (h' : commonUnit est Υ d2 u2 d1 u1 = .ok (d', u')) :
    d.size β u = d'.size β u' := by
  obtain ⟨k1, -, k3, k4⟩ := commonUnit_sound hΥ hβ g1 g2 r1 r2 w1 w2 f1 heq hc hone h
  obtain ⟨m1, -, m3, m4⟩ := commonUnit_sound hΥ hβ g2 g1 r2 r1 w2 w1 f2 (C17_symmetric _ _ heq)
    (fun h u => (hc h.symm u).symm) (fun h => (hone (Ne.symm h)).symm) h'
  have gd : d.Good := by rcases k3 with rfl | rfl <;> assumption
  have gd' : d'.Good := by rcases m3 with rfl | rfl <;> assumption
  have p := Dim.size_pos hβ gd k1
  have p' := Dim.size_pos hβ gd' m1
  obtain ⟨a, ha⟩ := k4.greatest _ m4.right m4.left
  obtain ⟨b, hb⟩ := m4.greatest _ k4.right k4.left
  set s := d.size β u
  set s' := d'.size β u'
  have ha0 : 0 < (a : ℝ) := by
    by_contra hcon; push Not at hcon
    have : (a : ℝ) * s' ≤ 0 := mul_nonpos_of_nonpos_of_nonneg hcon p'.le
    linarith
  have hb0 : 0 < (b : ℝ) := by
    by_contra hcon; push Not at hcon
    have : (b : ℝ) * s ≤ 0 := mul_nonpos_of_nonpos_of_nonneg hcon p.le
    linarith
  have ha1 : (1 : ℝ) ≤ a := by exact_mod_cast (by exact_mod_cast ha0 : (0 : ℤ) < a)
  have hb1 : (1 : ℝ) ≤ b := by exact_mod_cast (by exact_mod_cast hb0 : (0 : ℤ) < b)
  nlinarith

example : commonUnit (fun _ v => v) (fun _ _ => none) (.base exL) exKm (.base exLcgs) exLcgs.unit =
    .ok (.base exL, ⟨.scaled ⟨1, 1, -2⟩ "metre", ⟨1, 1, -2⟩, "metre", [], false, "", none⟩) ∧
  commonUnit (fun _ v => v) (fun _ _ => none) (.named exSpeedSi) exMps (.named exSpeedC) exCmps =
    .ok (.named exSpeedSi, ⟨.scaled ⟨1, 1, -2⟩ "metre_per_second", ⟨1, 1, -2⟩, "metre_per_second", [], false, "", none⟩) := by
  decide +kernel

/-- Example units for the following theorem: the coherent unit of the first dimension is a third of its
reference. -/
def exThird : MUnit := ⟨.named "third", ⟨1, 3, 0⟩, "ref1", [.scaled ⟨1, 3, 0⟩ "ref1"], true, "th", none⟩
def exRef1 : MUnit := ⟨.named "ref1", Ratio.one, "ref1", [], true, "r1", none⟩
def exRef2 : MUnit := ⟨.named "ref2", Ratio.one, "ref2", [], true, "r2", none⟩

/-- C31 fails when the coherent units do not share a reference and one of them has a ratio: the common
unit computed for units of sizes 3 and 1 (times the square of the length unit) has size 3. -/
theorem C31_coherent_ratio_ignored (β : String → ℝ) (hβ : Sizes β) :
    ∃ (d1 d2 d : Dim) (u : MUnit), d1.Good ∧ d2.Good ∧ dimEquivalent d1 d2 = .ok true ∧
      exRef1.ref = d1.unit.ref ∧ exRef2.ref = d2.unit.ref ∧
      commonUnit (fun _ v => v) (fun _ _ => none) d1 exRef1 d2 exRef2 = .ok (d, u) ∧
      ¬ ∃ b : ℤ, d2.size β exRef2 = b * d.size β u := by
  refine ⟨.named ⟨"dim1", [⟨exL, 2, 1⟩], exThird⟩, .named ⟨"dim2", [⟨exL, 2, 1⟩], exRef2⟩,
    .named ⟨"dim1", [⟨exL, 2, 1⟩], exThird⟩, ⟨.scaled ⟨1, 1, 0⟩ "ref1", ⟨1, 1, 0⟩, "ref1", [], false, "", none⟩,
    ⟨⟨_, rfl, ?_⟩, ?_⟩, ⟨⟨_, rfl, ?_⟩, ⟨one_wf, by decide⟩⟩, by decide +kernel, by decide, by decide,
    by decide +kernel, ?_⟩
  · intro e he; simp only [List.mem_singleton] at he; subst he; exact ⟨one_wf, by decide⟩
  · exact ⟨⟨by decide, by decide, fun _ => by decide, by decide, by decide, by decide, by decide, by decide⟩, by decide⟩
  · intro e he; simp only [List.mem_singleton] at he; subst he; exact ⟨one_wf, by decide⟩
  · rintro ⟨b, hb⟩
    have hm : 0 < β "metre" := hβ _
    rw [Dim.size_eq (d := .named _) rfl, Dim.size_eq (d := .named _) rfl] at hb
    simp only [dimSize, Dim.unit, exL, exThird, exRef2, Ratio.val, Exp.q, baseSize, Ratio.one, List.map_cons, List.map_nil,
      List.prod_cons, List.prod_nil] at hb
    norm_num at hb
    have h2 : (1 : ℝ) = b * 3 := by
      have h0 : β "metre" ^ 2 ≠ 0 := by positivity
      field_simp at hb
      linarith
    have h3 : (1 : ℤ) = b * 3 := by exact_mod_cast h2
    omega

end Verif
