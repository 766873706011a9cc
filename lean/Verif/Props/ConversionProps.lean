import Verif.QuantityLemmas
import Verif.Props.SizeProps

/-!
# Properties of conversions between quantities (C22, C23, C24, C31, C32)

All theorems quantify over the environment `E` (root estimate, registered dimensions and units, floating
point rounding) and over the physical sizes `β` of the reference units.  `Coherent` (`Verif/Size.lean`)
excludes the situation in which the code is wrong, see `C32_unknown_dimensions_wrong`.
-/

namespace Verif

open Ratio

/-! ### Example objects -/

/-- Example environment: nothing registered but the example dimensions, exact arithmetic. -/
def exEnv : Env := ⟨fun _ v => v, exReg, fun _ _ => none, fun _ x => x⟩

theorem exEnv_ok : exEnv.OK := ⟨exReg_ok, fun _ _ _ h => by simp [exEnv] at h⟩

theorem exEnv_exact : FlExact exEnv.fl := fun _ _ => rfl

theorem exKm_wf : exKm.WF :=
  ⟨⟨by decide, by decide, fun _ => by decide, by decide, by decide, by decide, by decide, by decide⟩, by decide⟩

def exMetres (r : Rep) : QTy := ⟨.base exL, exMetre, r⟩
def exKms (r : Rep) : QTy := ⟨.base exL, exKm, r⟩
def exCms (r : Rep) : QTy := ⟨.base exLcgs, exLcgs.unit, r⟩

theorem base_rooted (est : RootEstimate) (b : BaseDim) : (Dim.base b).Rooted est := by
  intro es he e hm
  simp only [Dim.exps, Except.ok.injEq] at he
  subst he
  simp only [List.mem_singleton] at hm; subst hm
  intro h; simp at h

theorem exMetres_good (E : Env) (r : Rep) : (exMetres r).Good E :=
  ⟨exL_good, (⟨one_wf, by decide⟩ : exMetre.WF), rfl, base_rooted _ _⟩

theorem exKms_good (E : Env) (r : Rep) : (exKms r).Good E :=
  ⟨exL_good, exKm_wf, rfl, base_rooted _ _⟩

theorem exCms_good (E : Env) (r : Rep) : (exCms r).Good E :=
  ⟨⟨⟨_, rfl, by intro e he; simp only [List.mem_singleton] at he; subst he; exact exLcgs_wf⟩, exLcgs_wf⟩,
    exLcgs_wf, rfl, base_rooted _ _⟩

theorem exL_cgs_coherent (β : String → ℝ) : Coherent β (.base exL) (.base exLcgs) :=
  Coherent.base ⟨one_wf, by decide⟩ exLcgs_wf

theorem no_guard {E : Env} {t : QTy} {q : Qty} (h1 : q.ty.rep ≠ .int .u64) (h2 : t.rep ≠ .int .u64) :
    CastGuard E t q := fun _ _ _ _ _ h => by rcases h with h | h <;> contradiction

/-! ### C22 -/

/-- C22: an implicit conversion to an integral representation is accepted only from an integral
representation, the amount is a whole number of target units, and the conversion stores that number
(modulo the width of the target type); so the amount is unchanged unless the target type cannot hold it.
Partial: `CastGuard` says that an unsigned 64-bit intermediate product does not wrap; `Coherent` excludes
unknown dimensions of different systems, for which the claim is false (`C22_unknown_dimensions_wrong`). -/
theorem C22_implicit_conversion_exact_partial (E : Env) (β : String → ℝ) (hβ : Sizes β) (t : QTy) (q r : Qty)
    (ty : IntTy) (g1 : q.ty.Good E) (g2 : t.Good E) (hco : Coherent β q.ty.dim t.dim)
    (hq : q.num.Typed q.ty.rep) (ht : t.rep = .int ty) (hg : CastGuard E t q) (h : convertQty E t q = .ok r) :
    r.ty = t ∧ q.ty.rep.floating = false ∧ ∃ n : ℤ, q.amount β = n * t.size β ∧ r.num = .i (ty.wrap n) ∧
      (ty.In n → r.amount β = q.amount β) := by
  have hsz := g2.size_pos hβ
  rcases convertQty_cases h with ⟨he, rfl⟩ | ⟨-, hs, hc⟩
  · subst he
    rw [ht] at hq ⊢
    obtain ⟨v, hv, hin⟩ := hq.int
    refine ⟨rfl, rfl, v, ?_, ?_, fun _ => rfl⟩
    · rw [Qty.amount_eq, hv]; simp [Num.q]
    · rw [IntTy.wrap_of_in hin, hv]
  · obtain ⟨-, hf, k, hk⟩ := safeCastable_int hβ g1 g2 (by rw [ht]; rfl) hs
    cases hsr : q.ty.rep with
    | flt f => rw [hsr] at hf; cases hf
    | int s =>
      rw [hsr] at hq
      obtain ⟨v, hv, hin⟩ := hq.int
      have ha : q.amount β = ((v * k : ℤ) : ℝ) * t.size β := by
        rw [Qty.amount_eq, hv, hk]; simp [Num.q]; ring
      have hr := quantityCast_int hβ g1 g2 hco hsr ht hv hin hg hc
      rw [ha, mul_div_assoc, div_self hsz.ne', mul_one, truncR_int] at hr
      refine ⟨by rw [hr], rfl, v * k, ha, by rw [hr], fun hi => ?_⟩
      rw [hr, ha, IntTy.wrap_of_in hi]
      simp [Qty.amount_eq, Num.q]

example : convertQty exEnv (exCms (.int .i64)) ⟨exKms (.int .i32), .i (-7)⟩ = .ok ⟨exCms (.int .i64), .i (-700000)⟩ ∧
    convertQty exEnv (exKms (.int .i64)) ⟨exMetres (.int .i64), .i 7000⟩ = .error .rejected ∧
    convertQty exEnv (exMetres (.int .i64)) ⟨exKms (.flt .f64), .f 7⟩ = .error .rejected := by decide +kernel

example (E : Env) (β : String → ℝ) : (exKms (.int .i32)).Good E ∧ (exCms (.int .i64)).Good E ∧
    Coherent β (exKms (.int .i32)).dim (exCms (.int .i64)).dim ∧
    CastGuard E (exCms (.int .i64)) ⟨exKms (.int .i32), .i (-7)⟩ :=
  ⟨exKms_good _ _, exCms_good _ _, exL_cgs_coherent β, no_guard (by decide) (by decide)⟩

/-- C22: with an exact floating point representation an implicit conversion keeps the amount.  Partial: as
above; for rounding representations see C33. -/
theorem C22_implicit_conversion_float_partial (E : Env) (β : String → ℝ) (hβ : Sizes β) (t : QTy) (q r : Qty)
    (g1 : q.ty.Good E) (g2 : t.Good E) (hco : Coherent β q.ty.dim t.dim)
    (hq : q.num.Typed q.ty.rep) (ht : t.rep.floating = true) (hfl : FlExact E.fl) (h : convertQty E t q = .ok r) :
    r.ty = t ∧ r.amount β = q.amount β := by
  have := convertQty_exact hβ g1 g2 hco hq (fun _ => hfl) (fun _ _ _ _ hf => by rw [ht] at hf; cases hf)
    (fun ty hty => by rw [hty] at ht; cases ht) h
  exact ⟨this.1, this.2.2⟩

example : convertQty exEnv (exKms (.flt .f64)) ⟨exMetres (.int .i64), .i 7⟩ = .ok ⟨exKms (.flt .f64), .f (7 / 1000)⟩ := by
  decide +kernel

/-- C22 does not protect against narrowing of the representation: 300 m stored in 64 bits converts implicitly
to 44 m stored in 8 bits, without undefined behaviour. -/
theorem C22_narrowing_wraps (E : Env) :
    convertQty E (exMetres (.int .i8)) ⟨exMetres (.int .i64), .i 300⟩ = .ok ⟨exMetres (.int .i8), .i 44⟩ := by
  have h1 : dimEquivalent (.base exL) (.base exL) = .ok true := by decide +kernel
  have h2 : castRatio E.est (.base exL) exMetre (.base exL) exMetre = .ok ⟨1, 1, 0⟩ := by
    unfold castRatio; rw [if_pos (by decide)]; decide +kernel
  have h3 : castNum E.fl (.int .i64) (.int .i8) ⟨1, 1, 0⟩ (.i 300) = .ok (.i 44) := by
    have e1 : castRep (.int .i64) (.int .i8) = .int .i64 := by decide
    have e2 : castInt .i64 ⟨1, 1, 0⟩ 300 = .ok 300 := by decide +kernel
    have e3 : IntTy.i8.wrap 300 = 44 := by decide
    unfold castNum
    rw [e1, convNum_self, ok_bind]
    simp only [e2, ok_bind]
    unfold convNum
    rw [if_neg (by decide)]
    simp only [e3]
  unfold convertQty
  rw [if_neg (by decide)]
  have h4 : safeCastable E (exMetres (.int .i64)) (exMetres (.int .i8)) = .ok true := by
    unfold safeCastable harmonic quantityRatio exMetres
    simp only [h1, ok_bind, Rep.floating]
    decide +kernel
  simp only [h4, ok_bind, if_true]
  unfold quantityCast
  simp only [exMetres, h1, ok_bind, h2, h3, if_true]

/-- Fifth power of a length in the two example systems. -/
def exL5 : QTy := ⟨.unknown [⟨exL, 5, 1⟩], unknownCoherentUnit, .int .i64⟩
def exL5cgs : QTy := ⟨.unknown [⟨exLcgs, 5, 1⟩], unknownCoherentUnit, .int .i64⟩

theorem exL5_exps : exL5.dim.exps = .ok [⟨exL, 5, 1⟩] := by decide +kernel
theorem exL5cgs_exps : exL5cgs.dim.exps = .ok [⟨exLcgs, 5, 1⟩] := by decide +kernel

theorem exL5_good (E : Env) : exL5.Good E :=
  ⟨⟨⟨_, exL5_exps, by intro e he; simp only [List.mem_singleton] at he; subst he; exact ⟨one_wf, by decide⟩⟩,
    unknownCoherentUnit_wf⟩, unknownCoherentUnit_wf, rfl, rooted_of_den_one exL5_exps (by decide)⟩

theorem exL5cgs_good (E : Env) : exL5cgs.Good E :=
  ⟨⟨⟨_, exL5cgs_exps, by intro e he; simp only [List.mem_singleton] at he; subst he; exact exLcgs_wf⟩,
    unknownCoherentUnit_wf⟩, unknownCoherentUnit_wf, rfl, rooted_of_den_one exL5cgs_exps (by decide)⟩

theorem exL5_size (β : String → ℝ) (hβ : Sizes β) : exL5.size β = 10 ^ 10 * exL5cgs.size β := by
  have hb : 0 < β "metre" := hβ _
  unfold QTy.size
  rw [Dim.size_eq exL5_exps, Dim.size_eq exL5cgs_exps]
  simp only [exL5, exL5cgs, dimSize, Dim.unit, exL, exLcgs, unknownCoherentUnit, Ratio.val, Exp.q, baseSize, Ratio.one, List.map_cons,
    List.map_nil, List.prod_cons, List.prod_nil]
  norm_num
  ring

/-- C22 is violated for unknown dimensions of different systems: one m^5 converts implicitly to one cm^5 and
the amount shrinks by a factor 10^10. -/
theorem C22_unknown_dimensions_wrong (β : String → ℝ) (hβ : Sizes β) :
    ∃ r, convertQty exEnv exL5cgs ⟨exL5, .i 1⟩ = .ok r ∧ (⟨exL5, .i 1⟩ : Qty).amount β = 10 ^ 10 * r.amount β ∧
      r.amount β ≠ (⟨exL5, .i 1⟩ : Qty).amount β := by
  refine ⟨⟨exL5cgs, .i 1⟩, by decide +kernel, ?_⟩
  have h := exL5_size β hβ
  have hp := (exL5cgs_good exEnv).size_pos hβ
  simp only [Qty.amount_eq, Num.q, Int.cast_one, Rat.cast_one, one_mul]
  refine ⟨h, ?_⟩
  rw [h]; nlinarith

/-! ### C23 -/

/-- C23: a cast between integral representations gives the exact amount in target units, truncated toward
zero once (reduced modulo the width of the target type).  Partial: see C22 for the two side conditions. -/
theorem C23_truncates_once_partial (E : Env) (β : String → ℝ) (hβ : Sizes β) (t : QTy) (q r : Qty)
    (s d : IntTy) (g1 : q.ty.Good E) (g2 : t.Good E) (hco : Coherent β q.ty.dim t.dim)
    (hs : q.ty.rep = .int s) (hd : t.rep = .int d) (hq : q.num.Typed q.ty.rep) (hg : CastGuard E t q)
    (h : quantityCast E t q = .ok r) :
    r.ty = t ∧ r.num = .i (d.wrap (truncR (q.amount β / t.size β))) ∧
      (d.In (truncR (q.amount β / t.size β)) → r.num = .i (truncR (q.amount β / t.size β)) ∧
        |r.amount β| ≤ |q.amount β| ∧ |q.amount β - r.amount β| < t.size β ∧ 0 ≤ q.amount β * r.amount β) := by
  have hsz := g2.size_pos hβ
  rw [hs] at hq
  obtain ⟨v, hv, hin⟩ := hq.int
  have hr := quantityCast_int hβ g1 g2 hco hs hd hv hin hg h
  refine ⟨by rw [hr], by rw [hr], fun hi => ?_⟩
  rw [hr, IntTy.wrap_of_in hi]
  refine ⟨rfl, ?_⟩
  rw [Qty.amount_eq β ⟨t, _⟩]
  simp only [Num.q, Rat.cast_intCast]
  set x := q.amount β with hx
  set m := t.size β
  have hxm : x = x / m * m := by field_simp
  unfold truncR
  split
  · rename_i h0
    have x0 : 0 ≤ x := by rw [hxm]; positivity
    have f0 : (0 : ℝ) ≤ (⌊x / m⌋ : ℤ) := by exact_mod_cast Int.floor_nonneg.mpr h0
    have f1 := Int.floor_le (x / m)
    have f2 := Int.lt_floor_add_one (x / m)
    have e1 : (⌊x / m⌋ : ℝ) * m ≤ x := by calc
      _ ≤ x / m * m := mul_le_mul_of_nonneg_right f1 hsz.le
      _ = x := hxm.symm
    have e2 : x < (⌊x / m⌋ : ℝ) * m + m := by calc
      x = x / m * m := hxm
      _ < ((⌊x / m⌋ : ℝ) + 1) * m := mul_lt_mul_of_pos_right f2 hsz
      _ = _ := by ring
    refine ⟨?_, ?_, ?_⟩
    · rw [abs_of_nonneg x0, abs_of_nonneg (by positivity)]; exact e1
    · rw [abs_lt]; constructor <;> linarith
    · positivity
  · rename_i h0
    have h0 := not_le.mp h0
    have x0 : x ≤ 0 := by rw [hxm]; exact (mul_neg_of_neg_of_pos h0 hsz).le
    have f0 : ((⌈x / m⌉ : ℤ) : ℝ) ≤ 0 := by
      have : ⌈x / m⌉ ≤ 0 := Int.ceil_le.mpr (by simpa using h0.le)
      exact_mod_cast this
    have f1 := Int.le_ceil (x / m)
    have f2 := Int.ceil_lt_add_one (x / m)
    have e1 : x ≤ (⌈x / m⌉ : ℝ) * m := by calc
      x = x / m * m := hxm
      _ ≤ _ := mul_le_mul_of_nonneg_right f1 hsz.le
    have e2 : (⌈x / m⌉ : ℝ) * m < x + m := by calc
      _ < (x / m + 1) * m := mul_lt_mul_of_pos_right f2 hsz
      _ = x / m * m + m := by ring
      _ = _ := by rw [← hxm]
    have e3 : (⌈x / m⌉ : ℝ) * m ≤ 0 := mul_nonpos_of_nonpos_of_nonneg f0 hsz.le
    refine ⟨?_, ?_, ?_⟩
    · rw [abs_of_nonpos x0, abs_of_nonpos e3]; linarith
    · rw [abs_lt]; constructor <;> linarith
    · exact mul_nonneg_of_nonpos_of_nonpos x0 e3

example : quantityCast exEnv (exKms (.int .i64)) ⟨exCms (.int .i64), .i (-1999999)⟩ = .ok ⟨exKms (.int .i64), .i (-19)⟩ ∧
    quantityCast exEnv (exMetres (.int .i64)) ⟨exKms (.int .i64), .i 9223372036854776⟩ = .error .overflow := by
  decide +kernel

/-- C23: the same for a cast from an exact floating point representation to an integral one; there an
amount outside the range of the target type is undefined behaviour. -/
theorem C23_truncates_once_float_partial (E : Env) (β : String → ℝ) (hβ : Sizes β) (t : QTy) (q r : Qty)
    (d : IntTy) (g1 : q.ty.Good E) (g2 : t.Good E) (hco : Coherent β q.ty.dim t.dim)
    (hs : q.ty.rep.floating = true) (hd : t.rep = .int d) (hq : q.num.Typed q.ty.rep) (hfl : FlExact E.fl)
    (h : quantityCast E t q = .ok r) :
    r.ty = t ∧ d.In (truncR (q.amount β / t.size β)) ∧ r.num = .i (truncR (q.amount β / t.size β)) := by
  have hsz := g2.size_pos hβ
  obtain ⟨heq, c, x, hc, hx, rfl⟩ := quantityCast_eq_ok h
  obtain ⟨w, p, e⟩ := castRatio_size hβ g1 g2 (C17_symmetric _ _ heq) hco hc
  obtain ⟨k1, k2⟩ := (castNum_flt hfl w (Or.inl hs) hq hx).2 d hd
  have key : truncQ (q.num.q * c.val) = truncR (q.amount β / t.size β) := by
    have : q.amount β / t.size β = ((q.num.q * c.val : ℚ) : ℝ) := by
      push_cast; rw [e, Qty.amount_eq]; ring
    rw [this]
    unfold truncR truncQ
    simp only [Rat.floor_cast, Rat.ceil_cast, Rat.cast_nonneg]
  rw [key] at k1 k2
  exact ⟨rfl, k2, k1⟩

example : quantityCast exEnv (exKms (.int .i64)) ⟨exMetres (.flt .f64), .f (-(3999 + 1 / 2))⟩ =
    .ok ⟨exKms (.int .i64), .i (-3)⟩ := by decide +kernel

/-! ### C24 -/

/-- C24: casting to a finer unit and back is the identity when the intermediate number fits. -/
theorem C24_finer_and_back_partial (E : Env) (β : String → ℝ) (hβ : Sizes β) (t : QTy) (q r q' : Qty)
    (s d : IntTy) (k v : ℤ) (g1 : q.ty.Good E) (g2 : t.Good E) (hco : Coherent β q.ty.dim t.dim)
    (hs : q.ty.rep = .int s) (hd : t.rep = .int d) (hq : q.num = .i v) (hv : s.In v)
    (hg : CastGuard E t q) (hg' : CastGuard E q.ty r) (hk : q.ty.size β = k * t.size β) (hfit : d.In (v * k))
    (h : quantityCast E t q = .ok r) (h' : quantityCast E q.ty r = .ok q') : q' = q := by
  have hsz := g2.size_pos hβ
  have hsq := g1.size_pos hβ
  have ha : q.amount β = ((v * k : ℤ) : ℝ) * t.size β := by
    rw [Qty.amount_eq, hq, hk]; simp [Num.q]; ring
  have hr := quantityCast_int hβ g1 g2 hco hs hd hq hv hg h
  rw [ha, mul_div_assoc, div_self hsz.ne', mul_one, truncR_int, IntTy.wrap_of_in hfit] at hr
  subst hr
  have hr' := quantityCast_int (v := v * k) hβ g2 g1 (fun he u => (hco he.symm u).symm) hd hs rfl hfit hg' h'
  have ha' : (⟨t, .i (v * k)⟩ : Qty).amount β = q.amount β := by rw [ha]; simp [Qty.amount_eq, Num.q]
  rw [ha', Qty.amount_eq, mul_div_assoc, div_self hsq.ne', mul_one, hq] at hr'
  simp only [Num.q, Rat.cast_intCast] at hr'
  rw [truncR_int, IntTy.wrap_of_in hv] at hr'
  rw [hr']
  cases q; simp_all

example : quantityCast exEnv (exCms (.int .i64)) ⟨exKms (.int .i32), .i (-7)⟩ = .ok ⟨exCms (.int .i64), .i (-700000)⟩ ∧
    quantityCast exEnv (exKms (.int .i32)) ⟨exCms (.int .i64), .i (-700000)⟩ = .ok ⟨exKms (.int .i32), .i (-7)⟩ := by
  decide +kernel

example (β : String → ℝ) : (exKms (.int .i32)).size β = (100000 : ℤ) * (exCms (.int .i64)).size β := by
  unfold QTy.size exKms exCms
  rw [Dim.size_base exL_good.unit, Dim.size_base exLcgs_wf]
  norm_num [exKm, exL, exLcgs, Ratio.val]; ring

/-- C24: casting to a coarser unit and back gives the multiple of the coarser unit that is largest in
magnitude without exceeding the original. -/
theorem C24_coarser_and_back_partial (E : Env) (β : String → ℝ) (hβ : Sizes β) (t : QTy) (q r q' : Qty)
    (s d : IntTy) (k v : ℤ) (g1 : q.ty.Good E) (g2 : t.Good E) (hco : Coherent β q.ty.dim t.dim)
    (hs : q.ty.rep = .int s) (hd : t.rep = .int d) (hq : q.num = .i v) (hv : s.In v)
    (hg : CastGuard E t q) (hg' : CastGuard E q.ty r) (hk : t.size β = k * q.ty.size β) (hfit : d.In (v.tdiv k))
    (h : quantityCast E t q = .ok r) (h' : quantityCast E q.ty r = .ok q') :
    ∃ w : ℤ, q' = ⟨q.ty, .i w⟩ ∧ k ∣ w ∧ |w| ≤ |v| ∧ |v| < |w| + k ∧ 0 ≤ w * v := by
  have hsz := g2.size_pos hβ
  have hsq := g1.size_pos hβ
  have hk0 : 0 < k := by
    have : (0 : ℝ) < k := by
      by_contra hn
      have := mul_nonpos_of_nonpos_of_nonneg (not_lt.mp hn) hsq.le
      linarith
    exact_mod_cast this
  have hkR : (k : ℝ) ≠ 0 := by exact_mod_cast hk0.ne'
  have hr := quantityCast_int hβ g1 g2 hco hs hd hq hv hg h
  have e1 : q.amount β / t.size β = (v : ℝ) / k := by
    rw [Qty.amount_eq, hk, hq]; simp only [Num.q, Rat.cast_intCast]
    field_simp
  rw [e1, truncR_div _ _ hk0, IntTy.wrap_of_in hfit] at hr
  subst hr
  have hr' := quantityCast_int (v := v.tdiv k) hβ g2 g1 (fun he u => (hco he.symm u).symm) hd hs rfl hfit hg' h'
  have e2 : (⟨t, .i (v.tdiv k)⟩ : Qty).amount β / q.ty.size β = ((v.tdiv k * k : ℤ) : ℝ) := by
    rw [Qty.amount_eq]; simp only [Num.q, Rat.cast_intCast]
    rw [hk]; push_cast; field_simp
  rw [e2, truncR_int] at hr'
  have hmod := Int.tmod_add_mul_tdiv v k
  have hw : v.tdiv k * k = v - v.tmod k := by linarith [mul_comm k (v.tdiv k)]
  have habs : |v.tmod k| < k := by
    rw [Int.abs_eq_natAbs, Int.natAbs_tmod]
    have := Nat.mod_lt v.natAbs (show 0 < k.natAbs by omega)
    omega
  have hsign : (0 ≤ v → 0 ≤ v.tmod k ∧ v.tmod k ≤ v) ∧ (v ≤ 0 → v.tmod k ≤ 0 ∧ v ≤ v.tmod k) := by
    have pos : ∀ v : ℤ, 0 ≤ v → 0 ≤ v.tmod k ∧ v.tmod k ≤ v := by
      intro v h
      refine ⟨Int.tmod_nonneg _ h, ?_⟩
      rw [Int.tmod_eq_emod_of_nonneg h]
      have := Int.emod_add_mul_ediv v k
      have h2 := Int.ediv_nonneg h hk0.le
      nlinarith
    refine ⟨pos v, fun h => ?_⟩
    have := pos (-v) (by omega)
    rw [Int.neg_tmod] at this
    omega
  have hinw : s.In (v.tdiv k * k) := by
    have hlo : s.lo ≤ 0 := by cases s <;> decide
    have hhi : 0 ≤ s.hi := by cases s <;> decide
    unfold IntTy.In at hv ⊢
    rw [hw]
    rcases le_total 0 v with h0 | h0
    · have := hsign.1 h0; omega
    · have := hsign.2 h0; omega
  rw [IntTy.wrap_of_in hinw] at hr'
  refine ⟨_, hr', Dvd.intro_left _ rfl, ?_, ?_, ?_⟩
  · rw [hw]
    rcases le_total 0 v with h0 | h0
    · have := hsign.1 h0; rw [abs_of_nonneg h0, abs_of_nonneg (by omega)]; omega
    · have := hsign.2 h0; rw [abs_of_nonpos h0, abs_of_nonpos (by omega)]; omega
  · rw [hw]
    rcases le_total 0 v with h0 | h0
    · have := hsign.1 h0; rw [abs_of_nonneg h0, abs_of_nonneg (by omega)]; rw [abs_lt] at habs; omega
    · have := hsign.2 h0; rw [abs_of_nonpos h0, abs_of_nonpos (by omega)]; rw [abs_lt] at habs; omega
  · rw [hw]
    rcases le_total 0 v with h0 | h0
    · have := hsign.1 h0; exact mul_nonneg (by omega) h0
    · have := hsign.2 h0; exact mul_nonneg_of_nonpos_of_nonpos (by omega) h0

example : quantityCast exEnv (exKms (.int .i32)) ⟨exCms (.int .i64), .i (-1999999)⟩ = .ok ⟨exKms (.int .i32), .i (-19)⟩ ∧
    quantityCast exEnv (exCms (.int .i64)) ⟨exKms (.int .i32), .i (-19)⟩ = .ok ⟨exCms (.int .i64), .i (-1900000)⟩ := by
  decide +kernel

/-! ### C31, C32 for values -/

/-- C31: both operands convert to the common quantity type, without loss when it can hold them.  Partial:
see `C31_common_unit_exact_partial`. -/
theorem C31_operands_convert_partial (E : Env) (hE : E.OK) (β : String → ℝ) (hβ : Sizes β) (a b x y : Qty)
    (t : QTy) (rep : Rep) (g1 : a.ty.Good E) (g2 : b.ty.Good E) (hr : Related β a.ty b.ty)
    (ta : a.num.Typed a.ty.rep) (tb : b.num.Typed b.ty.rep) (ht : commonQty E a.ty b.ty rep = .ok t)
    (hfl : rep.floating = true → FlExact E.fl) (ga : CastGuard E t a) (gb : CastGuard E t b)
    (fa : Holds β t (a.amount β)) (fb : Holds β t (b.amount β))
    (hx : convertQty E t a = .ok x) (hy : convertQty E t b = .ok y) :
    x.ty = t ∧ y.ty = t ∧ x.amount β = a.amount β ∧ y.amount β = b.amount β := by
  obtain ⟨gt, hrep, hdim, hcs, ca, cb⟩ := commonQty_sound hE hβ g1 g2 hr ht
  have hfl' : t.rep.floating = true → FlExact E.fl := by rw [hrep]; exact hfl
  obtain ⟨ex, -, ax⟩ := convertQty_exact hβ g1 gt ca ta hfl' ga fa hx
  obtain ⟨ey, -, ay⟩ := convertQty_exact hβ g2 gt cb tb hfl' gb fb hy
  exact ⟨ex, ey, ax, ay⟩

example : commonQty exEnv (exKms (.int .i32)) (exCms (.int .i64)) (.int .i64) =
      .ok ⟨.base exL, ⟨.scaled ⟨1, 1, -2⟩ "metre", ⟨1, 1, -2⟩, "metre", [], false, "", none⟩, .int .i64⟩ := by
  decide +kernel

theorem exKm_cm_related (β : String → ℝ) (r1 r2 : Rep) : Related β (exKms r1) (exCms r2) :=
  ⟨by show dimEquivalent (.base exL) (.base exLcgs) = .ok true; decide +kernel, exL_cgs_coherent β,
    fun h => absurd rfl h⟩

/-- The number a cast produces is determined by the amount. -/
theorem quantityCast_num {E : Env} {β : String → ℝ} (hβ : Sizes β) {t : QTy} {q r : Qty}
    (g1 : q.ty.Good E) (g2 : t.Good E) (hco : Coherent β q.ty.dim t.dim) (hq : q.num.Typed q.ty.rep)
    (hfl : q.ty.rep.floating = true ∨ t.rep.floating = true → FlExact E.fl) (hg : CastGuard E t q)
    (h : quantityCast E t q = .ok r) :
    r.ty = t ∧ (t.rep.floating = true → ∃ x : ℚ, r.num = .f x ∧ (x : ℝ) = q.amount β / t.size β) ∧
      ∀ d, t.rep = .int d → r.num = .i (d.wrap (truncR (q.amount β / t.size β))) := by
  have hsz := g2.size_pos hβ
  refine ⟨by obtain ⟨-, _, _, -, -, rfl⟩ := quantityCast_eq_ok h; rfl, ?_, ?_⟩
  · intro ht
    obtain ⟨heq, c, x, hc, hx, rfl⟩ := quantityCast_eq_ok h
    obtain ⟨w, p, e⟩ := castRatio_size hβ g1 g2 (C17_symmetric _ _ heq) hco hc
    refine ⟨_, (castNum_flt (hfl (Or.inr ht)) w (Or.inr ht) hq hx).1 ht, ?_⟩
    push_cast; rw [e, Qty.amount_eq]; ring
  · intro d hd
    cases hs : q.ty.rep with
    | int s => exact (C23_truncates_once_partial E β hβ t q r s d g1 g2 hco hs hd hq hg h).2.1
    | flt f =>
      have := C23_truncates_once_float_partial E β hβ t q r d g1 g2 hco (by rw [hs]; rfl) hd hq
        (hfl (Or.inl (by rw [hs]; rfl))) h
      rw [IntTy.wrap_of_in this.2.1]; exact this.2.2

/-- C32: converting from A to B and then to C gives the same value as converting directly, whenever B can
hold the amount. -/
theorem C32_values_compose_partial (E : Env) (β : String → ℝ) (hβ : Sizes β) (t1 t2 : QTy) (q r r2 r2' : Qty)
    (g : q.ty.Good E) (g1 : t1.Good E) (g2 : t2.Good E) (c1 : Coherent β q.ty.dim t1.dim)
    (c2 : Coherent β t1.dim t2.dim) (c3 : Coherent β q.ty.dim t2.dim) (hq : q.num.Typed q.ty.rep)
    (hfl : FlExact E.fl ∨ (q.ty.rep.floating = false ∧ t1.rep.floating = false ∧ t2.rep.floating = false))
    (k1 : CastGuard E t1 q) (k2 : CastGuard E t2 r) (k3 : CastGuard E t2 q) (hh : Holds β t1 (q.amount β))
    (h1 : quantityCast E t1 q = .ok r) (h2 : quantityCast E t2 r = .ok r2) (h3 : quantityCast E t2 q = .ok r2') :
    r2 = r2' := by
  have f1 : q.ty.rep.floating = true ∨ t1.rep.floating = true → FlExact E.fl := by
    rintro h; rcases hfl with hfl | ⟨a, b, c⟩
    · exact hfl
    · rw [a, b] at h; simp at h
  have f2 : t1.rep.floating = true ∨ t2.rep.floating = true → FlExact E.fl := by
    rintro h; rcases hfl with hfl | ⟨a, b, c⟩
    · exact hfl
    · rw [b, c] at h; simp at h
  have f3 : q.ty.rep.floating = true ∨ t2.rep.floating = true → FlExact E.fl := by
    rintro h; rcases hfl with hfl | ⟨a, b, c⟩
    · exact hfl
    · rw [a, c] at h; simp at h
  obtain ⟨e1, ty1, a1⟩ := quantityCast_exact hβ g g1 c1 hq f1 k1 hh h1
  obtain ⟨e2, p2, n2⟩ := quantityCast_num hβ (by rw [e1]; exact g1) g2 (by rw [e1]; exact c2)
    (by rw [e1]; exact ty1) (by rw [e1]; exact f2) k2 h2
  obtain ⟨e3, p3, n3⟩ := quantityCast_num hβ g g2 c3 hq f3 k3 h3
  cases r2 with | mk T N =>
  cases r2' with | mk T' N' =>
  simp only at e2 e3 p2 p3 n2 n3
  subst e2
  subst e3
  congr 1
  cases ht : Qty.ty (⟨T', N'⟩ : Qty) |>.rep with
  | int d => rw [n2 d ht, n3 d ht, a1]
  | flt f =>
    obtain ⟨x, hx, hx'⟩ := p2 (by rw [ht]; rfl)
    obtain ⟨y, hy, hy'⟩ := p3 (by rw [ht]; rfl)
    rw [hx, hy]
    congr 1
    rw [a1, ← hy'] at hx'
    exact_mod_cast hx'

example : quantityCast exEnv (exCms (.int .i64)) ⟨exKms (.int .i32), .i (-7)⟩ = .ok ⟨exCms (.int .i64), .i (-700000)⟩ ∧
    quantityCast exEnv (exMetres (.int .i64)) ⟨exCms (.int .i64), .i (-700000)⟩ = .ok ⟨exMetres (.int .i64), .i (-7000)⟩ ∧
    quantityCast exEnv (exMetres (.int .i64)) ⟨exKms (.int .i32), .i (-7)⟩ = .ok ⟨exMetres (.int .i64), .i (-7000)⟩ := by
  decide +kernel

end Verif
