import Verif.Reference
import Verif.Props.PointProps
import Verif.Props.RatioProps

/-!
# Properties of references, static functions and `std::chrono` conversions (C42, C43, C55)
-/

namespace Verif

open Ratio

/-! ## C42 -/

/-- C42: `number * reference` is accepted for every number and reference, keeps the number and its type, and
denotes the number times the unit of the reference. -/
theorem C42_number_times_reference (E : Env) (β : String → ℝ) (R : Ref) (r : Rep) (v : Num) :
    ∃ q, numTimesRef E r v R = .ok q ∧ q.ty.dim = R.dim ∧ q.ty.unit = R.unit ∧ q.ty.rep = r ∧ q.num = v ∧
      q.amount β = (v.q : ℝ) * R.size β := by
  refine ⟨⟨⟨R.dim, R.unit, r⟩, v⟩, ?_, rfl, rfl, rfl, rfl, rfl⟩
  unfold numTimesRef mkQty
  rw [if_pos (by cases r.floating <;> simp), convNum_self]; rfl

example : numTimesRef exEnv (.int .i32) (.i 7) ⟨.base exL, exKm⟩ = .ok ⟨exKms (.int .i32), .i 7⟩ := by decide +kernel

/-- A reference that can be named. -/
structure Ref.Good (R : Ref) : Prop where
  dim : R.dim.Good
  unit : R.unit.WF

theorem mulRef_eq_ok {E : Env} {a b R : Ref} : mulRef E a b = .ok R ↔ refMultiply E a.dim a.unit b.dim b.unit = .ok (R.dim, R.unit) := by
  unfold mulRef
  simp only [bind_ok, Prod.exists, Except.ok.injEq]
  constructor
  · rintro ⟨d, u, h, rfl⟩; exact h
  · intro h; exact ⟨_, _, h, rfl⟩

theorem divRef_eq_ok {E : Env} {a b R : Ref} : divRef E a b = .ok R ↔ refDivide E a.dim a.unit b.dim b.unit = .ok (R.dim, R.unit) := by
  unfold divRef
  simp only [bind_ok, Prod.exists, Except.ok.injEq]
  constructor
  · rintro ⟨d, u, h, rfl⟩; exact h
  · intro h; exact ⟨_, _, h, rfl⟩

theorem refMultiply_dim {E : Env} {d1 d2 d : Dim} {u1 u2 u : MUnit} (h : refMultiply E d1 u1 d2 u2 = .ok (d, u)) :
    dimMultiply E.dims d1 d2 = .ok d := by
  unfold refMultiply at h
  simp only [bind_ok, Except.ok.injEq, Prod.mk.injEq] at h
  obtain ⟨d', hd, a, ha, b, hb, x, hx, y, hy, u', hu, rfl, rfl⟩ := h
  exact hd

theorem refDivide_dim {E : Env} {d1 d2 d : Dim} {u1 u2 u : MUnit} (h : refDivide E d1 u1 d2 u2 = .ok (d, u)) :
    dimDivide E.dims d1 d2 = .ok d := by
  unfold refDivide at h
  simp only [bind_ok, Except.ok.injEq, Prod.mk.injEq] at h
  obtain ⟨d', hd, a, ha, b, hb, x, hx, y, hy, u', hu, rfl, rfl⟩ := h
  exact hd

/-- C42: the product of references denotes the product of the units, of the product of the dimensions. -/
theorem C42_product (E : Env) (hE : E.OK) (β : String → ℝ) (hβ : Sizes β) (a b R : Ref) (ga : a.Good) (gb : b.Good)
    (gd : R.dim.Good) (h : mulRef E a b = .ok R) :
    R.size β = a.size β * b.size β ∧ (∀ d, R.dim.exp d = a.dim.exp d + b.dim.exp d) ∧ R.Good ∧
      R.unit.ref = R.dim.unit.ref := by
  rw [mulRef_eq_ok] at h
  obtain ⟨k1, k2, k3⟩ := refMultiply_sound hE hβ ga.dim gb.dim gd ga.unit gb.unit h
  exact ⟨k3, fun d => dimMultiply_exp hE.dims (refMultiply_dim h) d, ⟨gd, k1⟩, k2⟩

/-- C42: the quotient of references denotes the quotient of the units, of the quotient of the dimensions. -/
theorem C42_quotient (E : Env) (hE : E.OK) (β : String → ℝ) (hβ : Sizes β) (a b R : Ref) (ga : a.Good) (gb : b.Good)
    (gd : R.dim.Good) (h : divRef E a b = .ok R) :
    R.size β = a.size β / b.size β ∧ (∀ d, R.dim.exp d = a.dim.exp d - b.dim.exp d) ∧ R.Good ∧
      R.unit.ref = R.dim.unit.ref := by
  rw [divRef_eq_ok] at h
  obtain ⟨k1, k2, k3⟩ := refDivide_sound hE hβ ga.dim gb.dim gd ga.unit gb.unit h
  exact ⟨k3, fun d => dimDivide_exp hE.dims (refDivide_dim h) d, ⟨gd, k1⟩, k2⟩

/-- C42: multiplying and then dividing by a reference gives a reference of the same size. -/
theorem C42_mul_div_cancel (E : Env) (hE : E.OK) (β : String → ℝ) (hβ : Sizes β) (a b m R : Ref) (ga : a.Good) (gb : b.Good)
    (gm : m.dim.Good) (gd : R.dim.Good) (h : mulRef E a b = .ok m) (h' : divRef E m b = .ok R) :
    R.size β = a.size β ∧ ∀ d, R.dim.exp d = a.dim.exp d := by
  obtain ⟨m1, m2, m3, -⟩ := C42_product E hE β hβ a b m ga gb gm h
  obtain ⟨r1, r2, -, -⟩ := C42_quotient E hE β hβ m b R m3 gb gd h'
  have hb : b.size β ≠ 0 := (Dim.size_pos hβ gb.dim gb.unit).ne'
  exact ⟨by rw [r1, m1, mul_div_assoc, div_self hb, mul_one], fun d => by rw [r2, m2, add_sub_cancel_right]⟩

/-- C42: the product of `v * a` and `w * b` is `(v * w) * (a * b)`, and the quotient is `(v / w) * (a / b)`. -/
theorem C42_quantities (E : Env) (a b : Ref) (ra rb : Rep) (v w : Num) (x y q : Qty)
    (hx : numTimesRef E ra v a = .ok x) (hy : numTimesRef E rb w b = .ok y) :
    (mulQty E x y = .ok q ↔ ∃ R z, mulRef E a b = .ok R ∧ numOp E.fl .mul ra rb v w = .ok z ∧
      numTimesRef E (ra.arith rb) z R = .ok q) ∧
    (divQty E x y = .ok q ↔ ∃ R z, divRef E a b = .ok R ∧ numOp E.fl .div ra rb v w = .ok z ∧
      numTimesRef E (ra.arith rb) z R = .ok q) := by
  have num : ∀ r u (R : Ref), numTimesRef E r u R = .ok ⟨⟨R.dim, R.unit, r⟩, u⟩ := by
    intro r u R
    unfold numTimesRef mkQty
    rw [if_pos (by cases r.floating <;> simp), convNum_self]; rfl
  rw [num, Except.ok.injEq] at hx hy
  subst hx hy
  constructor
  · unfold mulQty
    simp only [bind_ok, Prod.exists, Except.ok.injEq, num, mulRef_eq_ok]
    constructor
    · rintro ⟨d, u, h1, z, h2, rfl⟩; exact ⟨⟨d, u⟩, z, h1, h2, rfl⟩
    · rintro ⟨R, z, h1, h2, rfl⟩; exact ⟨R.dim, R.unit, h1, z, h2, rfl⟩
  · unfold divQty
    simp only [bind_ok, Prod.exists, Except.ok.injEq, num, divRef_eq_ok]
    constructor
    · rintro ⟨d, u, h1, z, h2, rfl⟩; exact ⟨⟨d, u⟩, z, h1, h2, rfl⟩
    · rintro ⟨R, z, h1, h2, rfl⟩; exact ⟨R.dim, R.unit, h1, z, h2, rfl⟩

/-- C42: products of references commute (as types), for dimensions in normal form. -/
theorem C42_comm_partial (E : Env) (hE : E.OK) (P : BaseDim → Prop) (hP : Separated P) (a b R : Ref) (ga : a.Good) (gb : b.Good)
    (na : a.dim.Normal E.dims P) (nb : b.dim.Normal E.dims P) (h : mulRef E a b = .ok R) : mulRef E b a = .ok R := by
  rw [mulRef_eq_ok] at h ⊢
  unfold refMultiply at h ⊢
  rw [C14_multiply_comm_partial E.dims hE.dims P hP b.dim a.dim nb na]
  simp only [bind_ok, Except.ok.injEq, Prod.mk.injEq] at h ⊢
  obtain ⟨d', hd, x1, h1, x2, h2, x, hx, y, hy, u', hu, e1, e2⟩ := h
  obtain ⟨w1, -, -⟩ := div_sound ga.unit.ratio ga.dim.unit.ratio h1
  obtain ⟨w2, -, -⟩ := div_sound gb.unit.ratio gb.dim.unit.ratio h2
  exact ⟨d', hd, x2, h2, x1, h1, x, (mul_comm_ok w2 w1).mpr hx, y, hy, u', hu, e1, e2⟩

/-- C42: references that compare equal build equal quantities from every number. -/
theorem C42_equal_references (a b : Ref) (h : eqRef a b = true) (E : Env) (r : Rep) (v : Num) :
    numTimesRef E r v a = numTimesRef E r v b := by
  have : a = b := of_decide_eq_true h
  rw [this]

/-- Kilometres per second and their product with seconds; a cubic kilometre from an area is not registered. -/
example :
    divRef exEnv ⟨.base exL, exKm⟩ ⟨.base exT, exT.unit⟩ =
      .ok ⟨.named exSpeed, ⟨.scaled ⟨1, 1, 3⟩ "unknown_coherent_unit", ⟨1, 1, 3⟩, "unknown_coherent_unit", [], false, "", none⟩⟩ ∧
    mulRef exEnv ⟨.named exSpeed, ⟨.scaled ⟨1, 1, 3⟩ "unknown_coherent_unit", ⟨1, 1, 3⟩, "unknown_coherent_unit", [], false, "", none⟩⟩
      ⟨.base exT, exT.unit⟩ = .ok ⟨.base exL, ⟨.scaled ⟨1, 1, 3⟩ "metre", ⟨1, 1, 3⟩, "metre", [], false, "", none⟩⟩ ∧
    mulRef exEnv ⟨.base exL, exKm⟩ ⟨.base exT, exT.unit⟩ = mulRef exEnv ⟨.base exT, exT.unit⟩ ⟨.base exL, exKm⟩ ∧
    (∃ R, mulRef exEnv ⟨.base exL, exKm⟩ ⟨.base exT, exT.unit⟩ = .ok R) ∧
    eqRef ⟨.base exL, exKm⟩ ⟨.base exL, exMetre⟩ = false := by
  refine ⟨by decide +kernel, by decide +kernel, by decide +kernel, ⟨⟨.unknown [⟨exL, 1, 1⟩, ⟨exT, 1, 1⟩],
    ⟨.scaled ⟨1, 1, 3⟩ "unknown_coherent_unit", ⟨1, 1, 3⟩, "unknown_coherent_unit", [], false, "", none⟩⟩, ?_⟩, by decide +kernel⟩
  decide +kernel

example : (⟨.base exL, exKm⟩ : Ref).Good ∧ (⟨.base exT, exT.unit⟩ : Ref).Good :=
  ⟨⟨exL_good, exKm_wf⟩, ⟨exT_good, exT_good.unit⟩⟩

/-! ## C43 -/

theorem siTime_good : (Dim.base siTime).Good := ⟨⟨_, rfl, by
  intro e he; simp only [List.mem_singleton] at he; subst he; exact ⟨one_wf, by decide⟩⟩, ⟨one_wf, by decide⟩⟩

/-- The exponent of a ratio made of two 64-bit numbers is small. -/
theorem make_exp_small {n d : Int} {r : Ratio} (hn : 0 < n ∧ n ≤ intMax) (hd : 0 < d ∧ d ≤ intMax)
    (h : make n d 0 = .ok r) : -40 ≤ r.exp ∧ r.exp ≤ 40 := by
  have h1 : I64 n := by unfold I64 intMin; omega
  have h2 : I64 d := by unfold I64 intMin; omega
  obtain ⟨w, v⟩ := make_sound h1 h2 (by decide) h
  have hdq : (0 : ℚ) < d := by exact_mod_cast hd.1
  have hnq : (0 : ℚ) < n := by exact_mod_cast hn.1
  have hv : 0 < r.val := by rw [v, zpow_zero, mul_one]; positivity
  have hrn : 0 < r.num := w.val_pos.mp hv
  have hM : (intMax : ℚ) < 10 ^ (19 : ℕ) := by unfold intMax; norm_num
  have c1 : (1 : ℚ) ≤ r.num := by exact_mod_cast hrn
  have c2 : (r.num : ℚ) ≤ intMax := by exact_mod_cast w.num_range.1.2
  have c3 : (1 : ℚ) ≤ r.den := by exact_mod_cast w.den_pos
  have c4 : (r.den : ℚ) ≤ intMax := by exact_mod_cast w.den_range
  have c5 : (1 : ℚ) ≤ n := by exact_mod_cast hn.1
  have c6 : (n : ℚ) ≤ intMax := by exact_mod_cast hn.2
  have c7 : (1 : ℚ) ≤ d := by exact_mod_cast hd.1
  have c8 : (d : ℚ) ≤ intMax := by exact_mod_cast hd.2
  have hM1 : (0 : ℚ) < intMax := by unfold intMax; norm_num
  rw [zpow_zero, mul_one] at v
  unfold Ratio.val at v
  have e0 : (r.num : ℚ) * d * (10 : ℚ) ^ r.exp = n * r.den := by
    field_simp at v; linarith
  constructor
  · by_contra hlt
    push Not at hlt
    have hz : (10 : ℚ) ^ r.exp ≤ (10 : ℚ) ^ (-41 : ℤ) := zpow_le_zpow_right₀ (by norm_num) (by omega)
    have hz0 : (0 : ℚ) < (10 : ℚ) ^ r.exp := by positivity
    have a1 : (r.num : ℚ) * d ≤ intMax * intMax := mul_le_mul c2 c8 (by linarith) hM1.le
    have a2 : (1 : ℚ) ≤ n * r.den := by nlinarith
    have a3 : (r.num : ℚ) * d * (10 : ℚ) ^ r.exp ≤ intMax * intMax * (10 : ℚ) ^ (-41 : ℤ) :=
      mul_le_mul a1 hz hz0.le (by positivity)
    have a4 : (intMax : ℚ) * intMax * (10 : ℚ) ^ (-41 : ℤ) < 1 := by unfold intMax; norm_num
    linarith
  · by_contra hlt
    push Not at hlt
    have hz : (10 : ℚ) ^ (41 : ℤ) ≤ (10 : ℚ) ^ r.exp := zpow_le_zpow_right₀ (by norm_num) (by omega)
    have a1 : (1 : ℚ) ≤ r.num * d := by nlinarith
    have a2 : (n : ℚ) * r.den ≤ intMax * intMax := mul_le_mul c6 c4 (by linarith) hM1.le
    have a3 : (1 : ℚ) * (10 : ℚ) ^ (41 : ℤ) ≤ (r.num : ℚ) * d * (10 : ℚ) ^ r.exp :=
      mul_le_mul a1 hz (by positivity) (by linarith)
    have a4 : (intMax : ℚ) * intMax < (10 : ℚ) ^ (41 : ℤ) := by unfold intMax; norm_num
    linarith

/-- A duration whose period is a positive `std::ratio` and whose count has its type. -/
structure Duration.OK (d : Duration) : Prop where
  num : 0 < d.num ∧ d.num ≤ intMax
  den : 0 < d.den ∧ d.den ≤ intMax
  count : d.count.Typed d.rep

/-- The number of seconds a duration stands for, by the definition of `std::chrono::duration`. -/
def Duration.seconds (d : Duration) : ℚ := d.count.q * (d.num / d.den)

theorem Duration.unit_ok {E : Env} (hE : E.OK) {d : Duration} (hd : d.OK) :
    ∃ u r, d.unit E = .ok u ∧ make d.num d.den 0 = .ok r ∧ u.ratio = r ∧ u.WF ∧ u.ref = "units::isq::si::second" ∧
      u.ratio.val = (d.num : ℚ) / d.den ∧ -40 ≤ r.exp ∧ r.exp ≤ 40 := by
  have h1 : I64 d.num := by have := hd.num; unfold I64 intMin; omega
  have h2 : I64 d.den := by have := hd.den; unfold I64 intMin; omega
  have h3 : d.den ≠ 0 := by have := hd.den; omega
  obtain ⟨r, hr⟩ := (C01_construction_acceptance d.num d.den 0 h1 h2).2 h3
    (by have := hd.num; unfold intMin; omega) (by have := hd.den; unfold intMin; omega) (by decide) (by decide)
  obtain ⟨w, v⟩ := make_sound h1 h2 (by decide) hr
  rw [zpow_zero, mul_one] at v
  have hp : 0 < r.val := by
    rw [v]
    have : (0 : ℚ) < d.num := by exact_mod_cast hd.num.1
    have : (0 : ℚ) < d.den := by exact_mod_cast hd.den.1
    positivity
  have hu : ∃ u, downcastUnit E.units (.base siTime) r = .ok u := by
    unfold downcastUnit
    rw [(scaledUnit_eq_ok (s := ⟨.scaled r (Dim.base siTime).unit.ref, r, (Dim.base siTime).unit.ref, [], false, "", none⟩)).mpr
      ⟨⟨w.val_pos.mp hp, w.den_pos⟩, rfl⟩, ok_bind]
    cases E.units r (Dim.base siTime).unit.ref <;> exact ⟨_, rfl⟩
  obtain ⟨u, hu⟩ := hu
  obtain ⟨k1, k2, -⟩ := downcastUnit_eq_ok hE.units hu
  have := make_exp_small hd.num hd.den hr
  refine ⟨u, r, ?_, hr, k1, downcastUnit_wf hE.units w hu, k2, by rw [k1, v], this.1, this.2⟩
  unfold Duration.unit; rw [hr, ok_bind]; exact hu

theorem Duration.like_ok {E : Env} (hE : E.OK) {d : Duration} (hd : d.OK) :
    ∃ l, d.like E = .ok l ∧ l.dim = .base siTime ∧ l.rep = d.rep ∧ l.Good E ∧ safeCastable E l l = .ok true ∧
      (∀ β, l.size β = ((d.num : ℝ) / d.den) * β "units::isq::si::second") := by
  obtain ⟨u, r, hu, hr, er, w, href, v, b1, b2⟩ := d.unit_ok hE hd
  refine ⟨⟨.base siTime, u, d.rep⟩, ?_, rfl, rfl, ⟨siTime_good, w, href, base_rooted _ _⟩, ?_, fun β => ?_⟩
  · unfold Duration.like; rw [hu]; rfl
  · unfold safeCastable
    rw [show dimEquivalent (.base siTime) (.base siTime) = .ok true from C17_reflexive _, ok_bind, if_pos rfl]
    by_cases hf : d.rep.floating = true
    · rw [if_pos (show d.rep.floating = true from hf)]
    · rw [if_neg (show ¬ d.rep.floating = true from hf), if_neg (show ¬ d.rep.floating = true from hf)]
      have hdiv : Ratio.div u.ratio u.ratio = .ok Ratio.one :=
        C03_div_self _ w.ratio w.val_pos.ne' (by rw [er]; unfold intMax; omega)
      unfold harmonic
      simp only [quantityRatio, ok_bind, hdiv]
      decide +kernel
  · unfold QTy.size
    rw [Dim.size_base siTime_good.unit, v]
    push_cast
    rfl

/-- C43: every duration converts, by deduction, to a time quantity with the same representation and count and
the same number of seconds. -/
theorem C43_duration (E : Env) (hE : E.OK) (β : String → ℝ) (d : Duration) (hd : d.OK) :
    ∃ q, deduceDuration E d = .ok q ∧ q.Good E ∧ q.ty.dim = .base siTime ∧ q.ty.rep = d.rep ∧ q.num = d.count ∧
      q.amount β = (d.seconds : ℝ) * β "units::isq::si::second" := by
  obtain ⟨l, hl, l1, l2, l3, l4, l5⟩ := d.like_ok hE hd
  have hm : mkQty E l d.rep d.count = .ok ⟨l, d.count⟩ := by
    unfold mkQty
    rw [if_pos (by rw [l2]; cases d.rep.floating <;> simp), l2, convNum_self]; rfl
  refine ⟨⟨l, d.count⟩, ?_, ⟨l3, by rw [l2]; exact hd.count⟩, l1, l2, rfl, ?_⟩
  · unfold deduceDuration fromDuration
    simp only [hl, ok_bind, l4, if_true, hm, convertQty]
  · rw [Qty.amount_eq, l5]
    unfold Duration.seconds
    push_cast; ring

theorem fromDuration_eq_ok {E : Env} (hE : E.OK) {t : QTy} {d : Duration} {q : Qty} (hd : d.OK)
    (h : fromDuration E t d = .ok q) : ∃ l, deduceDuration E d = .ok ⟨l, d.count⟩ ∧ l.rep = d.rep ∧
      safeCastable E l t = .ok true ∧ convertQty E t ⟨l, d.count⟩ = .ok q := by
  obtain ⟨l, hl, l1, l2, l3, l4, l5⟩ := d.like_ok hE hd
  have hm : mkQty E l d.rep d.count = .ok ⟨l, d.count⟩ := by
    unfold mkQty
    rw [if_pos (by rw [l2]; cases d.rep.floating <;> simp), l2, convNum_self]; rfl
  refine ⟨l, ?_, l2, ?_⟩
  · unfold deduceDuration fromDuration
    simp only [hl, ok_bind, l4, if_true, hm, convertQty]
  · unfold fromDuration at h
    simp only [hl, ok_bind, hm, bind_ok] at h
    obtain ⟨b, hb, h⟩ := h
    cases b with
    | false => cases h
    | true => exact ⟨hb, h⟩

/-- C43: construction of a given time quantity from a duration keeps the number of seconds (when the type
holds it), and is exactly the conversion of the deduced quantity. -/
theorem C43_duration_convert (E : Env) (hE : E.OK) (β : String → ℝ) (hβ : Sizes β) (t : QTy) (d : Duration) (hd : d.OK) (q : Qty)
    (gt : t.Good E) (hco : Coherent β (.base siTime) t.dim) (hfl : t.rep.floating = true → FlExact E.fl)
    (hg : ∀ l, deduceDuration E d = .ok l → CastGuard E t l) (hh : Holds β t ((d.seconds : ℝ) * β "units::isq::si::second"))
    (h : fromDuration E t d = .ok q) :
    q.ty = t ∧ q.num.Typed t.rep ∧ q.amount β = (d.seconds : ℝ) * β "units::isq::si::second" ∧
      (t.rep.floating = false → d.rep.floating = false) := by
  obtain ⟨l, h1, h2, h3, h4⟩ := fromDuration_eq_ok hE hd h
  obtain ⟨q', k1, k2, k3, k4, k5, k6⟩ := C43_duration E hE β d hd
  rw [h1] at k1
  obtain rfl := Except.ok.inj k1
  obtain ⟨m1, m2, m3⟩ := convertQty_exact hβ k2.ty gt (by rw [k3]; exact hco) k2.num hfl (hg _ h1) (by rw [k6]; exact hh) h4
  refine ⟨m1, m2, by rw [m3, k6], fun hf => ?_⟩
  unfold safeCastable at h3
  simp only [bind_ok] at h3
  obtain ⟨b, -, h3⟩ := h3
  cases b with
  | false => cases h3
  | true =>
    rw [if_pos rfl, if_neg (by simp [hf])] at h3
    split at h3
    · cases h3
    · rename_i hn; rw [← h2]; simpa using hn

/-- C43: a time point converts, by deduction, to a point of the clock's origin as many seconds from it. -/
theorem C43_time_point (E : Env) (hE : E.OK) (R : Rebinds) (β : String → ℝ) (p : TimePoint) (hp : p.since.OK) :
    ∃ x, deduceTimePoint E R p = .ok x ∧ x.ty.origin = clockOrigin p.clock ∧ x.ty.rep = p.since.rep ∧ x.num = p.since.count ∧
      x.pos β = (p.since.seconds : ℝ) * β "units::isq::si::second" := by
  obtain ⟨q, k1, k2, k3, k4, k5, k6⟩ := C43_duration E hE β p.since hp
  have k1' := k1
  unfold deduceDuration at k1
  simp only [bind_ok] at k1
  obtain ⟨l, hl, k1⟩ := k1
  obtain ⟨l', e1, e2, e3, e4⟩ := fromDuration_eq_ok hE hp k1
  have hll := hl
  unfold Duration.like at hl
  simp only [bind_ok, Except.ok.injEq] at hl
  obtain ⟨u, hu, rfl⟩ := hl
  have eq : q.ty = (⟨.base siTime, u, p.since.rep⟩ : QTy) := by
    rcases convertQty_cases e4 with ⟨he, rfl⟩ | ⟨-, -, hc⟩
    · exact he
    · obtain ⟨-, c, n, -, -, rfl⟩ := quantityCast_eq_ok hc; rfl
  refine ⟨⟨⟨clockOrigin p.clock, u, p.since.rep⟩, q.num⟩, ?_, rfl, rfl, k5, ?_⟩
  · unfold deduceTimePoint fromTimePoint
    have : originEquivalent R (clockOrigin p.clock) (clockOrigin p.clock) = .ok true := by
      unfold originEquivalent; rw [if_pos rfl]
    simp only [hu, ok_bind, this, if_true]
    rw [show PTy.qty ⟨clockOrigin p.clock, u, p.since.rep⟩ = ⟨.base siTime, u, p.since.rep⟩ from rfl, k1]; rfl
  · rw [← k6]
    unfold Pt.pos Pt.rel Qty.amount
    rw [eq]; rfl

/-- C43: a time point converts to a given type of points only if the origins are equivalent; for an origin
over SI time that is the clock's own; and it keeps the number of seconds from the epoch. -/
theorem C43_time_point_convert (E : Env) (hE : E.OK) (R : Rebinds) (β : String → ℝ) (hβ : Sizes β) (t : PTy) (p : TimePoint)
    (hp : p.since.OK) (x : Pt) (gt : t.qty.Good E) (hco : Coherent β (.base siTime) t.origin.dim)
    (hfl : t.rep.floating = true → FlExact E.fl) (hg : ∀ l, deduceDuration E p.since = .ok l → CastGuard E t.qty l)
    (hh : Holds β t.qty ((p.since.seconds : ℝ) * β "units::isq::si::second")) (h : fromTimePoint E R t p = .ok x) :
    x.ty = t ∧ originEquivalent R t.origin (clockOrigin p.clock) = .ok true ∧
      (t.origin.dim = .base siTime → t.origin = clockOrigin p.clock) ∧ x.pos β = (p.since.seconds : ℝ) * β "units::isq::si::second" := by
  unfold fromTimePoint at h
  simp only [bind_ok] at h
  obtain ⟨b, hb, h⟩ := h
  cases b with
  | false => cases h
  | true =>
    simp only [if_true, bind_ok, Except.ok.injEq] at h
    obtain ⟨q, hq, rfl⟩ := h
    obtain ⟨m1, m2, m3, -⟩ := C43_duration_convert E hE β hβ t.qty p.since hp q gt hco hfl hg hh hq
    refine ⟨rfl, hb, fun hd => (C37_equivalent_origins R _ _ hb).1 hd, ?_⟩
    rw [← m3]
    unfold Pt.pos Pt.rel Qty.amount
    rw [m1]

/-- Ninety minutes, thirds of a second, and frames of 1001/30000 s; a system clock and a steady clock. -/
example :
    deduceDuration exEnv ⟨.int .i64, 60, 1, .i 90⟩ =
      .ok ⟨⟨.base siTime, ⟨.scaled ⟨6, 1, 1⟩ "units::isq::si::second", ⟨6, 1, 1⟩, "units::isq::si::second", [], false, "", none⟩, .int .i64⟩, .i 90⟩ ∧
    deduceDuration exEnv ⟨.int .i32, 1001, 30000, .i (-7)⟩ =
      .ok ⟨⟨.base siTime, ⟨.scaled ⟨1001, 3, -4⟩ "units::isq::si::second", ⟨1001, 3, -4⟩, "units::isq::si::second", [], false, "", none⟩, .int .i32⟩, .i (-7)⟩ ∧
    fromDuration exEnv ⟨.base siTime, siSecond, .int .i64⟩ ⟨.int .i64, 60, 1, .i 90⟩ =
      .ok ⟨⟨.base siTime, siSecond, .int .i64⟩, .i 5400⟩ ∧
    fromDuration exEnv ⟨.base siTime, siSecond, .int .i64⟩ ⟨.int .i64, 1, 3, .i 90⟩ = .error .rejected ∧
    fromDuration exEnv ⟨.base siTime, siSecond, .flt .f64⟩ ⟨.int .i64, 1, 3, .i 90⟩ =
      .ok ⟨⟨.base siTime, siSecond, .flt .f64⟩, .f 30⟩ ∧
    fromTimePoint exEnv exNoRebind ⟨clockOrigin "system_clock", siSecond, .int .i64⟩ ⟨"system_clock", .int .i64, 60, 1, .i 90⟩ =
      .ok ⟨⟨clockOrigin "system_clock", siSecond, .int .i64⟩, .i 5400⟩ ∧
    fromTimePoint exEnv exNoRebind ⟨clockOrigin "system_clock", siSecond, .int .i64⟩ ⟨"steady_clock", .int .i64, 60, 1, .i 90⟩ =
      .error .rejected := by
  decide +kernel

example : (⟨.int .i32, 1001, 30000, .i (-7)⟩ : Duration).OK :=
  ⟨by decide, by decide, _, rfl, by decide⟩

/-! ## C55 -/

/-- The rounding keeps zero and one (every binary format does). -/
def Env.Unital (E : Env) : Prop := ∀ f, E.fl f 0 = 0 ∧ E.fl f 1 = 1

theorem mkQty_self {E : Env} {t : QTy} {v : Num} : mkQty E t t.rep v = .ok ⟨t, v⟩ := by
  unfold mkQty
  rw [if_pos (by cases t.rep.floating <;> simp), convNum_self]; rfl

theorem repOf_ok {E : Env} (hu : E.Unital) (r : Rep) (n : Int) (hn : n = 0 ∨ n = 1) :
    ∃ v, repOf E r n = .ok v ∧ v.Typed r ∧ v.q = n := by
  unfold repOf
  cases r with
  | int t =>
    refine ⟨.i n, ?_, ⟨t, rfl, ?_⟩, by simp [Num.q]⟩
    · unfold convNum
      split
      · rfl
      · simp only; congr 2
        exact IntTy.wrap_of_in (by rcases hn with rfl | rfl <;> cases t <;> decide)
    · rcases hn with rfl | rfl <;> cases t <;> decide
  | flt f =>
    refine ⟨.f (E.fl f n), rfl, ⟨f, rfl⟩, ?_⟩
    rcases hn with rfl | rfl
    · simp [Num.q, (hu f).1]
    · simp [Num.q, (hu f).2]

/-- C55: `zero()` denotes the amount zero and `one()` one unit; both are values of the type. -/
theorem C55_zero_one (E : Env) (hu : E.Unital) (β : String → ℝ) (t : QTy) :
    (∃ q, zeroQty E t = .ok q ∧ q.ty = t ∧ q.num.Typed t.rep ∧ q.amount β = 0) ∧
    (∃ q, oneQty E t = .ok q ∧ q.ty = t ∧ q.num.Typed t.rep ∧ q.amount β = t.size β) := by
  constructor
  · obtain ⟨v, h1, h2, h3⟩ := repOf_ok hu t.rep 0 (Or.inl rfl)
    refine ⟨⟨t, v⟩, ?_, rfl, h2, ?_⟩
    · unfold zeroQty; rw [h1, ok_bind, mkQty_self]
    · rw [Qty.amount_eq, h3]; simp
  · obtain ⟨v, h1, h2, h3⟩ := repOf_ok hu t.rep 1 (Or.inr rfl)
    refine ⟨⟨t, v⟩, ?_, rfl, h2, ?_⟩
    · unfold oneQty; rw [h1, ok_bind, mkQty_self]
    · rw [Qty.amount_eq, h3]; simp

/-- C55: for integral representations every quantity of the type lies between `min()` and `max()`, which are
themselves of the type (so they are the least and the greatest). -/
theorem C55_min_max (E : Env) (β : String → ℝ) (hβ : Sizes β) (t : QTy) (gt : t.Good E) (i : IntTy) (hi : t.rep = .int i) :
    ∃ lo hi, minQty E t = .ok lo ∧ maxQty E t = .ok hi ∧ lo.ty = t ∧ hi.ty = t ∧ lo.num.Typed t.rep ∧ hi.num.Typed t.rep ∧
      ∀ q : Qty, q.ty = t → q.num.Typed t.rep → lo.amount β ≤ q.amount β ∧ q.amount β ≤ hi.amount β := by
  refine ⟨⟨t, .i i.lo⟩, ⟨t, .i i.hi⟩, ?_, ?_, rfl, rfl, ⟨i, hi, ?_⟩, ⟨i, hi, ?_⟩, ?_⟩
  · unfold minQty; rw [mkQty_self]; simp only [hi, Rep.lowest]
  · unfold maxQty; rw [mkQty_self]; simp only [hi, Rep.greatest]
  · cases i <;> decide
  · cases i <;> decide
  · rintro ⟨ty, v⟩ rfl hq
    rw [hi] at hq
    obtain ⟨x, rfl, hx⟩ := hq.int
    have hs := (gt.size_pos hβ).le
    have h1 : (i.lo : ℝ) ≤ x := by exact_mod_cast hx.1
    have h2 : (x : ℝ) ≤ i.hi := by exact_mod_cast hx.2
    simp only [Qty.amount_eq, Num.q_i]
    push_cast
    exact ⟨mul_le_mul_of_nonneg_right h1 hs, mul_le_mul_of_nonneg_right h2 hs⟩

theorem FltTy.emax_prec (f : FltTy) : 1 ≤ f.prec ∧ f.prec < f.emax ∧ f.emin < f.emax - 1 := by cases f <;> decide

theorem FltTy.largest_eq (f : FltTy) : f.largest = 2 ^ f.emax - 2 ^ (f.emax - f.prec) := by
  unfold FltTy.largest
  rw [sub_mul, one_mul, ← zpow_add₀ (by norm_num)]
  congr 2
  omega

theorem FltTy.half_le_largest (f : FltTy) : (2 : ℚ) ^ (f.emax - 1) ≤ f.largest := by
  have h1 : (2 : ℚ) ^ (f.emax - f.prec) ≤ 2 ^ (f.emax - 1) := zpow_le_zpow_right₀ (by norm_num) (by have := f.emax_prec; omega)
  have h2 : (2 : ℚ) ^ f.emax = 2 * 2 ^ (f.emax - 1) := by
    rw [← zpow_one_add₀ (by norm_num)]
    congr 1
    omega
  rw [f.largest_eq, h2]
  linarith

/-- No finite value of a format exceeds the largest one. -/
theorem FltTy.le_largest {f : FltTy} {m : ℚ} (h0 : 0 ≤ m) (h : f.rndMag m = some m) : m ≤ f.largest := by
  unfold FltTy.rndMag at h
  simp only at h
  split at h
  swap
  · cases h
  rename_i hlt
  have hm := Option.some.inj h
  rw [hm] at hlt
  rcases eq_or_lt_of_le h0 with rfl | hpos
  · have : (0 : ℚ) < 2 ^ (f.emax - 1) := by positivity
    exact this.le.trans f.half_le_largest
  have hb := f.emax_prec
  have hlog : Int.log 2 m < f.emax := (Int.lt_zpow_iff_log_lt (by norm_num) hpos).mp (by exact_mod_cast hlt)
  by_cases he : f.lastExp m = f.emax - f.prec
  · have hk : ∃ k : ℤ, m = (k : ℚ) * 2 ^ (f.emax - f.prec) := ⟨_, by rw [← he]; exact hm.symm⟩
    obtain ⟨k, hk⟩ := hk
    have h2 : (2 : ℚ) ^ f.emax = 2 ^ f.prec * 2 ^ (f.emax - f.prec) := by
      rw [← zpow_add₀ (by norm_num)]; congr 1; omega
    have hpw : (0 : ℚ) < 2 ^ (f.emax - f.prec) := by positivity
    have hkl : (k : ℚ) < 2 ^ f.prec := by
      rw [hk, h2] at hlt
      exact lt_of_mul_lt_mul_right hlt hpw.le
    have hnat : ∃ n : ℕ, f.prec = n := ⟨f.prec.toNat, by omega⟩
    obtain ⟨n, hn⟩ := hnat
    have hk1 : (k : ℚ) ≤ 2 ^ f.prec - 1 := by
      rw [hn, zpow_natCast] at hkl ⊢
      have : k < 2 ^ n := by exact_mod_cast hkl
      have : k ≤ 2 ^ n - 1 := by omega
      exact_mod_cast this
    unfold FltTy.largest
    rw [hk]
    exact mul_le_mul_of_nonneg_right hk1 hpw.le
  · have hl : Int.log 2 m < f.emax - 1 := by
      unfold FltTy.lastExp at he
      by_contra hc
      have : Int.log 2 m = f.emax - 1 := by omega
      apply he
      rw [this, max_eq_left (by omega)]
      omega
    have h3 : m < 2 ^ (f.emax - 1) := by
      have := (Int.lt_zpow_iff_log_lt (b := 2) (by norm_num) hpos).mpr hl
      exact_mod_cast this
    exact h3.le.trans f.half_le_largest

theorem FltTy.largest_value (f : FltTy) : 0 ≤ f.largest ∧ f.rndMag f.largest = some f.largest :=
  ⟨(by positivity : (0 : ℚ) ≤ 2 ^ (f.emax - 1)).trans f.half_le_largest, by cases f <;> decide +kernel⟩

/-- C55: for floating point representations every finite quantity of the type lies between `min()` and `max()`, and the numbers of these are
themselves finite values of the type.  (The values are those of the IEEE formats; `min()` is the lowest value, not the least positive one.) -/
theorem C55_min_max_floating (E : Env) (β : String → ℝ) (hβ : Sizes β) (t : QTy) (gt : t.Good E) (f : FltTy) (hf : t.rep = .flt f) :
    ∃ lo hi, minQty E t = .ok lo ∧ maxQty E t = .ok hi ∧ lo.ty = t ∧ hi.ty = t ∧ lo.num.Typed t.rep ∧ hi.num.Typed t.rep ∧
      (∃ v w : FVal, v.In f ∧ w.In f ∧ v.q = lo.num.q ∧ w.q = hi.num.q) ∧
      ∀ (s : Bool) (m : ℚ), (FVal.fin s m).In f → lo.amount β ≤ (((FVal.fin s m).q : ℚ) : ℝ) * t.size β ∧
        (((FVal.fin s m).q : ℚ) : ℝ) * t.size β ≤ hi.amount β := by
  refine ⟨⟨t, .f (-f.largest)⟩, ⟨t, .f f.largest⟩, ?_, ?_, rfl, rfl, ⟨f, hf⟩, ⟨f, hf⟩,
    ⟨.fin true f.largest, .fin false f.largest, f.largest_value, f.largest_value, rfl, rfl⟩, ?_⟩
  · unfold minQty; rw [mkQty_self]; simp only [hf, Rep.lowest]
  · unfold maxQty; rw [mkQty_self]; simp only [hf, Rep.greatest]
  · rintro s m ⟨h0, h1⟩
    have hs := (gt.size_pos hβ).le
    have hle := FltTy.le_largest h0 h1
    have hq : -f.largest ≤ (FVal.fin s m).q ∧ (FVal.fin s m).q ≤ f.largest := by
      cases s <;> simp only [FVal.q] <;> constructor <;> linarith
    simp only [Qty.amount_eq, Num.q]
    exact ⟨mul_le_mul_of_nonneg_right (by exact_mod_cast hq.1) hs, mul_le_mul_of_nonneg_right (by exact_mod_cast hq.2) hs⟩

example : minQty exEnv (exKms (.flt .f32)) = .ok ⟨exKms (.flt .f32), .f (-340282346638528859811704183484516925440)⟩ ∧
    (FVal.fin true (5 / 8)).In .f32 := ⟨by decide +kernel, by norm_num, by decide +kernel⟩

theorem IntTy.In_promote {t : IntTy} {x : Int} (h : t.In x) : t.promote.In x := by
  revert h
  cases t <;> unfold IntTy.In IntTy.promote IntTy.lo IntTy.hi <;> simp [IntTy.signed, IntTy.bits] <;> omega

/-- C55: unary plus keeps the unit and the amount; only the representation is promoted. -/
theorem C55_unary_plus (E : Env) (β : String → ℝ) (q : Qty) (hq : q.num.Typed q.ty.rep) :
    ∃ r, posQty E q = .ok r ∧ r.ty = ⟨q.ty.dim, q.ty.unit, q.ty.rep.promote⟩ ∧ r.amount β = q.amount β := by
  obtain ⟨⟨d, u, rep⟩, v⟩ := q
  have key : convNum E.fl rep rep.promote v = .ok v := by
    cases rep with
    | flt f => exact convNum_self
    | int t =>
      obtain ⟨x, rfl, hx⟩ := hq.int
      unfold convNum
      split
      · rfl
      · simp only [Rep.promote]; rw [IntTy.wrap_of_in (IntTy.In_promote hx)]
  refine ⟨⟨⟨d, u, rep.promote⟩, v⟩, ?_, rfl, rfl⟩
  unfold posQty
  simp only [key, ok_bind]
  exact mkQty_self (t := ⟨d, u, rep.promote⟩)

example : exEnv.Unital ∧ minQty exEnv (exKms (.int .i8)) = .ok ⟨exKms (.int .i8), .i (-128)⟩ ∧
    maxQty exEnv (exKms (.int .u16)) = .ok ⟨exKms (.int .u16), .i 65535⟩ ∧
    oneQty exEnv (exKms (.flt .f64)) = .ok ⟨exKms (.flt .f64), .f 1⟩ ∧
    posQty exEnv ⟨exKms (.int .i8), .i (-128)⟩ = .ok ⟨exKms (.int .i32), .i (-128)⟩ :=
  ⟨fun _ => ⟨rfl, rfl⟩, by decide +kernel, by decide +kernel, by decide +kernel, by decide +kernel⟩

end Verif
