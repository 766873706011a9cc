import Verif.Props.ConversionProps

/-!
# Properties of arithmetic and comparison of quantities (C25 – C28)
-/

namespace Verif

open Ratio

/-- A typed quantity of a nameable type. -/
structure Qty.Good (E : Env) (q : Qty) : Prop where
  ty : q.ty.Good E
  num : q.num.Typed q.ty.rep

/-! ## C25 -/

/-- The operands and the result of a sum or difference are values of the type of the result and nothing
wraps around: "the representation does not overflow". -/
structure SumFits (E : Env) (β : String → ℝ) (op : BinOp) (a b r : Qty) : Prop where
  exact : r.ty.rep.floating = true → FlExact E.fl
  guardl : CastGuard E r.ty a
  guardr : CastGuard E r.ty b
  left : Holds β r.ty (a.amount β)
  right : Holds β r.ty (b.amount β)
  result : ∀ ty, r.ty.rep = .int ty → ty.signed = false →
    Holds β r.ty (if op = .add then a.amount β + b.amount β else a.amount β - b.amount β)

/-- C25: a sum is the exact sum of the amounts, expressed in the common unit.  Partial: `Related` excludes
what `C22_unknown_dimensions_wrong` and `C31_coherent_ratio_ignored` show to be wrong. -/
theorem C25_add_exact_partial (E : Env) (hE : E.OK) (β : String → ℝ) (hβ : Sizes β) (a b r : Qty)
    (ga : a.Good E) (gb : b.Good E) (hr : Related β a.ty b.ty) (h : addSub E .add a b = .ok r) :
    r.Good E ∧ r.ty.rep = a.ty.rep.arith b.ty.rep ∧ IsCommonSize (a.ty.size β) (b.ty.size β) (r.ty.size β) ∧
    (SumFits E β .add a b r → r.amount β = a.amount β + b.amount β) := by
  obtain ⟨h1, h2, h3, -, h4, h5⟩ := addSub_sound hE hβ (Or.inl rfl) ga.ty gb.ty hr ga.num gb.num h
  refine ⟨⟨h1, h3⟩, h2, h4, fun hf => ?_⟩
  have := h5 hf.exact hf.guardl hf.guardr hf.left hf.right hf.result
  simpa using this

/-- C25: likewise for a difference. -/
theorem C25_sub_exact_partial (E : Env) (hE : E.OK) (β : String → ℝ) (hβ : Sizes β) (a b r : Qty)
    (ga : a.Good E) (gb : b.Good E) (hr : Related β a.ty b.ty) (h : addSub E .sub a b = .ok r) :
    r.Good E ∧ r.ty.rep = a.ty.rep.arith b.ty.rep ∧ IsCommonSize (a.ty.size β) (b.ty.size β) (r.ty.size β) ∧
    (SumFits E β .sub a b r → r.amount β = a.amount β - b.amount β) := by
  obtain ⟨h1, h2, h3, -, h4, h5⟩ := addSub_sound hE hβ (Or.inr rfl) ga.ty gb.ty hr ga.num gb.num h
  refine ⟨⟨h1, h3⟩, h2, h4, fun hf => ?_⟩
  have := h5 hf.exact hf.guardl hf.guardr hf.left hf.right hf.result
  simpa using this

def exCmUnit : MUnit := ⟨.scaled ⟨1, 1, -2⟩ "metre", ⟨1, 1, -2⟩, "metre", [], false, "", none⟩
def exCmSi (r : Rep) : QTy := ⟨.base exL, exCmUnit, r⟩

example : addSub exEnv .add ⟨exKms (.int .i32), .i 2⟩ ⟨exCms (.int .i64), .i 5⟩ = .ok ⟨exCmSi (.int .i64), .i 200005⟩ ∧
    addSub exEnv .sub ⟨exCms (.int .i8), .i 5⟩ ⟨exKms (.int .i8), .i 2⟩ = .ok ⟨⟨.base exLcgs, exCmUnit, .int .i32⟩, .i (-199995)⟩ := by
  decide +kernel

theorem exKms_size (β : String → ℝ) (r : Rep) : (exKms r).size β = 1000 * β "metre" := by
  unfold QTy.size exKms
  rw [Dim.size_base exL_good.unit]
  norm_num [exKm, exL, Ratio.val]

theorem exCms_size (β : String → ℝ) (r : Rep) : (exCms r).size β = β "metre" / 100 := by
  unfold QTy.size exCms
  rw [Dim.size_base exLcgs_wf]
  norm_num [exLcgs, Ratio.val]; ring

theorem exCmSi_size (β : String → ℝ) (r : Rep) : (exCmSi r).size β = β "metre" / 100 := by
  unfold QTy.size exCmSi
  rw [Dim.size_base exL_good.unit]
  norm_num [exL, exCmUnit, Ratio.val]; ring

theorem exMetres_size (β : String → ℝ) (r : Rep) : (exMetres r).size β = β "metre" := by
  unfold QTy.size exMetres
  rw [Dim.size_base exL_good.unit]
  norm_num [exL, exMetre, Ratio.val, Ratio.one]

/-- The example satisfies the conditions of the theorem. -/
example (β : String → ℝ) : (⟨exKms (.int .i32), .i 2⟩ : Qty).Good exEnv ∧ (⟨exCms (.int .i64), .i 5⟩ : Qty).Good exEnv ∧
    Related β (exKms (.int .i32)) (exCms (.int .i64)) ∧
    SumFits exEnv β .add ⟨exKms (.int .i32), .i 2⟩ ⟨exCms (.int .i64), .i 5⟩ ⟨exCmSi (.int .i64), .i 200005⟩ := by
  refine ⟨⟨exKms_good _ _, _, rfl, by decide⟩, ⟨exCms_good _ _, _, rfl, by decide⟩, exKm_cm_related β _ _,
    ⟨fun _ => exEnv_exact, no_guard (by decide) (by decide), no_guard (by decide) (by decide), ?_, ?_, ?_⟩⟩
  · rintro ty ⟨⟩
    refine ⟨200000, by decide, ?_⟩
    simp only [Qty.amount_eq, exKms_size, exCmSi_size, Num.q]; push_cast; ring
  · rintro ty ⟨⟩
    refine ⟨5, by decide, ?_⟩
    simp only [Qty.amount_eq, exCms_size, exCmSi_size, Num.q]; push_cast; ring
  · rintro ty ⟨⟩ h; cases h

/-- C25: addition is commutative: the same amount, number and unit size in either order. -/
theorem C25_add_comm_partial (E : Env) (hE : E.OK) (β : String → ℝ) (hβ : Sizes β) (a b r r' : Qty)
    (ga : a.Good E) (gb : b.Good E) (hr : Related β a.ty b.ty) (h : addSub E .add a b = .ok r)
    (h' : addSub E .add b a = .ok r') (hf : SumFits E β .add a b r) (hf' : SumFits E β .add b a r') :
    r.amount β = r'.amount β ∧ r.ty.size β = r'.ty.size β ∧ r.ty.rep = r'.ty.rep ∧ r.num.q = r'.num.q := by
  obtain ⟨k1, k2, k3, k4⟩ := C25_add_exact_partial E hE β hβ a b r ga gb hr h
  obtain ⟨m1, m2, m3, m4⟩ := C25_add_exact_partial E hE β hβ b a r' gb ga hr.symm h'
  have p1 := k1.ty.size_pos hβ
  have p2 := m1.ty.size_pos hβ
  have ea : r.amount β = r'.amount β := by rw [k4 hf, m4 hf']; ring
  have es : r.ty.size β = r'.ty.size β := by
    obtain ⟨x, hx⟩ := m3.greatest _ k3.right k3.left
    obtain ⟨y, hy⟩ := k3.greatest _ m3.right m3.left
    have hxy : (x : ℝ) * y = 1 := by
      have : r'.ty.size β = (x * y) * r'.ty.size β := by rw [mul_assoc, ← hy, ← hx]
      have h1 : (x * y - 1 : ℝ) * r'.ty.size β = 0 := by linarith
      rcases mul_eq_zero.mp h1 with h1 | h1
      · linarith
      · exact absurd h1 p2.ne'
    have hx0 : 0 < x := by
      have : (0 : ℝ) < x := by
        by_contra hn
        have := mul_nonpos_of_nonpos_of_nonneg (not_lt.mp hn) p1.le
        linarith
      exact_mod_cast this
    have hxy' : x * y = 1 := by exact_mod_cast hxy
    have : x = 1 := by
      rcases Int.eq_one_or_neg_one_of_mul_eq_one hxy' with h | h
      · exact h
      · omega
    rw [hx, this]; simp
  refine ⟨ea, es, by rw [k2, m2, Rep.arith_comm], ?_⟩
  rw [Qty.amount_eq, Qty.amount_eq, es] at ea
  exact_mod_cast mul_right_cancel₀ p2.ne' ea

example : addSub exEnv .add ⟨exCms (.int .i64), .i 5⟩ ⟨exKms (.int .i32), .i 2⟩ =
    .ok ⟨⟨.base exLcgs, exCmUnit, .int .i64⟩, .i 200005⟩ := by decide +kernel

/-- C25: addition is associative: both ways of adding three quantities give the same amount. -/
theorem C25_add_assoc_partial (E : Env) (hE : E.OK) (β : String → ℝ) (hβ : Sizes β) (a b c ab bc l r : Qty)
    (ga : a.Good E) (gb : b.Good E) (gc : c.Good E) (hab : Related β a.ty b.ty) (hbc : Related β b.ty c.ty)
    (habc : Related β ab.ty c.ty) (habc' : Related β a.ty bc.ty)
    (h1 : addSub E .add a b = .ok ab) (h2 : addSub E .add ab c = .ok l)
    (h3 : addSub E .add b c = .ok bc) (h4 : addSub E .add a bc = .ok r)
    (f1 : SumFits E β .add a b ab) (f2 : SumFits E β .add ab c l) (f3 : SumFits E β .add b c bc)
    (f4 : SumFits E β .add a bc r) : l.amount β = r.amount β := by
  obtain ⟨k1, -, -, k4⟩ := C25_add_exact_partial E hE β hβ a b ab ga gb hab h1
  obtain ⟨m1, -, -, m4⟩ := C25_add_exact_partial E hE β hβ b c bc gb gc hbc h3
  obtain ⟨-, -, -, n4⟩ := C25_add_exact_partial E hE β hβ ab c l k1 gc habc h2
  obtain ⟨-, -, -, o4⟩ := C25_add_exact_partial E hE β hβ a bc r ga m1 habc' h4
  rw [n4 f2, o4 f4, k4 f1, m4 f3]; ring

example : addSub exEnv .add ⟨exCmSi (.int .i64), .i 200005⟩ ⟨exMetres (.int .i64), .i 3⟩ = .ok ⟨exCmSi (.int .i64), .i 200305⟩ ∧
    addSub exEnv .add ⟨exCms (.int .i64), .i 5⟩ ⟨exMetres (.int .i64), .i 3⟩ = .ok ⟨⟨.base exLcgs, exCmUnit, .int .i64⟩, .i 305⟩ ∧
    addSub exEnv .add ⟨exKms (.int .i32), .i 2⟩ ⟨⟨.base exLcgs, exCmUnit, .int .i64⟩, .i 305⟩ =
      .ok ⟨exCmSi (.int .i64), .i 200305⟩ := by decide +kernel

/-! ## C26 -/

/-- C26: `<=>` compares the physical amounts.  Partial: `Related`, as for C25; `CmpFits` says that the
conversion to the common unit does not overflow. -/
theorem C26_compare_partial (E : Env) (hE : E.OK) (β : String → ℝ) (hβ : Sizes β) (a b : Qty) (o : Ordering)
    (ga : a.Good E) (gb : b.Good E) (hr : Related β a.ty b.ty) (hf : CmpFits E β a b)
    (h : compareQty E a b = .ok o) :
    (o = .lt ↔ a.amount β < b.amount β) ∧ (o = .eq ↔ a.amount β = b.amount β) ∧
      (o = .gt ↔ b.amount β < a.amount β) := by
  unfold compareQty at h
  split at h
  swap
  · cases h
  simp only [bind_ok, Except.ok.injEq] at h
  obtain ⟨t, ht, x, hx, y, hy, rfl⟩ := h
  obtain ⟨hp, ax, ay⟩ := compare_operands hE hβ ga.ty gb.ty hr ga.num gb.num hf ht hx hy
  rw [← ax, ← ay]
  exact numCompare_scale _ _ hp

/-- C26: `==` holds exactly for equal physical amounts. -/
theorem C26_eq_partial (E : Env) (hE : E.OK) (β : String → ℝ) (hβ : Sizes β) (a b : Qty) (e : Bool)
    (ga : a.Good E) (gb : b.Good E) (hr : Related β a.ty b.ty) (hf : CmpFits E β a b)
    (h : eqQty E a b = .ok e) : e = true ↔ a.amount β = b.amount β := by
  unfold eqQty at h
  simp only [bind_ok, Except.ok.injEq] at h
  obtain ⟨t, ht, x, hx, y, hy, rfl⟩ := h
  obtain ⟨hp, ax, ay⟩ := compare_operands hE hβ ga.ty gb.ty hr ga.num gb.num hf ht hx hy
  rw [← ax, ← ay, decide_eq_true_iff, mul_left_inj' hp.ne']
  exact_mod_cast Iff.rfl

example : compareQty exEnv ⟨exKms (.int .i32), .i 2⟩ ⟨exCms (.int .i64), .i 199999⟩ = .ok .gt ∧
    eqQty exEnv ⟨exKms (.int .i32), .i (-2)⟩ ⟨exCms (.int .i64), .i (-200000)⟩ = .ok true ∧
    eqQty exEnv ⟨exKms (.int .i32), .i 2⟩ ⟨exMetres (.flt .f64), .f (1999 + 1 / 2)⟩ = .ok false := by
  decide +kernel

example (β : String → ℝ) : CmpFits exEnv β ⟨exKms (.int .i32), .i 2⟩ ⟨exCms (.int .i64), .i 199999⟩ := by
  have ht : cmpType exEnv (exKms (.int .i32)) (exCms (.int .i64)) = .ok (exCmSi (.int .i64)) := by decide +kernel
  refine ⟨fun t h => ?_, fun t h => ?_, fun _ => exEnv_exact⟩
  · rw [ht] at h; cases h
    refine ⟨?_, no_guard (by decide) (by decide)⟩
    rintro ty ⟨⟩
    exact ⟨200000, by decide, by simp only [Qty.amount_eq, exKms_size, exCmSi_size, Num.q]; push_cast; ring⟩
  · rw [ht] at h; cases h
    refine ⟨?_, no_guard (by decide) (by decide)⟩
    rintro ty ⟨⟩
    exact ⟨199999, by decide, by simp only [Qty.amount_eq, exCms_size, exCmSi_size, Num.q]; push_cast; ring⟩

/-- C26: comparisons form a total order: the reversed comparison is the opposite, equality agrees with
`<=>`, and both equality and `<` are transitive. -/
theorem C26_total_order_partial (E : Env) (hE : E.OK) (β : String → ℝ) (hβ : Sizes β) (a b c : Qty)
    (oab oba obc oac : Ordering) (eab : Bool) (ga : a.Good E) (gb : b.Good E) (gc : c.Good E)
    (rab : Related β a.ty b.ty) (rbc : Related β b.ty c.ty) (rac : Related β a.ty c.ty)
    (fab : CmpFits E β a b) (fba : CmpFits E β b a) (fbc : CmpFits E β b c) (fac : CmpFits E β a c)
    (hab : compareQty E a b = .ok oab) (hba : compareQty E b a = .ok oba) (hbc : compareQty E b c = .ok obc)
    (hac : compareQty E a c = .ok oac) (heab : eqQty E a b = .ok eab) :
    oba = oab.swap ∧ (eab = true ↔ oab = .eq) ∧ (oab = .eq → obc = .eq → oac = .eq) ∧
      (oab = .lt → obc = .lt → oac = .lt) ∧ (oab = .eq → oac = obc) := by
  have k1 := C26_compare_partial E hE β hβ a b oab ga gb rab fab hab
  have k2 := C26_compare_partial E hE β hβ b a oba gb ga rab.symm fba hba
  have k3 := C26_compare_partial E hE β hβ b c obc gb gc rbc fbc hbc
  have k4 := C26_compare_partial E hE β hβ a c oac ga gc rac fac hac
  have k5 := C26_eq_partial E hE β hβ a b eab ga gb rab fab heab
  refine ⟨?_, by rw [k5, k1.2.1], ?_, ?_, ?_⟩
  · cases oab with
    | lt => exact k2.2.2.mpr (k1.1.mp rfl)
    | eq => exact k2.2.1.mpr (k1.2.1.mp rfl).symm
    | gt => exact k2.1.mpr (k1.2.2.mp rfl)
  · intro h1 h2; rw [k4.2.1, k1.2.1.mp h1, k3.2.1.mp h2]
  · intro h1 h2; rw [k4.1]; exact (k1.1.mp h1).trans (k3.1.mp h2)
  · intro h1
    have := k1.2.1.mp h1
    rw [this] at k4
    cases obc with
    | lt => exact k4.1.mpr (k3.1.mp rfl)
    | eq => exact k4.2.1.mpr (k3.2.1.mp rfl)
    | gt => exact k4.2.2.mpr (k3.2.2.mp rfl)

example : compareQty exEnv ⟨exCms (.int .i64), .i 199999⟩ ⟨exKms (.int .i32), .i 2⟩ = .ok .lt ∧
    compareQty exEnv ⟨exCms (.int .i64), .i 199999⟩ ⟨exMetres (.int .i64), .i 1999⟩ = .ok .gt ∧
    compareQty exEnv ⟨exKms (.int .i32), .i 2⟩ ⟨exMetres (.int .i64), .i 1999⟩ = .ok .gt := by decide +kernel

/-- C26: integral types have an order between them exactly if the common type holds all values of both. -/
theorem C26_order_exists (a b : IntTy) : (Rep.int a).threeWay (.int b) = true ↔
    ∃ t, (Rep.int a).common (.int b) = .int t ∧ (∀ x, a.In x → t.In x) ∧ ∀ x, b.In x → t.In x := by
  have key : ∀ s t : IntTy, (∀ x, s.In x → t.In x) ↔ t.lo ≤ s.lo ∧ s.hi ≤ t.hi := by
    intro s t
    refine ⟨fun h => ⟨(h s.lo ⟨le_rfl, by cases s <;> decide⟩).1, (h s.hi ⟨by cases s <;> decide, le_rfl⟩).2⟩, fun h x hx => ⟨h.1.trans hx.1, hx.2.trans h.2⟩⟩
  have e : ∃ t, (Rep.int a).common (.int b) = .int t := by cases a <;> cases b <;> exact ⟨_, rfl⟩
  obtain ⟨t, ht⟩ := e
  rw [ht]
  simp only [Rep.int.injEq, exists_eq_left', key]
  cases a <;> cases b <;> cases ht <;> decide

/-- C26: without such a common type the order is refused, whatever the units and numbers. -/
theorem C26_mixed_sign (E : Env) (a b : Qty) (s t : IntTy) (ha : a.ty.rep = .int s) (hb : b.ty.rep = .int t) (hs : s.signed = true) (ht : t.signed = false)
    (hw : s.promote.bits ≤ t.bits) : compareQty E a b = .error .rejected ∧ compareQty E b a = .error .rejected := by
  have : (Rep.int s).threeWay (.int t) = false ∧ (Rep.int t).threeWay (.int s) = false := by
    revert hs ht hw; cases s <;> cases t <;> decide
  unfold compareQty
  rw [ha, hb, this.1, this.2]
  exact ⟨rfl, rfl⟩

/-- C26 is violated for `==` on types of different signedness, which is accepted: -1 m equals 4294967295 m. -/
theorem C26_mixed_sign_equality_wrong (β : String → ℝ) (hβ : Sizes β) :
    (⟨exMetres (.int .i32), .i (-1)⟩ : Qty).amount β < 0 ∧ 0 < (⟨exMetres (.int .u32), .i 4294967295⟩ : Qty).amount β ∧
      eqQty exEnv ⟨exMetres (.int .i32), .i (-1)⟩ ⟨exMetres (.int .u32), .i 4294967295⟩ = .ok true := by
  have h : ∀ r, 0 < (exMetres r).size β := fun r => (exMetres_good exEnv r).size_pos hβ
  refine ⟨?_, ?_, by decide +kernel⟩ <;> simp only [Qty.amount_eq, Num.q] <;> push_cast
  · linarith [h (.int .i32)]
  · exact mul_pos (by norm_num) (h _)

/-- Fifth powers of lengths with a floating point representation. -/
def exL5f : QTy := ⟨exL5.dim, exL5.unit, .flt .f64⟩
def exL5cgsf : QTy := ⟨exL5cgs.dim, exL5cgs.unit, .flt .f64⟩

/-- C26 is violated for unknown dimensions of different systems: 10^10 cm^5 is one m^5, but the comparison
finds it greater (and one m^5 equal to one cm^5). -/
theorem C26_unknown_dimensions_wrong (β : String → ℝ) (hβ : Sizes β) :
    (⟨exL5f, .f 1⟩ : Qty).amount β = (⟨exL5cgsf, .f (10 ^ 10)⟩ : Qty).amount β ∧
      compareQty exEnv ⟨exL5f, .f 1⟩ ⟨exL5cgsf, .f (10 ^ 10)⟩ = .ok .lt ∧
      eqQty exEnv ⟨exL5f, .f 1⟩ ⟨exL5cgsf, .f 1⟩ = .ok true := by
  refine ⟨?_, by decide +kernel, by decide +kernel⟩
  have h : exL5f.size β = 10 ^ 10 * exL5cgsf.size β := exL5_size β hβ
  simp only [Qty.amount_eq, h, Num.q]
  push_cast; ring

/-! ## C27 -/

/-- C27: the product of two quantities denotes the product of the amounts, in every unit, system and derived
dimension.  (`UFits`: unsigned operands and results are in range; signed overflow is undefined behaviour.) -/
theorem C27_product_exact (E : Env) (hE : E.OK) (β : String → ℝ) (hβ : Sizes β) (a b r : Qty)
    (ga : a.Good E) (gb : b.Good E) (gr : r.ty.dim.Good) (h : mulQty E a b = .ok r)
    (hfl : r.ty.rep.floating = true → FlExact E.fl)
    (ua : UFits r.ty.rep a.num.q) (ub : UFits r.ty.rep b.num.q) (ur : UFits r.ty.rep (a.num.q * b.num.q)) :
    r.amount β = a.amount β * b.amount β ∧ r.ty.rep = a.ty.rep.arith b.ty.rep ∧ r.ty.unit.WF ∧
      r.ty.unit.ref = r.ty.dim.unit.ref := by
  obtain ⟨h1, h2, h3⟩ := mulQty_eq_ok h
  obtain ⟨k1, k2, k3⟩ := refMultiply_sound hE hβ ga.ty.dim gb.ty.dim gr ga.ty.unit gb.ty.unit h1
  rw [h3] at hfl ua ub ur
  have := (numOp_exact (op := .mul) ga.num gb.num hfl ua ub (fun _ => ur) h2).2
  simp only [reduceCtorEq, false_and, if_false, BinOp.val] at this
  refine ⟨?_, h3, k1, k2⟩
  rw [Qty.amount, k3, this, Qty.amount, Qty.amount]; push_cast; ring

example : mulQty exEnv ⟨exKms (.int .i32), .i 3⟩ ⟨exKms (.int .i64), .i (-2)⟩ =
      .ok ⟨⟨.named exArea, ⟨.scaled ⟨1, 1, 6⟩ "unknown_coherent_unit", ⟨1, 1, 6⟩, "unknown_coherent_unit", [], false, "", none⟩,
        .int .i64⟩, .i (-6)⟩ ∧ (Dim.named exArea).Good := by
  refine ⟨by decide +kernel, ⟨⟨_, rfl, ?_⟩, unknownCoherentUnit_wf⟩⟩
  intro e he; simp only [exArea, List.mem_singleton] at he; subst he; exact ⟨one_wf, by decide⟩

/-- C27: the quotient of two quantities denotes the quotient of the amounts when the division of the numbers
is exact (floating point, or an integral quotient without remainder). -/
theorem C27_quotient_exact (E : Env) (hE : E.OK) (β : String → ℝ) (hβ : Sizes β) (a b r : Qty)
    (ga : a.Good E) (gb : b.Good E) (gr : r.ty.dim.Good) (h : divQty E a b = .ok r)
    (hfl : r.ty.rep.floating = true → FlExact E.fl)
    (ua : UFits r.ty.rep a.num.q) (ub : UFits r.ty.rep b.num.q)
    (hdiv : r.ty.rep.floating = true ∨ ∃ n : ℤ, a.num.q / b.num.q = n) :
    b.amount β ≠ 0 ∧ r.amount β = a.amount β / b.amount β ∧ r.ty.rep = a.ty.rep.arith b.ty.rep ∧ r.ty.unit.WF ∧
      r.ty.unit.ref = r.ty.dim.unit.ref := by
  obtain ⟨h1, h2, h3⟩ := divQty_eq_ok h
  obtain ⟨k1, k2, k3⟩ := refDivide_sound hE hβ ga.ty.dim gb.ty.dim gr ga.ty.unit gb.ty.unit h1
  rw [h3] at hfl ua ub hdiv
  obtain ⟨hb0, this⟩ := numOp_exact ga.num gb.num hfl ua ub (fun h => by rcases h with h | h | h <;> cases h) h2
  have hb0 := hb0 (Or.inl rfl)
  have hsz := gb.ty.size_pos hβ
  have hv : r.num.q = a.num.q / b.num.q := by
    rw [this]
    split
    · rename_i hh
      rcases hdiv with hd | ⟨n, hn⟩
      · rw [hd] at hh; simp at hh
      · rw [hn, truncQ_int]
    · rfl
  have hb0R : ((b.num.q : ℚ) : ℝ) ≠ 0 := by exact_mod_cast hb0
  refine ⟨by rw [Qty.amount_eq]; exact mul_ne_zero hb0R hsz.ne', ?_, h3, k1, k2⟩
  rw [Qty.amount, k3, hv, Qty.amount, Qty.amount]; push_cast; ring

example : divQty exEnv ⟨exKms (.flt .f64), .f 3⟩ ⟨exCms (.int .i64), .i 2⟩ =
      .ok ⟨⟨.unknown [⟨exLcgs, -1, 1⟩, ⟨exL, 1, 1⟩], ⟨.scaled ⟨1, 1, 3⟩ "unknown_coherent_unit", ⟨1, 1, 3⟩,
        "unknown_coherent_unit", [], false, "", none⟩, .flt .f64⟩, .f (3 / 2)⟩ := by decide +kernel

/-! ## C28 -/

/-- C28: a number divided by a quantity denotes the number divided by the amount.  Partial: the coherent
units of the dimension and of its inverse must have inverse ratios (in particular ratio one), see
`C28_unit_ratio_ignored`. -/
theorem C28_reciprocal_partial (E : Env) (hE : E.OK) (β : String → ℝ) (hβ : Sizes β) (rep : Rep) (v : Num)
    (q r : Qty) (gq : q.Good E) (gr : r.ty.dim.Good) (hv : v.Typed rep) (h : recipQty E rep v q = .ok r)
    (hone : q.ty.dim.unit.ratio.val * r.ty.dim.unit.ratio.val = 1)
    (hfl : r.ty.rep.floating = true → FlExact E.fl)
    (uv : UFits r.ty.rep v.q) (uq : UFits r.ty.rep q.num.q)
    (hdiv : r.ty.rep.floating = true ∨ ∃ n : ℤ, v.q / q.num.q = n) :
    q.amount β ≠ 0 ∧ r.amount β = v.q / q.amount β := by
  unfold recipQty at h
  simp only [bind_ok, Except.ok.injEq] at h
  obtain ⟨d, hd, i, hi, u, hu, z, hz, rfl⟩ := h
  dsimp only at gr hone hfl uv uq hdiv
  obtain ⟨iw, iv, -⟩ := inverse_sound gq.ty.unit.ratio hi
  obtain ⟨ur, -, -⟩ := downcastUnit_eq_ok hE.units hu
  obtain ⟨hb0, this⟩ := numOp_exact hv gq.num hfl uv uq (fun h => by rcases h with h | h | h <;> cases h) hz
  have hb0 := hb0 (Or.inl rfl)
  have hsz := gq.ty.size_pos hβ
  have hv' : z.q = v.q / q.num.q := by
    rw [this]
    split
    · rename_i hh
      rcases hdiv with hd | ⟨n, hn⟩
      · rw [hd] at hh; simp at hh
      · rw [hn, truncQ_int]
    · rfl
  have hb0R : ((q.num.q : ℚ) : ℝ) ≠ 0 := by exact_mod_cast hb0
  refine ⟨by rw [Qty.amount_eq]; exact mul_ne_zero hb0R hsz.ne', ?_⟩
  obtain ⟨e1, h1, k1⟩ := gq.ty.dim.exps
  obtain ⟨e, h3, k⟩ := gr.exps
  have hs := dimSize_inv hβ hE.dims h1 h3 k1 k hd
  have hp := dimSize_pos hβ k1
  have hu0 : ((q.ty.unit.ratio.val : ℚ) : ℝ) ≠ 0 := by exact_mod_cast gq.ty.unit.val_pos.ne'
  have hc0 : ((q.ty.dim.unit.ratio.val : ℚ) : ℝ) ≠ 0 := by exact_mod_cast gq.ty.dim.unit.val_pos.ne'
  have hd0 : ((d.unit.ratio.val : ℚ) : ℝ) ≠ 0 := by exact_mod_cast gr.unit.val_pos.ne'
  have hone' : ((q.ty.dim.unit.ratio.val : ℚ) : ℝ) * ((d.unit.ratio.val : ℚ) : ℝ) = 1 := by exact_mod_cast hone
  rw [Qty.amount, Qty.amount, Dim.size_eq h1, Dim.size_eq h3, hs, ur, iv, hv']
  push_cast
  have : (((d.unit.ratio.val : ℚ) : ℝ))⁻¹ = ((q.ty.dim.unit.ratio.val : ℚ) : ℝ) := by
    field_simp; linarith
  rw [div_eq_mul_inv (_ : ℝ) ((d.unit.ratio.val : ℚ) : ℝ), this]
  field_simp

/-- C28: multiplying back gives the number (an amount of dimension one). -/
theorem C28_times_back_partial (E : Env) (hE : E.OK) (β : String → ℝ) (hβ : Sizes β) (rep : Rep) (v : Num)
    (q r p : Qty) (gq : q.Good E) (gr : r.Good E) (gp : p.ty.dim.Good) (hv : v.Typed rep)
    (h : recipQty E rep v q = .ok r) (h2 : mulQty E r q = .ok p)
    (hone : q.ty.dim.unit.ratio.val * r.ty.dim.unit.ratio.val = 1) (hfl : FlExact E.fl)
    (hf : r.ty.rep.floating = true) : p.amount β = v.q := by
  have hpf : p.ty.rep.floating = true := by
    rw [(mulQty_eq_ok h2).2.2]
    cases hr : r.ty.rep with
    | int t => rw [hr] at hf; cases hf
    | flt f => cases q.ty.rep <;> rfl
  have nofit : ∀ {r : Rep} {x : ℚ}, r.floating = true → UFits r x := by
    intro r x h ty e; rw [e] at h; cases h
  obtain ⟨hq0, h1⟩ := C28_reciprocal_partial E hE β hβ rep v q r gq gr.ty.dim hv h hone (fun _ => hfl) (nofit hf) (nofit hf)
    (Or.inl hf)
  rw [(C27_product_exact E hE β hβ r q p gr gq gp h2 (fun _ => hfl) (nofit hpf) (nofit hpf) (nofit hpf)).1, h1]
  field_simp

example : recipQty exEnv (.flt .f64) (.f 3) ⟨exKms (.flt .f64), .f 2⟩ =
      .ok ⟨⟨.unknown [⟨exL, -1, 1⟩], ⟨.scaled ⟨1, 1, -3⟩ "unknown_coherent_unit", ⟨1, 1, -3⟩, "unknown_coherent_unit", [], false, "", none⟩,
        .flt .f64⟩, .f (3 / 2)⟩ ∧
    mulQty exEnv ⟨⟨.unknown [⟨exL, -1, 1⟩], ⟨.scaled ⟨1, 1, -3⟩ "unknown_coherent_unit", ⟨1, 1, -3⟩, "unknown_coherent_unit", [], false, "", none⟩,
        .flt .f64⟩, .f (3 / 2)⟩ ⟨exKms (.flt .f64), .f 2⟩ =
      .ok ⟨⟨.unknown [], ⟨.scaled ⟨1, 1, 0⟩ "unknown_coherent_unit", ⟨1, 1, 0⟩, "unknown_coherent_unit", [], false, "", none⟩,
        .flt .f64⟩, .f 3⟩ := by decide +kernel

def exKgs (r : Rep) : QTy := ⟨.base exM, exKg, r⟩

/-- C28 is violated when the coherent unit of the dimension has a ratio, as the kilogram: three divided by
two kilograms and multiplied by two kilograms is three thousandths. -/
theorem C28_unit_ratio_ignored (β : String → ℝ) :
    ∃ r p, recipQty exEnv (.flt .f64) (.f 3) ⟨exKgs (.flt .f64), .f 2⟩ = .ok r ∧
      mulQty exEnv r ⟨exKgs (.flt .f64), .f 2⟩ = .ok p ∧ p.amount β = 3 / 1000 := by
  refine ⟨⟨⟨.unknown [⟨exM, -1, 1⟩], ⟨.scaled ⟨1, 1, -3⟩ "unknown_coherent_unit", ⟨1, 1, -3⟩, "unknown_coherent_unit", [], false, "", none⟩,
        .flt .f64⟩, .f (3 / 2)⟩, ⟨⟨.unknown [], ⟨.scaled ⟨1, 1, -3⟩ "unknown_coherent_unit", ⟨1, 1, -3⟩, "unknown_coherent_unit", [], false, "", none⟩,
        .flt .f64⟩, .f 3⟩, by decide +kernel, by decide +kernel, ?_⟩
  have he : (Dim.unknown []).exps = .ok [] := by decide +kernel
  rw [Qty.amount, Dim.size_eq he]
  norm_num [dimSize, Num.q, Ratio.val, Dim.unit, unknownCoherentUnit, Ratio.one]

end Verif
