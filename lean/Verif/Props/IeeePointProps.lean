import Verif.IeeePoint
import Verif.Props.IeeeOpsProps
import Verif.Props.RepOpsProps
import Verif.Props.ComparableProps

/-!
# Quantity points and quantity kinds with IEEE numbers (C88)
-/

namespace Verif

open FltTy

/-! ### Exact sums and differences of floating point values -/

/-- The sum of two finite values is exact if it is a value of the type. -/
theorem add_of {f : FltTy} {x y : FVal} {w : ℚ} (hx : x.Finite) (hy : y.Finite) (hw : f.rndMag |w| = some |w|) (h : x.q + y.q = w) :
    (x.add f y).Finite ∧ (x.add f y).In f ∧ (x.add f y).q = w := by
  cases x with
  | inf s => exact hx.elim
  | nan => exact hx.elim
  | fin s a =>
    cases y with
    | inf s => exact hy.elim
    | nan => exact hy.elim
    | fin t b =>
      unfold FVal.add
      simp only [h]
      split_ifs with h0
      · rw [h0, abs_zero] at hw
        exact ⟨trivial, ⟨le_refl _, hw⟩, by rw [h0]; cases s <;> cases t <;> simp [FVal.q]⟩
      · unfold FVal.round
        rw [hw]
        refine ⟨trivial, ⟨abs_nonneg _, hw⟩, ?_⟩
        rcases lt_or_ge w 0 with hn | hn
        · simp [hn, FVal.q, abs_of_neg hn]
        · simp [not_lt.mpr hn, FVal.q, abs_of_nonneg hn]

theorem FVal.In.mag {f : FltTy} {x : FVal} (hx : x.In f) (hf : x.Finite) : f.rndMag |x.q| = some |x.q| := by
  obtain ⟨s, m, rfl, -, e⟩ := hf.abs_eq hx
  rw [e]; exact hx.2

/-- The digits of a value. -/
theorem FVal.In.form {f : FltTy} {x : FVal} (hx : x.In f) (hf : x.Finite) :
    ∃ k e : Int, |(k : ℚ)| < 2 ^ f.prec ∧ f.emin - (f.prec - 1) ≤ e ∧ x.q = (k : ℚ) * 2 ^ e := by
  have hm := (rndMag_some.mp (hx.mag hf)).1.symm
  obtain ⟨k, e, h1, h2, h3, h4⟩ := rndU_form (f := f) (abs_nonneg x.q)
  have h1' : (0 : ℚ) ≤ k := by exact_mod_cast h1
  rw [hm] at h4
  rcases le_or_gt 0 x.q with h | h
  · exact ⟨k, e, by rwa [abs_of_nonneg h1'], h3, by rw [← h4, abs_of_nonneg h]⟩
  · refine ⟨-k, e, by push_cast; rwa [abs_neg, abs_of_nonneg h1'], h3, ?_⟩
    rw [abs_of_neg h] at h4
    push_cast; linarith

/-- The difference of two values none of which is less than it is a value (Sterbenz). -/
theorem sterbenz {f : FltTy} {x y : FVal} (ix : x.In f) (iy : y.In f) (hx : x.Finite) (hy : y.Finite) (h1 : |x.q - y.q| ≤ |x.q|)
    (h2 : |x.q - y.q| ≤ |y.q|) : f.rndMag |x.q - y.q| = some |x.q - y.q| := by
  have lt : |x.q - y.q| < 2 ^ f.emax := by
    obtain ⟨s, m, rfl, -, e⟩ := hx.abs_eq ix
    exact h1.trans_lt (by rw [e]; exact ix.lt.2)
  refine rndMag_some.mpr ⟨?_, lt⟩
  obtain ⟨k, e, hk, he, ek⟩ := ix.form hx
  obtain ⟨l, g, hl, hg, el⟩ := iy.form hy
  have main : ∀ (z : ℚ) (j : Int) (d : Int), |z| < 2 ^ f.prec * 2 ^ d → f.emin - (f.prec - 1) ≤ d → z = (j : ℚ) * 2 ^ d → |z| = f.rndU |z| := by
    intro z j d hz hd e
    have ez : |z| = ((|j| : Int) : ℚ) * 2 ^ d := by rw [e, abs_mul, abs_of_pos (two_zpow_pos d)]; push_cast; rfl
    rw [ez] at hz ⊢
    exact (rndU_exact (abs_nonneg j) (lt_of_mul_lt_mul_right hz (two_zpow_pos d).le) hd).symm
  rcases le_total e g with h | h
  · obtain ⟨n, hn⟩ := Int.eq_ofNat_of_zero_le (sub_nonneg.mpr h)
    refine main _ (k - l * 2 ^ n) e (h1.trans_lt ?_) he ?_
    · rw [ek, abs_mul, abs_of_pos (two_zpow_pos e)]; exact mul_lt_mul_of_pos_right hk (two_zpow_pos e)
    · rw [ek, el, show g = n + e by omega, zpow_add₀ (by norm_num), zpow_natCast]; push_cast; ring
  · obtain ⟨n, hn⟩ := Int.eq_ofNat_of_zero_le (sub_nonneg.mpr h)
    refine main _ (k * 2 ^ n - l) g (h2.trans_lt ?_) hg ?_
    · rw [el, abs_mul, abs_of_pos (two_zpow_pos g)]; exact mul_lt_mul_of_pos_right hl (two_zpow_pos g)
    · rw [ek, el, show e = n + g by omega, zpow_add₀ (by norm_num), zpow_natCast]; push_cast; ring

theorem FVal.Finite.neg {x : FVal} (h : x.Finite) : x.neg.Finite := by cases x <;> exact h

theorem FVal.In.neg {f : FltTy} {x : FVal} (h : x.In f) : x.neg.In f := by cases x <;> exact h

/-- The position of a sum of finite values. -/
theorem key_add {f : FltTy} {x y : FVal} (hx : x.Finite) (hy : y.Finite) :
    (x.add f y).key f = roundKey f (x.q + y.q) ∧ (x.add f y).In f ∧ x.add f y ≠ .nan := by
  cases x with
  | inf s => exact hx.elim
  | nan => exact hx.elim
  | fin s a =>
    cases y with
    | inf s => exact hy.elim
    | nan => exact hy.elim
    | fin t b =>
      unfold FVal.add
      simp only
      set w := (FVal.fin s a).q + (FVal.fin t b).q
      split_ifs with h0
      · refine ⟨?_, ⟨le_refl _, ?_⟩, by simp⟩
        · rw [h0]; unfold roundKey; rw [if_neg (lt_irrefl _), posKey_zero]; cases s <;> cases t <;> simp [FVal.key, FVal.q]
        · rw [rndMag_some]; exact ⟨(rndU_zero f).symm, two_zpow_pos _⟩
      · refine ⟨?_, round_in (abs_nonneg w), round_ne_nan⟩
        rw [key_round (abs_nonneg w)]
        congr 1
        rcases lt_or_ge w 0 with hn | hn
        · simp [hn, abs_of_neg hn]
        · simp [not_lt.mpr hn, abs_of_nonneg hn]

/-! ### Operators on points of one type -/

theorem convertQtyI_ty {E : Env} {t : QTy} {q x : QtyI} (h : convertQtyI E t q = .ok x) : x.ty = t := by
  rcases convertQtyI_cases h with ⟨h1, rfl⟩ | ⟨-, -, h1⟩
  · exact h1
  · unfold quantityCastI at h1
    simp only [bind_ok] at h1
    obtain ⟨e, -, h1⟩ := h1
    cases e with
    | false => cases h1
    | true =>
      simp only [if_true, bind_ok, Except.ok.injEq] at h1
      obtain ⟨c, -, n, -, rfl⟩ := h1
      rfl

theorem convertQtyI_self (E : Env) (q : QtyI) : convertQtyI E q.ty q = .ok q := if_pos rfl

/-- Sums and differences of quantities of one floating point type. -/
theorem addSubI_self (E : Env) (sub : Bool) (t : QTy) (f : FltTy) (hf : t.rep = .flt f) (x y : FVal) :
    addSubI E sub ⟨t, .f x⟩ ⟨t, .f y⟩ = .ok ⟨t, .f (x.add f (if sub then y.neg else y))⟩ := by
  unfold addSubI
  have hr : t.rep.arith t.rep = t.rep := by rw [hf]; cases f <;> rfl
  show (commonQty E t t (t.rep.arith t.rep) >>= _) = _
  rw [hr, bo_common_self, ok_bind, show convertQtyI E t ⟨t, .f x⟩ = _ from convertQtyI_self E ⟨t, .f x⟩, ok_bind,
    show convertQtyI E t ⟨t, .f y⟩ = _ from convertQtyI_self E ⟨t, .f y⟩, ok_bind, hf]
  cases sub <;> rfl

theorem mkPointI_same {E : Env} {t : PTy} (hu : t.unit.ref = t.origin.dim.unit.ref) (v : FNum) : mkPointI E t ⟨t.qty, v⟩ = .ok ⟨t, v⟩ := by
  unfold mkPointI
  rw [if_pos hu, show convertQtyI E t.qty ⟨t.qty, v⟩ = _ from convertQtyI_self E ⟨t.qty, v⟩]
  rfl

/-- The sum of a point and a quantity is the point at the sum, of the rebound origin. -/
theorem addSubPointI_ok {E : Env} {R : Rebinds} (hR : R.OK) {sub : Bool} {p r : PtI} {q : QtyI} (h : addSubPointI E R sub p q = .ok r) :
    addSubI E sub p.rel q = .ok r.rel ∧ rebindOrigin R p.ty.origin r.ty.origin.dim = some r.ty.origin := by
  unfold addSubPointI at h
  simp only [bind_ok] at h
  obtain ⟨s, hs, h⟩ := h
  split at h
  swap
  · cases h
  rename_i o ho
  have hd := rebindOrigin_dim hR ho
  have hq : PTy.qty ⟨o, s.ty.unit, s.ty.rep⟩ = s.ty := by unfold PTy.qty; simp only [hd]
  unfold mkPointI at h
  split at h
  swap
  · cases h
  rw [hq, convertQtyI_self] at h
  simp only [ok_bind, Except.ok.injEq] at h
  subst h
  have e : PtI.rel ⟨⟨o, s.ty.unit, s.ty.rep⟩, s.num⟩ = s := by unfold PtI.rel; rw [hq]
  exact ⟨by rw [e]; exact hs, by simp only; rw [hd]; exact ho⟩

/-- Sums of a point and a quantity of the type of its distances from the origin. -/
theorem addSubPointI_self (E : Env) (R : Rebinds) (sub : Bool) (t : PTy) (f : FltTy) (hu : t.unit.ref = t.origin.dim.unit.ref) (hf : t.rep = .flt f)
    (x y : FVal) : addSubPointI E R sub ⟨t, .f x⟩ ⟨t.qty, .f y⟩ = .ok ⟨t, .f (x.add f (if sub then y.neg else y))⟩ := by
  unfold addSubPointI
  rw [show addSubI E sub (PtI.rel ⟨t, .f x⟩) ⟨t.qty, .f y⟩ = _ from addSubI_self E sub t.qty f hf x y, ok_bind]
  have : rebindOrigin R t.origin t.origin.dim = some t.origin := if_pos rfl
  show (match rebindOrigin R t.origin t.origin.dim with
    | some o => mkPointI E ⟨o, t.unit, t.rep⟩ ⟨t.qty, _⟩
    | none => .error .rejected) = _
  rw [this]
  exact mkPointI_same hu _

theorem subPointsI_self (E : Env) (R : Rebinds) (t : PTy) (f : FltTy) (hf : t.rep = .flt f) (x y : FVal) :
    subPointsI E R ⟨t, .f x⟩ ⟨t, .f y⟩ = .ok ⟨t.qty, .f (x.sub f y)⟩ := by
  unfold subPointsI
  rw [show originEquivalent R t.origin t.origin = .ok true from if_pos rfl, ok_bind, if_pos rfl]
  exact addSubI_self E true t.qty f hf x y

theorem comparePointsI_self (E : Env) (R : Rebinds) (t : PTy) (f : FltTy) (hf : t.rep = .flt f) (x y : FVal) :
    comparePointsI E R ⟨t, .f x⟩ ⟨t, .f y⟩ = .ok (x.cmp y) := by
  unfold comparePointsI
  rw [show originEquivalent R t.origin t.origin = .ok true from if_pos rfl, ok_bind, if_pos rfl,
    show comparableQty E t.qty t.qty = .ok true from (C71_symmetric E t.qty t.qty).1, ok_bind, if_pos rfl]
  unfold compareQtyI
  have hr : t.rep.common t.rep = t.rep := by rw [hf]; cases f <;> rfl
  have hw : t.rep.threeWay t.rep = true := by rw [hf]; rfl
  rw [show (PtI.rel ⟨t, .f x⟩).ty.rep.threeWay (PtI.rel ⟨t, .f y⟩).ty.rep = true from hw, if_pos rfl]
  show (commonQty E t.qty t.qty (t.rep.common t.rep) >>= _) = _
  rw [hr, show commonQty E t.qty t.qty t.rep = .ok t.qty from bo_common_self t.qty, ok_bind,
    show convertQtyI E t.qty (PtI.rel ⟨t, .f x⟩) = _ from convertQtyI_self E ⟨t.qty, .f x⟩, ok_bind,
    show convertQtyI E t.qty (PtI.rel ⟨t, .f y⟩) = _ from convertQtyI_self E ⟨t.qty, .f y⟩, ok_bind]
  rfl

theorem eqPointsI_of_compare {E : Env} {R : Rebinds} {a b : PtI} {o : Option Ordering} (h : comparePointsI E R a b = .ok o) :
    eqPointsI E R a b = .ok (decide (o = some .eq)) := by
  unfold comparePointsI at h
  simp only [bind_ok] at h
  obtain ⟨e, he, h⟩ := h
  cases e with
  | false => cases h
  | true =>
    simp only [if_true, bind_ok] at h
    obtain ⟨c, hc, h⟩ := h
    cases c with
    | false => cases h
    | true =>
      simp only [if_true] at h
      unfold eqPointsI
      rw [he, ok_bind, if_pos rfl, hc, ok_bind, if_pos rfl]
      exact C70_eq_agrees E a.rel b.rel o h

theorem compoundI_flt (op : BinOp) (f : FltTy) (x y : FVal) : compoundI op (.flt f) (.flt f) (.f x) (.f y) = (FVal.op f op x y).map FNum.f := by
  have hr : (Rep.flt f).arith (.flt f) = .flt f := by cases f <;> rfl
  have hc : ∀ v, convI (.flt f) (.flt f) v = .ok v := fun v => if_pos rfl
  unfold compoundI numOpI
  rw [hr, hc, ok_bind, hc, ok_bind]
  cases op <;> first | (show convI _ _ (.f _) = _; rw [hc]; rfl) | rfl

theorem compoundI_int (op : BinOp) (f : FltTy) (x : FVal) (t : IntTy) (k : Int) :
    compoundI op (.flt f) (.int t) (.f x) (.i k) = (FVal.op f op x (FVal.ofInt f k)).map FNum.f := by
  have hr : (Rep.flt f).arith (.int t) = .flt f := rfl
  have hc : ∀ v, convI (.flt f) (.flt f) v = .ok v := fun v => if_pos rfl
  unfold compoundI numOpI
  rw [hr, hc, ok_bind, show convI (.int t) (.flt f) (.i k) = .ok (.f (FVal.ofInt f k)) from if_neg (by simp), ok_bind]
  cases op <;> first | (show convI _ _ (.f _) = _; rw [hc]; rfl) | rfl

/-- A whole number of moderate size is a value. -/
theorem rndMag_whole {f : FltTy} {k : Int} (hk : |k| ≤ 2 ^ f.prec.toNat) : f.rndMag |(k : ℚ)| = some |(k : ℚ)| := by
  have hp := f.one_le_prec
  have e : |(k : ℚ)| = ((|k| : Int) : ℚ) := by push_cast; rfl
  have pp : ((2 ^ f.prec.toNat : Int) : ℚ) = 2 ^ f.prec := by
    push_cast; rw [← zpow_natCast]; congr 1; omega
  rcases hk.lt_or_eq with h | h
  · rw [e]
    refine rndMag_int (abs_nonneg k) ?_
    rw [← pp]; exact_mod_cast h
  · rw [e, h, pp, rndMag_some]
    have := rndU_exact (f := f) (k := 1) (e := f.prec) (by norm_num) (by simpa using two_zpow_lt (show 0 < f.prec by omega))
      (by have := f.emin_neg; omega)
    refine ⟨by simpa using this.symm, two_zpow_lt (by cases f <;> decide)⟩

/-- A point above the sea, in kilometres. -/
abbrev exSeaKm : PTy := ⟨exSea, exKm, .flt .f64⟩

/-- A tenth of a kilometre above the sea, as nearly as a `double` can tell. -/
def exTenthPt : PtI := ⟨exSeaKm, .f (.fin false (3602879701896397 / 2 ^ 55))⟩

/-- A point above the sea in centimetres. -/
def exCmPt (v : ℚ) : PtI := ⟨⟨exSea, exCmUnit, .flt .f64⟩, .f (.fin false v)⟩

theorem exTenthPt_pos (β : String → ℝ) : exTenthPt.pos β = 3602879701896397 / 2 ^ 55 * (1000 * β "metre") := by
  rw [← exKms_size β (.flt .f64)]; simp only [PtI.pos, PtI.rel, QtyI.amount, exTenthPt, FNum.q, FVal.q]; push_cast; norm_num; rfl

theorem exCmPt_pos (β : String → ℝ) (v : ℚ) : (exCmPt v).pos β = v * (β "metre" / 100) := by
  rw [← exCmSi_size β (.flt .f64)]; simp only [PtI.pos, PtI.rel, QtyI.amount, exCmPt, FNum.q, FVal.q]; rfl

theorem exCmI_amount (β : String → ℝ) (v : Int) : (exCmI v).amount β = v * (β "metre" / 100) := by
  rw [← exCms_size β (.int .i64)]; simp only [QtyI.amount, exCmI, FNum.q]; push_cast; rfl

theorem exBig : (2 : ℝ) ^ 20 ≤ 2 ^ (FltTy.f64.emax - 2) := by
  rw [← zpow_natCast]; exact zpow_le_zpow_right₀ (by norm_num) (by decide)

theorem exPt_exp : ExpLe exEnv.est (exCmSi (.flt .f64)) (exKms (.flt .f64)) 5 ∧ ExpLe exEnv.est (exCmSi (.flt .f64)) (exCmSi (.flt .f64)) 5 := by
  refine ⟨exTenth_exp.1, fun c h => ?_⟩
  rw [show castRatio exEnv.est (exCmSi (.flt .f64)).dim (exCmSi (.flt .f64)).unit (exCmSi (.flt .f64)).dim (exCmSi (.flt .f64)).unit =
    .ok ⟨1, 1, 0⟩ by decide +kernel] at h
  cases h; decide

/-! ## C88 -/

/-- C88: a sum or difference of a point and a quantity, in any units, is a finite point of the same origin (rebound to the common dimension), and its
position differs from the exact one by at most the rounding errors of the two conversions and of the sum.  Partial as `C70_sum_partial`: the exponents
of the conversion ratios are limited, and `Related`. -/
theorem C88_translate_partial (E : Env) (hE : E.OK) (R : Rebinds) (hR : R.OK) (β : String → ℝ) (hβ : Sizes β) (sub : Bool) (p r : PtI) (q : QtyI)
    (f : FltTy) (n : ℕ) (gp : p.ty.qty.Good E) (gq : q.ty.Good E) (hr : Related β p.ty.qty q.ty) (tp : p.num.Typed p.ty.rep)
    (tq : q.num.Typed q.ty.rep) (fp : p.num.Finite) (fq : q.num.Finite) (hf : p.ty.rep.arith q.ty.rep = .flt f) (hns : n ≤ f.safeExp)
    (h : addSubPointI E R sub p q = .ok r) (na : ExpLe E.est r.ty.qty p.ty.qty n) (nb : ExpLe E.est r.ty.qty q.ty n)
    (hb : |p.pos β| + |q.amount β| ≤ 2 ^ (f.emax - 2) * r.ty.qty.size β) :
    rebindOrigin R p.ty.origin r.ty.origin.dim = some r.ty.origin ∧ (r.ty.origin.dim = p.ty.origin.dim → r.ty.origin = p.ty.origin) ∧
      r.num.Typed (.flt f) ∧ r.num.Finite ∧
      |r.pos β - (if sub then p.pos β - q.amount β else p.pos β + q.amount β)| ≤
        gammaErr f (n + 7) * (|p.pos β| + |q.amount β|) + 3 * f.tiny * r.ty.qty.size β := by
  obtain ⟨hs, ho⟩ := addSubPointI_ok hR h
  obtain ⟨-, h1, h2, h3⟩ := C70_sum_partial E hE β hβ sub p.rel q r.rel f n gp gq hr tp tq fp fq hf hns hs na nb hb
  refine ⟨ho, fun hd => ?_, h1, h2, h3⟩
  rw [hd] at ho
  unfold rebindOrigin at ho
  rw [if_pos rfl] at ho
  exact (Option.some.inj ho).symm

theorem exTranslate : addSubPointI exEnv exNoRebind false exTenthPt (exCmI 5) = .ok (exCmPt 10005) := by decide +kernel

/-- 0.1 km above the sea and 5 cm more: 10005 cm above the sea, within the error the theorem allows. -/
example (β : String → ℝ) (hβ : Sizes β) :
    |(exCmPt 10005).pos β - (exTenthPt.pos β + (exCmI 5).amount β)| ≤
      gammaErr .f64 (5 + 7) * (|exTenthPt.pos β| + |(exCmI 5).amount β|) + 3 * FltTy.f64.tiny * (exCmSi (.flt .f64)).size β := by
  have m := hβ "metre"
  refine (C88_translate_partial exEnv exEnv_ok exNoRebind exNoRebind_ok β hβ false exTenthPt _ (exCmI 5) .f64 5 (exKms_good _ _) (exCms_good _ _)
    (exKm_cm_related β _ _) ⟨.f64, rfl, by norm_num, by decide +kernel⟩ ⟨.i64, rfl, by decide⟩ trivial trivial rfl (by decide) exTranslate exPt_exp.1
    (exTenth_exp.2 5) ?_).2.2.2.2
  rw [exTenthPt_pos, exCmI_amount, show (exCmPt 10005).ty.qty.size β = _ from exCmSi_size β (.flt .f64), abs_of_pos (by positivity),
    abs_of_pos (by push_cast; positivity)]
  have := mul_le_mul_of_nonneg_right exBig (by positivity : 0 ≤ β "metre" / 100)
  push_cast
  linarith

/-- C88: the difference of two points of equivalent origins, in any units, differs from the exact one by at most the rounding errors of the two
conversions and of the subtraction.  Partial as `C70_sum_partial`. -/
theorem C88_difference_partial (E : Env) (hE : E.OK) (R : Rebinds) (β : String → ℝ) (hβ : Sizes β) (a b : PtI) (d : QtyI)
    (f : FltTy) (n : ℕ) (ga : a.ty.qty.Good E) (gb : b.ty.qty.Good E) (hr : Related β a.ty.qty b.ty.qty) (ta : a.num.Typed a.ty.rep)
    (tb : b.num.Typed b.ty.rep) (fa : a.num.Finite) (fb : b.num.Finite) (hf : a.ty.rep.arith b.ty.rep = .flt f) (hns : n ≤ f.safeExp)
    (h : subPointsI E R a b = .ok d) (na : ExpLe E.est d.ty a.ty.qty n) (nb : ExpLe E.est d.ty b.ty.qty n)
    (hb : |a.pos β| + |b.pos β| ≤ 2 ^ (f.emax - 2) * d.ty.size β) :
    originEquivalent R b.ty.origin a.ty.origin = .ok true ∧ IsCommonSize (a.ty.qty.size β) (b.ty.qty.size β) (d.ty.size β) ∧
      d.num.Typed (.flt f) ∧ d.num.Finite ∧
      |d.amount β - (a.pos β - b.pos β)| ≤ gammaErr f (n + 7) * (|a.pos β| + |b.pos β|) + 3 * f.tiny * d.ty.size β := by
  unfold subPointsI at h
  simp only [bind_ok] at h
  obtain ⟨e, he, h⟩ := h
  cases e with
  | false => cases h
  | true =>
    rw [if_pos rfl] at h
    exact ⟨he, C70_sum_partial E hE β hβ true a.rel b.rel d f n ga gb hr ta tb fa fb hf hns h na nb hb⟩

theorem exDifference : subPointsI exEnv exNoRebind (exCmPt 10005) exTenthPt = .ok ⟨exCmSi (.flt .f64), .f (.fin false 5)⟩ := by decide +kernel

theorem exCmKm_related (β : String → ℝ) : Related β (exCmSi (.flt .f64)) (exKms (.flt .f64)) := Related.refl rfl

theorem exCmSi_goodF (E : Env) : (exCmSi (.flt .f64)).Good E :=
  ⟨exL_good, ⟨⟨by decide, by decide, fun _ => by decide, by decide, by decide, by decide, by decide, by decide⟩, by decide⟩, rfl, base_rooted _ _⟩

/-- The difference of 10005 cm and 0.1 km above the sea. -/
example (β : String → ℝ) (hβ : Sizes β) :
    |(⟨exCmSi (.flt .f64), .f (.fin false 5)⟩ : QtyI).amount β - ((exCmPt 10005).pos β - exTenthPt.pos β)| ≤
      gammaErr .f64 (5 + 7) * (|(exCmPt 10005).pos β| + |exTenthPt.pos β|) + 3 * FltTy.f64.tiny * (exCmSi (.flt .f64)).size β := by
  have m := hβ "metre"
  refine (C88_difference_partial exEnv exEnv_ok exNoRebind β hβ (exCmPt 10005) exTenthPt _ .f64 5 (exCmSi_goodF _) (exKms_good _ _)
    (exCmKm_related β) ⟨.f64, rfl, by norm_num, by decide +kernel⟩ ⟨.f64, rfl, by norm_num, by decide +kernel⟩ trivial trivial rfl (by decide)
    exDifference exPt_exp.2 exPt_exp.1 ?_).2.2.2.2
  rw [exTenthPt_pos, exCmPt_pos, show QTy.size β (exCmSi (.flt .f64)) = _ from exCmSi_size β (.flt .f64), abs_of_pos (by positivity), abs_of_pos (by positivity)]
  have := mul_le_mul_of_nonneg_right exBig (by positivity : 0 ≤ β "metre" / 100)
  push_cast
  linarith

/-- C88: `(p + q) - p` differs from `q` by at most the rounding errors of the two operations.  Partial as `C70_sum_partial`. -/
theorem C88_add_sub_partial (E : Env) (hE : E.OK) (R : Rebinds) (hR : R.OK) (β : String → ℝ) (hβ : Sizes β) (p r : PtI) (q d : QtyI)
    (f : FltTy) (n : ℕ) (gp : p.ty.qty.Good E) (gq : q.ty.Good E) (hr : Related β p.ty.qty q.ty) (tp : p.num.Typed p.ty.rep)
    (tq : q.num.Typed q.ty.rep) (fp : p.num.Finite) (fq : q.num.Finite) (hf : p.ty.rep.arith q.ty.rep = .flt f) (hns : n ≤ f.safeExp)
    (h : addSubPointI E R false p q = .ok r) (na : ExpLe E.est r.ty.qty p.ty.qty n) (nb : ExpLe E.est r.ty.qty q.ty n)
    (hb : |p.pos β| + |q.amount β| ≤ 2 ^ (f.emax - 2) * r.ty.qty.size β)
    (gr : r.ty.qty.Good E) (hr' : Related β r.ty.qty p.ty.qty) (hf' : r.ty.rep.arith p.ty.rep = .flt f) (h' : subPointsI E R r p = .ok d)
    (na' : ExpLe E.est d.ty r.ty.qty n) (nb' : ExpLe E.est d.ty p.ty.qty n) (hb' : |r.pos β| + |p.pos β| ≤ 2 ^ (f.emax - 2) * d.ty.size β) :
    d.num.Finite ∧ |d.amount β - q.amount β| ≤ gammaErr f (n + 7) * (|p.pos β| + |q.amount β| + (|r.pos β| + |p.pos β|)) +
      3 * f.tiny * (r.ty.qty.size β + d.ty.size β) := by
  obtain ⟨-, -, t1, f1, e1⟩ := C88_translate_partial E hE R hR β hβ false p r q f n gp gq hr tp tq fp fq hf hns h na nb hb
  have hrep : r.ty.rep = .flt f := by
    obtain ⟨hs, -⟩ := addSubPointI_ok hR h
    unfold addSubI at hs
    simp only [bind_ok, Except.ok.injEq] at hs
    obtain ⟨t, ht, x, -, y, -, z, -, e⟩ := hs
    have : r.rel.ty = t := by rw [← e]
    obtain ⟨-, k, -⟩ := commonQty_sound hE hβ gp gq hr ht
    rw [← this] at k
    exact k.trans hf
  obtain ⟨-, -, -, f2, e2⟩ := C88_difference_partial E hE R β hβ r p d f n gr gp hr' (by rw [hrep]; exact t1) tp f1 fp hf' hns h' na' nb' hb'
  refine ⟨f2, ?_⟩
  rw [if_neg (by simp)] at e1
  have := abs_add_le (d.amount β - (r.pos β - p.pos β)) (r.pos β - (p.pos β + q.amount β))
  rw [show d.amount β - (r.pos β - p.pos β) + (r.pos β - (p.pos β + q.amount β)) = d.amount β - q.amount β by ring] at this
  linarith

/-- The two steps above put together: the 5 cm come back within the error the theorem allows. -/
example (β : String → ℝ) (hβ : Sizes β) :
    |(⟨exCmSi (.flt .f64), .f (.fin false 5)⟩ : QtyI).amount β - (exCmI 5).amount β| ≤
      gammaErr .f64 (5 + 7) * (|exTenthPt.pos β| + |(exCmI 5).amount β| + (|(exCmPt 10005).pos β| + |exTenthPt.pos β|)) +
        3 * FltTy.f64.tiny * ((exCmSi (.flt .f64)).size β + (exCmSi (.flt .f64)).size β) := by
  have m := hβ "metre"
  have big := mul_le_mul_of_nonneg_right exBig (by positivity : 0 ≤ β "metre" / 100)
  refine (C88_add_sub_partial exEnv exEnv_ok exNoRebind exNoRebind_ok β hβ exTenthPt _ (exCmI 5) _ .f64 5 (exKms_good _ _) (exCms_good _ _)
    (exKm_cm_related β _ _) ⟨.f64, rfl, by norm_num, by decide +kernel⟩ ⟨.i64, rfl, by decide⟩ trivial trivial rfl (by decide) exTranslate exPt_exp.1
    (exTenth_exp.2 5) ?_ (exCmSi_goodF _) (exCmKm_related β) rfl exDifference exPt_exp.2 exPt_exp.1 ?_).2
  · rw [exTenthPt_pos, exCmI_amount, show (exCmPt 10005).ty.qty.size β = _ from exCmSi_size β (.flt .f64), abs_of_pos (by positivity),
      abs_of_pos (by push_cast; positivity)]
    push_cast
    linarith
  · rw [exTenthPt_pos, exCmPt_pos, show QTy.size β (exCmSi (.flt .f64)) = _ from exCmSi_size β (.flt .f64), abs_of_pos (by positivity),
      abs_of_pos (by positivity)]
    push_cast
    linarith

/-- C88: the unchanged code need not give the quantity back: a metre added to a point about a thousand light years away (2^63 m) is lost, although every
number is exact. -/
theorem C88_add_sub_loses (E : Env) (R : Rebinds) :
    addSubPointI E R false ⟨⟨exSea, exMetre, .flt .f64⟩, .f (.fin false (2 ^ 63))⟩ ⟨⟨.base exL, exMetre, .flt .f64⟩, .f (.fin false 1)⟩ =
      .ok ⟨⟨exSea, exMetre, .flt .f64⟩, .f (.fin false (2 ^ 63))⟩ ∧
    subPointsI E R ⟨⟨exSea, exMetre, .flt .f64⟩, .f (.fin false (2 ^ 63))⟩ ⟨⟨exSea, exMetre, .flt .f64⟩, .f (.fin false (2 ^ 63))⟩ =
      .ok ⟨⟨.base exL, exMetre, .flt .f64⟩, .f (.fin false 0)⟩ := by
  refine ⟨(addSubPointI_self E R false ⟨exSea, exMetre, .flt .f64⟩ .f64 rfl rfl _ _).trans ?_,
    (subPointsI_self E R ⟨exSea, exMetre, .flt .f64⟩ .f64 rfl _ _).trans ?_⟩
  · decide +kernel
  · decide +kernel

/-- C88: points that are further apart than the rounding errors of the conversions are compared correctly.  Partial as `C70_separated_partial`. -/
theorem C88_separated_partial (E : Env) (hE : E.OK) (R : Rebinds) (β : String → ℝ) (hβ : Sizes β) (a b : PtI) (t : QTy) (f : FltTy) (n : ℕ)
    (o : Option Ordering) (ga : a.ty.qty.Good E) (gb : b.ty.qty.Good E) (hr : Related β a.ty.qty b.ty.qty) (ta : a.num.Typed a.ty.rep)
    (tb : b.num.Typed b.ty.rep) (fa : a.num.Finite) (fb : b.num.Finite) (ht : commonQty E a.ty.qty b.ty.qty (a.ty.rep.common b.ty.rep) = .ok t)
    (hf : a.ty.rep.common b.ty.rep = .flt f) (hns : n ≤ f.safeExp) (na : ExpLe E.est t a.ty.qty n) (nb : ExpLe E.est t b.ty.qty n)
    (ba : |a.pos β| ≤ 2 ^ (f.emax - 2) * t.size β) (bb : |b.pos β| ≤ 2 ^ (f.emax - 2) * t.size β)
    (h : comparePointsI E R a b = .ok o) :
    originEquivalent R b.ty.origin a.ty.origin = .ok true ∧ eqPointsI E R a b = .ok (decide (o = some .eq)) ∧
    (a.pos β + (gammaErr f (n + 6) * (|a.pos β| + |b.pos β|) + 2 * f.tiny * t.size β) < b.pos β → o = some .lt) ∧
    (b.pos β + (gammaErr f (n + 6) * (|a.pos β| + |b.pos β|) + 2 * f.tiny * t.size β) < a.pos β → o = some .gt) ∧ o ≠ none := by
  have hq := eqPointsI_of_compare h
  unfold comparePointsI at h
  simp only [bind_ok] at h
  obtain ⟨e, he, h⟩ := h
  cases e with
  | false => cases h
  | true =>
    simp only [if_true, bind_ok] at h
    obtain ⟨c, hc, h⟩ := h
    cases c with
    | false => cases h
    | true =>
      simp only [if_true] at h
      exact ⟨he, hq, C70_separated_partial E hE β hβ a.rel b.rel t f n o ga gb hr ta tb fa fb ht hf hns na nb ba bb h⟩

/-- 0.1 km is below 10005 cm, and they are further apart than the errors. -/
example (β : String → ℝ) (hβ : Sizes β) (h : comparePointsI exEnv exNoRebind exTenthPt (exCmPt 10005) = .ok (some .lt)) :
    eqPointsI exEnv exNoRebind exTenthPt (exCmPt 10005) = .ok false := by
  have m := hβ "metre"
  have big := mul_le_mul_of_nonneg_right exBig (by positivity : 0 ≤ β "metre" / 100)
  refine (C88_separated_partial exEnv exEnv_ok exNoRebind β hβ exTenthPt (exCmPt 10005) (exCmSi (.flt .f64)) .f64 5 _ (exKms_good _ _) (exCmSi_goodF _)
    (Related.refl rfl) ⟨.f64, rfl, by norm_num, by decide +kernel⟩ ⟨.f64, rfl, by norm_num, by decide +kernel⟩ trivial trivial (by decide +kernel) rfl
    (by decide) exPt_exp.1 exPt_exp.2 ?_ ?_ h).2.1
  · rw [exTenthPt_pos, exCmSi_size, abs_of_pos (by positivity)]
    linarith
  · rw [exCmPt_pos, exCmSi_size, abs_of_pos (by positivity)]
    push_cast
    linarith

example : comparePointsI exEnv exNoRebind exTenthPt (exCmPt 10005) = .ok (some .lt) ∧
    comparePointsI exEnv exNoRebind exTenthPt (exCmPt 10000) = .ok (some .eq) := by decide +kernel

/-- C88: a point that is not a number is unordered with every point and equal to none, and sums and differences with it are no numbers. -/
theorem C88_nan (E : Env) (R : Rebinds) (hR : R.OK) (a b : PtI) (ta : a.num.Typed a.ty.rep) (tb : b.num.Typed b.ty.rep)
    (h : a.num = .f .nan ∨ b.num = .f .nan) :
    (∀ o, comparePointsI E R a b = .ok o → o = none) ∧ (∀ e, eqPointsI E R a b = .ok e → e = false) ∧
      (∀ d, subPointsI E R a b = .ok d → d.num = .f .nan) ∧
      (∀ sub r, addSubPointI E R sub a b.rel = .ok r → r.num = .f .nan) := by
  obtain ⟨h1, h2, h3⟩ := C70_nan E a.rel b.rel ta tb h
  refine ⟨fun o h => ?_, fun e h => ?_, fun d h => ?_, fun sub r h => ?_⟩
  · unfold comparePointsI at h
    simp only [bind_ok] at h
    obtain ⟨e, he, h⟩ := h
    split at h
    · simp only [bind_ok] at h
      obtain ⟨c, hc, h⟩ := h
      split at h
      · exact h1 o h
      · cases h
    · cases h
  · unfold eqPointsI at h
    simp only [bind_ok] at h
    obtain ⟨e, he, h⟩ := h
    split at h
    · simp only [bind_ok] at h
      obtain ⟨c, hc, h⟩ := h
      split at h
      · exact h2 _ h
      · cases h
    · cases h
  · unfold subPointsI at h
    simp only [bind_ok] at h
    obtain ⟨e, he, h⟩ := h
    split at h
    · exact h3 _ _ h
    · cases h
  · exact h3 _ _ (addSubPointI_ok hR h).1

example : comparePointsI exEnv exNoRebind ⟨exSeaKm, .f .nan⟩ (exCmPt 5) = .ok none ∧
    eqPointsI exEnv exNoRebind ⟨exSeaKm, .f .nan⟩ ⟨exSeaKm, .f .nan⟩ = .ok false ∧
    subPointsI exEnv exNoRebind (exCmPt 5) ⟨exSeaKm, .f .nan⟩ = .ok ⟨exCmSi (.flt .f64), .f .nan⟩ := by decide +kernel

/-- C88: the difference of two points of one floating point type that are nearer to each other than to the origin (for positions on one side of the
origin: within a factor of two) is exact, and adding it to the second point gives the position of the first point back, without any rounding. -/
theorem C88_near_exact (E : Env) (R : Rebinds) (β : String → ℝ) (t : PTy) (f : FltTy) (hu : t.unit.ref = t.origin.dim.unit.ref) (hf : t.rep = .flt f)
    (x y : FVal) (ix : x.In f) (iy : y.In f) (fx : x.Finite) (fy : y.Finite)
    (h1 : |(⟨t, .f x⟩ : PtI).pos β - (⟨t, .f y⟩ : PtI).pos β| ≤ |(⟨t, .f x⟩ : PtI).pos β|)
    (h2 : |(⟨t, .f x⟩ : PtI).pos β - (⟨t, .f y⟩ : PtI).pos β| ≤ |(⟨t, .f y⟩ : PtI).pos β|) (hs : 0 < t.qty.size β) :
    ∃ z w : FVal, subPointsI E R ⟨t, .f x⟩ ⟨t, .f y⟩ = .ok ⟨t.qty, .f z⟩ ∧ z.Finite ∧ z.In f ∧
      (⟨t.qty, .f z⟩ : QtyI).amount β = (⟨t, .f x⟩ : PtI).pos β - (⟨t, .f y⟩ : PtI).pos β ∧
      addSubPointI E R false ⟨t, .f y⟩ ⟨t.qty, .f z⟩ = .ok ⟨t, .f w⟩ ∧ w.Finite ∧ w.q = x.q ∧
      eqPointsI E R ⟨t, .f w⟩ ⟨t, .f x⟩ = .ok true := by
  have toQ : ∀ u v : ℚ, |(u : ℝ) * t.qty.size β| ≤ |(v : ℝ) * t.qty.size β| → |u| ≤ |v| := by
    intro u v h
    rw [abs_mul, abs_mul, abs_of_pos hs] at h
    exact_mod_cast le_of_mul_le_mul_right h hs
  have e : (⟨t, .f x⟩ : PtI).pos β - (⟨t, .f y⟩ : PtI).pos β = ((x.q - y.q : ℚ) : ℝ) * t.qty.size β := by
    simp only [PtI.pos, PtI.rel, QtyI.amount, FNum.q]; push_cast; ring
  rw [e] at h1 h2
  have q1 := toQ _ _ h1
  have q2 := toQ _ _ h2
  have st := sterbenz ix iy fx fy q1 q2
  obtain ⟨a1, a2, a3⟩ := add_of (f := f) fx fy.neg st (by rw [FVal.neg_q]; ring)
  obtain ⟨b1, b2, b3⟩ := add_of (f := f) fy a1 (ix.mag fx) (by rw [a3]; ring)
  refine ⟨x.sub f y, y.add f (x.sub f y), subPointsI_self E R t f hf x y, a1, a2, ?_, ?_, b1, b3, ?_⟩
  · rw [e]; show (((x.add f y.neg).q : ℚ) : ℝ) * _ = _; rw [a3]
  · rw [addSubPointI_self E R false t f hu hf]; rfl
  · have c := comparePointsI_self E R t f hf (y.add f (x.sub f y)) x
    rw [eqPointsI_of_compare c]
    have k := (cmp_key b2 ix b1.ne_nan fx.ne_nan).2.1 (by rw [FVal.key_fin b1, FVal.key_fin fx]; exact b3)
    rw [show (y.add f (x.sub f y)).cmp x = some .eq from k]; rfl

/-- 0.3 km and 0.2 km above the sea: `0.3 - 0.2` is not `0.1`, but exactly the difference of the two numbers, and adding it gives 0.3 back. -/
example (β : String → ℝ) (hβ : Sizes β) :
    ∃ z w : FVal, subPointsI exEnv exNoRebind ⟨exSeaKm, .f (.fin false (5404319552844595 / 2 ^ 54))⟩ ⟨exSeaKm, .f (.fin false (3602879701896397 / 2 ^ 54))⟩ =
      .ok ⟨exKms (.flt .f64), .f z⟩ ∧
      addSubPointI exEnv exNoRebind false ⟨exSeaKm, .f (.fin false (3602879701896397 / 2 ^ 54))⟩ ⟨exKms (.flt .f64), .f z⟩ = .ok ⟨exSeaKm, .f w⟩ ∧
      w.q = 5404319552844595 / 2 ^ 54 := by
  have m := hβ "metre"
  have sz : exSeaKm.qty.size β = 1000 * β "metre" := exKms_size β (.flt .f64)
  have e : ∀ v : ℚ, (⟨exSeaKm, .f (.fin false v)⟩ : PtI).pos β = v * (1000 * β "metre") := by
    intro v; rw [← sz]; rfl
  obtain ⟨z, w, h1, -, -, -, h2, -, h3, -⟩ := C88_near_exact exEnv exNoRebind β exSeaKm .f64 rfl rfl (.fin false (5404319552844595 / 2 ^ 54))
    (.fin false (3602879701896397 / 2 ^ 54)) ⟨by norm_num, by decide +kernel⟩ ⟨by norm_num, by decide +kernel⟩ trivial trivial (by
      rw [e, e]; push_cast; rw [abs_of_pos (by linarith), abs_of_pos (by positivity)]; linarith) (by
      rw [e, e]; push_cast; rw [abs_of_pos (by linarith), abs_of_pos (by positivity)]; linarith) (by rw [sz]; positivity)
  exact ⟨z, w, h1, h2, h3⟩

/-- C88: moving two points of one floating point type by the same quantity never reverses their order, but it may make them equal
(`C88_order_may_be_lost`). -/
theorem C88_order_kept (E : Env) (R : Rebinds) (t : PTy) (f : FltTy) (hu : t.unit.ref = t.origin.dim.unit.ref) (hf : t.rep = .flt f) (sub : Bool)
    (x y v : FVal) (ix : x.In f) (iy : y.In f) (fx : x.Finite) (fy : y.Finite) (fv : v.Finite) (o : Ordering)
    (h : comparePointsI E R ⟨t, .f x⟩ ⟨t, .f y⟩ = .ok (some o)) :
    ∃ a b o', addSubPointI E R sub ⟨t, .f x⟩ ⟨t.qty, .f v⟩ = .ok a ∧ addSubPointI E R sub ⟨t, .f y⟩ ⟨t.qty, .f v⟩ = .ok b ∧
      comparePointsI E R a b = .ok (some o') ∧ (o' = o ∨ o' = .eq) := by
  rw [comparePointsI_self E R t f hf, Except.ok.injEq] at h
  set w := if sub then v.neg else v with hw
  have fw : w.Finite := by rw [hw]; split_ifs; exacts [fv.neg, fv]
  refine ⟨⟨t, .f (x.add f w)⟩, ⟨t, .f (y.add f w)⟩, ?_⟩
  obtain ⟨c1, c2, c3⟩ := cmp_key ix iy fx.ne_nan fy.ne_nan
  rw [FVal.key_fin fx, FVal.key_fin fy] at c1 c2 c3
  obtain ⟨kx, jx, nx⟩ := key_add (f := f) fx fw
  obtain ⟨ky, jy, ny⟩ := key_add (f := f) fy fw
  obtain ⟨d1, d2, d3⟩ := cmp_key jx jy nx ny
  have key : ∃ o', (x.add f w).cmp (y.add f w) = some o' ∧ (o' = o ∨ o' = .eq) := by
    rcases lt_trichotomy x.q y.q with hl | hl | hl
    · rw [c1 hl, Option.some.injEq] at h; subst h
      have := roundKey_mono (f := f) (add_le_add_left hl.le w.q)
      rcases this.lt_or_eq with g | g
      · exact ⟨_, d1 (by rw [kx, ky]; exact g), Or.inl rfl⟩
      · exact ⟨_, d2 (by rw [kx, ky]; exact g), Or.inr rfl⟩
    · rw [c2 hl, Option.some.injEq] at h; subst h
      exact ⟨_, d2 (by rw [kx, ky, hl]), Or.inl rfl⟩
    · rw [c3 hl, Option.some.injEq] at h; subst h
      have := roundKey_mono (f := f) (add_le_add_left hl.le w.q)
      rcases this.lt_or_eq with g | g
      · exact ⟨_, d3 (by rw [kx, ky]; exact g), Or.inl rfl⟩
      · exact ⟨_, d2 (by rw [kx, ky]; exact g.symm), Or.inr rfl⟩
  obtain ⟨o', h1, h2⟩ := key
  exact ⟨o', addSubPointI_self E R sub t f hu hf x v, addSubPointI_self E R sub t f hu hf y v,
    by rw [comparePointsI_self E R t f hf, h1], h2⟩

/-- C88: moving two different points by the same quantity may make them equal. -/
theorem C88_order_may_be_lost (E : Env) (R : Rebinds) :
    comparePointsI E R ⟨exSeaKm, .f (.fin false 1)⟩ ⟨exSeaKm, .f (.fin false (1 + 1 / 2 ^ 52))⟩ = .ok (some .lt) ∧
    ∃ a b, addSubPointI E R false ⟨exSeaKm, .f (.fin false 1)⟩ ⟨exSeaKm.qty, .f (.fin false 1)⟩ = .ok a ∧
      addSubPointI E R false ⟨exSeaKm, .f (.fin false (1 + 1 / 2 ^ 52))⟩ ⟨exSeaKm.qty, .f (.fin false 1)⟩ = .ok b ∧
      comparePointsI E R a b = .ok (some .eq) := by
  refine ⟨(comparePointsI_self E R exSeaKm .f64 rfl _ _).trans (by decide +kernel), _, _,
    addSubPointI_self E R false exSeaKm .f64 rfl rfl _ _, addSubPointI_self E R false exSeaKm .f64 rfl rfl _ _,
    (comparePointsI_self E R exSeaKm .f64 rfl _ _).trans (by decide +kernel)⟩

/-- C88: conversion of a point to another floating point type of points keeps its position, up to the rounding errors of one conversion.  Partial as
`C70_sum_partial`. -/
theorem C88_convert_partial (E : Env) (R : Rebinds) (β : String → ℝ) (hβ : Sizes β) (t : PTy) (p r : PtI) (f : FltTy) (n : ℕ) (gp : p.ty.qty.Good E)
    (gt : t.qty.Good E) (hco : Coherent β p.ty.origin.dim t.origin.dim) (tp : p.num.Typed p.ty.rep) (fp : p.num.Finite) (ht : t.rep = .flt f)
    (hf : castRep p.ty.rep (.flt f) = .flt f) (hn : ExpLe E.est t.qty p.ty.qty n) (hns : n ≤ f.safeExp)
    (hb : |p.pos β| ≤ 2 ^ (f.emax - 2) * t.qty.size β) (h : convertPointI E R t p = .ok r) :
    r.ty = t ∧ originEquivalent R p.ty.origin t.origin = .ok true ∧ r.num.Typed (.flt f) ∧ r.num.Finite ∧
      |r.pos β - p.pos β| ≤ gammaErr f (n + 6) * |p.pos β| + f.tiny * t.qty.size β := by
  have key : ∀ x, convertQtyI E t.qty p.rel = .ok x → ∃ y : FVal, x.num = .f y ∧ y.Finite ∧ y.In f ∧
      |(⟨t, x.num⟩ : PtI).pos β - p.pos β| ≤ gammaErr f (n + 6) * |p.pos β| + f.tiny * t.qty.size β := by
    intro x hx
    obtain ⟨y, rfl, h1, h2, h3⟩ := convertQtyI_near hβ gp gt hco tp fp ht hf hn hns hb hx
    exact ⟨y, rfl, h1, h2, h3⟩
  unfold convertPointI at h
  split at h
  · rename_i he
    simp only [Except.ok.injEq] at h
    subst h
    subst he
    obtain ⟨y, h1, h2, h3, h4⟩ := key p.rel (convertQtyI_self E p.rel)
    have h1 : p.num = .f y := h1
    refine ⟨rfl, show originEquivalent R p.ty.origin p.ty.origin = .ok true from if_pos rfl, ?_, ?_, h4⟩
    · rw [h1]; exact ⟨f, rfl, h3⟩
    · rw [h1]; exact h2
  · simp only [bind_ok] at h
    obtain ⟨e, he, h⟩ := h
    cases e with
    | false => cases h
    | true =>
      simp only [if_true, bind_ok, Except.ok.injEq] at h
      obtain ⟨x, hx, rfl⟩ := h
      obtain ⟨y, h1, h2, h3, h4⟩ := key x hx
      refine ⟨rfl, he, ?_, ?_, h4⟩
      · show x.num.Typed _; rw [h1]; exact ⟨f, rfl, h3⟩
      · show x.num.Finite; rw [h1]; exact h2

/-- 0.1 km above the sea in centimetres. -/
example (β : String → ℝ) (hβ : Sizes β) (h : convertPointI exEnv exNoRebind (exCmPt 0).ty exTenthPt = .ok (exCmPt 10000)) :
    |(exCmPt 10000).pos β - exTenthPt.pos β| ≤ gammaErr .f64 (5 + 6) * |exTenthPt.pos β| + FltTy.f64.tiny * (exCmSi (.flt .f64)).size β := by
  have m := hβ "metre"
  have big := mul_le_mul_of_nonneg_right exBig (by positivity : 0 ≤ β "metre" / 100)
  refine (C88_convert_partial exEnv exNoRebind β hβ (exCmPt 0).ty exTenthPt (exCmPt 10000) .f64 5 (exKms_good _ _) (exCmSi_goodF _)
    (Related.refl rfl : Related β (exKms (.flt .f64)) (exCmSi (.flt .f64))).coherent
    ⟨.f64, rfl, by norm_num, by decide +kernel⟩ trivial rfl rfl exPt_exp.1 (by decide) ?_ h).2.2.2.2
  rw [exTenthPt_pos, show (exCmPt 0).ty.qty.size β = _ from exCmSi_size β (.flt .f64), abs_of_pos (by positivity)]
  linarith

example : convertPointI exEnv exNoRebind (exCmPt 0).ty exTenthPt = .ok (exCmPt 10000) := by decide +kernel

/-- C88: `++p` and `--p` of a point at a whole number of units up to the limit of the significand move it by exactly one unit (beyond it they may
leave it where it is: `C88_increment_lost`). -/
theorem C88_increment (op : BinOp) (hop : op = .add ∨ op = .sub) (t : PTy) (f : FltTy) (hf : t.rep = .flt f) (x : FVal) (fx : x.Finite) (k : Int)
    (hk : x.q = k) (hb : |k| < 2 ^ f.prec.toNat) :
    ∃ z : FVal, incDecPointI op ⟨t, .f x⟩ = .ok ⟨t, .f z⟩ ∧ z.Finite ∧ z.In f ∧ z.q = if op = .add then k + 1 else k - 1 := by
  have h1 : FVal.ofInt f 1 = .fin false 1 := by
    have := ofInt_exact (f := f) (k := 1) (by norm_num) (by simpa using two_zpow_lt (show 0 < f.prec by have := f.one_le_prec; omega))
    simpa using this
  set w : FVal := if op = .add then .fin false 1 else .fin true 1 with hw
  have e : incDecPointI op ⟨t, .f x⟩ = .ok ⟨t, .f (x.add f w)⟩ := by
    unfold incDecPointI incDecI
    rw [show compoundI op (PtI.rel ⟨t, .f x⟩).ty.rep (.int .i32) (PtI.rel ⟨t, .f x⟩).num (.i 1) = compoundI op t.rep (.int .i32) (.f x) (.i 1) from rfl,
      hf, compoundI_int, h1]
    rcases hop with rfl | rfl <;> rfl
  have fw : w.Finite := by rw [hw]; split_ifs <;> trivial
  have qw : w.q = if op = .add then 1 else -1 := by rw [hw]; split_ifs <;> rfl
  have := add_of (f := f) (x := x) (y := w) (w := ((if op = .add then k + 1 else k - 1 : Int) : ℚ)) fx fw (rndMag_whole (by
    rw [abs_lt] at hb; rw [abs_le]; split_ifs <;> omega)) (by rw [hk, qw]; split_ifs <;> push_cast <;> ring)
  exact ⟨_, e, this.1, this.2.1, this.2.2⟩

example : incDecPointI .add ⟨exSeaKm, .f (.fin true 3)⟩ = .ok ⟨exSeaKm, .f (.fin true 2)⟩ ∧
    incDecPointI .add ⟨exSeaKm, .f (.fin false 9007199254740991)⟩ = .ok ⟨exSeaKm, .f (.fin false 9007199254740992)⟩ := by decide +kernel

/-- C88: at 2^53 units, `++p` leaves the point where it is. -/
theorem C88_increment_lost : incDecPointI .add ⟨exSeaKm, .f (.fin false (2 ^ 53))⟩ = .ok ⟨exSeaKm, .f (.fin false (2 ^ 53))⟩ := by decide +kernel

/-- C88: `p += q` and `p -= q` give what `p + q` and `p - q` give for a quantity of the type of the distances. -/
theorem C88_assign (E : Env) (R : Rebinds) (t : PTy) (f : FltTy) (hu : t.unit.ref = t.origin.dim.unit.ref) (hf : t.rep = .flt f) (x y : FVal) :
    assignPointI E .add ⟨t, .f x⟩ ⟨t.qty, .f y⟩ = addSubPointI E R false ⟨t, .f x⟩ ⟨t.qty, .f y⟩ ∧
    assignPointI E .sub ⟨t, .f x⟩ ⟨t.qty, .f y⟩ = addSubPointI E R true ⟨t, .f x⟩ ⟨t.qty, .f y⟩ := by
  have key : ∀ op, assignPointI E op ⟨t, .f x⟩ ⟨t.qty, .f y⟩ = (FVal.op f op x y).map (fun z => ⟨t, .f z⟩) := by
    intro op
    unfold assignPointI
    rw [show convertQtyI E (PtI.mk t (.f x)).ty.qty ⟨t.qty, .f y⟩ = _ from convertQtyI_self E ⟨t.qty, .f y⟩, ok_bind]
    unfold assignQtyI
    rw [show convertQtyI E (PtI.rel ⟨t, .f x⟩).ty ⟨t.qty, .f y⟩ = _ from convertQtyI_self E ⟨t.qty, .f y⟩, ok_bind]
    rw [show compoundI op (PtI.rel ⟨t, .f x⟩).ty.rep (PtI.rel ⟨t, .f x⟩).ty.rep (PtI.rel ⟨t, .f x⟩).num (.f y) =
      compoundI op t.rep t.rep (.f x) (.f y) from rfl, hf, compoundI_flt]
    cases op <;> rfl
  rw [key, key, addSubPointI_self E R false t f hu hf, addSubPointI_self E R true t f hu hf]
  exact ⟨rfl, rfl⟩

example : assignPointI exEnv .sub ⟨exSeaKm, .f (.fin false 3)⟩ ⟨exKms (.flt .f64), .f (.fin false (1 / 2))⟩ = .ok ⟨exSeaKm, .f (.fin false (5 / 2))⟩ := by
  decide +kernel

/-! ### Kinds -/

/-- Making a kind of the dimension of the quantity changes nothing. -/
theorem makeKindI_same {E : Env} {K : Kind} {q : QtyI} {k : KdI} (hd : q.ty.dim = K.dim) (hu : q.ty.unit.ref = K.dim.unit.ref) :
    makeKindI E K q = .ok k ↔ k.ty.kind = K ∧ k.common = q := by
  unfold makeKindI constructKindI
  have hq : KTy.qty ⟨K, q.ty.unit, q.ty.rep⟩ = q.ty := by unfold KTy.qty; simp only [← hd]
  rw [if_pos hu, hq, convertQtyI_self, ok_bind, Except.ok.injEq]
  constructor
  · rintro rfl
    exact ⟨rfl, by unfold KdI.common; rw [hq]⟩
  · rintro ⟨rfl, rfl⟩; rfl

theorem downcastedKindI_iff {E : Env} {κ : KindReg} (hκ : κ.OK) {b : String} {q : QtyI} {k : KdI} (hu : q.ty.unit.ref = q.ty.dim.unit.ref) :
    downcastedKindI E κ b q = .ok k ↔ k.ty.kind = downcastKind κ b q.ty.dim ∧ k.common = q := by
  unfold downcastedKindI
  have hd := (downcastKind_sound hκ b q.ty.dim).2
  exact makeKindI_same hd.symm (by rw [hd]; exact hu)

/-- C88: sums and differences of kinds of one family and dimension are those of the underlying quantities, accepted in the same cases, and have the kind
of the first operand; they are within the rounding errors of the exact ones by `C70_sum_partial`. -/
theorem C88_kind_sum (E : Env) (hE : E.OK) (β : String → ℝ) (hβ : Sizes β) (sub : Bool) (a b r : KdI) (ga : a.ty.qty.Good E) (gb : b.ty.qty.Good E)
    (hb : a.ty.kind.base = b.ty.kind.base) (hd : a.ty.kind.dim = b.ty.kind.dim) :
    addSubKindI E sub a b = .ok r ↔ addSubI E sub a.common b.common = .ok r.common ∧ r.ty.kind = a.ty.kind := by
  have main : ∀ s, addSubI E sub a.common b.common = .ok s → s.ty.dim = a.ty.kind.dim ∧ s.ty.unit.ref = a.ty.kind.dim.unit.ref := by
    intro s hs
    unfold addSubI at hs
    simp only [bind_ok, Except.ok.injEq] at hs
    obtain ⟨t, ht, x, -, y, -, z, -, rfl⟩ := hs
    obtain ⟨gt, -, kd, -⟩ := commonQty_sound hE hβ ga gb (Related.refl hd) ht
    have : t.dim = a.ty.kind.dim := by
      rcases kd with kd | kd
      · exact kd
      · rw [kd]; exact hd.symm
    exact ⟨this, by rw [← this]; exact gt.unitOf⟩
  have he : kindEquivalent b.ty.kind a.ty.kind = .ok true := by
    unfold kindEquivalent
    rw [if_pos hb.symm, hd]
    exact C17_reflexive _
  unfold addSubKindI
  rw [he, ok_bind, if_pos rfl, bind_ok]
  constructor
  · rintro ⟨s, hs, hm⟩
    obtain ⟨d1, d2⟩ := main s hs
    obtain ⟨h1, h2⟩ := (makeKindI_same d1 d2).mp hm
    exact ⟨by rw [h2]; exact hs, h1⟩
  · rintro ⟨hs, hk⟩
    obtain ⟨d1, d2⟩ := main _ hs
    exact ⟨r.common, hs, (makeKindI_same d1 d2).mpr ⟨hk, rfl⟩⟩

example : addSubKindI exEnv true ⟨⟨exWidth, exKm, .flt .f64⟩, .f (.fin false 3)⟩ ⟨⟨exWidth, exCmUnit, .int .i64⟩, .i 5⟩ =
    .ok ⟨⟨exWidth, exCmUnit, .flt .f64⟩, .f (.fin false 299995)⟩ := by decide +kernel

/-- C88: products and quotients of related kinds, and of a kind and a quantity, are those of the underlying quantities, accepted in the same cases, with
the kind that downcasting finds for the base kind and the new dimension. -/
theorem C88_kind_products (E : Env) (hE : E.OK) (κ : KindReg) (hκ : κ.OK) (m : Bool) (a b r : KdI) (q : QtyI) (hb : a.ty.kind.base = b.ty.kind.base) :
    (mulDivKindsI E κ m a b = .ok r ↔ (if m then mulQtyI E a.common b.common else divQtyI E a.common b.common) = .ok r.common ∧
      r.ty.kind = downcastKind κ a.ty.kind.base r.ty.kind.dim) ∧
    (mulDivKindQtyI E κ m a q = .ok r ↔ (if m then mulQtyI E a.common q else divQtyI E a.common q) = .ok r.common ∧
      r.ty.kind = downcastKind κ a.ty.kind.base r.ty.kind.dim) := by
  have unit : ∀ {x y s : QtyI}, (if m then mulQtyI E x y else divQtyI E x y) = .ok s → s.ty.unit.ref = s.ty.dim.unit.ref := by
    intro x y s hs
    cases m with
    | true =>
      rw [if_pos rfl] at hs
      unfold mulQtyI refMultiply at hs
      simp only [bind_ok, Except.ok.injEq] at hs
      obtain ⟨⟨d, u⟩, h1, z, -, rfl⟩ := hs
      simp only [Prod.mk.injEq] at h1
      obtain ⟨d, -, x, -, y, -, z, -, w, -, u, hu, rfl, rfl⟩ := h1
      exact (downcastUnit_eq_ok hE.units hu).2.1
    | false =>
      rw [if_neg (by simp)] at hs
      unfold divQtyI refDivide at hs
      simp only [bind_ok, Except.ok.injEq] at hs
      obtain ⟨⟨d, u⟩, h1, z, -, rfl⟩ := hs
      simp only [Prod.mk.injEq] at h1
      obtain ⟨d, -, x, -, y, -, z, -, w, -, u, hu, rfl, rfl⟩ := h1
      exact (downcastUnit_eq_ok hE.units hu).2.1
  have key : ∀ (f : C QtyI), (∀ s, f = .ok s → s.ty.unit.ref = s.ty.dim.unit.ref) →
      ((do let s ← f; downcastedKindI E κ a.ty.kind.base s) = .ok r ↔
        f = .ok r.common ∧ r.ty.kind = downcastKind κ a.ty.kind.base r.ty.kind.dim) := by
    intro f hf
    simp only [bind_ok]
    constructor
    · rintro ⟨s, hs, h⟩
      obtain ⟨h1, h2⟩ := (downcastedKindI_iff hκ (hf s hs)).mp h
      subst h2
      exact ⟨hs, h1⟩
    · rintro ⟨hs, h⟩
      exact ⟨_, hs, (downcastedKindI_iff hκ (hf _ hs)).mpr ⟨h, rfl⟩⟩
  refine ⟨?_, ?_⟩
  · unfold mulDivKindsI; rw [if_pos hb]; exact key _ (fun s hs => unit hs)
  · unfold mulDivKindQtyI; exact key _ (fun s hs => unit hs)

example : (mulDivKindsI exEnv exKinds false ⟨⟨exWidth, exKm, .flt .f64⟩, .f (.fin false 3)⟩ ⟨⟨exWidth, exMetre, .flt .f64⟩, .f (.fin false 2)⟩).map
      (fun k => (k.ty.kind.id, k.ty.kind.base, k.num)) = .ok (none, "width_kind", .f (.fin false (3 / 2))) ∧
    (mulDivKindsI exEnv exKinds true ⟨⟨exWidth, exMetre, .flt .f64⟩, .f (.fin false 3)⟩ ⟨⟨exWidth, exMetre, .int .i32⟩, .i 2⟩).map
      (fun k => (k.ty.kind.id, k.num)) = .ok (some "horizontal_area_kind", .f (.fin false 6)) := by decide +kernel

/-- C88: scaling by a number and negation act on the underlying quantity and keep the kind. -/
theorem C88_kind_scaling (E : Env) (op : BinOp) (a r : KdI) (rep : Rep) (v : FNum) (hu : a.ty.unit.ref = a.ty.kind.dim.unit.ref) :
    (scaleKindI E op a rep v = .ok r ↔ scaleQtyI op a.common rep v = .ok r.common ∧ r.ty.kind = a.ty.kind) ∧
    (negKindI E a = .ok r ↔ negQtyI a.common = .ok r.common ∧ r.ty.kind = a.ty.kind) := by
  have key : ∀ (f : C QtyI), (∀ s, f = .ok s → s.ty.dim = a.ty.kind.dim ∧ s.ty.unit = a.ty.unit) →
      ((do let s ← f; makeKindI E a.ty.kind s) = .ok r ↔ f = .ok r.common ∧ r.ty.kind = a.ty.kind) := by
    intro f hf
    simp only [bind_ok]
    constructor
    · rintro ⟨s, hs, h⟩
      obtain ⟨d1, d2⟩ := hf s hs
      obtain ⟨h1, h2⟩ := (makeKindI_same d1 (by rw [d2]; exact hu)).mp h
      subst h2
      exact ⟨hs, h1⟩
    · rintro ⟨hs, h⟩
      obtain ⟨d1, d2⟩ := hf _ hs
      exact ⟨_, hs, (makeKindI_same d1 (by rw [d2]; exact hu)).mpr ⟨h, rfl⟩⟩
  refine ⟨key _ ?_, key _ ?_⟩
  · intro s hs
    unfold scaleQtyI at hs
    simp only [bind_ok, Except.ok.injEq] at hs
    obtain ⟨z, -, rfl⟩ := hs; exact ⟨rfl, rfl⟩
  · intro s hs
    unfold negQtyI at hs
    split at hs
    · simp only [bind_ok, Except.ok.injEq] at hs
      obtain ⟨z, -, rfl⟩ := hs; exact ⟨rfl, rfl⟩
    · simp only [Except.ok.injEq] at hs
      subst hs; exact ⟨rfl, rfl⟩
    · cases hs

example : scaleKindI exEnv .div ⟨⟨exWidth, exKm, .flt .f64⟩, .f (.fin false 3)⟩ (.int .i32) (.i 2) =
    .ok ⟨⟨exWidth, exKm, .flt .f64⟩, .f (.fin false (3 / 2))⟩ ∧
    negKindI exEnv ⟨⟨exWidth, exKm, .flt .f64⟩, .f (.fin false 0)⟩ = .ok ⟨⟨exWidth, exKm, .flt .f64⟩, .f (.fin true 0)⟩ := by decide +kernel

/-- C88: comparisons of kinds are those of the underlying quantities, on kinds of one family only, and `==` agrees with `<=>`. -/
theorem C88_kind_compare (E : Env) (a b : KdI) :
    (∀ o, compareKindsI E a b = .ok o → a.ty.kind.base = b.ty.kind.base ∧ compareQtyI E a.common b.common = .ok o ∧
      eqKindsI E a b = .ok (decide (o = some .eq))) ∧
    (∀ e, eqKindsI E a b = .ok e → a.ty.kind.base = b.ty.kind.base ∧ eqQtyI E a.common b.common = .ok e) := by
  have base : ∀ {e}, kindEquivalent b.ty.kind a.ty.kind = .ok e → e = true → a.ty.kind.base = b.ty.kind.base := by
    intro e h he
    subst he
    unfold kindEquivalent at h
    split at h
    · rename_i hb; exact hb.symm
    · cases h
  refine ⟨fun o h => ?_, fun e h => ?_⟩
  · unfold compareKindsI at h
    simp only [bind_ok] at h
    obtain ⟨e, he, h⟩ := h
    cases e with
    | false => cases h
    | true =>
      simp only [if_true, bind_ok] at h
      obtain ⟨c, hc, h⟩ := h
      cases c with
      | false => cases h
      | true =>
        simp only [if_true] at h
        refine ⟨base he rfl, h, ?_⟩
        unfold eqKindsI
        rw [he, ok_bind, if_pos rfl, hc, ok_bind, if_pos rfl]
        exact C70_eq_agrees E a.common b.common o h
  · unfold eqKindsI at h
    simp only [bind_ok] at h
    obtain ⟨e, he, h⟩ := h
    cases e with
    | false => cases h
    | true =>
      simp only [if_true, bind_ok] at h
      obtain ⟨c, hc, h⟩ := h
      cases c with
      | false => cases h
      | true => exact ⟨base he rfl, h⟩

example : compareKindsI exEnv ⟨⟨exWidth, exKm, .flt .f64⟩, .f (.fin false 3)⟩ ⟨⟨exWidth, exCmUnit, .flt .f64⟩, .f (.inf false)⟩ = .ok (some .lt) ∧
    compareKindsI exEnv ⟨⟨exWidth, exKm, .flt .f64⟩, .f (.fin false 3)⟩ ⟨⟨exHeight, exKm, .flt .f64⟩, .f (.fin false 3)⟩ = .error .rejected ∧
    eqKindsI exEnv ⟨⟨exWidth, exKm, .flt .f64⟩, .f (.fin false 0)⟩ ⟨⟨exWidth, exCmUnit, .flt .f64⟩, .f (.fin true 0)⟩ = .ok true := by decide +kernel

/-! ### Construction from integers in other units -/

/-- An integral number is converted without error if the factor is exact and the result is a value of the type. -/
theorem convertQtyI_int {E : Env} {d : Dim} {u v : MUnit} {i : IntTy} {f : FltTy} {ρ : Ratio} {z : Int} (hcr : castRatio E.est d u d v = .ok ρ) (hF : ExactFactor f ρ) (h0 : 0 ≤ ρ.val)
    (hi : i.In z) (hz : |(z : ℚ)| < 2 ^ f.prec) (hw : f.rndMag |z * ρ.val| = some |z * ρ.val|) :
    convertQtyI E ⟨d, v, .flt f⟩ ⟨⟨d, u, .int i⟩, .i z⟩ = .ok ⟨⟨d, v, .flt f⟩, .f (.fin (decide (z < 0)) |z * ρ.val|)⟩ := by
  unfold convertQtyI safeCastable
  rw [if_neg (by simp)]
  simp only
  rw [C17_reflexive, ok_bind, if_pos rfl]
  show quantityCastI E.est ⟨d, v, .flt f⟩ ⟨⟨d, u, .int i⟩, .i z⟩ = _
  rw [quantityCastI_eq (C17_reflexive d) hcr]
  have hcast : castNumI (.int i) (.flt f) ρ (.i z) = .ok (.f (.fin (decide (z < 0)) |z * ρ.val|)) := by
    unfold castNumI
    have hrep : castRep (.int i) (.flt f) = .flt f := by cases i <;> rfl
    rw [hrep, convI_exact (f := f) (s := .int i) (v := .i z) (fun g e => by cases e) ⟨i, rfl, hi⟩ trivial (fun z' e => by cases e; exact hz)]
    simp only [ok_bind]
    rw [castFltI_fin hF]
    have hq : (FNum.i z).q = (z : ℚ) := rfl
    have hab : |(z : ℚ)| * ρ.val = |z * ρ.val| := by rw [abs_mul, abs_of_nonneg h0]
    rw [hq, hab]
    generalize |z * ρ.val| = w at hw
    simp [FVal.round, hw, convI, FNum.neg]
  rw [hcast]; rfl

/-- C88: points and kinds constructed from integers of another unit have the converted number, and `p += q` and `p -= q` with such a quantity are those with the converted one,
when the conversion is exact. -/
theorem C88_integers (E : Env) (i : IntTy) (f : FltTy) (u : MUnit) (ρ : Ratio) (z : Int) (hF : ExactFactor f ρ) (h0 : 0 ≤ ρ.val) (hi : i.In z) (hz : |(z : ℚ)| < 2 ^ f.prec)
    (hw : f.rndMag |z * ρ.val| = some |z * ρ.val|) :
    (∀ t : PTy, t.unit.ref = t.origin.dim.unit.ref → t.rep = .flt f → castRatio E.est t.origin.dim u t.origin.dim t.unit = .ok ρ →
      mkPointI E t ⟨⟨t.origin.dim, u, .int i⟩, .i z⟩ = .ok ⟨t, .f (.fin (decide (z < 0)) |z * ρ.val|)⟩ ∧
      ∀ op x, assignPointI E op ⟨t, .f x⟩ ⟨⟨t.origin.dim, u, .int i⟩, .i z⟩ = assignPointI E op ⟨t, .f x⟩ ⟨t.qty, .f (.fin (decide (z < 0)) |z * ρ.val|)⟩) ∧
    (∀ t : KTy, t.unit.ref = t.kind.dim.unit.ref → t.rep = .flt f → castRatio E.est t.kind.dim u t.kind.dim t.unit = .ok ρ →
      constructKindI E t ⟨⟨t.kind.dim, u, .int i⟩, .i z⟩ = .ok ⟨t, .f (.fin (decide (z < 0)) |z * ρ.val|)⟩) := by
  refine ⟨fun t hu hf hcr => ?_, fun t hu hf hcr => ?_⟩
  · have hc := convertQtyI_int hcr hF h0 hi hz hw
    rw [← hf] at hc
    refine ⟨?_, fun op x => ?_⟩
    · unfold mkPointI
      rw [if_pos hu, show convertQtyI E t.qty _ = _ from hc]; rfl
    · unfold assignPointI
      rw [show convertQtyI E (PtI.mk t (.f x)).ty.qty ⟨⟨t.origin.dim, u, .int i⟩, .i z⟩ = _ from hc,
        show convertQtyI E (PtI.mk t (.f x)).ty.qty ⟨t.qty, .f (.fin (decide (z < 0)) |z * ρ.val|)⟩ = _ from convertQtyI_self E _]; rfl
  · have hc := convertQtyI_int hcr hF h0 hi hz hw
    rw [← hf] at hc
    unfold constructKindI
    rw [if_pos hu, show convertQtyI E t.qty _ = _ from hc]; rfl

-- three kilometres make the point at 3000 m; moving it by -2 km gives 1000 m
example : mkPointI exEnv ⟨dynamicOrigin (.base exL), exMetre, .flt .f64⟩ ⟨exKms (.int .i32), .i 3⟩ = .ok ⟨⟨dynamicOrigin (.base exL), exMetre, .flt .f64⟩, .f (.fin false 3000)⟩ ∧
    assignPointI exEnv .add ⟨⟨dynamicOrigin (.base exL), exMetre, .flt .f64⟩, .f (.fin false 3000)⟩ ⟨exKms (.int .i32), .i (-2)⟩ =
      .ok ⟨⟨dynamicOrigin (.base exL), exMetre, .flt .f64⟩, .f (.fin false 1000)⟩ ∧
    constructKindI exEnv ⟨exWidth, exMetre, .flt .f32⟩ ⟨exKms (.int .i32), .i (-3)⟩ = .ok ⟨⟨exWidth, exMetre, .flt .f32⟩, .f (.fin true 3000)⟩ := by decide +kernel

-- the hypotheses hold for them
example : ExactFactor .f64 ⟨1, 1, 3⟩ ∧ 0 ≤ (⟨1, 1, 3⟩ : Ratio).val ∧ FltTy.f64.rndMag |(3 : Int) * (⟨1, 1, 3⟩ : Ratio).val| = some |(3 : Int) * (⟨1, 1, 3⟩ : Ratio).val| ∧
    castRatio exEnv.est (.base exL) exKm (.base exL) exMetre = .ok ⟨1, 1, 3⟩ := by
  refine ⟨by decide +kernel, by norm_num [Ratio.val], ?_, by decide +kernel⟩
  have := rndMag_int (f := .f64) (k := 3000) (by norm_num) (by norm_num [FltTy.prec])
  norm_num [Ratio.val] at this ⊢
  exact this

end Verif
