import Verif.Kalman
import Verif.Props.DimProps
import Verif.Props.MathProps
import Verif.Props.PointProps
import Mathlib.Tactic.FieldSimp
import Mathlib.Tactic.LinearCombination
import Mathlib.Tactic.Positivity

/-!
# The Kalman filters of the examples (C79)

The specification is arithmetic on real numbers: weighted means, precisions and linear motion.  All theorems are about floating point state variables with exact
operations (`FlExact`); measurements, intervals and gains may have other representations where the code accepts them.
-/

namespace Verif

open Ratio

/-! ### Quantities in floating point -/

/-- What the theorems assume of the surroundings: the registries return what was asked for, the headers of dimensionless quantities are included and floating point
operations are exact. -/
structure FloatSetting (E : Env) (R : Rebinds) (β : String → ℝ) : Prop where
  env : E.OK
  rebinds : R.OK
  sizes : Sizes β
  exact : FlExact E.fl
  one : E.dims [] = some dimOne

/-- The amount of a variable: of the quantity, or of the distance from the origin. -/
noncomputable def Var.amount (β : String → ℝ) (v : Var) : ℝ := v.under.amount β

/-- The dimension of a variable. -/
def Var.dim (v : Var) : Dim := v.under.ty.dim

/-- The quantity type of a variable. -/
def VarTy.under : VarTy → QTy
  | .qty t => t
  | .pt t => t.qty

theorem Var.ty_under (v : Var) : v.ty.under = v.under.ty := by cases v <;> rfl

/-- Products with dimensionless quantities keep the dimension: a dimension in normal form over base dimensions that are told apart by their symbols. -/
def Neutral (Γ : DimReg) (d : Dim) : Prop := ∃ P, Separated P ∧ d.Normal Γ P

theorem Rep.floating_arith (a b : Rep) : (a.arith b).floating = (a.floating || b.floating) := by
  cases a <;> cases b <;> rfl

theorem gainTy_good (E : Env) : gainTy.Good E :=
  ⟨⟨⟨[], rfl, by simp⟩, ⟨one_wf, by decide⟩⟩, ⟨one_wf, by decide⟩, rfl, by
    intro es hes e he
    have : es = [] := by
      have h : (Dim.named dimOne).exps = .ok [] := rfl
      rw [show gainTy.dim = .named dimOne from rfl, h] at hes
      cases hes; rfl
    rw [this] at he; cases he⟩

section
variable {E : Env} {R : Rebinds} {β : String → ℝ}

theorem ufits_floating {r : Rep} (h : r.floating = true) (x : ℚ) : UFits r x := by
  intro ty hty; rw [hty] at h; cases h

theorem holds_floating {t : QTy} (h : t.rep.floating = true) (x : ℝ) : Holds β t x := by
  intro ty hty; rw [hty] at h; cases h

theorem add_q (S : FloatSetting E R β) {op : BinOp} (hop : op = .add ∨ op = .sub) {a b r : Qty} (ga : a.Good E) (gb : b.Good E)
    (hr : Related β a.ty b.ty) (hf : a.ty.rep.floating = true ∨ b.ty.rep.floating = true) (h : addSub E op a b = .ok r) :
    r.Good E ∧ r.ty.rep.floating = true ∧ (r.ty.dim = a.ty.dim ∨ r.ty.dim = b.ty.dim) ∧
      r.amount β = if op = .add then a.amount β + b.amount β else a.amount β - b.amount β := by
  obtain ⟨h1, h2, h3, h4, -, h5⟩ := addSub_sound S.env S.sizes hop ga.ty gb.ty hr ga.num gb.num h
  have hfl : r.ty.rep.floating = true := by
    rw [h2, Rep.floating_arith]; rcases hf with hf | hf <;> simp [hf]
  refine ⟨⟨h1, h3⟩, hfl, h4, h5 (fun _ => S.exact) ?_ ?_ (holds_floating hfl _) (holds_floating hfl _) fun ty hty => ?_⟩
  · intro _ _ _ _ hn; rw [hfl] at hn; cases hn
  · intro _ _ _ _ hn; rw [hfl] at hn; cases hn
  · rw [hty] at hfl; cases hfl

theorem mul_q (S : FloatSetting E R β) {a b r : Qty} (ga : a.Good E) (gb : b.Good E)
    (hf : a.ty.rep.floating = true ∨ b.ty.rep.floating = true)
    (hd : ∀ d, dimMultiply E.dims a.ty.dim b.ty.dim = .ok d → d.Good ∧ d.Rooted E.est) (h : mulQty E a b = .ok r) :
    r.Good E ∧ r.ty.rep.floating = true ∧ dimMultiply E.dims a.ty.dim b.ty.dim = .ok r.ty.dim ∧ r.amount β = a.amount β * b.amount β := by
  obtain ⟨h1, h2, h3⟩ := mulQty_eq_ok h
  have hdim : dimMultiply E.dims a.ty.dim b.ty.dim = .ok r.ty.dim := by
    unfold refMultiply at h1
    simp only [bind_ok, Except.ok.injEq, Prod.mk.injEq] at h1
    obtain ⟨d', hd', -, -, -, -, -, -, -, -, -, -, rfl, -⟩ := h1
    exact hd'
  obtain ⟨gd, rd⟩ := hd _ hdim
  have hfl : r.ty.rep.floating = true := by
    rw [h3, Rep.floating_arith]; rcases hf with hf | hf <;> simp [hf]
  obtain ⟨k1, -, k3, k4⟩ := C27_product_exact E S.env β S.sizes a b r ga gb gd h (fun _ => S.exact) (ufits_floating hfl _) (ufits_floating hfl _)
    (ufits_floating hfl _)
  exact ⟨⟨⟨gd, k3, k4, rd⟩, by rw [h3]; exact numOp_typed ga.num gb.num h2⟩, hfl, hdim, k1⟩

theorem div_q (S : FloatSetting E R β) {a b r : Qty} (ga : a.Good E) (gb : b.Good E)
    (hf : a.ty.rep.floating = true ∨ b.ty.rep.floating = true)
    (hd : ∀ d, dimDivide E.dims a.ty.dim b.ty.dim = .ok d → d.Good ∧ d.Rooted E.est) (h : divQty E a b = .ok r) :
    r.Good E ∧ r.ty.rep.floating = true ∧ dimDivide E.dims a.ty.dim b.ty.dim = .ok r.ty.dim ∧ b.amount β ≠ 0 ∧
      r.amount β = a.amount β / b.amount β := by
  obtain ⟨h1, h2, h3⟩ := divQty_eq_ok h
  have hdim : dimDivide E.dims a.ty.dim b.ty.dim = .ok r.ty.dim := by
    unfold refDivide at h1
    simp only [bind_ok, Except.ok.injEq, Prod.mk.injEq] at h1
    obtain ⟨d', hd', -, -, -, -, -, -, -, -, -, -, rfl, -⟩ := h1
    exact hd'
  obtain ⟨gd, rd⟩ := hd _ hdim
  have hfl : r.ty.rep.floating = true := by
    rw [h3, Rep.floating_arith]; rcases hf with hf | hf <;> simp [hf]
  obtain ⟨k0, k1, -, k3, k4⟩ := C27_quotient_exact E S.env β S.sizes a b r ga gb gd h (fun _ => S.exact) (ufits_floating hfl _)
    (ufits_floating hfl _) (Or.inl hfl)
  exact ⟨⟨⟨gd, k3, k4, rd⟩, by rw [h3]; exact numOp_typed ga.num gb.num h2⟩, hfl, hdim, k0, k1⟩

theorem gain_neutral (S : FloatSetting E R β) {d : Dim} (hn : Neutral E.dims d) : dimMultiply E.dims (.named dimOne) d = .ok d := by
  obtain ⟨P, hP, hd⟩ := hn
  have := (C14_one_neutral_partial E.dims S.env.dims P hP d hd).2
  rwa [show downcastDim E.dims [] = .named dimOne by unfold downcastDim; rw [S.one]] at this

/-- A gain times a quantity. -/
theorem gain_q (S : FloatSetting E R β) {k b r : Qty} (gk : k.Good E) (hk : k.ty.dim = .named dimOne) (gb : b.Good E) (nb : Neutral E.dims b.ty.dim)
    (hf : k.ty.rep.floating = true ∨ b.ty.rep.floating = true) (h : mulQty E k b = .ok r) :
    r.Good E ∧ r.ty.rep.floating = true ∧ r.ty.dim = b.ty.dim ∧ r.amount β = k.amount β * b.amount β := by
  have hn := gain_neutral S nb
  obtain ⟨k1, k2, k3, k4⟩ := mul_q S gk gb hf (fun d hd => by
    rw [hk, hn] at hd; cases hd; exact ⟨gb.ty.dim, gb.ty.rooted⟩) h
  refine ⟨k1, k2, ?_, k4⟩
  rw [hk, hn] at k3; exact (Except.ok.inj k3).symm

theorem convert_q (S : FloatSetting E R β) {t : QTy} {q r : Qty} (gq : q.Good E) (gt : t.Good E) (hco : Coherent β q.ty.dim t.dim)
    (ft : t.rep.floating = true) (h : convertQty E t q = .ok r) : r.ty = t ∧ r.Good E ∧ r.amount β = q.amount β := by
  obtain ⟨h1, h2, h3⟩ := convertQty_exact S.sizes gq.ty gt hco gq.num (fun _ => S.exact) (fun _ _ _ _ hn => by rw [ft] at hn; cases hn)
    (holds_floating ft _) h
  exact ⟨h1, ⟨h1 ▸ gt, h1.symm ▸ h2⟩, h3⟩

theorem sub_var (S : FloatSetting E R β) {a b : Var} {r : Qty} (ga : a.under.Good E) (gb : b.under.Good E)
    (hr : Related β a.under.ty b.under.ty) (hf : a.under.ty.rep.floating = true ∨ b.under.ty.rep.floating = true) (h : a.sub E R b = .ok r) :
    r.Good E ∧ r.ty.rep.floating = true ∧ (r.ty.dim = a.dim ∨ r.ty.dim = b.dim) ∧ r.amount β = a.amount β - b.amount β := by
  have key : addSub E .sub a.under b.under = .ok r := by
    cases a <;> cases b <;> simp only [Var.sub] at h
    · exact h
    · cases h
    · cases h
    · unfold subPoints at h
      simp only [bind_ok] at h
      obtain ⟨e, -, h⟩ := h
      cases e with
      | false => cases h
      | true => exact h
  obtain ⟨h1, h2, h3, h4⟩ := add_q S (Or.inr rfl) ga gb hr hf key
  exact ⟨h1, h2, h3, by simpa [Var.amount] using h4⟩

theorem add_var (S : FloatSetting E R β) {a r : Var} {b : Qty} (ga : a.under.Good E) (gb : b.Good E)
    (hr : Related β a.under.ty b.ty) (hf : a.under.ty.rep.floating = true ∨ b.ty.rep.floating = true) (h : a.add E R b = .ok r) :
    r.under.Good E ∧ r.under.ty.rep.floating = true ∧ (r.dim = a.dim ∨ r.dim = b.ty.dim) ∧ r.amount β = a.amount β + b.amount β := by
  have key : addSub E .add a.under b = .ok r.under := by
    cases a <;> simp only [Var.add, bind_ok, Except.ok.injEq] at h
    · obtain ⟨x, hx, rfl⟩ := h; exact hx
    · obtain ⟨x, hx, rfl⟩ := h; exact (addSubPoint_eq_ok S.rebinds hx).1
  obtain ⟨h1, h2, h3, h4⟩ := add_q S (Or.inl rfl) ga gb hr hf key
  exact ⟨h1, h2, h3, by simpa [Var.amount] using h4⟩

theorem convert_var (S : FloatSetting E R β) {t : VarTy} {v r : Var} (gv : v.under.Good E) (gt : t.under.Good E) (hco : Coherent β v.dim t.under.dim)
    (ft : t.under.rep.floating = true) (h : v.convert E R t = .ok r) : r.ty = t ∧ r.under.Good E ∧ r.amount β = v.amount β := by
  cases t with
  | qty t =>
    cases v with
    | pt p => cases h
    | qty q =>
      simp only [Var.convert, bind_ok, Except.ok.injEq] at h
      obtain ⟨x, hx, rfl⟩ := h
      obtain ⟨h1, h2, h3⟩ := convert_q S gv gt hco ft hx
      exact ⟨by rw [Var.ty, h1]; rfl, h2, h3⟩
  | pt t =>
    cases v with
    | qty q => cases h
    | pt p =>
      simp only [Var.convert, bind_ok, Except.ok.injEq] at h
      obtain ⟨x, hx, rfl⟩ := h
      unfold convertPoint at hx
      split at hx
      · rename_i he
        cases hx
        exact ⟨by rw [Var.ty, he], gv, rfl⟩
      · simp only [bind_ok] at hx
        obtain ⟨e, -, hx⟩ := hx
        cases e with
        | false => cases hx
        | true =>
          simp only [if_true, bind_ok, Except.ok.injEq] at hx
          obtain ⟨y, hy, rfl⟩ := hx
          obtain ⟨h1, h2, h3⟩ := convert_q S gv gt hco ft hy
          have hxy : (⟨t, y.num⟩ : Pt).rel = y := by
            have : (⟨t, y.num⟩ : Pt).rel = ⟨t.qty, y.num⟩ := rfl
            rw [this]; cases y; simp only at h1; rw [h1]; rfl
          refine ⟨rfl, ?_, ?_⟩
          · show (Pt.rel ⟨t, y.num⟩).Good E
            rw [hxy]; exact h2
          · show (Pt.rel ⟨t, y.num⟩).amount β = _
            rw [hxy]; exact h3

/-! ### C79 -/

/-- What a variable of the state must be: of a type that can be named, in floating point, its dimension in normal form. -/
structure Var.OK (E : Env) (s : Var) : Prop where
  good : s.under.Good E
  floating : s.under.ty.rep.floating = true
  neutral : Neutral E.dims s.dim

/-- What a measurement for the variable `s` must be: its dimension may be of another system. -/
structure Measures (E : Env) (β : String → ℝ) (s m : Var) : Prop where
  good : m.under.Good E
  related : Related β m.under.ty s.under.ty
  neutral : Neutral E.dims m.dim

/-- A gain. -/
structure IsGain (E : Env) (k : Qty) : Prop where
  good : k.Good E
  dim : k.ty.dim = .named dimOne

theorem Var.OK.of_ty {s s' : Var} (h : s.OK E) (g : s'.under.Good E) (ht : s'.ty = s.ty) : s'.OK E := by
  have e : s'.under.ty = s.under.ty := by rw [← Var.ty_under, ht, Var.ty_under]
  exact ⟨g, by rw [e]; exact h.floating, by unfold Var.dim; rw [e]; exact h.neutral⟩

theorem Measures.of_ty {s s' m : Var} (h : Measures E β s m) (ht : s'.ty = s.ty) : Measures E β s' m := by
  have e : s'.under.ty = s.under.ty := by rw [← Var.ty_under, ht, Var.ty_under]
  exact ⟨h.good, by rw [e]; exact h.related, h.neutral⟩

theorem Related.self (t : QTy) : Related β t t :=
  ⟨C17_reflexive _, Coherent.refl _ _, fun h => absurd rfl h⟩

/-- One step of every variable: the difference to the measurement times a gain. -/
theorem innovation (S : FloatSetting E R β) {s m : Var} {k d x : Qty} (hs : s.OK E) (hm : Measures E β s m) (hk : IsGain E k)
    (hd : m.sub E R s = .ok d) (hx : mulQty E k d = .ok x) :
    x.Good E ∧ x.ty.rep.floating = true ∧ (x.ty.dim = m.dim ∨ x.ty.dim = s.dim) ∧ x.amount β = k.amount β * (m.amount β - s.amount β) := by
  obtain ⟨d1, d2, d3, d4⟩ := sub_var S hm.good hs.good hm.related (Or.inr hs.floating) hd
  obtain ⟨x1, x2, x3, x4⟩ := gain_q S hk.good hk.dim d1 (by rcases d3 with h | h <;> rw [h]; exacts [hm.neutral, hs.neutral]) (Or.inr d2) hx
  exact ⟨x1, x2, x3 ▸ d3, by rw [x4, d4]⟩

/-- C79: `state_update` moves the state towards the measurement by the gain: x + k (z − x), in the unit and with the origin of the state, whatever the units of the
measurement and the gain.  Partial: exact floating point operations, and `Related` excludes what C26 shows to be wrong. -/
theorem C79_update_partial (S : FloatSetting E R β) (s m s' : Var) (k : Qty) (hs : s.OK E) (hm : Measures E β s m) (hk : IsGain E k)
    (h : stateUpdate1 E R s m k = .ok s') :
    s'.ty = s.ty ∧ s'.OK E ∧ s'.amount β = s.amount β + k.amount β * (m.amount β - s.amount β) := by
  unfold stateUpdate1 at h
  simp only [bind_ok] at h
  obtain ⟨e, -, h⟩ := h
  split at h
  swap
  · cases h
  simp only [bind_ok] at h
  obtain ⟨d, hd, x, hx, y, hy, hc⟩ := h
  obtain ⟨x1, x2, x3, x4⟩ := innovation S hs hm hk hd hx
  have hsx : Related β s.under.ty x.ty := by
    rcases x3 with e | e
    · exact hm.related.symm.of_dim rfl e
    · exact (Related.self _).of_dim rfl e
  obtain ⟨y1, y2, y3, y4⟩ := add_var S hs.good x1 hsx (Or.inl hs.floating) hy
  have hco : Coherent β y.dim s.ty.under.dim := by
    rw [Var.ty_under]
    rcases y3 with e | e
    · rw [e]; exact Coherent.refl _ _
    · rw [e]; exact hsx.symm.coherent
  obtain ⟨c1, c2, c3⟩ := convert_var S y1 (by rw [Var.ty_under]; exact hs.good.ty) hco (by rw [Var.ty_under]; exact hs.floating) hc
  exact ⟨c1, hs.of_ty c2 c1, by rw [c3, y4, x4]⟩

/-- What the squared uncertainties must be: in floating point, with a dimension in normal form. -/
structure IsVariance (E : Env) (p : Qty) : Prop where
  good : p.Good E
  floating : p.ty.rep.floating = true
  neutral : Neutral E.dims p.ty.dim

theorem IsVariance.of_ty {p p' : Qty} (h : IsVariance E p) (g : p'.Good E) (ht : p'.ty = p.ty) : IsVariance E p' :=
  ⟨g, by rw [ht]; exact h.floating, by rw [ht]; exact h.neutral⟩

/-- C79: `kalman_gain` is p / (p + r), a number without unit. -/
theorem C79_gain_partial (S : FloatSetting E R β) (p r k : Qty) (hp : IsVariance E p) (gr : r.Good E) (h : kalmanGain E p r = .ok k) :
    k.ty = gainTy ∧ IsGain E k ∧ p.amount β + r.amount β ≠ 0 ∧ k.amount β = p.amount β / (p.amount β + r.amount β) ∧
      (0 ≤ p.amount β → 0 ≤ r.amount β → 0 ≤ k.amount β ∧ k.amount β ≤ 1) := by
  unfold kalmanGain at h
  split at h
  swap
  · cases h
  rename_i hty
  simp only [bind_ok] at h
  obtain ⟨s, hs, g, hg, hc⟩ := h
  obtain ⟨s1, s2, s3, s4⟩ := add_q S (Or.inl rfl) hp.good gr (by rw [← hty]; exact Related.self _) (Or.inl hp.floating) hs
  rw [if_pos rfl] at s4
  have sd : s.ty.dim = p.ty.dim := by rcases s3 with e | e; exacts [e, by rw [e, hty]]
  obtain ⟨P, hP, hn⟩ := hp.neutral
  have hone : ∀ d, dimDivide E.dims p.ty.dim s.ty.dim = .ok d → d = .named dimOne := by
    intro d hd
    rw [sd] at hd
    rw [C14_divide_self_partial E.dims S.env.dims P hP p.ty.dim d hn hd]
    unfold downcastDim; rw [S.one]
  obtain ⟨g1, g2, g3, g4, g5⟩ := div_q S hp.good s1 (Or.inl hp.floating) (fun d hd => by
    rw [hone d hd]; exact ⟨(gainTy_good E).dim, (gainTy_good E).rooted⟩) hg
  obtain ⟨c1, c2, c3⟩ := convert_q S g1 (gainTy_good E) (by rw [hone _ g3]; exact Coherent.refl _ _) rfl hc
  rw [s4] at g4 g5
  refine ⟨c1, ⟨c2, by rw [c1]; rfl⟩, g4, by rw [c3, g5], fun h0 h1 => ?_⟩
  rw [c3, g5]
  exact ⟨div_nonneg h0 (add_nonneg h0 h1), div_le_one_of_le₀ (by linarith) (add_nonneg h0 h1)⟩

/-- C79: `covariance_update` is (1 − k) p. -/
theorem C79_covariance_partial (S : FloatSetting E R β) (p k p' : Qty) (hp : IsVariance E p) (hk : IsGain E k) (h : covarianceUpdate E p k = .ok p') :
    p'.ty = p.ty ∧ IsVariance E p' ∧ k.ty.unit = unitOne ∧ (k.ty.rep.floating = true → p'.amount β = (1 - k.amount β) * p.amount β) := by
  unfold covarianceUpdate at h
  split at h
  swap
  · cases h
  simp only [bind_ok] at h
  obtain ⟨c, hc, x, hx, h⟩ := h
  unfold addSubNumLeft at hc
  split at hc
  swap
  · cases hc
  rename_i hu
  simp only [bind_ok, Except.ok.injEq] at hc
  obtain ⟨z, hz, rfl⟩ := hc
  have t1 : (Num.i 1).Typed (.int .i32) := ⟨_, rfl, by decide⟩
  have gc : (⟨⟨.named dimOne, unitOne, (Rep.int .i32).arith k.ty.rep⟩, z⟩ : Qty).Good E := ⟨ones_good E _, numOp_typed t1 hk.good.num hz⟩
  obtain ⟨x1, x2, x3, x4⟩ := gain_q S gc rfl hp.good hp.neutral (Or.inr hp.floating) hx
  obtain ⟨c1, c2, c3⟩ := convert_q S x1 hp.good.ty (by rw [x3]; exact Coherent.refl _ _) hp.floating h
  refine ⟨c1, hp.of_ty c2 c1, hu, fun hf => ?_⟩
  have hfl : ((Rep.int .i32).arith k.ty.rep).floating = true := by rw [Rep.floating_arith, hf]; rfl
  have hzq := (numOp_exact t1 hk.good.num (fun _ => S.exact) (ufits_floating hfl _) (ufits_floating hfl _) (fun _ => ufits_floating hfl _) hz).2
  rw [if_neg (by simp)] at hzq
  have hv : unitOne.ratio.val = 1 := by norm_num [unitOne, Ratio.val, Ratio.one]
  have ec : (⟨⟨.named dimOne, unitOne, (Rep.int .i32).arith k.ty.rep⟩, z⟩ : Qty).amount β = 1 - k.amount β := by
    rw [Qty.amount, Qty.amount, hk.dim, hu, dimOne_size, hv]
    simp only [hzq]
    simp only [BinOp.val, show (Num.i 1).q = 1 from rfl]
    push_cast
    ring
  rw [c3, x4, ec]

/-- C79: `covariance_extrapolation` adds the noise. -/
theorem C79_noise_partial (S : FloatSetting E R β) (p n p' : Qty) (hp : IsVariance E p) (gn : n.Good E) (h : covarianceExtrapolate E p n = .ok p') :
    p'.ty = p.ty ∧ IsVariance E p' ∧ p'.amount β = p.amount β + n.amount β := by
  unfold covarianceExtrapolate at h
  split at h
  swap
  · cases h
  rename_i hty
  simp only [bind_ok] at h
  obtain ⟨s, hs, hc⟩ := h
  obtain ⟨s1, s2, s3, s4⟩ := add_q S (Or.inl rfl) hp.good gn (by rw [← hty]; exact Related.self _) (Or.inl hp.floating) hs
  rw [if_pos rfl] at s4
  have sd : s.ty.dim = p.ty.dim := by rcases s3 with e | e; exacts [e, by rw [e, hty]]
  obtain ⟨c1, c2, c3⟩ := convert_q S s1 hp.good.ty (by rw [sd]; exact Coherent.refl _ _) hp.floating hc
  exact ⟨c1, hp.of_ty c2 c1, by rw [c3, s4]⟩

/-- C79: the gain is the best one: it minimises the variance (1 − k)² p + k² r of the estimate x + k (z − x) from independent errors of variance p and r, and
`covariance_update` gives that minimum. -/
theorem C79_optimal_partial (S : FloatSetting E R β) (p r k p' : Qty) (hp : IsVariance E p) (gr : r.Good E) (h0 : 0 < p.amount β) (h1 : 0 < r.amount β)
    (h : kalmanGain E p r = .ok k) (h' : covarianceUpdate E p k = .ok p') :
    p'.amount β = (1 - k.amount β) ^ 2 * p.amount β + k.amount β ^ 2 * r.amount β ∧
    ∀ x : ℝ, p'.amount β ≤ (1 - x) ^ 2 * p.amount β + x ^ 2 * r.amount β := by
  obtain ⟨k1, k2, k3, k4, -⟩ := C79_gain_partial S p r k hp gr h
  obtain ⟨-, -, -, c4⟩ := C79_covariance_partial S p k p' hp k2 h'
  have c4 := c4 (by rw [k1]; rfl)
  rw [c4, k4]
  generalize p.amount β = a at *
  generalize r.amount β = b at *
  have hs : 0 < a + b := add_pos h0 h1
  refine ⟨by field_simp; ring, fun x => ?_⟩
  have : (1 - x) ^ 2 * a + x ^ 2 * b - (1 - a / (a + b)) * a = (a + b) * (x - a / (a + b)) ^ 2 := by field_simp; ring
  nlinarith [mul_nonneg hs.le (sq_nonneg (x - a / (a + b)))]

/-- C79: the loop of the examples with process noise.  After any measurements the variance is positive and the state lies between the extremes of the initial
state and the measurements. -/
theorem C79_filter_bounds_partial (S : FloatSetting E R β) (noise : Option Qty) (r : Qty) (gr : r.Good E) (h1 : 0 < r.amount β)
    (hn : ∀ n, noise = some n → n.Good E ∧ 0 ≤ n.amount β) (lo hi : ℝ) :
    ∀ (ms : List Var) (s s' : Var) (p p' : Qty), s.OK E → IsVariance E p → (∀ m ∈ ms, Measures E β s m ∧ lo ≤ m.amount β ∧ m.amount β ≤ hi) →
      0 < p.amount β → lo ≤ s.amount β → s.amount β ≤ hi → filterLoop E R noise r (s, p) ms = .ok (s', p') →
      s'.ty = s.ty ∧ p'.ty = p.ty ∧ 0 < p'.amount β ∧ lo ≤ s'.amount β ∧ s'.amount β ≤ hi
  | [], s, s', p, p', hs, hp, hm, h0, hlo, hhi, h => by
    simp only [filterLoop, Except.ok.injEq, Prod.mk.injEq] at h
    obtain ⟨rfl, rfl⟩ := h
    exact ⟨rfl, rfl, h0, hlo, hhi⟩
  | m :: ms, s, s', p, p', hs, hp, hm, h0, hlo, hhi, h => by
    simp only [filterLoop, bind_ok] at h
    obtain ⟨k, hk, s1, hs1, p1, hp1, p2, hp2, h⟩ := h
    obtain ⟨k1, k2, k3, k4, k5⟩ := C79_gain_partial S p r k hp gr hk
    obtain ⟨m1, m2, m3⟩ := hm m (by simp)
    obtain ⟨u1, u2, u3⟩ := C79_update_partial S s m s1 k hs m1 k2 hs1
    obtain ⟨c1, c2, -, c4⟩ := C79_covariance_partial S p k p1 hp k2 hp1
    have c4 := c4 (by rw [k1]; rfl)
    have hk0 := k5 h0.le h1.le
    have hk1 : k.amount β < 1 := by
      rw [k4, div_lt_one (by linarith)]; linarith
    have hp1' : 0 < p1.amount β := by rw [c4]; exact mul_pos (by linarith) h0
    have hp2' : p2.ty = p.ty ∧ IsVariance E p2 ∧ 0 < p2.amount β := by
      cases noise with
      | none => simp only [Except.ok.injEq] at hp2; subst hp2; exact ⟨c1, c2, hp1'⟩
      | some n =>
        obtain ⟨g, hge⟩ := hn n rfl
        obtain ⟨n1, n2, n3⟩ := C79_noise_partial S p1 n p2 c2 g hp2
        exact ⟨by rw [n1, c1], n2, by rw [n3]; linarith⟩
    have b1 : lo ≤ s1.amount β := by rw [u3]; nlinarith [mul_nonneg hk0.1 (sub_nonneg.2 m2), mul_nonneg (sub_nonneg.2 hk1.le) (sub_nonneg.2 hlo)]
    have b2 : s1.amount β ≤ hi := by rw [u3]; nlinarith [mul_nonneg hk0.1 (sub_nonneg.2 m3), mul_nonneg (sub_nonneg.2 hk1.le) (sub_nonneg.2 hhi)]
    obtain ⟨r1, r2, r3⟩ := C79_filter_bounds_partial S noise r gr h1 hn lo hi ms s1 s' p2 p' u2 hp2'.2.1
      (fun m' hm' => ⟨(hm m' (by simp [hm'])).1.of_ty u1, (hm m' (by simp [hm'])).2⟩) hp2'.2.2 b1 b2 h
    exact ⟨by rw [r1, u1], by rw [r2, hp2'.1], r3⟩

/-- C79: without process noise (kalman_filter-example_5.cpp) precisions add up, and the state is the mean of the initial state and all measurements weighted by
their precisions. -/
theorem C79_filter_partial (S : FloatSetting E R β) (r : Qty) (gr : r.Good E) (h1 : 0 < r.amount β) :
    ∀ (ms : List Var) (s s' : Var) (p p' : Qty), s.OK E → IsVariance E p → (∀ m ∈ ms, Measures E β s m) → 0 < p.amount β →
      filterLoop E R none r (s, p) ms = .ok (s', p') →
      0 < p'.amount β ∧ 1 / p'.amount β = 1 / p.amount β + ms.length / r.amount β ∧
      s'.amount β * (1 / p.amount β + ms.length / r.amount β) = s.amount β / p.amount β + (ms.map (Var.amount β)).sum / r.amount β
  | [], s, s', p, p', hs, hp, hm, h0, h => by
    simp only [filterLoop, Except.ok.injEq, Prod.mk.injEq] at h
    obtain ⟨rfl, rfl⟩ := h
    refine ⟨h0, by simp, ?_⟩
    simp [div_eq_mul_inv]
  | m :: ms, s, s', p, p', hs, hp, hm, h0, h => by
    simp only [filterLoop, bind_ok, Except.ok.injEq, exists_eq_left'] at h
    obtain ⟨k, hk, s1, hs1, p1, hp1, h⟩ := h
    obtain ⟨k1, k2, k3, k4, k5⟩ := C79_gain_partial S p r k hp gr hk
    have m1 := hm m (by simp)
    obtain ⟨u1, u2, u3⟩ := C79_update_partial S s m s1 k hs m1 k2 hs1
    obtain ⟨c1, c2, -, c4⟩ := C79_covariance_partial S p k p1 hp k2 hp1
    have c4 := c4 (by rw [k1]; rfl)
    have hk1 : k.amount β < 1 := by
      rw [k4, div_lt_one (by linarith)]; linarith
    have hp1' : 0 < p1.amount β := by rw [c4]; exact mul_pos (by linarith) h0
    obtain ⟨r1, r2, r3⟩ := C79_filter_partial S r gr h1 ms s1 s' p1 p' u2 c2 (fun m' hm' => (hm m' (by simp [hm'])).of_ty u1) hp1' h
    have e1 : 1 / p1.amount β = 1 / p.amount β + 1 / r.amount β := by
      rw [c4, k4]
      have : 0 < p.amount β + r.amount β := by linarith
      have hd : 1 - p.amount β / (p.amount β + r.amount β) = r.amount β / (p.amount β + r.amount β) := by field_simp; ring
      rw [hd]; field_simp; ring
    have e2 : s1.amount β / p1.amount β = s.amount β / p.amount β + m.amount β / r.amount β := by
      rw [div_eq_mul_one_div, e1, u3, k4]
      have : 0 < p.amount β + r.amount β := by linarith
      field_simp; ring
    simp only [List.length_cons, List.map_cons, List.sum_cons, Nat.cast_add, Nat.cast_one]
    refine ⟨r1, by rw [r2, e1]; ring, ?_⟩
    rw [e1, e2] at r3
    linear_combination r3

/-- C79: with the gains 1/1, 1/2, 1/3 … (kalman_filter-example_1.cpp) the state is the mean of the measurements, whatever it was initially. -/
theorem C79_average_partial (S : FloatSetting E R β) :
    ∀ (ms : List Var) (i : ℤ) (s s' : Var), 0 < i → IntTy.i32.In (i + ms.length) → s.OK E → (∀ m ∈ ms, Measures E β s m) →
      averageLoop E R i s ms = .ok s' → s'.ty = s.ty ∧ s'.amount β * (i - 1 + ms.length) = s.amount β * (i - 1) + (ms.map (Var.amount β)).sum
  | [], i, s, s', hi, hin, hs, hm, h => by
    simp only [averageLoop, Except.ok.injEq] at h
    subst h
    simp
  | m :: ms, i, s, s', hi, hin, hs, hm, h => by
    simp only [averageLoop, bind_ok] at h
    obtain ⟨g, hg, k, hk, s1, hs1, h⟩ := h
    have ti : (Num.i i).Typed (.int .i32) := ⟨_, rfl, by
      unfold IntTy.In at hin ⊢
      simp only [List.length_cons, Nat.cast_add, Nat.cast_one, show IntTy.i32.lo = -2 ^ 31 from rfl] at hin ⊢
      omega⟩
    have tg := numOp_typed (fl := E.fl) (op := .div) (ra := .flt .f64) (rb := .int .i32) (a := .f 1) (b := .i i) ⟨_, rfl⟩ ti hg
    have hgq := (numOp_exact (op := .div) (ra := .flt .f64) (rb := .int .i32) (a := .f 1) (b := .i i) ⟨_, rfl⟩ ti (fun _ => S.exact)
      (ufits_floating rfl _) (ufits_floating rfl _) (fun _ => ufits_floating rfl _) hg).2
    rw [if_neg (by decide)] at hgq
    have hkk : k = ⟨gainTy, g⟩ := by
      unfold mkQty at hk
      rw [if_pos (Or.inl (show gainTy.rep.floating = true from rfl))] at hk
      rw [show gainTy.rep = .flt .f64 from rfl, convNum_self] at hk
      simp only [ok_bind, Except.ok.injEq] at hk
      exact hk.symm
    have hkg : IsGain E k := ⟨by rw [hkk]; exact ⟨gainTy_good E, tg⟩, by rw [hkk]; rfl⟩
    have hka : k.amount β = 1 / (i : ℝ) := by
      rw [hkk, Qty.amount, show gainTy.dim = .named dimOne from rfl, dimOne_size]
      have hv : (gainTy.unit.ratio.val) = 1 := by norm_num [gainTy, unitOne, Ratio.val, Ratio.one]
      rw [hv]
      simp only [hgq]
      simp only [BinOp.val, show (Num.f 1).q = 1 from rfl, show (Num.i i).q = i from rfl]
      push_cast; ring
    obtain ⟨u1, u2, u3⟩ := C79_update_partial S s m s1 k hs (hm m (by simp)) hkg hs1
    obtain ⟨r1, r2⟩ := C79_average_partial S ms (i + 1) s1 s' (by omega) (by
      simp only [List.length_cons, Nat.cast_add, Nat.cast_one] at hin
      rwa [show i + 1 + (ms.length : ℤ) = i + (ms.length + 1) by ring]) u2 (fun m' hm' => (hm m' (by simp [hm'])).of_ty u1) h
    refine ⟨by rw [r1, u1], ?_⟩
    have hi0 : (i : ℝ) ≠ 0 := by exact_mod_cast hi.ne'
    have e : s1.amount β * i = s.amount β * (i - 1) + m.amount β := by rw [u3, hka]; field_simp; ring
    simp only [List.length_cons, List.map_cons, List.sum_cons, Nat.cast_add, Nat.cast_one]
    push_cast at r2
    linear_combination r2 + e

/-! ### Positions and velocities -/

/-- The second variable is the rate of change of the first, the measurement is one of the first, and the interval a time (here: what division by it makes of the
dimension of the first variable is the dimension of the second). -/
structure Moves (E : Env) (s1 s2 : Var) (t : Qty) : Prop where
  fst : s1.OK E
  snd : s2.OK E
  time : t.Good E
  div : dimDivide E.dims s1.dim t.ty.dim = .ok s2.dim
  mul : dimMultiply E.dims s2.dim t.ty.dim = .ok s1.dim

theorem Moves.of_ty {s1 s2 s1' s2' : Var} {t : Qty} (h : Moves E s1 s2 t) (o1 : s1'.OK E) (o2 : s2'.OK E) (h1 : s1'.ty = s1.ty) (h2 : s2'.ty = s2.ty) :
    Moves E s1' s2' t := by
  have e1 : s1'.dim = s1.dim := by unfold Var.dim; rw [← Var.ty_under, h1, Var.ty_under]
  have e2 : s2'.dim = s2.dim := by unfold Var.dim; rw [← Var.ty_under, h2, Var.ty_under]
  exact ⟨o1, o2, h.time, by rw [e1, e2]; exact h.div, by rw [e1, e2]; exact h.mul⟩

/-- Adding to a variable a quantity of its dimension and converting back. -/
theorem advance (S : FloatSetting E R β) {s y r : Var} {x : Qty} (hs : s.OK E) (gx : x.Good E) (hd : x.ty.dim = s.dim)
    (hy : s.add E R x = .ok y) (hc : y.convert E R s.ty = .ok r) : r.ty = s.ty ∧ r.OK E ∧ r.amount β = s.amount β + x.amount β := by
  obtain ⟨y1, y2, y3, y4⟩ := add_var S hs.good gx ((Related.self _).of_dim rfl hd) (Or.inl hs.floating) hy
  have yd : y.dim = s.dim := by rcases y3 with e | e; exacts [e, by rw [e, hd]]
  obtain ⟨c1, c2, c3⟩ := convert_var S y1 (by rw [Var.ty_under]; exact hs.good.ty) (by rw [Var.ty_under, yd]; exact Coherent.refl _ _)
    (by rw [Var.ty_under]; exact hs.floating) hc
  exact ⟨c1, hs.of_ty c2 c1, by rw [c3, y4]⟩

/-- C79: `state_update` for a variable and its rate of change (the α-β filter). -/
theorem C79_update2_partial (S : FloatSetting E R β) (s1 s2 m r1 r2 : Var) (k1 k2 t : Qty) (hv : Moves E s1 s2 t) (hm : Measures E β s1 m)
    (hmd : m.dim = s1.dim) (g1 : IsGain E k1) (g2 : IsGain E k2) (h : stateUpdate2 E R s1 s2 m k1 k2 t = .ok (r1, r2)) :
    r1.ty = s1.ty ∧ r2.ty = s2.ty ∧ Moves E r1 r2 t ∧ t.amount β ≠ 0 ∧
    r1.amount β = s1.amount β + k1.amount β * (m.amount β - s1.amount β) ∧
    r2.amount β = s2.amount β + k2.amount β * (m.amount β - s1.amount β) / t.amount β := by
  unfold stateUpdate2 at h
  simp only [bind_ok] at h
  obtain ⟨e, -, h⟩ := h
  split at h
  swap
  · cases h
  simp only [bind_ok, Except.ok.injEq, Prod.mk.injEq] at h
  obtain ⟨d, hd, x1, hx1, q1, hq1, x2, hx2, y2, hy2, q2, hq2, r1', hr1, r2', hr2, rfl, rfl⟩ := h
  obtain ⟨a1, -, a3, a4⟩ := innovation S hv.fst hm g1 hd hx1
  obtain ⟨b1, b2, b3, b4⟩ := innovation S hv.fst hm g2 hd hx2
  have ad : x1.ty.dim = s1.dim := by rcases a3 with e | e; exacts [by rw [e, hmd], e]
  have bd : x2.ty.dim = s1.dim := by rcases b3 with e | e; exacts [by rw [e, hmd], e]
  obtain ⟨c1, -, c3, c4, c5⟩ := div_q S b1 hv.time (Or.inl b2) (fun d hd => by
    rw [bd, hv.div] at hd; cases hd; exact ⟨hv.snd.good.ty.dim, hv.snd.good.ty.rooted⟩) hy2
  have cd : y2.ty.dim = s2.dim := by rw [bd, hv.div] at c3; exact (Except.ok.inj c3).symm
  obtain ⟨u1, u2, u3⟩ := advance S hv.fst a1 ad hq1 hr1
  obtain ⟨w1, w2, w3⟩ := advance S hv.snd c1 cd hq2 hr2
  exact ⟨u1, w1, hv.of_ty u2 w2 u1 w1, c4, by rw [u3, a4], by rw [w3, c5, b4]⟩

/-- C79: `state_extrapolation` for a variable and its rate of change: x + v t and v. -/
theorem C79_extrapolate2_partial (S : FloatSetting E R β) (s1 s2 r1 r2 : Var) (t : Qty) (hv : Moves E s1 s2 t) (h : extrapolate2 E R s1 s2 t = .ok (r1, r2)) :
    r1.ty = s1.ty ∧ r2 = s2 ∧ Moves E r1 r2 t ∧ r1.amount β = s1.amount β + s2.amount β * t.amount β := by
  unfold extrapolate2 at h
  split at h
  swap
  · cases h
  rename_i s2 v
  simp only [bind_ok, Except.ok.injEq, Prod.mk.injEq] at h
  obtain ⟨x, hx, q1, hq1, r1', hr1, rfl, rfl⟩ := h
  obtain ⟨b1, -, b3, b4⟩ := mul_q S hv.snd.good hv.time (Or.inl hv.snd.floating) (fun d hd => by
    have := hv.mul
    unfold Var.dim at this
    rw [this] at hd; cases hd; exact ⟨hv.fst.good.ty.dim, hv.fst.good.ty.rooted⟩) hx
  have bd : x.ty.dim = s1.dim := by
    have := hv.mul
    unfold Var.dim at this
    rw [this] at b3; exact (Except.ok.inj b3).symm
  obtain ⟨u1, u2, u3⟩ := advance S hv.fst b1 bd hq1 hr1
  exact ⟨u1, rfl, hv.of_ty u2 hv.snd u1 rfl, by rw [u3, b4]; rfl⟩

/-- One round of the α-β filter on real numbers: update with the measurement `z`, then motion during the interval `t`. -/
noncomputable def trackStep (a b t : ℝ) (s : ℝ × ℝ) (z : ℝ) : ℝ × ℝ :=
  let v := s.2 + b * (z - s.1) / t
  (s.1 + a * (z - s.1) + v * t, v)

/-- C79: the loop of kalman_filter-example_2.cpp and kalman_filter-example_3.cpp is the α-β filter on the amounts. -/
theorem C79_track_partial (S : FloatSetting E R β) (k1 k2 t : Qty) (g1 : IsGain E k1) (g2 : IsGain E k2) :
    ∀ (ms : List Var) (s1 s2 r1 r2 : Var), Moves E s1 s2 t → (∀ m ∈ ms, Measures E β s1 m ∧ m.dim = s1.dim) →
      trackLoop E R k1 k2 t (s1, s2) ms = .ok (r1, r2) →
      r1.ty = s1.ty ∧ r2.ty = s2.ty ∧
      (r1.amount β, r2.amount β) = (ms.map (Var.amount β)).foldl (trackStep (k1.amount β) (k2.amount β) (t.amount β)) (s1.amount β, s2.amount β)
  | [], s1, s2, r1, r2, hv, hm, h => by
    simp only [trackLoop, Except.ok.injEq, Prod.mk.injEq] at h
    obtain ⟨rfl, rfl⟩ := h
    exact ⟨rfl, rfl, rfl⟩
  | m :: ms, s1, s2, r1, r2, hv, hm, h => by
    simp only [trackLoop, bind_ok] at h
    obtain ⟨⟨u1, u2⟩, hu, ⟨n1, n2⟩, hn, h⟩ := h
    obtain ⟨a1, a2, a3, a4, a5, a6⟩ := C79_update2_partial S s1 s2 m u1 u2 k1 k2 t hv (hm m (by simp)).1 (hm m (by simp)).2 g1 g2 hu
    obtain ⟨b1, rfl, b3, b4⟩ := C79_extrapolate2_partial S u1 u2 n1 n2 t a3 hn
    have e : n1.ty = s1.ty := by rw [b1, a1]
    have ed : n1.dim = s1.dim := by unfold Var.dim; rw [← Var.ty_under, e, Var.ty_under]
    obtain ⟨c1, c2, c3⟩ := C79_track_partial S k1 k2 t g1 g2 ms n1 n2 r1 r2 b3 (fun m' hm' =>
      ⟨(hm m' (by simp [hm'])).1.of_ty e, by rw [ed]; exact (hm m' (by simp [hm'])).2⟩) h
    refine ⟨by rw [c1, e], by rw [c2, a2], ?_⟩
    rw [c3, List.map_cons, List.foldl_cons]
    congr 1
    simp only [trackStep, Prod.mk.injEq]
    exact ⟨by rw [b4, a5, a6], a6⟩

theorem trackStep_uniform (a b t x v : ℝ) (n : ℕ) :
    ((List.range n).map fun i : ℕ => x + i * (v * t)).foldl (trackStep a b t) (x, v) = (x + n * (v * t), v) := by
  induction n with
  | zero => simp
  | succ n ih =>
    rw [List.range_succ, List.map_append, List.foldl_append, ih]
    simp only [trackStep, List.map_cons, List.map_nil, List.foldl_cons, List.foldl_nil, sub_self, mul_zero, zero_div, add_zero, Prod.mk.injEq]
    push_cast
    exact ⟨by ring, trivial⟩

/-- C79: the tracker follows a uniform motion without error: if the state is right and the measurements are those of the motion, the state stays right, whatever
the gains. -/
theorem C79_track_uniform_partial (S : FloatSetting E R β) (k1 k2 t : Qty) (g1 : IsGain E k1) (g2 : IsGain E k2) (ms : List Var) (s1 s2 r1 r2 : Var)
    (hv : Moves E s1 s2 t) (hm : ∀ m ∈ ms, Measures E β s1 m ∧ m.dim = s1.dim)
    (hz : ms.map (Var.amount β) = (List.range ms.length).map fun i : ℕ => s1.amount β + i * (s2.amount β * t.amount β))
    (h : trackLoop E R k1 k2 t (s1, s2) ms = .ok (r1, r2)) :
    r1.amount β = s1.amount β + ms.length * (s2.amount β * t.amount β) ∧ r2.amount β = s2.amount β := by
  have := (C79_track_partial S k1 k2 t g1 g2 ms s1 s2 r1 r2 hv hm h).2.2
  rw [hz, trackStep_uniform] at this
  exact Prod.mk.inj this

/-- Half of a quantity in floating point. -/
theorem half_q (S : FloatSetting E R β) {q r : Qty} (gq : q.Good E) (hf : q.ty.rep.floating = true) (h : scaleQty E .div q (.int .i32) two = .ok r) :
    r.Good E ∧ r.ty.rep.floating = true ∧ r.ty.dim = q.ty.dim ∧ r.amount β = q.amount β / 2 := by
  unfold scaleQty at h
  simp only [bind_ok, Except.ok.injEq] at h
  obtain ⟨z, hz, rfl⟩ := h
  have t2 : two.Typed (.int .i32) := ⟨_, rfl, by decide⟩
  have hfl : (q.ty.rep.arith (.int .i32)).floating = true := by rw [Rep.floating_arith, hf]; rfl
  have hzq := (numOp_exact gq.num t2 (fun _ => S.exact) (ufits_floating hfl _) (ufits_floating hfl _) (fun _ => ufits_floating hfl _) hz).2
  rw [if_neg (by rw [hfl]; simp)] at hzq
  refine ⟨⟨⟨gq.ty.dim, gq.ty.unit, gq.ty.unitOf, gq.ty.rooted⟩, numOp_typed gq.num t2 hz⟩, hfl, rfl, ?_⟩
  rw [Qty.amount, Qty.amount]
  simp only [hzq]
  simp only [BinOp.val, show two.q = 2 from rfl]
  push_cast; ring

/-- Three variables: position, velocity, acceleration. -/
structure Accelerates (E : Env) (s1 s2 s3 : Var) (t : Qty) : Prop where
  fst : Moves E s1 s2 t
  snd : Moves E s2 s3 t
  square : ∀ d, dimMultiply E.dims t.ty.dim t.ty.dim = .ok d → d.Good ∧ d.Rooted E.est ∧ dimDivide E.dims s1.dim d = .ok s3.dim

/-- C79: `state_update` for three variables with an interval in floating point (the α-β-γ filter). -/
theorem C79_update3_partial (S : FloatSetting E R β) (s1 s2 s3 m r1 r2 r3 : Var) (k1 k2 k3 t : Qty) (hv : Accelerates E s1 s2 s3 t)
    (hm : Measures E β s1 m) (hmd : m.dim = s1.dim) (g1 : IsGain E k1) (g2 : IsGain E k2) (g3 : IsGain E k3) (ht : t.ty.rep.floating = true)
    (h : stateUpdate3 E R s1 s2 s3 m k1 k2 k3 t = .ok (r1, r2, r3)) :
    r1.ty = s1.ty ∧ r2.ty = s2.ty ∧ r3.ty = s3.ty ∧ t.amount β ≠ 0 ∧
    r1.amount β = s1.amount β + k1.amount β * (m.amount β - s1.amount β) ∧
    r2.amount β = s2.amount β + k2.amount β * (m.amount β - s1.amount β) / t.amount β ∧
    r3.amount β = s3.amount β + k3.amount β * (m.amount β - s1.amount β) / (t.amount β ^ 2 / 2) := by
  unfold stateUpdate3 at h
  simp only [bind_ok] at h
  obtain ⟨e, -, h⟩ := h
  split at h
  swap
  · cases h
  simp only [bind_ok, Except.ok.injEq, Prod.mk.injEq] at h
  obtain ⟨d, hd, x1, hx1, q1, hq1, x2, hx2, y2, hy2, q2, hq2, x3, hx3, tt, htt, hh, hhh, y3, hy3, q3, hq3, r1', hr1, r2', hr2, r3', hr3, rfl, rfl, rfl⟩ := h
  obtain ⟨a1, -, a3, a4⟩ := innovation S hv.fst.fst hm g1 hd hx1
  obtain ⟨b1, b2, b3, b4⟩ := innovation S hv.fst.fst hm g2 hd hx2
  obtain ⟨c1, c2, c3, c4⟩ := innovation S hv.fst.fst hm g3 hd hx3
  have ad : x1.ty.dim = s1.dim := by rcases a3 with e | e; exacts [by rw [e, hmd], e]
  have bd : x2.ty.dim = s1.dim := by rcases b3 with e | e; exacts [by rw [e, hmd], e]
  have cd : x3.ty.dim = s1.dim := by rcases c3 with e | e; exacts [by rw [e, hmd], e]
  obtain ⟨v1, -, v3, v4, v5⟩ := div_q S b1 hv.fst.time (Or.inl b2) (fun d hd => by
    rw [bd, hv.fst.div] at hd; cases hd; exact ⟨hv.fst.snd.good.ty.dim, hv.fst.snd.good.ty.rooted⟩) hy2
  have vd : y2.ty.dim = s2.dim := by rw [bd, hv.fst.div] at v3; exact (Except.ok.inj v3).symm
  obtain ⟨t1, t2, t3, t4⟩ := mul_q S hv.fst.time hv.fst.time (Or.inl ht) (fun d hd => ⟨(hv.square d hd).1, (hv.square d hd).2.1⟩) htt
  obtain ⟨f1, f2, f3, f4⟩ := half_q S t1 t2 hhh
  have td := (hv.square _ t3).2.2
  obtain ⟨w1, -, w3, w4, w5⟩ := div_q S c1 f1 (Or.inl c2) (fun d hd => by
    rw [cd, f3, td] at hd; cases hd; exact ⟨hv.snd.snd.good.ty.dim, hv.snd.snd.good.ty.rooted⟩) hy3
  have wd : y3.ty.dim = s3.dim := by rw [cd, f3, td] at w3; exact (Except.ok.inj w3).symm
  obtain ⟨p1, -, p3⟩ := advance S hv.fst.fst a1 ad hq1 hr1
  obtain ⟨p4, -, p6⟩ := advance S hv.fst.snd v1 vd hq2 hr2
  obtain ⟨p7, -, p9⟩ := advance S hv.snd.snd w1 wd hq3 hr3
  exact ⟨p1, p4, p7, v4, by rw [p3, a4], by rw [p6, v5, b4], by rw [p9, w5, c4, f4, t4]; ring⟩

/-- C79: `state_extrapolation` for three variables: x + v t + a t²/2, v + a t and a.  Partial also because of C34: the coherent unit of the square of the time must
be the square of that of the time. -/
theorem C79_extrapolate3_partial (S : FloatSetting E R β) (L : Libm) (hL : L.Exact) (s1 s2 s3 r1 r2 r3 : Var) (t : Qty) (hv : Accelerates E s1 s2 s3 t)
    (ht : t.ty.rep.floating = true) (hx : (∀ b, t.ty.dim ≠ .base b) → PowExact t.ty.dim 2 1)
    (hp : ∀ t2, powQty E L 2 1 t = .ok (.inr t2) → t2.Good E ∧ t2.ty.dim.unit.ratio.val = t.ty.dim.unit.ratio.val ^ 2 ∧
      dimMultiply E.dims s3.dim t2.ty.dim = .ok s1.dim)
    (h : extrapolate3 E R L s1 s2 s3 t = .ok (r1, r2, r3)) :
    r1.ty = s1.ty ∧ r2.ty = s2.ty ∧ r3 = s3 ∧
    r1.amount β = s1.amount β + s2.amount β * t.amount β + s3.amount β * t.amount β ^ 2 / 2 ∧
    r2.amount β = s2.amount β + s3.amount β * t.amount β := by
  unfold extrapolate3 at h
  split at h
  swap
  · cases h
  rename_i s2 s3 v a
  simp only [bind_ok] at h
  obtain ⟨x, hx1, q1, hq1, tt, htt, h⟩ := h
  cases tt with
  | inl _ => cases h
  | inr t2 =>
    simp only [bind_ok, Except.ok.injEq, Prod.mk.injEq] at h
    obtain ⟨y, hy, z, hz, q1', hq1', w, hw, q2, hq2, r1', hr1, r2', hr2, rfl, rfl, rfl⟩ := h
    obtain ⟨gt2, hcoh, hmul⟩ := hp t2 htt
    obtain ⟨-, e2⟩ := C34_pow_exact_partial E S.env β S.sizes L hL S.exact 2 t t2 hv.fst.time gt2.ty.dim hx htt
      (fun ty hty => by rw [hty] at ht; cases ht) (by exact_mod_cast hcoh)
    have mulv : dimMultiply E.dims v.ty.dim t.ty.dim = .ok s1.dim := hv.fst.mul
    have mula : dimMultiply E.dims a.ty.dim t.ty.dim = .ok (Var.qty v).dim := hv.snd.mul
    have mula2 : dimMultiply E.dims a.ty.dim t2.ty.dim = .ok s1.dim := hmul
    obtain ⟨b1, -, b3, b4⟩ := mul_q S hv.fst.snd.good hv.fst.time (Or.inl hv.fst.snd.floating) (fun d hd => by
      rw [show (Var.qty v).under = v from rfl, mulv] at hd; cases hd; exact ⟨hv.fst.fst.good.ty.dim, hv.fst.fst.good.ty.rooted⟩) hx1
    have bd : x.ty.dim = s1.dim := by
      rw [show (Var.qty v).under = v from rfl, mulv] at b3; exact (Except.ok.inj b3).symm
    obtain ⟨c1, c2, c3, c4⟩ := mul_q S hv.snd.snd.good gt2 (Or.inl hv.snd.snd.floating) (fun d hd => by
      rw [show (Var.qty a).under = a from rfl, mula2] at hd; cases hd; exact ⟨hv.fst.fst.good.ty.dim, hv.fst.fst.good.ty.rooted⟩) hy
    have cd : y.ty.dim = s1.dim := by
      rw [show (Var.qty a).under = a from rfl, mula2] at c3; exact (Except.ok.inj c3).symm
    obtain ⟨z1, -, z3, z4⟩ := half_q S c1 c2 hz
    obtain ⟨d1, -, d3, d4⟩ := mul_q S hv.snd.snd.good hv.fst.time (Or.inl hv.snd.snd.floating) (fun d hd => by
      rw [show (Var.qty a).under = a from rfl, mula] at hd; cases hd; exact ⟨hv.fst.snd.good.ty.dim, hv.fst.snd.good.ty.rooted⟩) hw
    have dd : w.ty.dim = (Var.qty v).dim := by
      rw [show (Var.qty a).under = a from rfl, mula] at d3; exact (Except.ok.inj d3).symm
    obtain ⟨y1, y2, y3, y4⟩ := add_var S hv.fst.fst.good b1 ((Related.self _).of_dim rfl bd) (Or.inl hv.fst.fst.floating) hq1
    have yd : q1.dim = s1.dim := by rcases y3 with e | e; exacts [e, by rw [e, bd]]
    obtain ⟨x1, -, x3, x4⟩ := add_var S y1 z1 ((Related.self _).of_dim rfl (by rw [z3, cd]; exact yd.symm)) (Or.inl y2) hq1'
    have xd : q1'.dim = s1.dim := by rcases x3 with e | e; exacts [by rw [e, yd], by rw [e, z3, cd]]
    obtain ⟨u1, -, u3⟩ := convert_var S x1 (by rw [Var.ty_under]; exact hv.fst.fst.good.ty) (by rw [Var.ty_under, xd]; exact Coherent.refl _ _)
      (by rw [Var.ty_under]; exact hv.fst.fst.floating) hr1
    obtain ⟨w1, -, w3⟩ := advance S hv.fst.snd d1 dd hq2 hr2
    refine ⟨u1, w1, rfl, ?_, ?_⟩
    · rw [u3, x4, y4, b4, z4, c4, e2]
      simp only [Var.amount, zpow_ofNat]
    · rw [w3, d4]; rfl

end

/-! ### Examples and findings -/

/-- The example dimensions with `dim_one`. -/
def exKalReg : DimReg := fun es => if es = [] then some dimOne else exReg es

def exKalEnv : Env := { exEnv with dims := exKalReg }

def exNoRebinds : Rebinds := fun _ _ => none

theorem exKalEnv_ok : exKalEnv.OK := by
  refine ⟨fun es n h => ?_, fun _ _ _ h => by simp [exKalEnv, exEnv] at h⟩
  simp only [exKalEnv, exKalReg] at h
  split at h
  · rename_i he; rw [Option.some.injEq] at h; rw [← h, he]; rfl
  · exact exReg_ok es n h

theorem exKal (β : String → ℝ) (hβ : Sizes β) : FloatSetting exKalEnv exNoRebinds β :=
  ⟨exKalEnv_ok, fun _ _ _ h => by simp [exNoRebinds] at h, hβ, fun _ _ => rfl, rfl⟩

theorem exL_neutral : Neutral exKalReg (.base exL) := ⟨ExBase, exBase_separated, base_normal _ (Or.inl rfl)⟩

theorem exNamed_neutral {n : NamedDim} (h1 : exKalReg n.exps = some n) (h2 : Canon n.exps) (h3 : ∀ e ∈ n.exps, ExBase e.dim)
    (h4 : ∀ b, n.exps ≠ [⟨b, 1, 1⟩]) : Neutral exKalReg (.named n) := ⟨ExBase, exBase_separated, named_normal h1 h2 h3 h4⟩

theorem exSpeed_neutral : Neutral exKalReg (.named exSpeed) := by
  refine exNamed_neutral (by decide +kernel) ⟨?_, by decide +kernel⟩ ?_ (by simp [exSpeed])
  · intro e he
    simp only [exSpeed, List.mem_cons, List.not_mem_nil, or_false] at he
    rcases he with rfl | rfl <;> exact ⟨by decide, by decide, by decide⟩
  · intro e he
    simp only [exSpeed, List.mem_cons, List.not_mem_nil, or_false] at he
    rcases he with rfl | rfl <;> simp [ExBase]

theorem exAccel_neutral : Neutral exKalReg (.named exAccel) := by
  refine exNamed_neutral (by decide +kernel) ⟨?_, by decide +kernel⟩ ?_ (by simp [exAccel])
  · intro e he
    simp only [exAccel, List.mem_cons, List.not_mem_nil, or_false] at he
    rcases he with rfl | rfl <;> exact ⟨by decide, by decide, by decide⟩
  · intro e he
    simp only [exAccel, List.mem_cons, List.not_mem_nil, or_false] at he
    rcases he with rfl | rfl <;> simp [ExBase]

theorem exArea_neutral : Neutral exKalReg (.named exArea) := by
  refine exNamed_neutral (by decide +kernel) ⟨?_, by decide +kernel⟩ ?_ (by simp [exArea])
  · intro e he
    simp only [exArea, List.mem_cons, List.not_mem_nil, or_false] at he
    rcases he with rfl; exact ⟨by decide, by decide, by decide⟩
  · intro e he
    simp only [exArea, List.mem_cons, List.not_mem_nil, or_false] at he
    rcases he with rfl; simp [ExBase]

/-- Metres, kilometres, square metres, gains, speeds, accelerations and seconds. -/
def exMVar (x : ℚ) : Var := .qty ⟨exMetres (.flt .f64), .f x⟩
def exKmVar (x : Int) : Var := .qty ⟨exKms (.int .i32), .i x⟩
def exM2 (x : ℚ) : Qty := ⟨⟨.named exArea, unknownCoherentUnit, .flt .f64⟩, .f x⟩
def exGain (x : ℚ) : Qty := ⟨gainTy, .f x⟩
def exMs (x : ℚ) : Var := .qty ⟨⟨.named exSpeed, unknownCoherentUnit, .flt .f64⟩, .f x⟩
def exMs2 (x : ℚ) : Var := .qty ⟨⟨.named exAccel, unknownCoherentUnit, .flt .f64⟩, .f x⟩
def exSec (n : Int) : Qty := ⟨⟨.base exT, exT.unit, .int .i32⟩, .i n⟩
def exSecF (x : ℚ) : Qty := ⟨⟨.base exT, exT.unit, .flt .f64⟩, .f x⟩
/-- Points, as in kalman_filter-example_6.cpp. -/
def exPos (x : ℚ) : Var := .pt ⟨⟨dynamicOrigin (.base exL), exMetre, .flt .f64⟩, .f x⟩
def exPosKm (x : Int) : Var := .pt ⟨⟨dynamicOrigin (.base exL), exKm, .int .i32⟩, .i x⟩

theorem exNamed_good {n : NamedDim} (h1 : n.coherent = unknownCoherentUnit) (h2 : ∀ e ∈ n.exps, e.den = 1 ∧ e.dim.unit.WF) (r : Rep) (E : Env) :
    (⟨.named n, unknownCoherentUnit, r⟩ : QTy).Good E := by
  refine ⟨⟨⟨_, rfl, fun e he => (h2 e he).2⟩, ?_⟩, unknownCoherentUnit_wf, ?_, rooted_of_den_one rfl fun e he => (h2 e he).1⟩
  · show n.coherent.WF; rw [h1]; exact unknownCoherentUnit_wf
  · show _ = n.coherent.ref; rw [h1]

theorem exMV_ok (x : ℚ) : (exMVar x).OK exKalEnv := ⟨⟨exMetres_good _ _, ⟨_, rfl⟩⟩, rfl, exL_neutral⟩

theorem exPos_ok (x : ℚ) : (exPos x).OK exKalEnv := ⟨⟨exMetres_good _ _, ⟨_, rfl⟩⟩, rfl, exL_neutral⟩

theorem exM2_ok (x : ℚ) : IsVariance exKalEnv (exM2 x) := by
  refine ⟨⟨exNamed_good rfl ?_ _ _, ⟨_, rfl⟩⟩, rfl, exArea_neutral⟩
  intro e he; simp only [exArea, List.mem_cons, List.not_mem_nil, or_false] at he
  subst he; exact ⟨rfl, one_wf, by decide⟩

theorem exMs_ok (x : ℚ) : (exMs x).OK exKalEnv := by
  refine ⟨⟨exNamed_good rfl ?_ _ _, ⟨_, rfl⟩⟩, rfl, exSpeed_neutral⟩
  intro e he; simp only [exSpeed, List.mem_cons, List.not_mem_nil, or_false] at he
  rcases he with rfl | rfl <;> exact ⟨rfl, one_wf, by decide⟩

theorem exMs2_ok (x : ℚ) : (exMs2 x).OK exKalEnv := by
  refine ⟨⟨exNamed_good rfl ?_ _ _, ⟨_, rfl⟩⟩, rfl, exAccel_neutral⟩
  intro e he; simp only [exAccel, List.mem_cons, List.not_mem_nil, or_false] at he
  rcases he with rfl | rfl <;> exact ⟨rfl, one_wf, by decide⟩

theorem exGain_ok (x : ℚ) : IsGain exKalEnv (exGain x) := ⟨⟨gainTy_good _, ⟨_, rfl⟩⟩, rfl⟩

theorem exDiv1 : dimDivide exKalReg (.base exL) (.base exT) = .ok (.named exSpeed) := by decide +kernel
theorem exDiv2 : dimDivide exKalReg (.named exSpeed) (.base exT) = .ok (.named exAccel) := by decide +kernel
theorem exDiv3 : dimDivide exKalReg (.base exL) (.unknown [⟨exT, 2, 1⟩]) = .ok (.named exAccel) := by decide +kernel
theorem exMul1 : dimMultiply exKalReg (.named exSpeed) (.base exT) = .ok (.base exL) := by decide +kernel
theorem exMul2 : dimMultiply exKalReg (.named exAccel) (.base exT) = .ok (.named exSpeed) := by decide +kernel
theorem exMul3 : dimMultiply exKalReg (.base exT) (.base exT) = .ok (.unknown [⟨exT, 2, 1⟩]) := by decide +kernel
theorem exMul4 : dimMultiply exKalReg (.named exAccel) (.unknown [⟨exT, 2, 1⟩]) = .ok (.base exL) := by decide +kernel

theorem exT2_good : (Dim.unknown [⟨exT, 2, 1⟩]).Good ∧ ∀ est, (Dim.unknown [⟨exT, 2, 1⟩]).Rooted est := by
  have he : (Dim.unknown [⟨exT, 2, 1⟩]).exps = .ok [⟨exT, 2, 1⟩] := by decide +kernel
  refine ⟨⟨⟨_, he, ?_⟩, unknownCoherentUnit_wf⟩, fun est => rooted_of_den_one he (by decide)⟩
  intro e he; rw [List.mem_singleton] at he; subst he; exact ⟨one_wf, by decide⟩

theorem exSec_good (n : Int) (h : IntTy.i32.In n) : (exSec n).Good exKalEnv :=
  ⟨⟨exT_good, exT_good.unit, rfl, base_rooted _ _⟩, ⟨_, rfl, h⟩⟩

theorem exSecF_good (x : ℚ) : (exSecF x).Good exKalEnv := ⟨⟨exT_good, exT_good.unit, rfl, base_rooted _ _⟩, ⟨_, rfl⟩⟩

section
variable (β : String → ℝ)

theorem exMV_measures (x y : ℚ) : Measures exKalEnv β (exMVar x) (exMVar y) := ⟨(exMV_ok y).good, Related.self _, exL_neutral⟩

theorem exKmV_measures (x : ℚ) (y : Int) (h : IntTy.i32.In y) : Measures exKalEnv β (exMVar x) (exKmVar y) :=
  ⟨⟨exKms_good _ _, ⟨_, rfl, h⟩⟩, (Related.self _).of_dim rfl rfl, exL_neutral⟩

theorem exPosKm_measures (x : ℚ) (y : Int) (h : IntTy.i32.In y) : Measures exKalEnv β (exPos x) (exPosKm y) :=
  ⟨⟨exKms_good _ _, ⟨_, rfl, h⟩⟩, (Related.self _).of_dim rfl rfl, exL_neutral⟩

theorem exMoves (x v : ℚ) (n : Int) (h : IntTy.i32.In n) : Moves exKalEnv (exMVar x) (exMs v) (exSec n) :=
  ⟨exMV_ok x, exMs_ok v, exSec_good n h, exDiv1, exMul1⟩

theorem exMovesF (x v t : ℚ) : Moves exKalEnv (exMVar x) (exMs v) (exSecF t) := ⟨exMV_ok x, exMs_ok v, exSecF_good t, exDiv1, exMul1⟩

theorem exAccelerates (x v a t : ℚ) : Accelerates exKalEnv (exMVar x) (exMs v) (exMs2 a) (exSecF t) := by
  refine ⟨exMovesF x v t, ⟨exMs_ok v, exMs2_ok a, exSecF_good t, exDiv2, exMul2⟩, fun d hd => ?_⟩
  have : d = .unknown [⟨exT, 2, 1⟩] := (Except.ok.inj (exMul3.symm.trans hd)).symm
  subst this
  exact ⟨exT2_good.1, exT2_good.2 _, exDiv3⟩

theorem exMV_amount (x : ℚ) : (exMVar x).amount β = x * β "metre" := by
  show (x : ℝ) * (exMetres _).size β = _
  unfold QTy.size exMetres
  rw [Dim.size_base exL_good.unit]
  norm_num [exMetre, exL, Ratio.val, Ratio.one, baseSize]

theorem exM2_pos (hβ : Sizes β) {x : ℚ} (h : 0 < x) : 0 < (exM2 x).amount β :=
  mul_pos (by exact_mod_cast h) ((exM2_ok x).good.ty.size_pos hβ)

/-- A measurement of 1 km for a position of 500 m and the gain 1/4: 625 m.  The same with points. -/
example (hβ : Sizes β) : stateUpdate1 exKalEnv exNoRebinds (exMVar 500) (exKmVar 1) (exGain (1 / 4)) = .ok (exMVar 625) ∧
    stateUpdate1 exKalEnv exNoRebinds (exPos 500) (exPosKm 1) (exGain (1 / 4)) = .ok (exPos 625) ∧
    (exPos 625).amount β = (exPos 500).amount β + (exGain (1 / 4)).amount β * ((exPosKm 1).amount β - (exPos 500).amount β) := by
  have h : stateUpdate1 exKalEnv exNoRebinds (exPos 500) (exPosKm 1) (exGain (1 / 4)) = .ok (exPos 625) := by decide +kernel
  exact ⟨by decide +kernel, h, (C79_update_partial (exKal β hβ) _ _ _ _ (exPos_ok _) (exPosKm_measures β _ _ (by decide)) (exGain_ok _) h).2.2⟩

/-- Variances of 225 m² and 25 m²: the gain 9/10, the variance 22.5 m², which is the least. -/
example (hβ : Sizes β) : kalmanGain exKalEnv (exM2 225) (exM2 25) = .ok (exGain (9 / 10)) ∧
    covarianceUpdate exKalEnv (exM2 225) (exGain (9 / 10)) = .ok (exM2 (45 / 2)) ∧
    ∀ x : ℝ, (exM2 (45 / 2)).amount β ≤ (1 - x) ^ 2 * (exM2 225).amount β + x ^ 2 * (exM2 25).amount β := by
  have h1 : kalmanGain exKalEnv (exM2 225) (exM2 25) = .ok (exGain (9 / 10)) := by decide +kernel
  have h2 : covarianceUpdate exKalEnv (exM2 225) (exGain (9 / 10)) = .ok (exM2 (45 / 2)) := by decide +kernel
  exact ⟨h1, h2, (C79_optimal_partial (exKal β hβ) _ _ _ _ (exM2_ok _) (exM2_ok _).good (exM2_pos β hβ (by norm_num)) (exM2_pos β hβ (by norm_num)) h1
    h2).2⟩

example (hβ : Sizes β) : (exGain (9 / 10)).amount β = (exM2 225).amount β / ((exM2 225).amount β + (exM2 25).amount β) ∧
    (exM2 (45 / 2)).amount β = (1 - (exGain (9 / 10)).amount β) * (exM2 225).amount β :=
  ⟨(C79_gain_partial (exKal β hβ) (exM2 225) (exM2 25) _ (exM2_ok _) (exM2_ok _).good (by decide +kernel)).2.2.2.1,
    (C79_covariance_partial (exKal β hβ) (exM2 225) (exGain (9 / 10)) _ (exM2_ok _) (exGain_ok _) (by decide +kernel)).2.2.2 rfl⟩

example (hβ : Sizes β) : (exM2 26).amount β = (exM2 25).amount β + (exM2 1).amount β :=
  (C79_noise_partial (exKal β hβ) (exM2 25) (exM2 1) _ (exM2_ok _) (exM2_ok _).good (by decide +kernel)).2.2

/-- 60 m with a variance of 225 m², then measurements of 50 m and 1 km with a variance of 25 m². -/
example (hβ : Sizes β) : filterLoop exKalEnv exNoRebinds none (exM2 25) (exMVar 60, exM2 225) [exMVar 50, exKmVar 1] =
      .ok (exMVar (9510 / 19), exM2 (225 / 19)) ∧
    1 / (exM2 (225 / 19)).amount β = 1 / (exM2 225).amount β + (2 : ℕ) / (exM2 25).amount β := by
  have h : filterLoop exKalEnv exNoRebinds none (exM2 25) (exMVar 60, exM2 225) [exMVar 50, exKmVar 1] = .ok (exMVar (9510 / 19), exM2 (225 / 19)) := by
    decide +kernel
  refine ⟨h, (C79_filter_partial (exKal β hβ) _ (exM2_ok _).good (exM2_pos β hβ (by norm_num)) _ _ _ _ _ (exMV_ok _) (exM2_ok _) ?_
    (exM2_pos β hβ (by norm_num)) h).2.1⟩
  simp only [List.mem_cons, List.not_mem_nil, or_false, forall_eq_or_imp, forall_eq]
  exact ⟨exMV_measures β _ _, exKmV_measures β _ _ (by decide)⟩

/-- With a process noise of 1 m² the state stays between 40 m and 60 m. -/
example (hβ : Sizes β) : filterLoop exKalEnv exNoRebinds (some (exM2 1)) (exM2 25) (exMVar 60, exM2 225) [exMVar 50, exMVar 40] =
      .ok (exMVar (4430 / 97), exM2 (1272 / 97)) ∧ (exMVar 40).amount β ≤ (exMVar (4430 / 97)).amount β := by
  have h : filterLoop exKalEnv exNoRebinds (some (exM2 1)) (exM2 25) (exMVar 60, exM2 225) [exMVar 50, exMVar 40] =
      .ok (exMVar (4430 / 97), exM2 (1272 / 97)) := by decide +kernel
  have hb : 0 < β "metre" := hβ _
  refine ⟨h, (C79_filter_bounds_partial (exKal β hβ) (some (exM2 1)) _ (exM2_ok _).good (exM2_pos β hβ (by norm_num)) ?_ _ ((exMVar 60).amount β) _ _ _ _ _
    (exMV_ok _) (exM2_ok _) ?_ (exM2_pos β hβ (by norm_num)) ?_ le_rfl h).2.2.2.1⟩
  · rintro _ ⟨⟩; exact ⟨(exM2_ok _).good, (exM2_pos β hβ (by norm_num)).le⟩
  · simp only [List.mem_cons, List.not_mem_nil, or_false, forall_eq_or_imp, forall_eq, exMV_amount]
    refine ⟨⟨exMV_measures β _ _, ?_, ?_⟩, exMV_measures β _ _, ?_, ?_⟩ <;> push_cast <;> nlinarith
  · simp only [exMV_amount]; push_cast; nlinarith

/-- The mean of 1 km, 1500 m and 2 km. -/
example (hβ : Sizes β) : averageLoop exKalEnv exNoRebinds 1 (exMVar 7) [exKmVar 1, exMVar 1500, exKmVar 2] = .ok (exMVar 1500) ∧
    (exMVar 1500).amount β * ((1 : ℤ) - 1 + (3 : ℕ)) =
      (exMVar 7).amount β * ((1 : ℤ) - 1) + ((exKmVar 1).amount β + ((exMVar 1500).amount β + ((exKmVar 2).amount β + 0))) := by
  have h : averageLoop exKalEnv exNoRebinds 1 (exMVar 7) [exKmVar 1, exMVar 1500, exKmVar 2] = .ok (exMVar 1500) := by decide +kernel
  refine ⟨h, (C79_average_partial (exKal β hβ) _ _ _ _ (by decide) (by decide) (exMV_ok _) ?_ h).2⟩
  simp only [List.mem_cons, List.not_mem_nil, or_false, forall_eq_or_imp, forall_eq]
  exact ⟨exKmV_measures β _ _ (by decide), exMV_measures β _ _, exKmV_measures β _ _ (by decide)⟩

/-- kalman_filter-example_2.cpp: the intervals are integers. -/
example (hβ : Sizes β) : trackLoop exKalEnv exNoRebinds (exGain (1 / 5)) (exGain (1 / 10)) (exSec 5) (exMVar 30200, exMs 40) [exMVar 30110, exMVar 30265] =
      .ok (exMVar (152658 / 5), exMs (901 / 25)) ∧
    ((exMVar (152658 / 5)).amount β, (exMs (901 / 25)).amount β) = ([(exMVar 30110).amount β, (exMVar 30265).amount β]).foldl
      (trackStep ((exGain (1 / 5)).amount β) ((exGain (1 / 10)).amount β) ((exSec 5).amount β)) ((exMVar 30200).amount β, (exMs 40).amount β) := by
  have h : trackLoop exKalEnv exNoRebinds (exGain (1 / 5)) (exGain (1 / 10)) (exSec 5) (exMVar 30200, exMs 40) [exMVar 30110, exMVar 30265] =
      .ok (exMVar (152658 / 5), exMs (901 / 25)) := by decide +kernel
  refine ⟨h, (C79_track_partial (exKal β hβ) _ _ _ (exGain_ok _) (exGain_ok _) _ _ _ _ _ (exMoves _ _ _ (by decide)) ?_ h).2.2⟩
  simp only [List.mem_cons, List.not_mem_nil, or_false, forall_eq_or_imp, forall_eq]
  exact ⟨⟨exMV_measures β _ _, rfl⟩, exMV_measures β _ _, rfl⟩

/-- 40 m/s for 5 s at a time, with measurements of exactly that. -/
example (hβ : Sizes β) : trackLoop exKalEnv exNoRebinds (exGain (1 / 5)) (exGain (1 / 10)) (exSec 5) (exMVar 100, exMs 40) [exMVar 100, exMVar 300] =
      .ok (exMVar 500, exMs 40) ∧ (exMVar 500).amount β = (exMVar 100).amount β + (2 : ℕ) * ((exMs 40).amount β * (exSec 5).amount β) := by
  have h : trackLoop exKalEnv exNoRebinds (exGain (1 / 5)) (exGain (1 / 10)) (exSec 5) (exMVar 100, exMs 40) [exMVar 100, exMVar 300] =
      .ok (exMVar 500, exMs 40) := by decide +kernel
  have hx : extrapolate2 exKalEnv exNoRebinds (exMVar 100) (exMs 40) (exSec 5) = .ok (exMVar 300, exMs 40) := by decide +kernel
  have e := (C79_extrapolate2_partial (exKal β hβ) _ _ _ _ _ (exMoves _ _ _ (by decide)) hx).2.2.2
  refine ⟨h, (C79_track_uniform_partial (exKal β hβ) _ _ _ (exGain_ok _) (exGain_ok _) _ _ _ _ _ (exMoves _ _ _ (by decide)) ?_ ?_ h).1⟩
  · simp only [List.mem_cons, List.not_mem_nil, or_false, forall_eq_or_imp, forall_eq]
    exact ⟨⟨exMV_measures β _ _, trivial⟩, exMV_measures β _ _, rfl⟩
  · simp [List.range_succ, e]

example (hβ : Sizes β) : stateUpdate2 exKalEnv exNoRebinds (exMVar 30200) (exMs 40) (exMVar 30110) (exGain (1 / 5)) (exGain (1 / 10)) (exSec 5) =
      .ok (exMVar 30182, exMs (191 / 5)) ∧
    (exMs (191 / 5)).amount β =
      (exMs 40).amount β + (exGain (1 / 10)).amount β * ((exMVar 30110).amount β - (exMVar 30200).amount β) / (exSec 5).amount β := by
  have h : stateUpdate2 exKalEnv exNoRebinds (exMVar 30200) (exMs 40) (exMVar 30110) (exGain (1 / 5)) (exGain (1 / 10)) (exSec 5) =
      .ok (exMVar 30182, exMs (191 / 5)) := by decide +kernel
  exact ⟨h, (C79_update2_partial (exKal β hβ) _ _ _ _ _ _ _ _ (exMoves 30200 40 5 (by decide)) (exMV_measures β _ _) (by rfl) (exGain_ok _) (exGain_ok _)
    h).2.2.2.2.2⟩

/-- kalman_filter-example_4.cpp, whose interval is in floating point. -/
example (hβ : Sizes β) :
    stateUpdate3 exKalEnv exNoRebinds (exMVar 30250) (exMs 50) (exMs2 0) (exMVar 30160) (exGain (1 / 2)) (exGain (2 / 5)) (exGain (1 / 10)) (exSecF 5) =
      .ok (exMVar 30205, exMs (214 / 5), exMs2 (-18 / 25)) ∧
    (exMs2 (-18 / 25)).amount β = (exMs2 0).amount β +
      (exGain (1 / 10)).amount β * ((exMVar 30160).amount β - (exMVar 30250).amount β) / ((exSecF 5).amount β ^ 2 / 2) := by
  have h : stateUpdate3 exKalEnv exNoRebinds (exMVar 30250) (exMs 50) (exMs2 0) (exMVar 30160) (exGain (1 / 2)) (exGain (2 / 5)) (exGain (1 / 10))
      (exSecF 5) = .ok (exMVar 30205, exMs (214 / 5), exMs2 (-18 / 25)) := by decide +kernel
  exact ⟨h, (C79_update3_partial (exKal β hβ) _ _ _ _ _ _ _ _ _ _ _ (exAccelerates _ _ _ _) (exMV_measures β _ _) (by rfl) (exGain_ok _) (exGain_ok _)
    (exGain_ok _) rfl h).2.2.2.2.2.2⟩

/-- 50 m/s and 2 m/s² for 5 s. -/
example (hβ : Sizes β) : extrapolate3 exKalEnv exNoRebinds exLibm (exMVar 30250) (exMs 50) (exMs2 2) (exSecF 5) = .ok (exMVar 30525, exMs 60, exMs2 2) ∧
    (exMVar 30525).amount β =
      (exMVar 30250).amount β + (exMs 50).amount β * (exSecF 5).amount β + (exMs2 2).amount β * (exSecF 5).amount β ^ 2 / 2 := by
  have h : extrapolate3 exKalEnv exNoRebinds exLibm (exMVar 30250) (exMs 50) (exMs2 2) (exSecF 5) = .ok (exMVar 30525, exMs 60, exMs2 2) := by
    decide +kernel
  refine ⟨h, (C79_extrapolate3_partial (exKal β hβ) exLibm exLibm_exact _ _ _ _ _ _ _ (exAccelerates _ _ _ _) rfl (fun hb => absurd rfl (hb exT))
    (fun t2 ht => ?_) h).2.2.2.1⟩
  have hp : powQty exKalEnv exLibm 2 1 (exSecF 5) = .ok (.inr ⟨⟨.unknown [⟨exT, 2, 1⟩],
      ⟨.scaled Ratio.one "unknown_coherent_unit", Ratio.one, "unknown_coherent_unit", [], false, "", none⟩, .flt .f64⟩, .f 25⟩) := by decide +kernel
  rw [hp] at ht
  have := (Sum.inr.inj (Except.ok.inj ht)).symm
  subst this
  refine ⟨⟨⟨exT2_good.1, ⟨one_wf, by decide⟩, rfl, exT2_good.2 _⟩, ⟨_, rfl⟩⟩, ?_, exMul4⟩
  norm_num [Dim.unit, exSecF, exT, unknownCoherentUnit, Ratio.val, Ratio.one]

end

/-- C79 is violated by the update of three variables with an interval of integers, like that of kalman_filter-example_2.cpp (kalman_filter-example_4.cpp uses
`double`): `interval * interval / 2` is an integer, so that for 5 s the acceleration is
divided by 12 s² instead of 12.5 s², and for 1 s by 0 s², which is not finite. -/
theorem C79_integral_interval (β : String → ℝ) (hβ : Sizes β) :
    (∃ a : ℚ, stateUpdate3 exKalEnv exNoRebinds (exMVar 30250) (exMs 50) (exMs2 0) (exMVar 30160) (exGain (1 / 2)) (exGain (2 / 5)) (exGain (1 / 10)) (exSec 5) =
        .ok (exMVar 30205, exMs (214 / 5), exMs2 a) ∧
      (exMs2 a).amount β ≠ (exMs2 0).amount β +
        (exGain (1 / 10)).amount β * ((exMVar 30160).amount β - (exMVar 30250).amount β) / ((exSec 5).amount β ^ 2 / 2)) ∧
    stateUpdate3 exKalEnv exNoRebinds (exMVar 30250) (exMs 50) (exMs2 0) (exMVar 30160) (exGain (1 / 2)) (exGain (2 / 5)) (exGain (1 / 10)) (exSec 1) =
      .error .nonfinite := by
  refine ⟨⟨-3 / 4, by decide +kernel, ?_⟩, by decide +kernel⟩
  have h : stateUpdate3 exKalEnv exNoRebinds (exMVar 30250) (exMs 50) (exMs2 0) (exMVar 30160) (exGain (1 / 2)) (exGain (2 / 5)) (exGain (1 / 10))
      (exSecF 5) = .ok (exMVar 30205, exMs (214 / 5), exMs2 (-18 / 25)) := by decide +kernel
  have e := (C79_update3_partial (exKal β hβ) _ _ _ _ _ _ _ _ _ _ _ (exAccelerates _ _ _ _) (exMV_measures β _ _) (by rfl) (exGain_ok _) (exGain_ok _)
    (exGain_ok _) rfl h).2.2.2.2.2.2
  have es : (exSec 5).amount β = (exSecF 5).amount β := by
    unfold Qty.amount exSec exSecF
    norm_num [Num.q]
  rw [es, ← e]
  have S := (exMs2_ok 0).good.ty.size_pos hβ
  intro hc
  have hc : ((-3 / 4 : ℚ) : ℝ) * (exMs2 0).under.ty.size β = ((-18 / 25 : ℚ) : ℝ) * (exMs2 0).under.ty.size β := hc
  have := mul_right_cancel₀ S.ne' hc
  norm_num at this

end Verif
