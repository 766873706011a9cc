import Verif.IeeeOps
import Verif.Props.IeeeArithProps
import Verif.Props.MathProps

/-!
# Products, quotients, compound assignments, negation and roots in IEEE arithmetic (C75)
-/

set_option Elab.async false

namespace Verif

open FltTy

/-! ### One operation on numbers -/

theorem arith_le_left {r r' : Rep} {f g : FltTy} (h : r.arith r' = .flt f) (hr : r = .flt g) : FltTy.Le g f := by
  subst hr
  rcases r' with t | t <;> cases g <;> cases t <;> cases f <;> first | exact ⟨by decide, by decide⟩ | exact absurd h (by decide)

theorem arith_le_right {r r' : Rep} {f g : FltTy} (h : r.arith r' = .flt f) (hr : r' = .flt g) : FltTy.Le g f := by
  subst hr
  rcases r with t | t <;> cases g <;> cases t <;> cases f <;> first | exact ⟨by decide, by decide⟩ | exact absurd h (by decide)

/-- The exact result of an operator. -/
def BinOp.exact : BinOp → ℚ → ℚ → ℚ
  | .add, a, b => a + b
  | .sub, a, b => a - b
  | .mul, a, b => a * b
  | .div, a, b => a / b
  | .mod, _, _ => 0

/-- A product or a quotient. -/
def BinOp.Scaling (op : BinOp) (b : ℚ) : Prop := op = .mul ∨ op = .div ∧ b ≠ 0

theorem numOpI_round {op : BinOp} {ra rb : Rep} {f : FltTy} {a b : FNum} (hf : ra.arith rb = .flt f) (ta : a.Typed ra) (tb : b.Typed rb)
    (fa : a.Finite) (fb : b.Finite) (hop : op.Scaling b.q) :
    ∃ z, 0 ≤ z ∧ Near f.u 2 1 |op.exact a.q b.q| z ∧ numOpI op ra rb a b = .ok (.f (FVal.round f (a.neg != b.neg) z)) := by
  obtain ⟨m, m0, hm, nm⟩ := convI_first (f := f) (fun g e => arith_le_left hf e) ta fa
  obtain ⟨k, k0, hk, nk⟩ := convI_first (f := f) (fun g e => arith_le_right hf e) tb fb
  have u0 := f.u_pos.le
  have u1 := f.u_lt_one
  rcases hop with rfl | ⟨rfl, hb⟩
  · refine ⟨m * k, mul_nonneg m0 k0, ?_, ?_⟩
    · have := Near.mul u0 u1 nm nk
      rw [← abs_mul] at this
      exact Near.weaken u0 u1 (by omega) (by omega) this
    · unfold numOpI
      rw [hf, hm, hk]
      rfl
  · have hk0 : 0 < k := by
      have := (Near.bounds (by omega) (by omega) (abs_nonneg _) nk).1
      have : 0 < |b.q| := abs_pos.mpr hb
      linarith
    refine ⟨m / k, div_nonneg m0 k0, ?_, ?_⟩
    · have := Near.div u0 u1 nm nk
      rw [← abs_div] at this
      exact Near.weaken u0 u1 (by omega) (by omega) this
    · unfold numOpI
      rw [hf, hm, hk]
      show (do let z ← FVal.op f .div (.fin a.neg m) (.fin b.neg k); Except.ok (FNum.f z)) = _
      simp [FVal.op, FVal.div, hk0.ne']

theorem round_small {f : FltTy} {X z : ℚ} (hX : 0 ≤ X) (s : Bool) (hz : Near f.u 2 1 X z) (hb : X ≤ 2 ^ (f.emax - 2)) :
    ∃ y, FVal.round f s z = .fin s y ∧ (FVal.fin s y).In f ∧ |y - X| ≤ gammaErr f 3 * X + f.tiny / 2 ∧
      (2 ^ (f.emin + 1) ≤ X → |y - X| ≤ gammaErr f 3 * X) := by
  have z0 : 0 ≤ z := Near.nonneg (by omega) (by omega) hX hz
  obtain ⟨b1, b2⟩ := Near.bounds (by omega) (by omega) hX hz
  have e4 : (2 : ℚ) ^ (f.emax - 1) = 2 * 2 ^ (f.emax - 2) := by
    rw [show f.emax - 1 = f.emax - 2 + 1 by ring, zpow_add₀ (by norm_num)]; ring
  have hz2 : z ≤ 2 ^ (f.emax - 1) := by rw [e4]; have := two_zpow_pos (f.emax - 2); linarith
  have hle : f.rndU z ≤ 2 ^ (f.emax - 1) := rndU_le_pow (by unfold FltTy.emin; have := f.emax_ge; omega) z0 hz2
  have hlt := hle.trans_lt (two_zpow_lt (show f.emax - 1 < f.emax by omega))
  have hr : f.rndMag z = some (f.rndU z) := rndMag_some.mpr ⟨rfl, hlt⟩
  refine ⟨f.rndU z, by simp [FVal.round, hr], ⟨rndU_nonneg z0, rndMag_some.mpr ⟨(rndU_idem z0).symm, hlt⟩⟩, ?_, ?_⟩
  · have E0 := Near.err (by omega) hX hz
    have E1 := rndU_any (f := f) z0
    have hzX : z ≤ X + gammaErr f 2 * X := by have := (abs_le.mp E0).2; linarith
    have hs : gammaErr f 3 = (1 + gammaErr f 2) * (1 + f.u) - 1 := by rw [← gammaErr_succ]; ring
    have t1 : |f.rndU z - X| ≤ |f.rndU z - z| + |z - X| := by
      have := abs_add_le (f.rndU z - z) (z - X)
      rwa [show f.rndU z - z + (z - X) = f.rndU z - X by ring] at this
    have t2 : f.u * z ≤ f.u * (X + gammaErr f 2 * X) := mul_le_mul_of_nonneg_left hzX f.u_pos.le
    rw [hs]
    nlinarith
  · intro hn
    have e1 : (2 : ℚ) ^ (f.emin + 1) = 2 * 2 ^ f.emin := by rw [zpow_add₀ (by norm_num)]; ring
    have hnz : (2 : ℚ) ^ f.emin ≤ z := by rw [e1] at hn; linarith
    refine Near.err (by omega) hX (Near.of_rel f.u_pos.le f.u_lt_one hz ?_)
    rw [abs_of_nonneg z0]
    exact rndU_rel hnz

theorem round_large {f : FltTy} {X z : ℚ} (s : Bool) (hz : Near f.u 2 1 X z) (hb : 2 ^ (f.emax + 1) ≤ X) : FVal.round f s z = .inf s := by
  have hX : 0 < X := (two_zpow_pos _).trans_le hb
  have z0 := Near.nonneg (by omega) (by omega) hX.le hz
  rw [← round2_same _ _ z0]
  exact round2_large ⟨le_rfl, le_rfl⟩ (by omega) s hz hb

theorem exact_sign {op : BinOp} {ra rb : Rep} {a b : FNum} (ta : a.Typed ra) (tb : b.Typed rb) (fa : a.Finite) (fb : b.Finite)
    (hop : op = .mul ∨ op = .div) : op.exact a.q b.q = if a.neg != b.neg then -|op.exact a.q b.q| else |op.exact a.q b.q| := by
  have ha := FNum.q_sign ta fa
  have hb := FNum.q_sign tb fb
  have A := abs_nonneg a.q
  have B := abs_nonneg b.q
  rcases hop with rfl | rfl <;> simp only [BinOp.exact, abs_mul, abs_div] <;> cases h1 : a.neg <;> cases h2 : b.neg <;>
    simp only [h1, h2, if_true, if_false, Bool.false_eq_true] at ha hb <;>
    simp <;> rw [ha, hb] <;> simp <;> ring

theorem signed_mag {b : Bool} {y x : ℚ} (hx : x = if b then -|x| else |x|) : |(FVal.fin b y).q - x| = |y - (|x|)| := by
  have := signed_err (c := 1) (y := y) hx (X := |x|) (by ring)
  rwa [mul_one] at this

/-- The number `y` is the exact result `X` with the error of a few roundings: it is finite unless the result is too large, and then infinite. -/
structure Approx (f : FltTy) (s : Bool) (X : ℚ) (y : FNum) : Prop where
  finite : |X| ≤ 2 ^ (f.emax - 2) → y.Finite
  near : |X| ≤ 2 ^ (f.emax - 2) → |y.q - X| ≤ gammaErr f 3 * |X| + f.tiny / 2
  normal : |X| ≤ 2 ^ (f.emax - 2) → 2 ^ (f.emin + 1) ≤ |X| → |y.q - X| ≤ gammaErr f 3 * |X|
  large : 2 ^ (f.emax + 1) ≤ |X| → y = .f (.inf s)

theorem numOpI_approx {op : BinOp} {ra rb : Rep} {f : FltTy} {a b : FNum} (hf : ra.arith rb = .flt f) (ta : a.Typed ra) (tb : b.Typed rb)
    (fa : a.Finite) (fb : b.Finite) (hop : op.Scaling b.q) :
    ∃ y, numOpI op ra rb a b = .ok y ∧ y.Typed (.flt f) ∧ Approx f (a.neg != b.neg) (op.exact a.q b.q) y := by
  obtain ⟨z, z0, nz, hz⟩ := numOpI_round hf ta tb fa fb hop
  have hs := exact_sign ta tb fa fb (op := op) (hop.imp_right And.left)
  refine ⟨_, hz, ⟨f, rfl, round_in z0⟩, ?_⟩
  have key : |op.exact a.q b.q| ≤ 2 ^ (f.emax - 2) → (FNum.f (FVal.round f (a.neg != b.neg) z)).Finite ∧
      |(FNum.f (FVal.round f (a.neg != b.neg) z)).q - op.exact a.q b.q| ≤ gammaErr f 3 * |op.exact a.q b.q| + f.tiny / 2 ∧
      (2 ^ (f.emin + 1) ≤ |op.exact a.q b.q| →
        |(FNum.f (FVal.round f (a.neg != b.neg) z)).q - op.exact a.q b.q| ≤ gammaErr f 3 * |op.exact a.q b.q|) := by
    intro h
    obtain ⟨y, hy, -, e1, e2⟩ := round_small (abs_nonneg _) (a.neg != b.neg) nz h
    rw [hy]
    have : |(FNum.f (FVal.fin (a.neg != b.neg) y)).q - op.exact a.q b.q| = |y - (|op.exact a.q b.q|)| := signed_mag hs
    rw [this]
    exact ⟨trivial, e1, e2⟩
  exact ⟨fun h => (key h).1, fun h => (key h).2.1, fun h => (key h).2.2, fun h => by rw [round_large _ nz h]⟩

/-- The bounds in terms of amounts. -/
theorem Approx.amount {f : FltTy} {s : Bool} {X : ℚ} {y : FNum} (h : Approx f s X y) {S : ℝ} (hS : 0 < S) :
    (|X| ≤ 2 ^ (f.emax - 2) → y.Finite ∧ |(y.q : ℝ) * S - X * S| ≤ gammaErr f 3 * |X * S| + f.tiny / 2 * S ∧
      (2 ^ (f.emin + 1) ≤ |X| → |(y.q : ℝ) * S - X * S| ≤ gammaErr f 3 * |X * S|)) := by
  intro hb
  have hl : |(y.q : ℝ) * S - X * S| = ((|y.q - X| : ℚ) : ℝ) * S := by
    rw [← sub_mul, abs_mul, abs_of_pos hS]; push_cast; rfl
  have hr : |(X : ℝ) * S| = ((|X| : ℚ) : ℝ) * S := by rw [abs_mul, abs_of_pos hS]; push_cast; rfl
  rw [hl, hr]
  refine ⟨h.finite hb, ?_, fun hn => ?_⟩
  · have h1 : ((|y.q - X| : ℚ) : ℝ) ≤ ((gammaErr f 3 * |X| + f.tiny / 2 : ℚ) : ℝ) := by exact_mod_cast h.near hb
    have := mul_le_mul_of_nonneg_right h1 hS.le
    push_cast at this ⊢
    linarith
  · have h1 : ((|y.q - X| : ℚ) : ℝ) ≤ ((gammaErr f 3 * |X| : ℚ) : ℝ) := by exact_mod_cast h.normal hb hn
    have := mul_le_mul_of_nonneg_right h1 hS.le
    push_cast at this ⊢
    linarith

/-- C75: a product of two finite quantities, at least one of them floating point, of moderate size is the exact product up to at most three
roundings (the two conversions to the type of the result are exact unless an operand is a large integer) and half the least positive number; a normal
product has only the relative error.  A product that is too large becomes an infinity with the sign of the product. -/
theorem C75_product (E : Env) (hE : E.OK) (β : String → ℝ) (hβ : Sizes β) (a b r : QtyI) (f : FltTy) (ga : a.ty.Good E) (gb : b.ty.Good E)
    (gr : r.ty.dim.Good) (ta : a.num.Typed a.ty.rep) (tb : b.num.Typed b.ty.rep) (fa : a.num.Finite) (fb : b.num.Finite)
    (hf : a.ty.rep.arith b.ty.rep = .flt f) (h : mulQtyI E a b = .ok r) :
    r.ty.rep = .flt f ∧ r.num.Typed (.flt f) ∧ r.ty.size β = a.ty.size β * b.ty.size β ∧
    (|a.num.q * b.num.q| ≤ 2 ^ (f.emax - 2) → r.num.Finite ∧
      |r.amount β - a.amount β * b.amount β| ≤ gammaErr f 3 * |a.amount β * b.amount β| + f.tiny / 2 * r.ty.size β ∧
      (2 ^ (f.emin + 1) ≤ |a.num.q * b.num.q| → |r.amount β - a.amount β * b.amount β| ≤ gammaErr f 3 * |a.amount β * b.amount β|)) ∧
    (2 ^ (f.emax + 1) ≤ |a.num.q * b.num.q| → r.num = .f (.inf (a.num.neg != b.num.neg))) := by
  unfold mulQtyI at h
  simp only [bind_ok] at h
  obtain ⟨⟨d, u⟩, h1, z, hz, h⟩ := h
  simp only [Except.ok.injEq] at h
  subst h
  dsimp only at gr ⊢
  obtain ⟨y, hy, ty, ay⟩ := numOpI_approx (op := .mul) hf ta tb fa fb (Or.inl rfl)
  rw [hy] at hz
  cases hz
  obtain ⟨-, -, k3⟩ := refMultiply_sound hE hβ ga.dim gb.dim gr ga.unit gb.unit h1
  have hS : (⟨d, u, a.ty.rep.arith b.ty.rep⟩ : QTy).size β = a.ty.size β * b.ty.size β := k3
  have pos : 0 < a.ty.size β * b.ty.size β := mul_pos (ga.size_pos hβ) (gb.size_pos hβ)
  refine ⟨hf, ty, hS, fun hb => ?_, ay.large⟩
  have := ay.amount pos hb
  unfold QtyI.amount
  rw [hS]
  have e : ((BinOp.mul.exact a.num.q b.num.q : ℚ) : ℝ) * (a.ty.size β * b.ty.size β) = a.num.q * a.ty.size β * (b.num.q * b.ty.size β) := by
    simp only [BinOp.exact]; push_cast; ring
  rw [e] at this
  exact this

/-- C75: likewise a quotient by a quantity that is not zero. -/
theorem C75_quotient (E : Env) (hE : E.OK) (β : String → ℝ) (hβ : Sizes β) (a b r : QtyI) (f : FltTy) (ga : a.ty.Good E) (gb : b.ty.Good E)
    (gr : r.ty.dim.Good) (ta : a.num.Typed a.ty.rep) (tb : b.num.Typed b.ty.rep) (fa : a.num.Finite) (fb : b.num.Finite)
    (hf : a.ty.rep.arith b.ty.rep = .flt f) (hb0 : b.num.q ≠ 0) (h : divQtyI E a b = .ok r) :
    r.ty.rep = .flt f ∧ r.num.Typed (.flt f) ∧ r.ty.size β = a.ty.size β / b.ty.size β ∧
    (|a.num.q / b.num.q| ≤ 2 ^ (f.emax - 2) → r.num.Finite ∧
      |r.amount β - a.amount β / b.amount β| ≤ gammaErr f 3 * |a.amount β / b.amount β| + f.tiny / 2 * r.ty.size β ∧
      (2 ^ (f.emin + 1) ≤ |a.num.q / b.num.q| → |r.amount β - a.amount β / b.amount β| ≤ gammaErr f 3 * |a.amount β / b.amount β|)) ∧
    (2 ^ (f.emax + 1) ≤ |a.num.q / b.num.q| → r.num = .f (.inf (a.num.neg != b.num.neg))) := by
  unfold divQtyI at h
  simp only [bind_ok] at h
  obtain ⟨⟨d, u⟩, h1, z, hz, h⟩ := h
  simp only [Except.ok.injEq] at h
  subst h
  dsimp only at gr ⊢
  obtain ⟨y, hy, ty, ay⟩ := numOpI_approx (op := .div) hf ta tb fa fb (Or.inr ⟨rfl, hb0⟩)
  rw [hy] at hz
  cases hz
  obtain ⟨-, -, k3⟩ := refDivide_sound hE hβ ga.dim gb.dim gr ga.unit gb.unit h1
  have hS : (⟨d, u, a.ty.rep.arith b.ty.rep⟩ : QTy).size β = a.ty.size β / b.ty.size β := k3
  have pb := gb.size_pos hβ
  have pos : 0 < a.ty.size β / b.ty.size β := div_pos (ga.size_pos hβ) pb
  refine ⟨hf, ty, hS, fun hb => ?_, ay.large⟩
  have := ay.amount pos hb
  unfold QtyI.amount
  rw [hS]
  have e : ((BinOp.div.exact a.num.q b.num.q : ℚ) : ℝ) * (a.ty.size β / b.ty.size β) = a.num.q * a.ty.size β / (b.num.q * b.ty.size β) := by
    simp only [BinOp.exact]; push_cast; field_simp
  rw [e] at this
  exact this

/-- Square kilometres, not named by any dimension of the environment. -/
def exKm2U : MUnit := ⟨.scaled ⟨1, 1, 6⟩ "unknown_coherent_unit", ⟨1, 1, 6⟩, "unknown_coherent_unit", [], false, "", none⟩

def exKm2 (r : Rep) : QTy := ⟨.unknown [⟨exL, 2, 1⟩], exKm2U, r⟩

theorem exKm2U_wf : exKm2U.WF := ⟨⟨by decide, by decide, fun _ => by decide, by decide, by decide, by decide, by decide, by decide⟩, by decide⟩

/-- The product of two lengths in kilometres, as a quantity of the named dimension. -/
def exKmArea (x : FVal) : QtyI :=
  ⟨⟨.named exArea, exKm2U, .flt .f64⟩, .f x⟩

theorem exArea_good : (Dim.named exArea).Good := by
  refine ⟨⟨_, rfl, ?_⟩, unknownCoherentUnit_wf⟩
  intro e he; simp only [exArea, List.mem_singleton] at he; subst he; exact ⟨one_wf, by decide⟩

theorem exTenthKm_typed : exTenthKm.num.Typed exTenthKm.ty.rep := ⟨.f64, rfl, by norm_num, by decide +kernel⟩

theorem exTenthKm_q : exTenthKm.num.q = 3602879701896397 / 2 ^ 55 := by norm_num [exTenthKm, FNum.q, FVal.q]

/-- The square of 0.1 km is computed as 0.010000000000000002 km², within the bound. -/
example (β : String → ℝ) (hβ : Sizes β) : mulQtyI exEnv exTenthKm exTenthKm = .ok (exKmArea (.fin false (1441151880758559 / 144115188075855872))) ∧
    |(exKmArea (.fin false (1441151880758559 / 144115188075855872))).amount β - exTenthKm.amount β * exTenthKm.amount β| ≤
      gammaErr .f64 3 * |exTenthKm.amount β * exTenthKm.amount β| := by
  have h : mulQtyI exEnv exTenthKm exTenthKm = .ok (exKmArea (.fin false (1441151880758559 / 144115188075855872))) := by decide +kernel
  refine ⟨h, ?_⟩
  obtain ⟨-, -, -, h1, -⟩ := C75_product exEnv exEnv_ok β hβ exTenthKm exTenthKm _ .f64 (exKms_good _ _) (exKms_good _ _) exArea_good
    exTenthKm_typed exTenthKm_typed trivial trivial rfl h
  rw [exTenthKm_q] at h1
  exact (h1 (by decide +kernel)).2.2 (by decide +kernel)

/-- 0.1 km divided by 30 cm, the latter an integer. -/
example (β : String → ℝ) (hβ : Sizes β) : ∃ r, divQtyI exEnv exTenthKm (exCmI 30) = .ok r ∧ r.num = .f (.fin false (7686143364045647 / 2 ^ 61)) ∧
    (r.ty.dim.Good → |r.amount β - exTenthKm.amount β / (exCmI 30).amount β| ≤ gammaErr .f64 3 * |exTenthKm.amount β / (exCmI 30).amount β|) := by
  cases h : divQtyI exEnv exTenthKm (exCmI 30) with
  | error e =>
    have : (divQtyI exEnv exTenthKm (exCmI 30)).isOk = true := by decide +kernel
    rw [h] at this; cases this
  | ok r =>
    refine ⟨r, rfl, ?_, fun gr => ?_⟩
    · have : (match divQtyI exEnv exTenthKm (exCmI 30) with | .ok r => decide (r.num = .f (.fin false (7686143364045647 / 2 ^ 61))) | _ => false) = true := by
        decide +kernel
      rw [h] at this; exact of_decide_eq_true this
    · obtain ⟨-, -, -, h1, -⟩ := C75_quotient exEnv exEnv_ok β hβ exTenthKm (exCmI 30) _ .f64 (exKms_good _ _) (exCms_good _ _) gr
        exTenthKm_typed ⟨.i64, rfl, by decide⟩ trivial trivial rfl (by decide +kernel) h
      rw [exTenthKm_q] at h1
      exact (h1 (by decide +kernel)).2.2 (by decide +kernel)

/-- C75: a quantity times or divided by a number denotes its amount times or divided by the number, with the same bounds; its unit is kept. -/
theorem C75_scale (E : Env) (β : String → ℝ) (hβ : Sizes β) (op : BinOp) (q r : QtyI) (rep : Rep) (v : FNum) (f : FltTy) (gq : q.ty.Good E)
    (tq : q.num.Typed q.ty.rep) (tv : v.Typed rep) (fq : q.num.Finite) (fv : v.Finite) (hf : q.ty.rep.arith rep = .flt f)
    (hop : op.Scaling v.q) (h : scaleQtyI op q rep v = .ok r) :
    r.ty = ⟨q.ty.dim, q.ty.unit, .flt f⟩ ∧ r.num.Typed (.flt f) ∧
    (|op.exact q.num.q v.q| ≤ 2 ^ (f.emax - 2) → r.num.Finite ∧
      |r.amount β - (if op = .mul then q.amount β * v.q else q.amount β / v.q)| ≤
        gammaErr f 3 * |if op = .mul then q.amount β * v.q else q.amount β / v.q| + f.tiny / 2 * r.ty.size β ∧
      (2 ^ (f.emin + 1) ≤ |op.exact q.num.q v.q| → |r.amount β - (if op = .mul then q.amount β * v.q else q.amount β / v.q)| ≤
        gammaErr f 3 * |if op = .mul then q.amount β * v.q else q.amount β / v.q|)) ∧
    (2 ^ (f.emax + 1) ≤ |op.exact q.num.q v.q| → r.num = .f (.inf (q.num.neg != v.neg))) := by
  unfold scaleQtyI at h
  simp only [bind_ok, Except.ok.injEq] at h
  obtain ⟨z, hz, rfl⟩ := h
  obtain ⟨y, hy, ty, ay⟩ := numOpI_approx hf tq tv fq fv hop
  rw [hy] at hz
  cases hz
  refine ⟨by rw [hf], ty, fun hb => ?_, ay.large⟩
  have := ay.amount (gq.size_pos hβ) hb
  have e : ((op.exact q.num.q v.q : ℚ) : ℝ) * q.ty.size β = if op = .mul then q.amount β * v.q else q.amount β / v.q := by
    rcases hop with rfl | ⟨rfl, -⟩
    · simp only [BinOp.exact, if_true, QtyI.amount]; push_cast; ring
    · simp only [BinOp.exact, reduceCtorEq, if_false, QtyI.amount]; push_cast; ring
  rw [e] at this
  exact this

theorem FVal.mul_comm (f : FltTy) (a b : FVal) : a.mul f b = b.mul f a := by
  rcases a with ⟨s, a⟩ | s | _ <;> rcases b with ⟨t, b⟩ | t | _ <;> simp only [FVal.mul, _root_.mul_comm] <;>
    first | rfl | rw [bne_comm]

theorem convI_arith {s : Rep} {f : FltTy} {v : FNum} (tv : v.Typed s) : ∃ y : FVal, convI s (.flt f) v = .ok (.f y) := by
  cases v with
  | i x =>
    obtain ⟨t, rfl, -⟩ := tv
    exact ⟨_, by simp [convI]; rfl⟩
  | f x =>
    obtain ⟨g, rfl, -⟩ := tv
    unfold convI
    split
    · exact ⟨_, rfl⟩
    · exact ⟨_, rfl⟩

theorem numOpI_mul_comm {ra rb : Rep} {f : FltTy} {a b : FNum} (hf : ra.arith rb = .flt f) (ta : a.Typed ra) (tb : b.Typed rb) :
    numOpI .mul ra rb a b = numOpI .mul rb ra b a := by
  obtain ⟨x, hx⟩ := convI_arith (f := f) ta
  obtain ⟨y, hy⟩ := convI_arith (f := f) tb
  unfold numOpI
  rw [Rep.arith_comm rb ra, hf, hx, hy]
  show Except.ok (FNum.f (x.mul f y)) = Except.ok (FNum.f (y.mul f x))
  rw [FVal.mul_comm]

/-- C75: a product of floating point numbers does not depend on the order, infinities and NaNs included: `v * q` is `q * v`, and both products of two
quantities have the same number. -/
theorem C75_commutative (E : Env) (q p : QtyI) (rep : Rep) (v : FNum) (f : FltTy) (tq : q.num.Typed q.ty.rep) (tp : p.num.Typed p.ty.rep)
    (tv : v.Typed rep) :
    (q.ty.rep.arith rep = .flt f → scaleQtyLeftI rep v q = scaleQtyI .mul q rep v) ∧
    (∀ x y, q.ty.rep.arith p.ty.rep = .flt f → mulQtyI E q p = .ok x → mulQtyI E p q = .ok y → x.num = y.num ∧ x.ty.rep = y.ty.rep) := by
  constructor
  · intro hf
    unfold scaleQtyLeftI scaleQtyI
    rw [numOpI_mul_comm hf tq tv, Rep.arith_comm rep]
  · intro x y hf hx hy
    unfold mulQtyI at hx hy
    simp only [bind_ok, Except.ok.injEq] at hx hy
    obtain ⟨⟨d, u⟩, -, z, hz, rfl⟩ := hx
    obtain ⟨⟨d', u'⟩, -, z', hz', rfl⟩ := hy
    rw [numOpI_mul_comm hf tq tp, hz'] at hz
    cases hz
    exact ⟨rfl, Rep.arith_comm _ _⟩

/-- C75: a number divided by a quantity that is not zero denotes the number divided by the amount.  Partial: as for C28, the coherent units of the
dimension and of its inverse must have inverse ratios. -/
theorem C75_reciprocal_partial (E : Env) (hE : E.OK) (β : String → ℝ) (hβ : Sizes β) (rep : Rep) (v : FNum) (q r : QtyI) (f : FltTy)
    (gq : q.ty.Good E) (gr : r.ty.dim.Good) (tq : q.num.Typed q.ty.rep) (tv : v.Typed rep) (fq : q.num.Finite) (fv : v.Finite)
    (hf : rep.arith q.ty.rep = .flt f) (hq0 : q.num.q ≠ 0) (h : recipQtyI E rep v q = .ok r)
    (hone : q.ty.dim.unit.ratio.val * r.ty.dim.unit.ratio.val = 1) :
    r.ty.rep = .flt f ∧ r.num.Typed (.flt f) ∧ r.ty.size β = 1 / q.ty.size β ∧
    (|v.q / q.num.q| ≤ 2 ^ (f.emax - 2) → r.num.Finite ∧
      |r.amount β - v.q / q.amount β| ≤ gammaErr f 3 * |v.q / q.amount β| + f.tiny / 2 * r.ty.size β ∧
      (2 ^ (f.emin + 1) ≤ |v.q / q.num.q| → |r.amount β - v.q / q.amount β| ≤ gammaErr f 3 * |v.q / q.amount β|)) ∧
    (2 ^ (f.emax + 1) ≤ |v.q / q.num.q| → r.num = .f (.inf (v.neg != q.num.neg))) := by
  unfold recipQtyI at h
  simp only [bind_ok, Except.ok.injEq] at h
  obtain ⟨d, hd, i, hi, u, hu, z, hz, rfl⟩ := h
  dsimp only at gr hone ⊢
  obtain ⟨y, hy, ty, ay⟩ := numOpI_approx (op := .div) hf tv tq fv fq (Or.inr ⟨rfl, hq0⟩)
  rw [hy] at hz
  cases hz
  obtain ⟨iw, iv, -⟩ := inverse_sound gq.unit.ratio hi
  obtain ⟨ur, -, -⟩ := downcastUnit_eq_ok hE.units hu
  have hsz := gq.size_pos hβ
  obtain ⟨e1, h1, k1⟩ := gq.dim.exps
  obtain ⟨e, h3, k⟩ := gr.exps
  have hs := dimSize_inv hβ hE.dims h1 h3 k1 k hd
  have hp := dimSize_pos hβ k1
  have hu0 : ((q.ty.unit.ratio.val : ℚ) : ℝ) ≠ 0 := by exact_mod_cast gq.unit.val_pos.ne'
  have hc0 : ((q.ty.dim.unit.ratio.val : ℚ) : ℝ) ≠ 0 := by exact_mod_cast gq.dim.unit.val_pos.ne'
  have hd0 : ((d.unit.ratio.val : ℚ) : ℝ) ≠ 0 := by exact_mod_cast gr.unit.val_pos.ne'
  have hone' : ((q.ty.dim.unit.ratio.val : ℚ) : ℝ) * ((d.unit.ratio.val : ℚ) : ℝ) = 1 := by exact_mod_cast hone
  have hS : (⟨d, u, rep.arith q.ty.rep⟩ : QTy).size β = 1 / q.ty.size β := by
    unfold QTy.size
    dsimp only
    rw [Dim.size_eq h1, Dim.size_eq h3, hs, ur, iv]
    push_cast
    have : (((d.unit.ratio.val : ℚ) : ℝ))⁻¹ = ((q.ty.dim.unit.ratio.val : ℚ) : ℝ) := by
      field_simp; linarith
    rw [div_eq_mul_inv (_ : ℝ) ((d.unit.ratio.val : ℚ) : ℝ), this]
    field_simp
  refine ⟨hf, ty, hS, fun hb => ?_, ay.large⟩
  have := ay.amount (one_div_pos.mpr hsz) hb
  have e : ((BinOp.div.exact v.q q.num.q : ℚ) : ℝ) * (1 / q.ty.size β) = v.q / q.amount β := by
    simp only [BinOp.exact, QtyI.amount]; push_cast; rw [div_mul_div_comm, mul_one]
  rw [e] at this
  unfold QtyI.amount at this ⊢
  dsimp only
  rw [hS]
  exact this

/-! ### Correct rounding -/

theorem In.form {f : FltTy} {s : Bool} {m : ℚ} (h : (FVal.fin s m).In f) :
    ∃ k e : Int, 0 ≤ k ∧ (k : ℚ) < 2 ^ f.prec ∧ f.emin - (f.prec - 1) ≤ e ∧ m = (k : ℚ) * 2 ^ e := by
  obtain ⟨h1, h2⟩ := rndMag_some.mp h.2
  rw [h1]
  exact rndU_form h.1

theorem FVal.Finite.eq {y : FVal} (h : y.Finite) : ∃ s m, y = .fin s m := by
  cases y with
  | fin s m => exact ⟨s, m, rfl⟩
  | inf s => exact h.elim
  | nan => exact h.elim

theorem fin_abs {s : Bool} {m : ℚ} (h : 0 ≤ m) : |(FVal.fin s m).q| = m := by cases s <;> simp [FVal.q, abs_of_nonneg h]

/-- C75: a product or quotient of finite numbers that the type of the result holds is rounded once: the result is a value of the type nearest to the
exact one.  It is infinite only if the exact one exceeds all finite values of the type in magnitude. -/
theorem C75_nearest (op : BinOp) (ra rb : Rep) (f : FltTy) (a b : FNum) (hf : ra.arith rb = .flt f) (ta : a.Typed ra) (tb : b.Typed rb)
    (fa : a.Finite) (fb : b.Finite) (hop : op.Scaling b.q) (ia : ∀ z, a = .i z → |(z : ℚ)| < 2 ^ f.prec)
    (ib : ∀ z, b = .i z → |(z : ℚ)| < 2 ^ f.prec) :
    ∃ y : FVal, numOpI op ra rb a b = .ok (.f y) ∧ y.In f ∧
      (y.Finite → ∀ w : FVal, w.In f → w.Finite → |y.q - op.exact a.q b.q| ≤ |w.q - op.exact a.q b.q|) ∧
      (¬ y.Finite → y = .inf (a.neg != b.neg) ∧ ∀ w : FVal, w.In f → w.Finite → |w.q| < |op.exact a.q b.q|) := by
  have ha := convI_exact (fun g e => arith_le_left hf e) ta fa ia
  have hb := convI_exact (fun g e => arith_le_right hf e) tb fb ib
  have hs := exact_sign ta tb fa fb (op := op) (hop.imp_right And.left)
  have heq : numOpI op ra rb a b = .ok (.f (FVal.round f (a.neg != b.neg) |op.exact a.q b.q|)) := by
    unfold numOpI
    rw [hf, ha, hb]
    rcases hop with rfl | ⟨rfl, h0⟩
    · simp only [BinOp.exact, abs_mul]; rfl
    · simp only [BinOp.exact, abs_div]
      show (do let z ← FVal.op f .div (.fin a.neg |a.q|) (.fin b.neg |b.q|); Except.ok (FNum.f z)) = _
      simp [FVal.op, FVal.div, h0]
  refine ⟨_, heq, round_in (abs_nonneg _), ?_, ?_⟩
  · intro hfin w hw hwf
    obtain ⟨s, m, rfl⟩ := hwf.eq
    obtain ⟨k, e, k0, kp, ke, hm⟩ := In.form hw
    cases hr : f.rndMag |op.exact a.q b.q| with
    | none => simp [FVal.round, hr, FVal.Finite] at hfin
    | some y =>
      obtain ⟨rfl, -⟩ := rndMag_some.mp hr
      simp only [FVal.round, hr]
      rw [signed_mag hs]
      have h1 := rndU_nearest (f := f) (abs_nonneg (op.exact a.q b.q)) k0 kp ke
      rw [← hm] at h1
      refine h1.trans ?_
      have h2 := abs_abs_sub_abs_le (FVal.fin s m).q (op.exact a.q b.q)
      rwa [fin_abs hw.1] at h2
  · intro hfin
    cases hr : f.rndMag |op.exact a.q b.q| with
    | some y => simp [FVal.round, hr, FVal.Finite] at hfin
    | none =>
      refine ⟨by simp only [FVal.round, hr], fun w hw hwf => ?_⟩
      obtain ⟨s, m, rfl⟩ := hwf.eq
      rw [fin_abs hw.1]
      by_contra hc
      have h1 := rndU_mono (f := f) (abs_nonneg (op.exact a.q b.q)) (not_lt.mp hc)
      obtain ⟨h2, h3⟩ := rndMag_some.mp hw.2
      rw [← h2] at h1
      exact absurd (rndMag_none.mp hr) (not_le.mpr (h1.trans_lt h3))

/-- Three times 0.1 km is computed as 0.30000000000000004 km, the double nearest to three times the double next to 0.1. -/
example (β : String → ℝ) (hβ : Sizes β) : scaleQtyI .mul exTenthKm (.int .i32) (.i 3) = .ok ⟨exKms (.flt .f64), .f (.fin false (1351079888211149 / 2 ^ 52))⟩ ∧
    scaleQtyLeftI (.int .i32) (.i 3) exTenthKm = scaleQtyI .mul exTenthKm (.int .i32) (.i 3) ∧
    |(⟨exKms (.flt .f64), .f (.fin false (1351079888211149 / 2 ^ 52))⟩ : QtyI).amount β - exTenthKm.amount β * 3| ≤
      gammaErr .f64 3 * |exTenthKm.amount β * 3| := by
  have h : scaleQtyI .mul exTenthKm (.int .i32) (.i 3) = .ok ⟨exKms (.flt .f64), .f (.fin false (1351079888211149 / 2 ^ 52))⟩ := by decide +kernel
  have t3 : (FNum.i 3).Typed (.int .i32) := ⟨.i32, rfl, by decide⟩
  refine ⟨h, (C75_commutative exEnv exTenthKm exTenthKm (.int .i32) (.i 3) .f64 exTenthKm_typed exTenthKm_typed t3).1 rfl, ?_⟩
  obtain ⟨-, -, h1, -⟩ := C75_scale exEnv β hβ .mul exTenthKm _ (.int .i32) (.i 3) .f64 (exKms_good _ _) exTenthKm_typed t3 trivial trivial rfl
    (Or.inl rfl) h
  rw [exTenthKm_q] at h1
  have := (h1 (by decide +kernel)).2.2 (by decide +kernel)
  simpa [FNum.q] using this

/-- Three divided by 0.1 km. -/
example : ∃ r, recipQtyI exEnv (.int .i32) (.i 3) exTenthKm = .ok r ∧ r.num = .f (.fin false 30) ∧
    exTenthKm.ty.dim.unit.ratio.val * r.ty.dim.unit.ratio.val = 1 := by
  have : (match recipQtyI exEnv (.int .i32) (.i 3) exTenthKm with
      | .ok r => decide (r.num = .f (.fin false 30) ∧ exTenthKm.ty.dim.unit.ratio.val * r.ty.dim.unit.ratio.val = 1) | _ => false) = true := by decide +kernel
  cases h : recipQtyI exEnv (.int .i32) (.i 3) exTenthKm with
  | error e => rw [h] at this; cases this
  | ok r => rw [h] at this; exact ⟨r, rfl, of_decide_eq_true this⟩

/-- The hypotheses of `C75_nearest` hold for 3 times 0.1: no double is nearer to the product than 0.30000000000000004. -/
example : numOpI .mul (.int .i32) (.flt .f64) (.i 3) exTenthKm.num = .ok (.f (.fin false (1351079888211149 / 2 ^ 52))) ∧
    ∀ w : FVal, w.In .f64 → w.Finite →
      |(1351079888211149 / 2 ^ 52 : ℚ) - 3 * (3602879701896397 / 2 ^ 55)| ≤ |w.q - 3 * (3602879701896397 / 2 ^ 55)| := by
  have h : numOpI .mul (.int .i32) (.flt .f64) (.i 3) exTenthKm.num = .ok (.f (.fin false (1351079888211149 / 2 ^ 52))) := by decide +kernel
  refine ⟨h, fun w hw fw => ?_⟩
  obtain ⟨y, hy, -, h1, -⟩ := C75_nearest .mul (.int .i32) (.flt .f64) .f64 (.i 3) exTenthKm.num rfl ⟨.i32, rfl, by decide⟩ exTenthKm_typed
    trivial trivial (Or.inl rfl) (fun z e => by cases e; decide +kernel) (fun z e => by cases e)
  rw [h] at hy
  cases hy
  have := h1 trivial w hw fw
  rw [exTenthKm_q] at this
  simpa [BinOp.exact, FNum.q, FVal.q] using this

/-- Multiplication of quantities is not associative: (0.1 km · 3) · 10 and 0.1 km · (3 · 10) differ, the latter is exact. -/
theorem C75_not_associative :
    (do let x ← scaleQtyI .mul exTenthKm (.flt .f64) (.f (.fin false 3)); scaleQtyI .mul x (.flt .f64) (.f (.fin false 10))) =
      .ok ⟨exKms (.flt .f64), .f (.fin false (3 + 1 / 2 ^ 51))⟩ ∧
    (do let y ← numOpI .mul (.flt .f64) (.flt .f64) (.f (.fin false 3)) (.f (.fin false 10)); scaleQtyI .mul exTenthKm (.flt .f64) y) =
      .ok ⟨exKms (.flt .f64), .f (.fin false 3)⟩ := by decide +kernel

/-! ### Square roots -/

theorem roundSqrt_half {y : ℚ} (hy : 0 ≤ y) : |((roundSqrt y : ℤ) : ℝ) - √(y : ℝ)| ≤ 1 / 2 := by
  have hyR : (0 : ℝ) ≤ (y : ℝ) := by exact_mod_cast hy
  set n : ℕ := Nat.sqrt ⌊y⌋.toNat with hn
  have hfl : 0 ≤ ⌊y⌋ := Int.floor_nonneg.mpr hy
  have h1 : n * n ≤ ⌊y⌋.toNat := Nat.sqrt_le _
  have h2 : ⌊y⌋.toNat < (n + 1) * (n + 1) := Nat.lt_succ_sqrt _
  have e : ((⌊y⌋.toNat : ℕ) : ℤ) = ⌊y⌋ := Int.toNat_of_nonneg hfl
  have h1' : (n : ℚ) ^ 2 ≤ y := by
    have : ((n * n : ℕ) : ℤ) ≤ ⌊y⌋ := by rw [← e]; exact_mod_cast h1
    have h : (((n * n : ℕ) : ℤ) : ℚ) ≤ y := Int.le_floor.mp this
    push_cast at h; nlinarith
  have h2' : y < ((n : ℚ) + 1) ^ 2 := by
    have : ⌊y⌋ < (((n + 1) * (n + 1) : ℕ) : ℤ) := by rw [← e]; exact_mod_cast h2
    have h := Int.floor_lt.mp this
    push_cast at h; nlinarith
  have n0 : (0 : ℝ) ≤ n := Nat.cast_nonneg n
  have s1 : (n : ℝ) ≤ √(y : ℝ) := Real.le_sqrt_of_sq_le (by exact_mod_cast h1')
  have s2 : √(y : ℝ) < n + 1 := by
    rw [Real.sqrt_lt' (by linarith)]; exact_mod_cast h2'
  unfold roundSqrt
  simp only [← hn, Int.cast_natCast]
  have lo : y < ((n : ℚ) + 1 / 2) ^ 2 → √(y : ℝ) < n + 1 / 2 := by
    intro h
    rw [Real.sqrt_lt' (by linarith)]
    have : (y : ℝ) < (((n : ℚ) + 1 / 2) ^ 2 : ℚ) := by exact_mod_cast h
    push_cast at this; exact this
  have hi : ((n : ℚ) + 1 / 2) ^ 2 ≤ y → (n : ℝ) + 1 / 2 ≤ √(y : ℝ) := by
    intro h
    refine Real.le_sqrt_of_sq_le ?_
    have : (((((n : ℚ) + 1 / 2) ^ 2 : ℚ)) : ℝ) ≤ y := by exact_mod_cast h
    push_cast at this; exact this
  have le : y ≤ ((n : ℚ) + 1 / 2) ^ 2 → √(y : ℝ) ≤ n + 1 / 2 := by
    intro h
    rw [Real.sqrt_le_left (by linarith)]
    have : (y : ℝ) ≤ (((n : ℚ) + 1 / 2) ^ 2 : ℚ) := by exact_mod_cast h
    push_cast at this; exact this
  split_ifs with c1 c2 c3
  · have := lo c1
    rw [abs_le]; push_cast; constructor <;> linarith
  · have := hi c2.le
    rw [abs_le]; push_cast; constructor <;> linarith
  · have := le (not_lt.mp c2)
    rw [abs_le]; push_cast; constructor <;> linarith
  · have := hi (not_lt.mp c1)
    rw [abs_le]; push_cast; constructor <;> linarith

theorem roundSqrt_nearest {y : ℚ} (hy : 0 ≤ y) (j : ℤ) : |((roundSqrt y : ℤ) : ℝ) - √(y : ℝ)| ≤ |(j : ℝ) - √(y : ℝ)| := by
  have h := roundSqrt_half hy
  rcases eq_or_ne j (roundSqrt y) with rfl | hj
  · exact le_rfl
  · have h1 : (1 : ℝ) ≤ |(j : ℝ) - (roundSqrt y : ℤ)| := by
      have : (1 : ℤ) ≤ |j - roundSqrt y| := Int.one_le_abs (sub_ne_zero.mpr hj)
      exact_mod_cast this
    have h2 := abs_sub_le (j : ℝ) (√(y : ℝ)) (roundSqrt y : ℤ)
    rw [abs_sub_comm (√(y : ℝ))] at h2
    linarith

/-- The exponent of the last digit of a square root. -/
def sqrtExp (f : FltTy) (x : ℚ) : ℤ := Int.log 2 x / 2 - (f.prec - 1)

theorem sqrtMag_eq (f : FltTy) (x : ℚ) : f.sqrtMag x = (roundSqrt (x * 2 ^ (-(2 * sqrtExp f x))) : ℚ) * 2 ^ sqrtExp f x := rfl

theorem sqrt_scaled {x : ℚ} (hx : 0 ≤ x) (e : ℤ) : √(((x * 2 ^ (-(2 * e)) : ℚ)) : ℝ) * 2 ^ e = √(x : ℝ) := by
  have p : (0 : ℝ) < 2 ^ e := zpow_pos (by norm_num) _
  have hxR : (0 : ℝ) ≤ (x : ℝ) := by exact_mod_cast hx
  push_cast
  rw [Real.sqrt_mul hxR, show (-(2 * e)) = (-e) + (-e) by ring, zpow_add₀ (by norm_num), Real.sqrt_mul_self (zpow_pos (by norm_num) _).le,
    mul_assoc, ← zpow_add₀ (by norm_num)]
  simp

theorem sqrt_log {x : ℚ} (hx : 0 < x) : (2 : ℝ) ^ (Int.log 2 x / 2) ≤ √(x : ℝ) ∧ √(x : ℝ) < 2 ^ (Int.log 2 x / 2 + 1) := by
  have h1 := zpow_log_le' hx
  have h2 := lt_zpow_log' (x := x)
  set l := Int.log 2 x
  constructor
  · refine Real.le_sqrt_of_sq_le ?_
    rw [← zpow_natCast, ← zpow_mul]
    have : ((2 : ℚ) ^ (l / 2 * ((2 : ℕ) : ℤ))) ≤ x := (two_zpow_le (by push_cast; omega)).trans h1
    have := (Rat.cast_le (K := ℝ)).mpr this
    rwa [Rat.cast_zpow, Rat.cast_ofNat] at this
  · rw [Real.sqrt_lt' (zpow_pos (by norm_num) _), ← zpow_natCast, ← zpow_mul]
    have : x < (2 : ℚ) ^ ((l / 2 + 1) * ((2 : ℕ) : ℤ)) := h2.trans_le (two_zpow_le (by push_cast; omega))
    have := (Rat.cast_lt (K := ℝ)).mpr this
    rwa [Rat.cast_zpow, Rat.cast_ofNat] at this

theorem sqrtMag_key {f : FltTy} {x : ℚ} (hx : 0 < x) (j : ℤ) :
    |((f.sqrtMag x : ℚ) : ℝ) - √(x : ℝ)| ≤ |(j : ℝ) * 2 ^ sqrtExp f x - √(x : ℝ)| := by
  have p : (0 : ℝ) < 2 ^ sqrtExp f x := zpow_pos (by norm_num) _
  have y0 : 0 ≤ x * 2 ^ (-(2 * sqrtExp f x)) := mul_nonneg hx.le (two_zpow_pos _).le
  rw [← sqrt_scaled hx.le (sqrtExp f x), sqrtMag_eq]
  push_cast
  rw [← sub_mul, ← sub_mul, abs_mul, abs_mul]
  refine mul_le_mul_of_nonneg_right ?_ (abs_nonneg _)
  have := roundSqrt_nearest y0 j
  push_cast at this
  exact this

/-- The rounded root is as near as any number with at most `prec` digits. -/
theorem sqrtMag_nearest {f : FltTy} {x : ℚ} (hx : 0 < x) {k e : ℤ} (hp : (k : ℚ) < 2 ^ f.prec) :
    |((f.sqrtMag x : ℚ) : ℝ) - √(x : ℝ)| ≤ |(k : ℝ) * 2 ^ e - √(x : ℝ)| := by
  have hl := (sqrt_log hx).1
  rcases le_or_gt (sqrtExp f x) e with h | h
  · obtain ⟨n, hn⟩ := Int.eq_ofNat_of_zero_le (show 0 ≤ e - sqrtExp f x by omega)
    have := sqrtMag_key (f := f) hx (k * 2 ^ n)
    rw [show e = n + sqrtExp f x by omega, zpow_add₀ (by norm_num), zpow_natCast]
    push_cast at this
    rwa [mul_assoc] at this
  · have hpr := f.one_le_prec
    have hpR : (k : ℝ) < 2 ^ f.prec := by
      have := (Rat.cast_lt (K := ℝ)).mpr hp
      rwa [Rat.cast_zpow, Rat.cast_ofNat, Rat.cast_intCast] at this
    have hw : (k : ℝ) * 2 ^ e ≤ 2 ^ (Int.log 2 x / 2) := by
      calc (k : ℝ) * 2 ^ e ≤ 2 ^ f.prec * 2 ^ e := mul_le_mul_of_nonneg_right hpR.le (zpow_pos (by norm_num) _).le
        _ = 2 ^ (f.prec + e) := by rw [zpow_add₀ (by norm_num)]
        _ ≤ 2 ^ (Int.log 2 x / 2) := zpow_le_zpow_right₀ (by norm_num) (by unfold sqrtExp at h; omega)
    obtain ⟨n, hn⟩ := Int.eq_ofNat_of_zero_le (show 0 ≤ f.prec - 1 by omega)
    have e3 : ((2 ^ n : ℤ) : ℝ) * 2 ^ sqrtExp f x = 2 ^ (Int.log 2 x / 2) := by
      rw [show Int.log 2 x / 2 = n + sqrtExp f x by unfold sqrtExp; omega, zpow_add₀ (by norm_num), zpow_natCast]; push_cast; rfl
    refine (sqrtMag_key hx (2 ^ n)).trans ?_
    rw [e3, abs_of_nonpos (by linarith), abs_of_nonpos (by linarith)]
    linarith

theorem sqrtMag_rel {f : FltTy} {x : ℚ} (hx : 0 < x) : |((f.sqrtMag x : ℚ) : ℝ) - √(x : ℝ)| ≤ f.u * √(x : ℝ) := by
  have hl := (sqrt_log hx).1
  have p : (0 : ℝ) < 2 ^ sqrtExp f x := zpow_pos (by norm_num) _
  have y0 : 0 ≤ x * 2 ^ (-(2 * sqrtExp f x)) := mul_nonneg hx.le (two_zpow_pos _).le
  have h := mul_le_mul_of_nonneg_right (roundSqrt_half y0) p.le
  have e : |((f.sqrtMag x : ℚ) : ℝ) - √(x : ℝ)| =
      |((roundSqrt (x * 2 ^ (-(2 * sqrtExp f x))) : ℤ) : ℝ) - √((x * 2 ^ (-(2 * sqrtExp f x)) : ℚ) : ℝ)| * 2 ^ sqrtExp f x := by
    rw [← sqrt_scaled hx.le (sqrtExp f x), sqrtMag_eq]
    push_cast
    rw [← sub_mul, abs_mul, abs_of_pos p]
  rw [e]
  refine h.trans ?_
  have hu : 1 / 2 * (2 : ℝ) ^ sqrtExp f x = (f.u : ℝ) * 2 ^ (Int.log 2 x / 2) := by
    unfold sqrtExp FltTy.u
    push_cast
    rw [show Int.log 2 x / 2 - (f.prec - 1) = Int.log 2 x / 2 + 1 + (-f.prec) by ring, zpow_add₀ (by norm_num), zpow_add₀ (by norm_num), zpow_neg]
    field_simp
  rw [hu]
  exact mul_le_mul_of_nonneg_left hl (by exact_mod_cast f.u_pos.le)

/-- The root of a positive value is a value of the type. -/
theorem sqrtMag_in {f : FltTy} {x : ℚ} (hx : 0 < x) (hr : f.rndMag x = some x) : (FVal.fin false (f.sqrtMag x)).In f ∧ 0 < f.sqrtMag x := by
  obtain ⟨hxe, hxm⟩ := rndMag_some.mp hr
  have hpr := f.one_le_prec
  have hmin : f.tiny ≤ x := by
    obtain ⟨k, e, k0, -, he, hk⟩ := rndU_form (f := f) hx.le
    rw [← hxe] at hk
    have k1 : (1 : ℚ) ≤ k := by
      have : k ≠ 0 := by rintro rfl; simp at hk; exact hx.ne' hk
      have : (1 : ℤ) ≤ k := by omega
      exact_mod_cast this
    rw [hk]
    calc f.tiny ≤ 2 ^ e := two_zpow_le (by omega)
      _ ≤ k * 2 ^ e := le_mul_of_one_le_left (two_zpow_pos _).le k1
  have hlog1 : f.emin - f.prec + 1 ≤ Int.log 2 x := by
    by_contra hc
    have := lt_zpow_log' (x := x)
    exact absurd (hmin.trans_lt this) (not_lt.mpr (two_zpow_le (by omega)))
  have hlog2 : Int.log 2 x < f.emax := log_le hx hxm
  have hE : f.emin - (f.prec - 1) ≤ sqrtExp f x := by
    unfold sqrtExp
    have : f.emin ≤ Int.log 2 x / 2 := by cases f <;> simp only [FltTy.emin, FltTy.emax, FltTy.prec] at hlog1 ⊢ <;> omega
    omega
  set k := roundSqrt (x * 2 ^ (-(2 * sqrtExp f x))) with hkd
  have y0 : 0 ≤ x * 2 ^ (-(2 * sqrtExp f x)) := mul_nonneg hx.le (two_zpow_pos _).le
  have hhalf := roundSqrt_half y0
  rw [← hkd] at hhalf
  have p : (0 : ℝ) < 2 ^ sqrtExp f x := zpow_pos (by norm_num) _
  obtain ⟨n, hn⟩ := Int.eq_ofNat_of_zero_le (show 0 ≤ f.prec by omega)
  have hup : √((x * 2 ^ (-(2 * sqrtExp f x)) : ℚ) : ℝ) < 2 ^ n := by
    have h1 := (sqrt_log hx).2
    rw [← sqrt_scaled hx.le (sqrtExp f x)] at h1
    have h2 : (2 : ℝ) ^ (Int.log 2 x / 2 + 1) = 2 ^ n * 2 ^ sqrtExp f x := by
      rw [show Int.log 2 x / 2 + 1 = n + sqrtExp f x by unfold sqrtExp; omega, zpow_add₀ (by norm_num), zpow_natCast]
    rw [h2] at h1
    exact lt_of_mul_lt_mul_right h1 p.le
  have hlow : (1 : ℝ) ≤ √((x * 2 ^ (-(2 * sqrtExp f x)) : ℚ) : ℝ) := by
    have h1 := (sqrt_log hx).1
    rw [← sqrt_scaled hx.le (sqrtExp f x)] at h1
    have h2 : (2 : ℝ) ^ sqrtExp f x ≤ 2 ^ (Int.log 2 x / 2) := zpow_le_zpow_right₀ (by norm_num) (by unfold sqrtExp; omega)
    have h3 := h2.trans h1
    nlinarith
  have hk0 : 0 < k := by
    have : (0 : ℝ) < k := by have := (abs_le.mp hhalf).1; linarith
    exact_mod_cast this
  have hk1 : k ≤ 2 ^ n := by
    have : (k : ℝ) < 2 ^ n + 1 := by have := (abs_le.mp hhalf).2; linarith
    have : k < 2 ^ n + 1 := by exact_mod_cast this
    omega
  have hval : f.sqrtMag x = (k : ℚ) * 2 ^ sqrtExp f x := sqrtMag_eq f x
  have hpos : 0 < f.sqrtMag x := by rw [hval]; exact mul_pos (by exact_mod_cast hk0) (two_zpow_pos _)
  have hidem : f.rndU (f.sqrtMag x) = f.sqrtMag x := by
    rcases lt_or_eq_of_le hk1 with h | h
    · rw [hval]
      refine rndU_exact hk0.le ?_ hE
      rw [hn, zpow_natCast]; exact_mod_cast h
    · have e : f.sqrtMag x = ((1 : ℤ) : ℚ) * 2 ^ (f.prec + sqrtExp f x) := by
        rw [hval, h, zpow_add₀ (by norm_num), hn, zpow_natCast]; push_cast; ring
      rw [e]
      refine rndU_exact (by norm_num) ?_ (by omega)
      have : (2 : ℚ) ^ (0 : ℤ) < 2 ^ f.prec := two_zpow_lt (by omega)
      simpa using this
  have hlt : f.sqrtMag x < 2 ^ f.emax := by
    have h1 : f.sqrtMag x ≤ 2 ^ (Int.log 2 x / 2 + 1) := by
      rw [hval, show Int.log 2 x / 2 + 1 = n + sqrtExp f x by unfold sqrtExp; omega, zpow_add₀ (by norm_num), zpow_natCast]
      exact mul_le_mul_of_nonneg_right (by exact_mod_cast hk1) (two_zpow_pos _).le
    refine h1.trans_lt (two_zpow_lt ?_)
    have := f.emax_ge
    omega
  exact ⟨⟨hpos.le, rndMag_some.mpr ⟨hidem.symm, hlt⟩⟩, hpos⟩

theorem sqrtQtyI_size {E : Env} (hE : E.OK) {β : String → ℝ} (hβ : Sizes β) {q : QtyI} {d : Dim} {u : MUnit} {rep : Rep} (gq : q.ty.Good E)
    (gr : d.Good) (wr : u.WF) (hx : (∀ b, q.ty.dim ≠ .base b) → PowExact q.ty.dim 1 2) (hd : dimPow E.dims q.ty.dim 1 2 = .ok d)
    (hroot : u.ratio.val ^ 2 = q.ty.unit.ratio.val) (hcoh : d.unit.ratio.val ^ 2 = q.ty.dim.unit.ratio.val) :
    0 < (⟨d, u, rep⟩ : QTy).size β ∧ (⟨d, u, rep⟩ : QTy).size β = √(q.ty.size β) := by
  have := pow_size (u := q.ty.unit) (u' := u) hE.dims hβ (num := 1) (den := 2) (by norm_num) gq.dim gr (by exact_mod_cast hd)
    (by exact_mod_cast hx) (by simpa using hroot) (by simpa using hcoh)
  have hpos := Dim.size_pos hβ gr wr
  refine ⟨hpos, ?_⟩
  rw [zpow_one] at this
  unfold QTy.size
  dsimp only
  rw [← this, Real.sqrt_sq hpos.le]

/-- C75: `sqrt` of a finite floating point quantity that is not negative is finite and has the relative error of one rounding, whatever its
size: it neither overflows nor becomes denormal.  Partial: as for C34, the ratio of the unit has an exact root that the library finds, and the coherent
units agree. -/
theorem C75_sqrt_partial (E : Env) (hE : E.OK) (β : String → ℝ) (hβ : Sizes β) (q r : QtyI) (f : FltTy) (x : FVal) (gq : q.ty.Good E)
    (gr : r.ty.dim.Good) (wr : r.ty.unit.WF) (hx : (∀ b, q.ty.dim ≠ .base b) → PowExact q.ty.dim 1 2) (hrep : q.ty.rep = .flt f)
    (hn : q.num = .f x) (tx : x.In f) (fx : x.Finite) (hx0 : 0 ≤ x.q) (h : sqrtQtyI E q = .ok r)
    (hroot : r.ty.unit.ratio.val ^ 2 = q.ty.unit.ratio.val) (hcoh : r.ty.dim.unit.ratio.val ^ 2 = q.ty.dim.unit.ratio.val) :
    r.ty.rep = .flt f ∧ r.num.Typed (.flt f) ∧ r.num.Finite ∧ r.ty.size β = √(q.ty.size β) ∧
      |r.amount β - √(q.amount β)| ≤ f.u * √(q.amount β) ∧
      ∀ w : FVal, w.In f → w.Finite → |r.num.q - √(x.q : ℝ)| ≤ |(w.q : ℝ) - √(x.q : ℝ)| := by
  unfold sqrtQtyI at h
  simp only [bind_ok, hrep, hn] at h
  obtain ⟨d, hd, p, hp, u, hu, y, hy, h⟩ := h
  have e1 : y = .f x := by
    simp only [Rep.libm, convI, if_true, Except.ok.injEq] at hy
    exact hy.symm
  subst e1
  simp only [bind_ok, Rep.libm, convI, if_true, Except.ok.injEq] at h
  obtain ⟨z, rfl, rfl⟩ := h
  dsimp only at gr wr hroot hcoh ⊢
  obtain ⟨pos, hS⟩ := sqrtQtyI_size (rep := .flt f) hE hβ gq gr wr hx hd hroot hcoh
  obtain ⟨s, m, rfl⟩ := fx.eq
  have key : ∃ w, (FVal.fin s m).sqrt f = .fin (s && decide (m = 0)) w ∧ (FVal.fin (s && decide (m = 0)) w).In f ∧ ((FVal.fin (s && decide (m = 0)) w).q : ℝ) = w ∧
      |(w : ℝ) - √((FVal.fin s m).q : ℝ)| ≤ f.u * √((FVal.fin s m).q : ℝ) ∧
      ∀ v : FVal, v.In f → v.Finite → |(w : ℝ) - √((FVal.fin s m).q : ℝ)| ≤ |(v.q : ℝ) - √((FVal.fin s m).q : ℝ)| := by
    rcases eq_or_ne m 0 with h0 | h0
    · subst h0
      have e0 : (FVal.fin s 0).q = 0 := by cases s <;> simp [FVal.q]
      refine ⟨0, by simp [FVal.sqrt], ⟨le_rfl, rndMag_zero f⟩, ?_, ?_, ?_⟩
      · cases s <;> simp [FVal.q]
      · rw [e0]; simp
      · intro v _ _; rw [e0]; simp
    · have m0 : 0 < m := lt_of_le_of_ne tx.1 (Ne.symm h0)
      have s0 : s = false := by
        cases s
        · rfl
        · simp only [FVal.q] at hx0; linarith
      subst s0
      obtain ⟨i1, i2⟩ := sqrtMag_in m0 tx.2
      refine ⟨f.sqrtMag m, by simp [FVal.sqrt, h0], by simpa using i1, by simp [FVal.q], sqrtMag_rel m0, ?_⟩
      intro v hv fv
      obtain ⟨s', m', rfl⟩ := fv.eq
      obtain ⟨k, e, k0, kp, -, hm⟩ := In.form hv
      have := sqrtMag_nearest (f := f) m0 (e := e) kp
      have hm' : ((k : ℝ) * 2 ^ e) = ((m' : ℚ) : ℝ) := by rw [hm]; push_cast; rfl
      rw [hm'] at this
      refine this.trans ?_
      cases s'
      · exact le_rfl
      · have hs := Real.sqrt_nonneg ((m : ℚ) : ℝ)
        have hv0 : (0 : ℝ) ≤ (m' : ℝ) := by exact_mod_cast hv.1
        simp only [FVal.q]
        push_cast
        rw [show -(m' : ℝ) - √(m : ℝ) = -(m' + √(m : ℝ)) by ring, abs_neg, abs_of_nonneg (by linarith : 0 ≤ (m' : ℝ) + √(m : ℝ)), abs_le]
        constructor <;> linarith
  obtain ⟨w, hw, iw, qw, err, near⟩ := key
  rw [hw]
  have hq : (FNum.f (FVal.fin (s && decide (m = 0)) w)).q = (FVal.fin (s && decide (m = 0)) w).q := rfl
  refine ⟨rfl, ⟨f, rfl, iw⟩, trivial, hS, ?_, ?_⟩
  · have hxR : (0 : ℝ) ≤ ((FVal.fin s m).q : ℝ) := by exact_mod_cast hx0
    unfold QtyI.amount
    dsimp only
    rw [hq, qw, hS, hn]
    show |(w : ℝ) * √(q.ty.size β) - √(((FVal.fin s m).q : ℝ) * q.ty.size β)| ≤ f.u * √(((FVal.fin s m).q : ℝ) * q.ty.size β)
    rw [Real.sqrt_mul hxR, ← sub_mul, abs_mul, abs_of_nonneg (Real.sqrt_nonneg (q.ty.size β)), ← mul_assoc]
    exact mul_le_mul_of_nonneg_right err (Real.sqrt_nonneg _)
  · rw [hq, qw]; exact near

theorem sqrtMag_int {n : ℕ} (h0 : 0 < n) (hn : n < 2 ^ 52) : ⌊FltTy.f64.sqrtMag (n : ℚ)⌋ = (Nat.sqrt n : ℤ) := by
  have n0 : (0 : ℚ) < n := by exact_mod_cast h0
  set k := Nat.sqrt n with hk
  have h1 : k * k ≤ n := Nat.sqrt_le _
  have h2 : n < (k + 1) * (k + 1) := Nat.lt_succ_sqrt _
  have hk26 : k + 1 ≤ 2 ^ 26 := by
    by_contra hc
    have : 2 ^ 26 ≤ k := by omega
    have := Nat.mul_le_mul this this
    omega
  set w := FltTy.f64.sqrtMag (n : ℚ) with hw
  have cast : (((n : ℚ)) : ℝ) = n := by push_cast; rfl
  have s1 : (k : ℝ) ≤ √(n : ℝ) := Real.le_sqrt_of_sq_le (by have : ((k * k : ℕ) : ℝ) ≤ n := by exact_mod_cast h1
                                                            push_cast at this; nlinarith)
  have s2 : √(n : ℝ) ≤ ((k : ℝ) + 1) - 1 / 2 ^ 27 := by
    have hk' : (k : ℝ) + 1 ≤ 2 ^ 26 := by exact_mod_cast hk26
    have k0 : (0 : ℝ) ≤ k := Nat.cast_nonneg k
    rw [Real.sqrt_le_left (by norm_num; linarith)]
    have : (n : ℝ) ≤ ((k : ℝ) + 1) * (k + 1) - 1 := by
      have : n + 1 ≤ (k + 1) * (k + 1) := h2
      have : ((n + 1 : ℕ) : ℝ) ≤ ((k + 1) * (k + 1) : ℕ) := by exact_mod_cast this
      push_cast at this; linarith
    refine this.trans ?_
    nlinarith
  have near := fun (j e : ℤ) (hp : (j : ℚ) < 2 ^ FltTy.f64.prec) => sqrtMag_nearest (f := .f64) n0 (e := e) hp
  rw [cast, ← hw] at near
  have l : (k : ℝ) ≤ w := by
    have := near k 0 (by
      have : ((k : ℤ) : ℚ) < 2 ^ (53 : ℤ) := by
        have : k < 2 ^ 53 := by omega
        exact_mod_cast this
      exact this)
    by_contra hc
    simp only [zpow_zero, mul_one, Int.cast_natCast] at this
    rw [abs_of_nonpos (by linarith), abs_of_nonpos (by linarith)] at this
    linarith
  have r : (w : ℝ) < k + 1 := by
    have := near ((k + 1) * 2 ^ 27 - 1) (-27) (by
      have : ((((k : ℤ) + 1) * 2 ^ 27 - 1 : ℤ) : ℚ) < 2 ^ (53 : ℤ) := by
        have : ((k : ℤ) + 1) * 2 ^ 27 - 1 < 2 ^ 53 := by omega
        exact_mod_cast this
      exact this)
    have e : ((((k : ℤ) + 1) * 2 ^ 27 - 1 : ℤ) : ℝ) * 2 ^ (-27 : ℤ) = (k : ℝ) + 1 - 1 / 2 ^ 27 := by
      push_cast; norm_num; ring
    rw [e] at this
    by_contra hc
    rw [abs_of_nonneg (by norm_num at s2 ⊢; linarith), abs_of_nonneg (by linarith)] at this
    norm_num at this
    linarith
  rw [Int.floor_eq_iff]
  constructor
  · exact_mod_cast l
  · exact_mod_cast r

/-- C75: `sqrt` of an integral quantity below `2^52` is the truncated root: the largest whole number whose square does not exceed it.
Partial: see `C75_sqrt_partial` for the units, and `C75_sqrt_rounds_up` for larger numbers. -/
theorem C75_sqrt_int_partial (E : Env) (hE : E.OK) (β : String → ℝ) (hβ : Sizes β) (q r : QtyI) (t : IntTy) (n : ℕ) (gq : q.ty.Good E)
    (gr : r.ty.dim.Good) (wr : r.ty.unit.WF) (hx : (∀ b, q.ty.dim ≠ .base b) → PowExact q.ty.dim 1 2) (hrep : q.ty.rep = .int t)
    (hn : q.num = .i n) (tn : t.In n) (hb : n < 2 ^ 52) (h : sqrtQtyI E q = .ok r)
    (hroot : r.ty.unit.ratio.val ^ 2 = q.ty.unit.ratio.val) (hcoh : r.ty.dim.unit.ratio.val ^ 2 = q.ty.dim.unit.ratio.val) :
    r.ty.rep = .int t ∧ r.num.Typed (.int t) ∧ 0 ≤ r.amount β ∧ r.amount β ^ 2 ≤ q.amount β ∧ q.amount β < (r.amount β + r.ty.size β) ^ 2 := by
  unfold sqrtQtyI at h
  simp only [bind_ok, hrep, hn] at h
  obtain ⟨d, hd, p, hp, u, hu, y, hy, h⟩ := h
  have e1 : y = .f (.fin false n) := by
    simp only [Rep.libm, convI, reduceCtorEq, if_false, Except.ok.injEq] at hy
    rw [← hy, ofInt_exact (by omega) (by
      have : (n : ℤ) < 2 ^ 53 := by omega
      have : ((n : ℤ) : ℚ) < 2 ^ (53 : ℤ) := by exact_mod_cast this
      exact this)]
    simp
  subst e1
  have hs : ∃ m : ℚ, (FVal.fin false (n : ℚ)).sqrt .f64 = .fin false m ∧ ⌊m⌋ = (Nat.sqrt n : ℤ) ∧ 0 ≤ m := by
    rcases Nat.eq_zero_or_pos n with h0 | h0
    · subst h0
      exact ⟨0, by simp [FVal.sqrt], by simp, le_rfl⟩
    · have hi := sqrtMag_int h0 hb
      refine ⟨FltTy.f64.sqrtMag n, ?_, hi, ?_⟩
      · have : (n : ℚ) ≠ 0 := by exact_mod_cast h0.ne'
        simp [FVal.sqrt, this]
      · exact Int.floor_nonneg.mp (by rw [hi]; omega)
  obtain ⟨m, hm, fm, m0⟩ := hs
  have htr : truncQ (FVal.fin false m).q = Nat.sqrt n := by
    simp only [FVal.q, truncQ, m0, if_true, fm]
  have hle : Nat.sqrt n ≤ n := Nat.sqrt_le_self n
  have hin : t.In (Nat.sqrt n) := by
    refine ⟨?_, ?_⟩
    · have : t.lo ≤ 0 := by cases t <;> decide
      omega
    · have := tn.2; omega
  simp only [Rep.libm, hm, convI, reduceCtorEq, if_false, FVal.toInt, htr, hin, if_true, ok_bind, Except.ok.injEq] at h
  subst h
  dsimp only at gr wr hroot hcoh ⊢
  obtain ⟨pos, hS⟩ := sqrtQtyI_size (rep := .int t) hE hβ gq gr wr hx hd hroot hcoh
  have hsz := gq.size_pos hβ
  refine ⟨rfl, ⟨t, rfl, hin⟩, ?_⟩
  have ea : q.amount β = (n : ℝ) * (⟨d, u, .int t⟩ : QTy).size β ^ 2 := by
    rw [hS, Real.sq_sqrt hsz.le]; unfold QtyI.amount; rw [hn]; simp [FNum.q]
  have er : (⟨⟨d, u, .int t⟩, .i (Nat.sqrt n)⟩ : QtyI).amount β = (Nat.sqrt n : ℝ) * (⟨d, u, .int t⟩ : QTy).size β := by
    unfold QtyI.amount; simp [FNum.q]
  rw [ea, er]
  have h1 : ((Nat.sqrt n : ℕ) : ℝ) ^ 2 ≤ n := by
    have : ((Nat.sqrt n * Nat.sqrt n : ℕ) : ℝ) ≤ n := by exact_mod_cast Nat.sqrt_le n
    push_cast at this; nlinarith
  have h2 : (n : ℝ) < ((Nat.sqrt n : ℕ) + 1) ^ 2 := by
    have : (n : ℝ) < ((Nat.sqrt n + 1) * (Nat.sqrt n + 1) : ℕ) := by exact_mod_cast Nat.lt_succ_sqrt n
    push_cast at this; nlinarith
  set S := (⟨d, u, .int t⟩ : QTy).size β
  refine ⟨by positivity, ?_, ?_⟩
  · rw [mul_pow]; exact mul_le_mul_of_nonneg_right h1 (by positivity)
  · rw [← add_one_mul, mul_pow]; exact mul_lt_mul_of_pos_right h2 (by positivity)

/-- Kilometres as found by the search for a unit of the root. -/
def exKmRootU : MUnit := ⟨.scaled ⟨1, 1, 3⟩ "metre", ⟨1, 1, 3⟩, "metre", [], false, "", none⟩

def exKmRoot (r : Rep) : QTy := ⟨.base exL, exKmRootU, r⟩

theorem exKmRootU_wf : exKmRootU.WF := ⟨⟨by decide, by decide, fun _ => by decide, by decide, by decide, by decide, by decide, by decide⟩, by decide⟩

theorem exSqrtEnv_ok : exSqrtEnv.OK := ⟨exReg_ok, fun _ _ _ h => by simp [exSqrtEnv, exEnv] at h⟩

theorem exL2_exps : (Dim.unknown [⟨exL, 2, 1⟩]).exps = .ok [⟨exL, 2, 1⟩] := by decide +kernel

theorem exKm2_good (r : Rep) : (exKm2 r).Good exSqrtEnv := by
  refine ⟨⟨⟨_, exL2_exps, ?_⟩, unknownCoherentUnit_wf⟩,
    exKm2U_wf, rfl, ?_⟩
  · intro e he; simp only [List.mem_singleton] at he; subst he; exact ⟨one_wf, by decide⟩
  · intro es hes e he
    rw [show (exKm2 r).dim = .unknown [⟨exL, 2, 1⟩] from rfl, exL2_exps] at hes
    cases hes
    simp only [List.mem_singleton] at he; subst he
    intro h; cases h

theorem exKm2_pow : PowExact (Dim.unknown [⟨exL, 2, 1⟩]) 1 2 := by
  refine ⟨⟨by decide, by decide⟩, noTen_of (n := 1) (d := 2) (by simp) (by decide) (by decide) (by decide) (by decide), ?_⟩
  intro es hes e he
  rw [exL2_exps] at hes
  cases hes
  simp only [List.mem_singleton] at he; subst he
  exact ⟨by decide, by decide, noTen_of (n := 2) (d := 1) rfl (by decide) (by decide) (by decide) (by decide),
      noTen_of (n := 1) (d := 1) (by norm_num [Exp.q]) (by decide) (by decide) (by decide) (by decide)⟩

/-- The square root of 2 km² is the double next to 1.41421356 km; the hypotheses of `C75_sqrt_partial` hold. -/
example (β : String → ℝ) (hβ : Sizes β) :
    sqrtQtyI exSqrtEnv ⟨exKm2 (.flt .f64), .f (.fin false 2)⟩ = .ok ⟨exKmRoot (.flt .f64), .f (.fin false (6369051672525773 / 2 ^ 52))⟩ ∧
    |(⟨exKmRoot (.flt .f64), .f (.fin false (6369051672525773 / 2 ^ 52))⟩ : QtyI).amount β -
        √((⟨exKm2 (.flt .f64), .f (.fin false 2)⟩ : QtyI).amount β)| ≤
      FltTy.f64.u * √((⟨exKm2 (.flt .f64), .f (.fin false 2)⟩ : QtyI).amount β) := by
  have h : sqrtQtyI exSqrtEnv ⟨exKm2 (.flt .f64), .f (.fin false 2)⟩ = .ok ⟨exKmRoot (.flt .f64), .f (.fin false (6369051672525773 / 2 ^ 52))⟩ := by
    decide +kernel
  exact ⟨h, (C75_sqrt_partial exSqrtEnv exSqrtEnv_ok β hβ _ _ .f64 (.fin false 2) (exKm2_good _) exL_good exKmRootU_wf (fun _ => exKm2_pow) rfl rfl
    ⟨by norm_num, by decide +kernel⟩ trivial (by decide) h (by decide +kernel) (by decide +kernel)).2.2.2.2.1⟩

/-- The square root of 50 km² in integers is 7 km. -/
example (β : String → ℝ) (hβ : Sizes β) : sqrtQtyI exSqrtEnv ⟨exKm2 (.int .i32), .i 50⟩ = .ok ⟨exKmRoot (.int .i32), .i 7⟩ ∧
    (⟨exKmRoot (.int .i32), .i 7⟩ : QtyI).amount β ^ 2 ≤ (⟨exKm2 (.int .i32), .i 50⟩ : QtyI).amount β := by
  have h : sqrtQtyI exSqrtEnv ⟨exKm2 (.int .i32), .i 50⟩ = .ok ⟨exKmRoot (.int .i32), .i 7⟩ := by decide +kernel
  exact ⟨h, (C75_sqrt_int_partial exSqrtEnv exSqrtEnv_ok β hβ _ _ .i32 50 (exKm2_good _) exL_good exKmRootU_wf (fun _ => exKm2_pow) rfl rfl
    (by decide) (by decide) h (by decide +kernel) (by decide +kernel)).2.2.2.1⟩

/-- C75 for roots is violated by large integers: `sqrt` converts to `double`, which rounds to nearest, and only then truncates.  The root of
2^52 + 2^27 = (2^26 + 1)² − 1 is less than 2^26 + 1, but this is the result; for everything below 2^52 the result is right, by
`C75_sqrt_int_partial`. -/
theorem C75_sqrt_rounds_up (β : String → ℝ) (hβ : Sizes β) :
    sqrtQtyI exSqrtEnv ⟨exKm2 (.int .i64), .i (2 ^ 52 + 2 ^ 27)⟩ = .ok ⟨exKmRoot (.int .i64), .i (2 ^ 26 + 1)⟩ ∧
      (⟨exKm2 (.int .i64), .i (2 ^ 52 + 2 ^ 27)⟩ : QtyI).amount β < (⟨exKmRoot (.int .i64), .i (2 ^ 26 + 1)⟩ : QtyI).amount β ^ 2 := by
  have h : sqrtQtyI exSqrtEnv ⟨exKm2 (.int .i64), .i (2 ^ 52 + 2 ^ 27)⟩ = .ok ⟨exKmRoot (.int .i64), .i (2 ^ 26 + 1)⟩ := by decide +kernel
  refine ⟨h, ?_⟩
  have S := (exKm2_good (.int .i64)).size_pos hβ
  have e : (exKmRoot (.int .i64)).size β ^ 2 = (exKm2 (.int .i64)).size β := by
    have hm : 0 < β "metre" := hβ _
    unfold QTy.size exKmRoot exKm2
    rw [Dim.size_base (by exact ⟨one_wf, by decide⟩), Dim.size_eq exL2_exps]
    simp only [dimSize, Dim.unit, exL, exKm2U, exKmRootU, unknownCoherentUnit, Ratio.val, Exp.q, baseSize, Ratio.one, List.map_cons, List.map_nil,
      List.prod_cons, List.prod_nil]
    norm_num
    ring
  unfold QtyI.amount
  rw [mul_pow, e]
  refine mul_lt_mul_of_pos_right ?_ S
  norm_num [FNum.q]

/-! ### Infinities, NaNs and division by zero -/

theorem convI_nan (g f : FltTy) : convI (.flt g) (.flt f) (.f .nan) = .ok (.f .nan) := by
  unfold convI; split <;> rfl

theorem convI_inf (g f : FltTy) (s : Bool) : convI (.flt g) (.flt f) (.f (.inf s)) = .ok (.f (.inf s)) := by
  unfold convI; split <;> rfl

theorem numOpI_nan {op : BinOp} {ra rb : Rep} {f : FltTy} {a b : FNum} (hf : ra.arith rb = .flt f) (ta : a.Typed ra) (tb : b.Typed rb)
    (hop : op ≠ .mod) (h : a = .f .nan ∨ b = .f .nan) : numOpI op ra rb a b = .ok (.f .nan) := by
  obtain ⟨x, hx⟩ := convI_arith (f := f) ta
  obtain ⟨y, hy⟩ := convI_arith (f := f) tb
  have : x = .nan ∨ y = .nan := by
    refine h.imp (fun e => ?_) (fun e => ?_)
    · subst e
      obtain ⟨g, rfl, -⟩ := ta
      rw [convI_nan] at hx; cases hx; rfl
    · subst e
      obtain ⟨g, rfl, -⟩ := tb
      rw [convI_nan] at hy; cases hy; rfl
  unfold numOpI
  rw [hf, hx, hy]
  show (do let z ← FVal.op f op x y; Except.ok (FNum.f z)) = _
  rcases this with rfl | rfl
  · cases op <;> simp [FVal.op, FVal.add, FVal.sub, FVal.mul, FVal.div] at hop ⊢
  · cases op <;> cases x <;> simp [FVal.op, FVal.add, FVal.sub, FVal.neg, FVal.mul, FVal.div] at hop ⊢

/-- The number of a product or a quotient of quantities. -/
theorem mulQtyI_num {E : Env} {a b r : QtyI} (h : mulQtyI E a b = .ok r) : numOpI .mul a.ty.rep b.ty.rep a.num b.num = .ok r.num := by
  unfold mulQtyI at h
  simp only [bind_ok, Except.ok.injEq] at h
  obtain ⟨⟨d, u⟩, -, z, hz, rfl⟩ := h
  exact hz

theorem divQtyI_num {E : Env} {a b r : QtyI} (h : divQtyI E a b = .ok r) : numOpI .div a.ty.rep b.ty.rep a.num b.num = .ok r.num := by
  unfold divQtyI at h
  simp only [bind_ok, Except.ok.injEq] at h
  obtain ⟨⟨d, u⟩, -, z, hz, rfl⟩ := h
  exact hz

theorem near_zero_iff {f : FltTy} {k : ℚ} {b : FNum} (nk : Near f.u 1 0 |b.q| k) : k = 0 ↔ b.q = 0 := by
  constructor
  · intro h
    by_contra hb
    have := (Near.bounds (by omega) (by omega) (abs_nonneg _) nk).1
    have : 0 < |b.q| := abs_pos.mpr hb
    linarith
  · intro h
    obtain ⟨θ, e, -, -⟩ := nk
    rw [e, h]; simp

/-- C75: products and quotients with a NaN are NaN.  Dividing a finite quantity by zero gives an infinity, or a NaN if it is zero itself; the
precondition of the library is not checked.  Infinite quantities stay infinite when multiplied or divided by a finite quantity that is not
zero; zero times infinity is NaN, and dividing by an infinite quantity gives zero. -/
theorem C75_special (E : Env) (a b r : QtyI) (f : FltTy) (ta : a.num.Typed a.ty.rep) (tb : b.num.Typed b.ty.rep)
    (hf : a.ty.rep.arith b.ty.rep = .flt f) :
    (a.num = .f .nan ∨ b.num = .f .nan → mulQtyI E a b = .ok r ∨ divQtyI E a b = .ok r → r.num = .f .nan) ∧
    (a.num.Finite → b.num.Finite → b.num.q = 0 → divQtyI E a b = .ok r →
      r.num = if a.num.q = 0 then .f .nan else .f (.inf (a.num.neg != b.num.neg))) ∧
    (∀ s, a.num = .f (.inf s) → b.num.Finite →
      (mulQtyI E a b = .ok r → r.num = if b.num.q = 0 then .f .nan else .f (.inf (s != b.num.neg))) ∧
      (divQtyI E a b = .ok r → r.num = .f (.inf (s != b.num.neg)))) ∧
    (∀ s, b.num = .f (.inf s) → a.num.Finite →
      (mulQtyI E a b = .ok r → r.num = if a.num.q = 0 then .f .nan else .f (.inf (a.num.neg != s))) ∧
      (divQtyI E a b = .ok r → r.num = .f (.fin (a.num.neg != s) 0))) := by
  refine ⟨?_, ?_, ?_, ?_⟩
  · rintro h (hr | hr)
    · have := numOpI_nan (op := .mul) hf ta tb (by simp) h
      rw [mulQtyI_num hr] at this; exact Except.ok.inj this
    · have := numOpI_nan (op := .div) hf ta tb (by simp) h
      rw [divQtyI_num hr] at this; exact Except.ok.inj this
  · intro fa fb h0 hr
    obtain ⟨m, m0, hm, nm⟩ := convI_first (f := f) (fun g e => arith_le_left hf e) ta fa
    obtain ⟨k, k0, hk, nk⟩ := convI_first (f := f) (fun g e => arith_le_right hf e) tb fb
    have hk' := (near_zero_iff nk).mpr h0
    subst hk'
    have hz := divQtyI_num hr
    unfold numOpI at hz
    rw [hf, hm, hk] at hz
    change Except.ok (FNum.f (FVal.div f (.fin a.num.neg m) (.fin b.num.neg 0))) = _ at hz
    rw [← Except.ok.inj hz]
    simp only [FVal.div, if_true, near_zero_iff nm]
    split <;> rfl
  · intro s ha fb
    obtain ⟨k, k0, hk, nk⟩ := convI_first (f := f) (fun g e => arith_le_right hf e) tb fb
    have hm : convI a.ty.rep (.flt f) a.num = .ok (.f (.inf s)) := by
      rw [ha] at ta ⊢
      obtain ⟨g, hg, -⟩ := ta
      rw [hg]; exact convI_inf g f s
    constructor
    · intro hr
      have hz := mulQtyI_num hr
      unfold numOpI at hz
      rw [hf, hm, hk] at hz
      change Except.ok (FNum.f (FVal.mul f (.inf s) (.fin b.num.neg k))) = _ at hz
      rw [← Except.ok.inj hz]
      simp only [FVal.mul, near_zero_iff nk]
      split <;> rfl
    · intro hr
      have hz := divQtyI_num hr
      unfold numOpI at hz
      rw [hf, hm, hk] at hz
      change Except.ok (FNum.f (FVal.div f (.inf s) (.fin b.num.neg k))) = _ at hz
      rw [← Except.ok.inj hz]
      rfl
  · intro s hb fa
    obtain ⟨m, m0, hm, nm⟩ := convI_first (f := f) (fun g e => arith_le_left hf e) ta fa
    have hk : convI b.ty.rep (.flt f) b.num = .ok (.f (.inf s)) := by
      rw [hb] at tb ⊢
      obtain ⟨g, hg, -⟩ := tb
      rw [hg]; exact convI_inf g f s
    constructor
    · intro hr
      have hz := mulQtyI_num hr
      unfold numOpI at hz
      rw [hf, hm, hk] at hz
      change Except.ok (FNum.f (FVal.mul f (.fin a.num.neg m) (.inf s))) = _ at hz
      rw [← Except.ok.inj hz]
      simp only [FVal.mul, near_zero_iff nm]
      split <;> rfl
    · intro hr
      have hz := divQtyI_num hr
      unfold numOpI at hz
      rw [hf, hm, hk] at hz
      change Except.ok (FNum.f (FVal.div f (.fin a.num.neg m) (.inf s))) = _ at hz
      rw [← Except.ok.inj hz]
      rfl

/-- C75: the square root of a negative floating point quantity is NaN, the root of minus zero is minus zero, infinity and NaN are kept; the root
of a negative integral quantity is undefined, since the NaN is converted to an integer. -/
theorem C75_sqrt_special (E : Env) (q : QtyI) :
    (∀ f x r, q.ty.rep = .flt f → q.num = .f x → x.In f → sqrtQtyI E q = .ok r →
      (x = .nan ∨ x.q < 0 ∨ x = .inf true → r.num = .f .nan) ∧ (x = .inf false → r.num = .f (.inf false)) ∧
      (∀ s, x = .fin s 0 → r.num = .f (.fin s 0))) ∧
    (∀ t z r, q.ty.rep = .int t → q.num = .i z → t.In z → z < 0 → sqrtQtyI E q ≠ .ok r) := by
  constructor
  · intro f x r hr hn hin h
    unfold sqrtQtyI at h
    simp only [bind_ok, hr, hn] at h
    obtain ⟨d, -, p, -, u, -, y, hy, h⟩ := h
    have e1 : y = .f x := by
      simp only [Rep.libm, convI, if_true, Except.ok.injEq] at hy
      exact hy.symm
    subst e1
    simp only [bind_ok, Rep.libm, convI, if_true, Except.ok.injEq] at h
    obtain ⟨w, rfl, rfl⟩ := h
    refine ⟨?_, ?_, ?_⟩
    · rintro (rfl | hx | rfl)
      · rfl
      · cases x with
        | nan => rfl
        | inf s => simp [FVal.q] at hx
        | fin s m =>
          have m0 : m ≠ 0 := by rintro rfl; cases s <;> simp [FVal.q] at hx
          cases s with
          | true => simp [FVal.sqrt, m0]
          | false => exact absurd hin.1 (not_le.mpr (by simpa [FVal.q] using hx))
      · rfl
    · rintro rfl; rfl
    · rintro s rfl; simp [FVal.sqrt]
  · intro t z r hr hn hz hneg h
    unfold sqrtQtyI at h
    simp only [bind_ok, hr, hn] at h
    obtain ⟨d, -, p, -, u, -, y, hy, h⟩ := h
    obtain ⟨m, -, hm, nm⟩ := convI_first (s := .int t) (f := .f64) (fun g e => by cases e) (v := .i z) ⟨t, rfl, hz⟩ trivial
    have m0 : m ≠ 0 := fun e => by
      have : ((z : ℚ)) = 0 := (near_zero_iff (b := .i z) nm).mp e
      have : z = 0 := by exact_mod_cast this
      omega
    rw [show Rep.libm (.int t) = .f64 from rfl, hm] at hy
    cases hy
    simp [FVal.sqrt, FNum.neg, hneg, m0, convI, Rep.libm, FVal.toInt] at h

example : (sqrtQtyI exSqrtEnv ⟨exKm2 (.flt .f64), .f (.fin true 4)⟩ = .ok ⟨exKmRoot (.flt .f64), .f .nan⟩) ∧
    (sqrtQtyI exSqrtEnv ⟨exKm2 (.flt .f64), .f (.fin true 0)⟩ = .ok ⟨exKmRoot (.flt .f64), .f (.fin true 0)⟩) ∧
    (sqrtQtyI exSqrtEnv ⟨exKm2 (.int .i32), .i (-4)⟩ = .error .overflow) := by decide +kernel

/-! ### Compound assignment -/

/-- C75: `q *= v` and `q /= v` on a floating point quantity computes in the wider of the two types and rounds the result to the type of `q`: the
amount is scaled up to a few roundings; a result that is too large for the type of `q` becomes an infinity. -/
theorem C75_assign (E : Env) (β : String → ℝ) (hβ : Sizes β) (op : BinOp) (q r : QtyI) (rep : Rep) (v : FNum) (g : FltTy) (gq : q.ty.Good E)
    (tq : q.num.Typed q.ty.rep) (tv : v.Typed rep) (fq : q.num.Finite) (fv : v.Finite) (hg : q.ty.rep = .flt g) (hop : op.Scaling v.q)
    (h : assignNumI op q rep v = .ok r) :
    r.ty = q.ty ∧ r.num.Typed q.ty.rep ∧
    (|op.exact q.num.q v.q| ≤ 2 ^ (g.emax - 2) → r.num.Finite ∧
      |r.amount β - (if op = .mul then q.amount β * v.q else q.amount β / v.q)| ≤
        gammaErr g 4 * |if op = .mul then q.amount β * v.q else q.amount β / v.q| + g.tiny * q.ty.size β ∧
      (2 ^ (g.emin + 1) ≤ |op.exact q.num.q v.q| → |r.amount β - (if op = .mul then q.amount β * v.q else q.amount β / v.q)| ≤
        gammaErr g 4 * |if op = .mul then q.amount β * v.q else q.amount β / v.q|)) ∧
    (2 ^ (g.emax + 1) ≤ |op.exact q.num.q v.q| → r.num = .f (.inf (q.num.neg != v.neg))) := by
  obtain ⟨f, hf⟩ : ∃ f, q.ty.rep.arith rep = .flt f := by rw [hg]; cases rep <;> exact ⟨_, rfl⟩
  have hle := arith_le_left hf hg
  obtain ⟨z, z0, nz, hz⟩ := numOpI_round hf tq tv fq fv hop
  have hs := exact_sign tq tv fq fv (op := op) (hop.imp_right And.left)
  unfold assignNumI compoundI at h
  rw [hz, hf, hg] at h
  have hconv : convI (.flt f) (.flt g) (.f (FVal.round f (q.num.neg != v.neg) z)) = .ok (.f (round2 f g (q.num.neg != v.neg) z)) := by
    unfold convI
    split
    · rename_i e; cases e; rw [round2_same _ _ z0]
    · rfl
  rw [ok_bind, hconv] at h
  simp only [ok_bind, Except.ok.injEq] at h
  subst h
  have S := gq.size_pos hβ
  have e : ((op.exact q.num.q v.q : ℚ) : ℝ) * q.ty.size β = if op = .mul then q.amount β * v.q else q.amount β / v.q := by
    rcases hop with rfl | ⟨rfl, -⟩
    · simp only [BinOp.exact, if_true, QtyI.amount]; push_cast; ring
    · simp only [BinOp.exact, reduceCtorEq, if_false, QtyI.amount]; push_cast; ring
  refine ⟨rfl, ⟨g, hg, ?_⟩, fun hb => ?_, fun hb => ?_⟩
  · unfold round2 FVal.round
    cases hr : f.rndMag z with
    | none => trivial
    | some y => exact round_in (by obtain ⟨rfl, -⟩ := rndMag_some.mp hr; exact rndU_nonneg z0)
  · obtain ⟨y, y0, hy, hy2, e1, e2⟩ := round2_small hle (n := 2) (by omega) (abs_nonneg _) (q.num.neg != v.neg) nz hb
    rw [hy2]
    refine ⟨trivial, ?_⟩
    rw [← e]
    unfold QtyI.amount
    dsimp only
    have hl : |((FNum.f (FVal.fin (q.num.neg != v.neg) y)).q : ℝ) * q.ty.size β - op.exact q.num.q v.q * q.ty.size β| =
        ((|y - (|op.exact q.num.q v.q|)| : ℚ) : ℝ) * q.ty.size β := by
      rw [← sub_mul, abs_mul, abs_of_pos S, ← signed_mag hs]; push_cast; rfl
    have hr : |(op.exact q.num.q v.q : ℝ) * q.ty.size β| = ((|op.exact q.num.q v.q| : ℚ) : ℝ) * q.ty.size β := by
      rw [abs_mul, abs_of_pos S]; push_cast; rfl
    rw [hl, hr]
    refine ⟨?_, fun hn => ?_⟩
    · have h1 : ((|y - (|op.exact q.num.q v.q|)| : ℚ) : ℝ) ≤ ((gammaErr g 4 * |op.exact q.num.q v.q| + g.tiny : ℚ) : ℝ) := by exact_mod_cast e1
      have := mul_le_mul_of_nonneg_right h1 S.le
      push_cast at this ⊢
      linarith
    · have h1 : ((|y - (|op.exact q.num.q v.q|)| : ℚ) : ℝ) ≤ ((gammaErr g 4 * |op.exact q.num.q v.q| : ℚ) : ℝ) := by exact_mod_cast e2 hn
      have := mul_le_mul_of_nonneg_right h1 S.le
      push_cast at this ⊢
      linarith
  · rw [round2_large hle (n := 2) (by omega) _ nz hb]

/-- C75: on an integral quantity with a floating point factor or divisor the result of the floating point operation is truncated toward zero, once;
it is undefined if it does not fit. -/
theorem C75_assign_int (op : BinOp) (q : QtyI) (t : IntTy) (f : FltTy) (v : FNum) (hg : q.ty.rep = .int t) (tq : q.num.Typed q.ty.rep)
    (tv : v.Typed (.flt f)) (fv : v.Finite) (hop : op.Scaling v.q) :
    (|op.exact q.num.q v.q| ≤ 2 ^ (f.emax - 2) → ∃ z : ℚ, |z - op.exact q.num.q v.q| ≤ gammaErr f 3 * |op.exact q.num.q v.q| + f.tiny / 2 ∧
      assignNumI op q (.flt f) v = if t.In (truncQ z) then .ok ⟨q.ty, .i (truncQ z)⟩ else .error .overflow) ∧
    (2 ^ (f.emax + 1) ≤ |op.exact q.num.q v.q| → assignNumI op q (.flt f) v = .error .overflow) := by
  have fq : q.num.Finite := by
    rw [hg] at tq
    cases hn : q.num with
    | i x => trivial
    | f x => rw [hn] at tq; obtain ⟨g, e, -⟩ := tq; cases e
  have hf : q.ty.rep.arith (.flt f) = .flt f := by rw [hg]; rfl
  obtain ⟨z, z0, nz, hz⟩ := numOpI_round hf tq tv fq fv hop
  have hs := exact_sign tq tv fq fv (op := op) (hop.imp_right And.left)
  have heq : assignNumI op q (.flt f) v = (do let y ← (FVal.round f (q.num.neg != v.neg) z).toInt t; Except.ok ⟨q.ty, FNum.i y⟩) := by
    unfold assignNumI compoundI
    rw [hz, hf, hg]
    simp only [ok_bind, convI, reduceCtorEq, if_false]
    cases (FVal.round f (q.num.neg != v.neg) z).toInt t <;> rfl
  rw [heq]
  constructor
  · intro hb
    obtain ⟨y, hy, -, e1, -⟩ := round_small (abs_nonneg _) (q.num.neg != v.neg) nz hb
    refine ⟨(FVal.fin (q.num.neg != v.neg) y).q, by rw [signed_mag hs]; exact e1, ?_⟩
    rw [hy]
    simp only [FVal.toInt]
    split <;> rfl
  · intro hb
    rw [round_large _ nz hb]; rfl

/-- The operations of `+=`, `++` and `-=`, `--`. -/
def BinOp.Additive (op : BinOp) : Prop := op = .add ∨ op = .sub

/-- C75: `q += r` and `q -= r` on a floating point quantity keep the type of `q` and add or subtract the amount of `r`, up to a small multiple of the
sum of the magnitudes plus three times the least positive number.  Partial: the exponents of the conversion ratio are limited, as for C69. -/
theorem C75_assign_sum_partial (E : Env) (β : String → ℝ) (hβ : Sizes β) (op : BinOp) (hop : op.Additive) (q r s : QtyI) (g : FltTy) (n : ℕ)
    (gq : q.ty.Good E) (gr : r.ty.Good E) (hco : Coherent β r.ty.dim q.ty.dim) (tq : q.num.Typed q.ty.rep) (tr : r.num.Typed r.ty.rep)
    (fq : q.num.Finite) (fr : r.num.Finite) (hg : q.ty.rep = .flt g) (hc : castRep r.ty.rep (.flt g) = .flt g) (hns : n ≤ g.safeExp)
    (hn : ExpLe E.est q.ty r.ty n) (hb : |q.amount β| + |r.amount β| ≤ 2 ^ (g.emax - 2) * q.ty.size β) (h : assignQtyI E op q r = .ok s) :
    s.ty = q.ty ∧ s.num.Typed q.ty.rep ∧ s.num.Finite ∧
      |s.amount β - (if op = .add then q.amount β + r.amount β else q.amount β - r.amount β)| ≤
        gammaErr g (n + 7) * (|q.amount β| + |r.amount β|) + 3 * g.tiny * q.ty.size β := by
  unfold assignQtyI at h
  simp only [bind_ok, Except.ok.injEq] at h
  obtain ⟨y, hy, z, hz, rfl⟩ := h
  have S := gq.size_pos hβ
  have B0 := abs_nonneg (q.amount β)
  obtain ⟨Y, rfl, fY, -, eY⟩ := convertQtyI_near hβ gr gq hco tr fr hg hc hn hns (by linarith) hy
  obtain ⟨X, hX, iX⟩ : ∃ X, q.num = .f X ∧ X.In g := by
    rw [hg] at tq
    cases hq : q.num with
    | i x => rw [hq] at tq; obtain ⟨t, e, -⟩ := tq; cases e
    | f x => rw [hq] at tq; obtain ⟨f, e, hin⟩ := tq; cases e; exact ⟨x, rfl, hin⟩
  have fX : X.Finite := by rw [hX] at fq; exact fq
  have aX : q.amount β = (X.q : ℝ) * q.ty.size β := by unfold QtyI.amount; rw [hX]; rfl
  have hgg : (Rep.flt g).arith (.flt g) = .flt g := by cases g <;> rfl
  have hzz : z = .f (if op = .add then X.add g Y else X.sub g Y) := by
    rw [hX, hg] at hz
    unfold compoundI numOpI at hz
    rw [hgg] at hz
    rcases hop with rfl | rfl <;> simp [convI, sameOpI, FVal.op, ok_bind] at hz <;> simp [← hz]
  subst hzz
  have fY' : Y.neg.Finite := by cases Y <;> exact fY
  have eX : |(X.q : ℝ) * q.ty.size β - q.amount β| ≤ gammaErr g (n + 6) * |q.amount β| + g.tiny * q.ty.size β := by
    have G0 : (0 : ℝ) ≤ gammaErr g (n + 6) := by exact_mod_cast gammaErr_nonneg g (n + 6)
    have t0 : (0 : ℝ) < g.tiny := by exact_mod_cast g.tiny_pos
    rw [aX, sub_self, abs_zero]
    positivity
  rcases hop with rfl | rfl
  · obtain ⟨k1, k2, k3⟩ := add_amount fX fY S hns eX eY hb
    exact ⟨rfl, ⟨g, hg, k2⟩, k1, k3⟩
  · have eW : |(Y.neg.q : ℝ) * q.ty.size β - -r.amount β| ≤ gammaErr g (n + 6) * |-r.amount β| + g.tiny * q.ty.size β := by
      rw [FVal.neg_q, abs_neg]; push_cast
      rw [show -(Y.q : ℝ) * q.ty.size β - -r.amount β = -(Y.q * q.ty.size β - r.amount β) by ring, abs_neg]; exact eY
    rw [← abs_neg (r.amount β)] at hb
    obtain ⟨k1, k2, k3⟩ := add_amount fX fY' S hns eX eW hb
    refine ⟨rfl, ⟨g, hg, k2⟩, k1, ?_⟩
    rw [abs_neg] at k3
    rw [if_neg (by decide), sub_eq_add_neg]
    exact k3

/-- C75: `++q` and `--q` on a floating point quantity of moderate size add or subtract one unit with a single rounding. -/
theorem C75_increment (op : BinOp) (hop : op.Additive) (q : QtyI) (g : FltTy) (hg : q.ty.rep = .flt g) (tq : q.num.Typed q.ty.rep)
    (fq : q.num.Finite) (hb : |q.num.q| ≤ 2 ^ (g.emax - 2)) :
    ∃ s, incDecI op q = .ok s ∧ s.ty = q.ty ∧ s.num.Typed q.ty.rep ∧ s.num.Finite ∧
      |s.num.q - op.exact q.num.q 1| ≤ g.u * |op.exact q.num.q 1| + g.tiny / 2 := by
  obtain ⟨X, hX, iX⟩ : ∃ X, q.num = .f X ∧ X.In g := by
    rw [hg] at tq
    cases hq : q.num with
    | i x => rw [hq] at tq; obtain ⟨t, e, -⟩ := tq; cases e
    | f x => rw [hq] at tq; obtain ⟨f, e, hin⟩ := tq; cases e; exact ⟨x, rfl, hin⟩
  have fX : X.Finite := by rw [hX] at fq; exact fq
  have hgg : (Rep.flt g).arith (.int .i32) = .flt g := rfl
  have h1 : convI (.int .i32) (.flt g) (.i 1) = .ok (.f (.fin false 1)) := by cases g <;> decide +kernel
  have hs : incDecI op q = .ok ⟨q.ty, .f (if op = .add then X.add g (.fin false 1) else X.sub g (.fin false 1))⟩ := by
    unfold incDecI compoundI numOpI
    rw [hX, hg, hgg, h1]
    rcases hop with rfl | rfl <;> simp [convI, sameOpI, FVal.op, ok_bind]
  refine ⟨_, hs, rfl, ?_⟩
  rw [hX] at hb ⊢
  change |X.q| ≤ _ at hb
  have hone : |op.exact X.q 1| ≤ 2 ^ (g.emax - 1) := by
    have e2 : (2 : ℚ) ^ (g.emax - 1) = 2 ^ (g.emax - 2) + 2 ^ (g.emax - 2) := by
      rw [show g.emax - 1 = g.emax - 2 + 1 by ring, zpow_add₀ (by norm_num)]; ring
    have p : (1 : ℚ) ≤ 2 ^ (g.emax - 2) := by
      rw [show (1 : ℚ) = 2 ^ (0 : ℤ) by norm_num]; exact two_zpow_le (by cases g <;> decide)
    rw [e2]
    rcases hop with rfl | rfl
    · exact (abs_add_le _ _).trans (by rw [abs_one]; linarith)
    · exact (abs_sub _ _).trans (by rw [abs_one]; linarith)
  rcases hop with rfl | rfl
  · obtain ⟨k1, k2, k3⟩ := add_near (f := g) (x := X) (y := .fin false 1) fX trivial (by simpa [BinOp.exact, FVal.q] using hone)
    exact ⟨⟨g, hg, k2⟩, k1, by simpa [BinOp.exact, FVal.q, FNum.q] using k3⟩
  · obtain ⟨k1, k2, k3⟩ := add_near (f := g) (x := X) (y := .fin true 1) fX trivial (by simpa [BinOp.exact, FVal.q, sub_eq_add_neg] using hone)
    refine ⟨⟨g, hg, k2⟩, k1, ?_⟩
    rw [show (FVal.fin true 1).q = -1 from rfl, ← sub_eq_add_neg] at k3
    exact k3

/-- Incrementing 2^53 as a `double` leaves it unchanged, 0.1 as a `double` rounds. -/
example : incDecI .add ⟨exKms (.flt .f64), .f (.fin false (2 ^ 53))⟩ = .ok ⟨exKms (.flt .f64), .f (.fin false (2 ^ 53))⟩ ∧
    incDecI .sub exTenthKm = .ok ⟨exKms (.flt .f64), .f (.fin true (8106479329266893 / 2 ^ 53))⟩ := by decide +kernel

/-- C75, finding: `++q` need not change `q`. -/
theorem C75_increment_absorbed : ∃ q : QtyI, q.num.Typed q.ty.rep ∧ q.num.Finite ∧ incDecI .add q = .ok q :=
  ⟨⟨exKms (.flt .f64), .f (.fin false (2 ^ 53))⟩, ⟨.f64, rfl, by norm_num, by decide +kernel⟩, trivial, by decide +kernel⟩

/-- 0.1 km -= 5 cm. -/
example (β : String → ℝ) (hβ : Sizes β) : ∃ s, assignQtyI exEnv .sub exTenthKm (exCmI 5) = .ok s ∧
    s.num = .f (.fin false (3601078262045449 / 2 ^ 55)) ∧ |s.amount β - (exTenthKm.amount β - (exCmI 5).amount β)| ≤
      gammaErr .f64 (5 + 7) * (|exTenthKm.amount β| + |(exCmI 5).amount β|) + 3 * FltTy.f64.tiny * exTenthKm.ty.size β := by
  have hr : castRatio exEnv.est (exCms (.int .i64)).dim (exCms (.int .i64)).unit (exKms (.flt .f64)).dim (exKms (.flt .f64)).unit = .ok ⟨1, 1, -5⟩ := by
    decide +kernel
  have h : assignQtyI exEnv .sub exTenthKm (exCmI 5) = .ok ⟨exKms (.flt .f64), .f (.fin false (3601078262045449 / 2 ^ 55))⟩ := by decide +kernel
  refine ⟨_, h, rfl, ?_⟩
  have m := hβ "metre"
  refine (C75_assign_sum_partial exEnv β hβ .sub (.inr rfl) exTenthKm (exCmI 5) _ .f64 5 (exKms_good _ _) (exCms_good _ _)
    (fun e u => (exL_cgs_coherent β e.symm u).symm) ⟨.f64, rfl, by norm_num, by decide +kernel⟩ ⟨.i64, rfl, by decide⟩ trivial trivial rfl rfl (by decide)
    (fun c h => ?_) ?_ h).2.2.2
  · rw [show (exCmI 5).ty = exCms (.int .i64) from rfl, show exTenthKm.ty = exKms (.flt .f64) from rfl, hr] at h; cases h; decide
  have e1 : exTenthKm.amount β = 3602879701896397 / 2 ^ 55 * (1000 * β "metre") := by
    rw [← exKms_size β (.flt .f64)]; simp only [QtyI.amount, exTenthKm, FNum.q, FVal.q]; push_cast; norm_num
  have e2 : (exCmI 5).amount β = 5 * (β "metre" / 100) := by
    rw [← exCms_size β (.int .i64)]; simp only [QtyI.amount, exCmI, FNum.q]; push_cast; rfl
  have e3 : exTenthKm.ty.size β = 1000 * β "metre" := exKms_size β _
  rw [e1, e2, e3, abs_of_pos (by positivity), abs_of_pos (by positivity)]
  have big : (2 : ℝ) ^ 20 ≤ 2 ^ (FltTy.f64.emax - 2) := by
    rw [← zpow_natCast]; exact zpow_le_zpow_right₀ (by norm_num) (by decide)
  have := mul_le_mul_of_nonneg_right big (by positivity : 0 ≤ 1000 * β "metre")
  linarith

/-! ### Negation and absolute value -/

/-- C75: negation of a floating point quantity is exact, also for infinities and NaNs, and negating twice restores the object. -/
theorem C75_negate (β : String → ℝ) (q : QtyI) (f : FltTy) (hf : q.ty.rep = .flt f) (tq : q.num.Typed q.ty.rep) :
    ∃ r, negQtyI q = .ok r ∧ r.ty = q.ty ∧ r.num.Typed q.ty.rep ∧ r.amount β = -q.amount β ∧ (r.num.Finite ↔ q.num.Finite) ∧ negQtyI r = .ok q := by
  obtain ⟨⟨d, u, rep⟩, n⟩ := q
  dsimp only at hf tq
  subst hf
  cases n with
  | i x => obtain ⟨t, e, -⟩ := tq; cases e
  | f x =>
    obtain ⟨g, e, hx⟩ := tq
    cases e
    refine ⟨⟨⟨d, u, .flt f⟩, .f x.neg⟩, rfl, rfl, ⟨f, rfl, ?_⟩, ?_, ?_, ?_⟩
    · cases x <;> exact hx
    · unfold QtyI.amount
      simp only [FNum.q, FVal.neg_q]; push_cast; ring
    · cases x <;> rfl
    · cases x <;> simp [negQtyI, FVal.neg]

/-- C75: the absolute value of a floating point quantity is exact and never has a negative sign. -/
theorem C75_abs (E : Env) (β : String → ℝ) (hβ : Sizes β) (q : QtyI) (f : FltTy) (gq : q.ty.Good E) (hf : q.ty.rep = .flt f)
    (tq : q.num.Typed q.ty.rep) :
    ∃ r, absQtyI q = .ok r ∧ r.ty = q.ty ∧ r.num.Typed q.ty.rep ∧ r.amount β = |q.amount β| ∧ (r.num.Finite ↔ q.num.Finite) ∧ r.num.neg = false := by
  have S := gq.size_pos hβ
  cases hn : q.num with
  | i x => rw [hn, hf] at tq; obtain ⟨t, e, -⟩ := tq; cases e
  | f x =>
    rw [hn, hf] at tq
    obtain ⟨g, e, hx⟩ := tq
    cases e
    refine ⟨⟨q.ty, .f x.abs⟩, by simp [absQtyI, hn], rfl, ⟨f, hf, ?_⟩, ?_, ?_, ?_⟩
    · cases x <;> exact hx
    · unfold QtyI.amount
      rw [abs_mul, abs_of_pos S, hn]
      have : (x.abs).q = |x.q| := by
        cases x with
        | fin s m => rw [fin_abs hx.1]; rfl
        | inf s => simp [FVal.abs, FVal.q]
        | nan => simp [FVal.abs, FVal.q]
      simp only [FNum.q, this]
      push_cast; rfl
    · cases x <;> rfl
    · cases x <;> rfl

/-- 0.1 km divided by zero centimetres is infinite, zero by zero is NaN, zero times an infinity is NaN. -/
example : (∃ r, divQtyI exEnv exTenthKm (exCmI 0) = .ok r ∧ r.num = .f (.inf false)) ∧
    (∃ r, divQtyI exEnv ⟨exKms (.flt .f64), .f (.fin true 0)⟩ (exCmI 0) = .ok r ∧ r.num = .f .nan) ∧
    (∃ r, mulQtyI exEnv ⟨exKms (.flt .f64), .f (.inf true)⟩ (exCmI 0) = .ok r ∧ r.num = .f .nan) ∧
    (∃ r, divQtyI exEnv (exCmI (-4)) ⟨exKms (.flt .f32), .f (.inf false)⟩ = .ok r ∧ r.num = .f (.fin true 0)) := by
  have ok : ∀ {x : C QtyI}, x.isOk = true → ∃ r, x = .ok r := fun {x} h => by cases x <;> simp_all [Except.isOk, Except.toBool]
  refine ⟨?_, ?_, ?_, ?_⟩
  · obtain ⟨r, h⟩ := ok (x := divQtyI exEnv exTenthKm (exCmI 0)) (by decide +kernel)
    exact ⟨r, h, by
      rw [(C75_special exEnv exTenthKm (exCmI 0) r .f64 exTenthKm_typed ⟨.i64, rfl, by decide⟩ rfl).2.1 trivial trivial (by decide +kernel) h]
      decide +kernel⟩
  · obtain ⟨r, h⟩ := ok (x := divQtyI exEnv ⟨exKms (.flt .f64), .f (.fin true 0)⟩ (exCmI 0)) (by decide +kernel)
    exact ⟨r, h, by
      rw [(C75_special exEnv ⟨exKms (.flt .f64), .f (.fin true 0)⟩ (exCmI 0) r .f64 ⟨.f64, rfl, by norm_num, by decide +kernel⟩ ⟨.i64, rfl, by decide⟩ rfl).2.1 trivial trivial
        (by decide +kernel) h]
      decide +kernel⟩
  · obtain ⟨r, h⟩ := ok (x := mulQtyI exEnv ⟨exKms (.flt .f64), .f (.inf true)⟩ (exCmI 0)) (by decide +kernel)
    exact ⟨r, h, by
      rw [((C75_special exEnv ⟨exKms (.flt .f64), .f (.inf true)⟩ (exCmI 0) r .f64 ⟨.f64, rfl, trivial⟩ ⟨.i64, rfl, by decide⟩ rfl).2.2.1 true rfl trivial).1 h]
      decide +kernel⟩
  · obtain ⟨r, h⟩ := ok (x := divQtyI exEnv (exCmI (-4)) ⟨exKms (.flt .f32), .f (.inf false)⟩) (by decide +kernel)
    exact ⟨r, h, by
      rw [((C75_special exEnv (exCmI (-4)) ⟨exKms (.flt .f32), .f (.inf false)⟩ r .f32 ⟨.i64, rfl, by decide⟩ ⟨.f32, rfl, trivial⟩ rfl).2.2.2 false rfl trivial).2 h]
      decide +kernel⟩

/-- Half a kilometre as a `float`, multiplied in place by the `double` 0.1: computed in `double`, rounded to `float`. -/
example (β : String → ℝ) (hβ : Sizes β) :
    assignNumI .mul ⟨exKms (.flt .f32), .f (.fin false (1 / 2))⟩ (.flt .f64) exTenthKm.num = .ok ⟨exKms (.flt .f32), .f (.fin false (13421773 / 2 ^ 28))⟩ ∧
    |(⟨exKms (.flt .f32), .f (.fin false (13421773 / 2 ^ 28))⟩ : QtyI).amount β -
        (⟨exKms (.flt .f32), .f (.fin false (1 / 2))⟩ : QtyI).amount β * exTenthKm.num.q| ≤
      gammaErr .f32 4 * |(⟨exKms (.flt .f32), .f (.fin false (1 / 2))⟩ : QtyI).amount β * exTenthKm.num.q| := by
  have h : assignNumI .mul ⟨exKms (.flt .f32), .f (.fin false (1 / 2))⟩ (.flt .f64) exTenthKm.num =
      .ok ⟨exKms (.flt .f32), .f (.fin false (13421773 / 2 ^ 28))⟩ := by decide +kernel
  refine ⟨h, ?_⟩
  obtain ⟨-, -, h1, -⟩ := C75_assign exEnv β hβ .mul ⟨exKms (.flt .f32), .f (.fin false (1 / 2))⟩ _ (.flt .f64) exTenthKm.num .f32 (exKms_good _ _)
    ⟨.f32, rfl, by norm_num, by decide +kernel⟩ exTenthKm_typed trivial trivial rfl (Or.inl rfl) h
  rw [if_pos rfl] at h1
  exact (h1 (by decide +kernel)).2.2 (by decide +kernel)

/-- 1234 km in integers multiplied in place by −0.1 are −123 km; times 10^10 does not fit a 32-bit integer. -/
example : assignNumI .mul ⟨exKms (.int .i32), .i 1234⟩ (.flt .f64) (.f (.fin true (3602879701896397 / 2 ^ 55))) = .ok ⟨exKms (.int .i32), .i (-123)⟩ ∧
    assignNumI .mul ⟨exKms (.int .i32), .i 1234⟩ (.flt .f64) (.f (.fin false (10 ^ 10))) = .error .overflow ∧
    (FNum.f (.fin false (10 ^ 10))).Typed (.flt .f64) ∧ BinOp.Scaling .mul (10 ^ 10) := by
  refine ⟨by decide +kernel, by decide +kernel, ⟨.f64, rfl, by norm_num, by decide +kernel⟩, Or.inl rfl⟩

example : negQtyI exTenthKm = .ok ⟨exKms (.flt .f64), .f (.fin true (3602879701896397 / 2 ^ 55))⟩ ∧
    absQtyI ⟨exKms (.flt .f64), .f (.fin true (3602879701896397 / 2 ^ 55))⟩ = .ok exTenthKm ∧
    negQtyI ⟨exKms (.flt .f64), .f (.fin false 0)⟩ = .ok ⟨exKms (.flt .f64), .f (.fin true 0)⟩ := by decide +kernel

/-! ### Integral quantities -/

/-- A quantity of the exact model seen in the IEEE model. -/
def Num.toI : Num → FNum
  | .i x => .i x
  | .f x => .f (.fin (x < 0) |x|)

def Qty.toI (q : Qty) : QtyI := ⟨q.ty, q.num.toI⟩

/-- A quantity with an integral representation. -/
def Qty.Integral (q : Qty) : Prop := ∃ t x, q.ty.rep = .int t ∧ q.num = .i x

theorem convI_integral (fl : Rounding) (s t : IntTy) (x : Int) :
    convI (.int s) (.int t) (.i x) = (convNum fl (.int s) (.int t) (.i x)).map Num.toI := by
  unfold convI convNum; split <;> rfl

theorem numOpI_integral (fl : Rounding) (op : BinOp) (s t : IntTy) (x y : Int) :
    numOpI op (.int s) (.int t) (.i x) (.i y) = (numOp fl op (.int s) (.int t) (.i x) (.i y)).map Num.toI := by
  have hr : ∀ (a b : IntTy) (z : Int), ∃ w, convI (.int a) (.int b) (.i z) = .ok (.i w) ∧ convNum fl (.int a) (.int b) (.i z) = .ok (.i w) := by
    intro a b z; unfold convI convNum; split
    · exact ⟨z, rfl, rfl⟩
    · exact ⟨_, rfl, rfl⟩
  obtain ⟨u, hu⟩ : ∃ u, Rep.arith (.int s) (.int t) = .int u := ⟨_, rfl⟩
  obtain ⟨a, a1, a2⟩ := hr s u x
  obtain ⟨b, b1, b2⟩ := hr t u y
  unfold numOpI numOp
  rw [hu, a1, a2, b1, b2]
  simp only [ok_bind, sameOpI, sameOp]
  cases intOp u op a b <;> rfl

theorem compoundI_integral (fl : Rounding) (op : BinOp) (s t : IntTy) (x y : Int) :
    compoundI op (.int s) (.int t) (.i x) (.i y) = (compound fl op (.int s) (.int t) (.i x) (.i y)).map Num.toI := by
  unfold compoundI compound
  simp only [numOpI_integral fl]
  cases h : numOp fl op (.int s) (.int t) (.i x) (.i y) with
  | error e => rfl
  | ok z =>
    obtain ⟨w, rfl⟩ : ∃ w, z = .i w := by
      unfold numOp at h
      simp only [bind_ok] at h
      obtain ⟨p, hp, q, hq, h⟩ := h
      obtain ⟨u, hu⟩ : ∃ u, Rep.arith (.int s) (.int t) = .int u := ⟨_, rfl⟩
      rw [hu] at h
      cases p <;> cases q <;> simp only [sameOp, bind_ok, Except.ok.injEq, reduceCtorEq] at h
      obtain ⟨w, -, rfl⟩ := h
      exact ⟨w, rfl⟩
    obtain ⟨u, hu⟩ : ∃ u, Rep.arith (.int s) (.int t) = .int u := ⟨_, rfl⟩
    simp only [hu, Except.map, ok_bind, Num.toI, convI_integral fl]

/-- C75: on integral quantities the IEEE model is the exact model of C26, C27, C28 and C33: all of those properties hold for it. -/
theorem C75_integral (E : Env) (a b : Qty) (ha : a.Integral) (hb : b.Integral) (rep : IntTy) (v : Int) :
    mulQtyI E a.toI b.toI = (mulQty E a b).map Qty.toI ∧ divQtyI E a.toI b.toI = (divQty E a b).map Qty.toI ∧
    (∀ op, scaleQtyI op a.toI (.int rep) (.i v) = (scaleQty E op a (.int rep) (.i v)).map Qty.toI) ∧
    scaleQtyLeftI (.int rep) (.i v) a.toI = (scaleQtyLeft E (.int rep) (.i v) a).map Qty.toI ∧
    recipQtyI E (.int rep) (.i v) a.toI = (recipQty E (.int rep) (.i v) a).map Qty.toI ∧
    (∀ op, assignNumI op a.toI (.int rep) (.i v) = (assignNum E op a (.int rep) (.i v)).map Qty.toI) ∧
    negQtyI a.toI = (negQty a).map Qty.toI ∧ (∀ op, incDecI op a.toI = (incDec E op a).map Qty.toI) := by
  obtain ⟨⟨da, ua, ra⟩, na⟩ := a
  obtain ⟨⟨db, ub, rb⟩, nb⟩ := b
  obtain ⟨s, x, rfl, rfl⟩ := ha
  obtain ⟨t, y, rfl, rfl⟩ := hb
  refine ⟨?_, ?_, fun op => ?_, ?_, ?_, fun op => ?_, ?_, fun op => ?_⟩
  · unfold mulQtyI mulQty
    simp only [Qty.toI, Num.toI, numOpI_integral E.fl]
    cases refMultiply E da ua db ub with
    | error e => rfl
    | ok p =>
      simp only [ok_bind]
      cases numOp E.fl .mul (.int s) (.int t) (.i x) (.i y) <;> rfl
  · unfold divQtyI divQty
    simp only [Qty.toI, Num.toI, numOpI_integral E.fl]
    cases refDivide E da ua db ub with
    | error e => rfl
    | ok p =>
      simp only [ok_bind]
      cases numOp E.fl .div (.int s) (.int t) (.i x) (.i y) <;> rfl
  · unfold scaleQtyI scaleQty
    simp only [Qty.toI, Num.toI, numOpI_integral E.fl]
    cases numOp E.fl op (.int s) (.int rep) (.i x) (.i v) <;> rfl
  · unfold scaleQtyLeftI scaleQtyLeft
    simp only [Qty.toI, Num.toI, numOpI_integral E.fl]
    cases numOp E.fl .mul (.int rep) (.int s) (.i v) (.i x) <;> rfl
  · unfold recipQtyI recipQty
    simp only [Qty.toI, Num.toI, numOpI_integral E.fl]
    cases dimInvert E.dims da with
    | error e => rfl
    | ok d =>
      simp only [ok_bind]
      cases Ratio.inverse ua.ratio with
      | error e => rfl
      | ok i =>
        simp only [ok_bind]
        cases downcastUnit E.units d i with
        | error e => rfl
        | ok w =>
          simp only [ok_bind]
          cases numOp E.fl .div (.int rep) (.int s) (.i v) (.i x) <;> rfl
  · unfold assignNumI assignNum
    rw [if_neg (by simp [Rep.floating])]
    simp only [Qty.toI, Num.toI]
    rw [compoundI_integral E.fl]
    cases compound E.fl op (.int s) (.int rep) (.i x) (.i v) <;> rfl
  · unfold negQtyI negQty numNeg
    simp only [Qty.toI, Num.toI, Rep.promote]
    cases s.promote.arith (-x) <;> rfl
  · unfold incDecI incDec
    simp only [Qty.toI, Num.toI]
    rw [compoundI_integral E.fl]
    cases compound E.fl op (.int s) (.int .i32) (.i x) (.i 1) <;> rfl

/-- −2 km, in place multiplied by 3; −(−128) of a signed byte is an `int`. -/
example : assignNumI .mul (Qty.toI ⟨exKms (.int .i32), .i (-2)⟩) (.int .i64) (.i 3) = .ok (Qty.toI ⟨exKms (.int .i32), .i (-6)⟩) ∧
    negQtyI (Qty.toI ⟨exKms (.int .i8), .i (-128)⟩) = .ok (Qty.toI ⟨exKms (.int .i32), .i 128⟩) ∧
    Qty.Integral ⟨exKms (.int .i8), .i (-128)⟩ := ⟨by decide +kernel, by decide +kernel, _, _, rfl, rfl⟩

end Verif
