import Verif.RepStep
import Verif.Reference
import Verif.Props.RepOpsProps

/-!
# C77, continued: unary plus, increments, reciprocals, remainders, and what the operators require
-/

namespace Verif

open Ratio

/-- The size of the unit of a reciprocal is the reciprocal of the size, where the coherent units of the two dimensions have reciprocal ratios. -/
theorem recip_size {E : Env} (hE : E.OK) {β : String → ℝ} (hβ : Sizes β) {t : QTy} {d : Dim} {i : Ratio} {u : MUnit} (gt : t.Good E) (gr : d.Good)
    (hd : dimInvert E.dims t.dim = .ok d) (hi : Ratio.inverse t.unit.ratio = .ok i) (hu : downcastUnit E.units d i = .ok u)
    (hone : t.dim.unit.ratio.val * d.unit.ratio.val = 1) : d.size β u = (t.size β)⁻¹ := by
  obtain ⟨iw, iv, -⟩ := inverse_sound gt.unit.ratio hi
  obtain ⟨ur, -, -⟩ := downcastUnit_eq_ok hE.units hu
  obtain ⟨e1, h1, k1⟩ := gt.dim.exps
  obtain ⟨e, h3, k⟩ := gr.exps
  have hs := dimSize_inv hβ hE.dims h1 h3 k1 k hd
  have hp := dimSize_pos hβ k1
  have hu0 : ((t.unit.ratio.val : ℚ) : ℝ) ≠ 0 := by exact_mod_cast gt.unit.val_pos.ne'
  have hc0 : ((t.dim.unit.ratio.val : ℚ) : ℝ) ≠ 0 := by exact_mod_cast gt.dim.unit.val_pos.ne'
  have hd0 : ((d.unit.ratio.val : ℚ) : ℝ) ≠ 0 := by exact_mod_cast gr.unit.val_pos.ne'
  have hone' : ((t.dim.unit.ratio.val : ℚ) : ℝ) * ((d.unit.ratio.val : ℚ) : ℝ) = 1 := by exact_mod_cast hone
  rw [QTy.size, Dim.size_eq h1, Dim.size_eq h3, hs, ur, iv]
  push_cast
  have : (((d.unit.ratio.val : ℚ) : ℝ))⁻¹ = ((t.dim.unit.ratio.val : ℚ) : ℝ) := by
    field_simp; linarith
  rw [div_eq_mul_inv (_ : ℝ) ((d.unit.ratio.val : ℚ) : ℝ), this]
  field_simp

/-- C77: a value divided by a quantity whose representation is a number.  Partial: coherent units of reciprocal ratios, as in C28. -/
theorem C77_reciprocal_partial {S : OpSys} {V : Type} [AddCommGroup V] [Module ℝ V] {num : S.Ty → S.Val → Option ℝ} {vec : S.Ty → S.Val → V}
    (L : Linear S.toTypeSys num vec) {E : Env} (hE : E.OK) {β : String → ℝ} (hβ : Sizes β) {q r : QtyG S} {v : S.Ty × S.Val} (gq : q.ty.Good E)
    (gr : r.ty.dim.Good) {p : ℝ} (hp : num q.ty.rep q.num = some p) (h0 : p ≠ 0) (h : recipG E v q = .ok r)
    (hone : q.ty.dim.unit.ratio.val * r.ty.dim.unit.ratio.val = 1) :
    r.amount β vec = (q.ty.size β * p)⁻¹ • vec v.1 v.2 ∧ S.divTy v.1 q.ty.rep = some r.ty.rep ∧ S.representation r.ty.rep = true := by
  unfold recipG at h
  split at h
  · cases h
  split at h
  · cases h
  rename_i t ht
  obtain ⟨d, hd, h⟩ := bind_ok.1 h
  obtain ⟨i, hi, h⟩ := bind_ok.1 h
  obtain ⟨u, hu, h⟩ := bind_ok.1 h
  obtain ⟨z, hz, h⟩ := bind_ok.1 h
  cases h
  obtain ⟨h1, h2⟩ := resultFrom_some ht
  have hs : (⟨d, u, t⟩ : QTyG S).size β = (q.ty.size β)⁻¹ := recip_size hE hβ (t := q.ty.under) gq gr hd hi hu hone
  refine ⟨?_, h1, h2⟩
  rw [QtyG.amount, L.div_vec h1 hz hp h0, hs, smul_smul, mul_inv]

/-- The amount of a quantity whose representation means integers. -/
noncomputable def QtyG.intAmount {S : OpSys} (β : String → ℝ) (int : S.Ty → S.Val → ℤ) (q : QtyG S) : ℝ := int q.ty.rep q.num * q.ty.size β

theorem tmod_abs_right (m n : ℤ) : m.tmod |n| = m.tmod n := by
  rcases abs_choice n with h | h <;> rw [h]
  rw [Int.tmod_neg]

theorem tmod_facts (m n : ℤ) (hn : n ≠ 0) : m = m.tdiv n * n + m.tmod n ∧ |m.tmod n| < |n| ∧ 0 ≤ m.tmod n * m := by
  refine ⟨by have := Int.tdiv_mul_add_tmod m n; omega, ?_, ?_⟩
  · rcases le_total 0 m with h | h
    · have h1 := Int.tmod_nonneg n h
      have h2 := Int.tmod_lt_of_pos m (b := |n|) (by positivity)
      rw [tmod_abs_right] at h2
      rw [abs_of_nonneg h1]; exact h2
    · have h1 := Int.tmod_nonneg n (a := -m) (by omega)
      have h2 := Int.tmod_lt_of_pos (-m) (b := |n|) (by positivity)
      rw [tmod_abs_right] at h2
      rw [Int.neg_tmod] at h1 h2
      rw [abs_of_nonpos (by omega)]; exact h2
  · rcases le_total 0 m with h | h
    · exact mul_nonneg (Int.tmod_nonneg n h) h
    · have h1 := Int.tmod_nonneg n (a := -m) (by omega)
      rw [Int.neg_tmod] at h1
      exact mul_nonneg_of_nonpos_of_nonpos (by omega) h

/-- C77: with a representation whose `%` means the remainder of the truncated division of integers, the remainder of quantities in units of one size is what is
left of the dividend after taking out the divisor a whole number of times: smaller than the divisor, of the sign of the dividend.  Partial: units of one size,
see `C29_units_not_converted`. -/
theorem C77_remainder_partial {S : OpSys} {int : S.Ty → S.Val → ℤ} {E : Env} {β : String → ℝ} (hβ : Sizes β) {a b r : QtyG S} (ga : a.ty.Good E)
    (hmod : ∀ {t z}, S.modTy a.ty.rep b.ty.rep = some t → S.mod a.ty.rep b.ty.rep a.num b.num = .ok z →
      int b.ty.rep b.num ≠ 0 ∧ int t z = (int a.ty.rep a.num).tmod (int b.ty.rep b.num))
    (hsize : a.ty.size β = b.ty.size β) (h : modG a b = .ok r) :
    r.ty.dim = a.ty.dim ∧ r.ty.unit = a.ty.unit ∧ S.treatFloating a.ty.rep = false ∧ S.treatFloating b.ty.rep = false ∧ S.representation r.ty.rep = true ∧
    (∃ k : ℤ, a.intAmount β int = k * b.intAmount β int + r.intAmount β int) ∧ |r.intAmount β int| < |b.intAmount β int| ∧
    0 ≤ r.intAmount β int * a.intAmount β int := by
  have hpos : 0 < a.ty.size β := ga.size_pos hβ
  have key : ∀ {t : S.Ty} {z : S.Val}, S.modTy a.ty.rep b.ty.rep = some t → S.op .mod a.ty.rep b.ty.rep a.num b.num = .ok z →
      (⟨⟨a.ty.dim, a.ty.unit, t⟩, z⟩ : QtyG S) = r →
      r.ty.dim = a.ty.dim ∧ r.ty.unit = a.ty.unit ∧
      (∃ k : ℤ, a.intAmount β int = k * b.intAmount β int + r.intAmount β int) ∧ |r.intAmount β int| < |b.intAmount β int| ∧
      0 ≤ r.intAmount β int * a.intAmount β int := by
    rintro t z ht hz rfl
    obtain ⟨hn, hi⟩ := hmod ht hz
    obtain ⟨f1, f2, f3⟩ := tmod_facts (int a.ty.rep a.num) _ hn
    have hs : (⟨a.ty.dim, a.ty.unit, t⟩ : QTyG S).size β = a.ty.size β := rfl
    refine ⟨rfl, rfl, ⟨(int a.ty.rep a.num).tdiv (int b.ty.rep b.num), ?_⟩, ?_, ?_⟩
    · simp only [QtyG.intAmount, hs, hi, ← hsize]
      have : ((int a.ty.rep a.num : ℤ) : ℝ) = ((int a.ty.rep a.num).tdiv (int b.ty.rep b.num) : ℤ) * (int b.ty.rep b.num : ℤ) +
          ((int a.ty.rep a.num).tmod (int b.ty.rep b.num) : ℤ) := by exact_mod_cast f1
      generalize (int a.ty.rep a.num).tdiv (int b.ty.rep b.num) = k at *
      generalize (int a.ty.rep a.num).tmod (int b.ty.rep b.num) = m at *
      rw [this]; ring
    · simp only [QtyG.intAmount, hs, hi, ← hsize, abs_mul, abs_of_pos hpos]
      exact mul_lt_mul_of_pos_right (by exact_mod_cast f2) hpos
    · simp only [QtyG.intAmount, hs, hi]
      have : (0 : ℝ) ≤ ((int a.ty.rep a.num).tmod (int b.ty.rep b.num) : ℤ) * (int a.ty.rep a.num : ℤ) := by exact_mod_cast f3
      generalize (((int a.ty.rep a.num).tmod (int b.ty.rep b.num) : ℤ) : ℝ) = m at *
      generalize ((int a.ty.rep a.num : ℤ) : ℝ) = n at *
      have := mul_nonneg this (mul_pos hpos hpos).le
      nlinarith
  unfold modG at h
  split at h
  · cases h
  rename_i hf
  have hf' : S.treatFloating a.ty.rep = false ∧ S.treatFloating b.ty.rep = false := by simpa using hf
  have done : ∀ {t : S.Ty}, S.modTy a.ty.rep b.ty.rep = some t ∧ S.representation t = true → (do
      let z ← S.op .mod a.ty.rep b.ty.rep a.num b.num
      Except.ok (⟨⟨a.ty.dim, a.ty.unit, t⟩, z⟩ : QtyG S)) = .ok r → r.ty.dim = a.ty.dim ∧ r.ty.unit = a.ty.unit ∧ S.treatFloating a.ty.rep = false ∧
      S.treatFloating b.ty.rep = false ∧ S.representation r.ty.rep = true ∧
      (∃ k : ℤ, a.intAmount β int = k * b.intAmount β int + r.intAmount β int) ∧ |r.intAmount β int| < |b.intAmount β int| ∧
      0 ≤ r.intAmount β int * a.intAmount β int := by
    intro t ht h
    obtain ⟨z, hz, h⟩ := bind_ok.1 h
    obtain ⟨k1, k2, k3⟩ := key ht.1 hz (Except.ok.inj h)
    refine ⟨k1, k2, hf'.1, hf'.2, ?_, k3⟩
    rw [← Except.ok.inj h]; exact ht.2
  split at h
  · rename_i hsame
    have hty := same_eq.1 hsame
    split at h
    · rename_i t ht
      have hrep : b.ty.rep = a.ty.rep := by rw [hty]
      exact done (by rw [hrep]; exact resultFrom_some ht) (by rw [hrep]; exact h)
    · split at h
      · cases h
      · rename_i t ht
        exact done (valueFor_some ht) h
  · split at h
    · cases h
    · rename_i t ht
      obtain ⟨e, -, h⟩ := bind_ok.1 h
      obtain ⟨o, -, h⟩ := bind_ok.1 h
      split at h
      · exact done (valueFor_some ht) h
      · cases h

/-- C77: the remainder by a number that is not a quantity: the same, for the numbers. -/
theorem C77_remainder_number {S : OpSys} {int : S.Ty → S.Val → ℤ} {β : String → ℝ} {E : Env} (hβ : Sizes β) {q r : QtyG S} {v : S.Ty × S.Val} (gq : q.ty.Good E)
    (hmod : ∀ {t z}, S.modTy q.ty.rep v.1 = some t → S.mod q.ty.rep v.1 q.num v.2 = .ok z →
      int v.1 v.2 ≠ 0 ∧ int t z = (int q.ty.rep q.num).tmod (int v.1 v.2)) (h : scaleG .mod q v = .ok r) :
    r.ty.dim = q.ty.dim ∧ r.ty.unit = q.ty.unit ∧ S.quantity v.1 = false ∧ S.treatFloating q.ty.rep = false ∧ S.treatFloating v.1 = false ∧
    (∃ k : ℤ, q.intAmount β int = k * (int v.1 v.2 * q.ty.size β) + r.intAmount β int) ∧ |r.intAmount β int| < |(int v.1 v.2 : ℝ)| * q.ty.size β := by
  have hpos : 0 < q.ty.size β := gq.size_pos hβ
  unfold scaleG at h
  split at h
  · cases h
  rename_i hf
  have hf' : S.quantity v.1 = false ∧ S.treatFloating q.ty.rep = false ∧ S.treatFloating v.1 = false := by simpa using hf
  split at h
  · cases h
  rename_i t ht
  obtain ⟨z, hz, h⟩ := bind_ok.1 h
  cases h
  obtain ⟨hn, hi⟩ := hmod (resultFrom_some ht).1 hz
  obtain ⟨f1, f2, f3⟩ := tmod_facts (int q.ty.rep q.num) _ hn
  have hs : (⟨q.ty.dim, q.ty.unit, t⟩ : QTyG S).size β = q.ty.size β := rfl
  refine ⟨rfl, rfl, hf'.1, hf'.2.1, hf'.2.2, ⟨(int q.ty.rep q.num).tdiv (int v.1 v.2), ?_⟩, ?_⟩
  · simp only [QtyG.intAmount, hs, hi]
    have : ((int q.ty.rep q.num : ℤ) : ℝ) = ((int q.ty.rep q.num).tdiv (int v.1 v.2) : ℤ) * (int v.1 v.2 : ℤ) +
        ((int q.ty.rep q.num).tmod (int v.1 v.2) : ℤ) := by exact_mod_cast f1
    generalize (int q.ty.rep q.num).tdiv (int v.1 v.2) = k at *
    generalize (int q.ty.rep q.num).tmod (int v.1 v.2) = m at *
    rw [this]; ring
  · simp only [QtyG.intAmount, hs, hi, abs_mul, abs_of_pos hpos]
    exact mul_lt_mul_of_pos_right (by exact_mod_cast f2) hpos

/-- C77: `+q` denotes the same amount in the same unit; `++q` and `--q` change the amount by what one step of the representation means in the unit; `q++` and
`q--` do the same and return the former amount. -/
theorem C77_steps {S : StepSys} {V : Type} [AddCommGroup V] [Module ℝ V] {num : S.Ty → S.Val → Option ℝ} {vec : S.Ty → S.Val → V}
    (L : Linear S.toTypeSys num vec) (one : S.Ty → V)
    (hpos : ∀ {t r x z}, S.posTy t = some r → S.pos t x = .ok z → vec r z = vec t x)
    (hstep : ∀ {up t x z}, S.step up t x = .ok z → vec t z = if up then vec t x + one t else vec t x - one t)
    (hpost : ∀ {up t x y z}, S.post up t x = .ok (y, z) → vec t y = vec t x ∧ vec t z = if up then vec t x + one t else vec t x - one t)
    (β : String → ℝ) (q r old : QtyG S.toOpSys) (up : Bool) :
    (posG q = .ok r → r.ty.dim = q.ty.dim ∧ r.ty.unit = q.ty.unit ∧ S.posTy q.ty.rep = some r.ty.rep ∧ S.representation r.ty.rep = true ∧
      r.amount β vec = q.amount β vec) ∧
    (preG up q = .ok r → r.ty = q.ty ∧
      r.amount β vec = if up then q.amount β vec + q.ty.size β • one q.ty.rep else q.amount β vec - q.ty.size β • one q.ty.rep) ∧
    (postG up q = .ok (r, old) → r.ty = q.ty ∧ old.ty = q.ty ∧ old.amount β vec = q.amount β vec ∧
      r.amount β vec = if up then q.amount β vec + q.ty.size β • one q.ty.rep else q.amount β vec - q.ty.size β • one q.ty.rep) := by
  refine ⟨fun h => ?_, fun h => ?_, fun h => ?_⟩
  · unfold posG at h
    split at h
    · cases h
    rename_i t ht
    split at h
    · rename_i hc
      obtain ⟨z, hz, h⟩ := bind_ok.1 h
      unfold mkG at h
      split at h
      · obtain ⟨y, hy, h⟩ := bind_ok.1 h
        cases h
        refine ⟨rfl, rfl, ht, by simpa using (Bool.and_eq_true _ _ ▸ hc).2, ?_⟩
        have : vec t y = vec q.ty.rep q.num := (L.cast_vec hy).trans (hpos ht hz)
        rw [QtyG.amount, QtyG.amount, this]; rfl
      · cases h
    · cases h
  · unfold preG at h
    split at h
    · obtain ⟨z, hz, h⟩ := bind_ok.1 h
      cases h
      refine ⟨rfl, ?_⟩
      rw [QtyG.amount, QtyG.amount]
      simp only [hstep hz]
      cases up <;> simp [smul_add, smul_sub]
    · cases h
  · unfold postG at h
    split at h
    · obtain ⟨⟨y, z⟩, hz, h⟩ := bind_ok.1 h
      obtain ⟨o, ho, h⟩ := bind_ok.1 h
      simp only [Except.ok.injEq, Prod.mk.injEq] at h
      obtain ⟨rfl, rfl⟩ := h
      obtain ⟨p1, p2⟩ := hpost hz
      unfold mkG at ho
      split at ho
      · obtain ⟨w, hw, ho⟩ := bind_ok.1 ho
        cases ho
        refine ⟨rfl, rfl, ?_, ?_⟩
        · rw [QtyG.amount, QtyG.amount]
          have : vec q.ty.rep w = vec q.ty.rep q.num := (L.cast_vec hw).trans p1
          rw [this]
        · rw [QtyG.amount, QtyG.amount]
          simp only [p2]
          cases up <;> simp [smul_add, smul_sub]
      · cases ho
    · cases h

/-- C77: for the arithmetic types the unary operators are those of C30 and C73. -/
theorem C77_steps_arithmetic (E : Env) (q : Qty) (up : Bool) :
    posG (S := builtinSteps E.fl) (q.gen E.fl) = genC E.fl (posQty E q) ∧
    preG (S := builtinSteps E.fl) up (q.gen E.fl) = genC E.fl (incDec E (if up then .add else .sub) q) ∧
    postG (S := builtinSteps E.fl) up (q.gen E.fl) = (incDecPost E (if up then .add else .sub) q).map fun p => (p.1.gen E.fl, p.2.gen E.fl) := by
  refine ⟨?_, ?_, ?_⟩
  · have h : posG (S := builtinSteps E.fl) (q.gen E.fl) = (do
        let z ← convNum E.fl q.ty.rep q.ty.rep.promote q.num
        mkG (QTy.gen E.fl ⟨q.ty.dim, q.ty.unit, q.ty.rep.promote⟩) (q.ty.rep.promote, z)) := by
      show (if (true && (builtin E.fl).representation q.ty.rep.promote) = true then _ else _) = _
      rw [builtin_representation]
      rfl
    rw [h]
    unfold posQty
    cases convNum E.fl q.ty.rep q.ty.rep.promote q.num with
    | error e => rfl
    | ok z => exact bo_mk _ _ _
  · show (do let z ← compound E.fl (if up then .add else .sub) q.ty.rep (.int .i32) q.num (.i 1); Except.ok _) = _
    unfold incDec
    cases compound E.fl (if up then .add else .sub) q.ty.rep (.int .i32) q.num (.i 1) <;> rfl
  · show (do
      let p ← (do let z ← compound E.fl (if up then .add else .sub) q.ty.rep (.int .i32) q.num (.i 1); Except.ok (q.num, z))
      let r ← mkG (q.ty.gen E.fl) (q.ty.rep, p.1)
      Except.ok ((⟨q.ty.gen E.fl, p.2⟩ : QtyG (builtinOps E.fl)), r)) = _
    unfold incDecPost
    cases compound E.fl (if up then .add else .sub) q.ty.rep (.int .i32) q.num (.i 1) with
    | error e => rfl
    | ok z =>
      show (do let r ← mkG (q.ty.gen E.fl) (q.ty.rep, q.num); Except.ok ((⟨q.ty.gen E.fl, z⟩ : QtyG (builtinOps E.fl)), r)) = _
      rw [bo_mk]
      have : mkQty E q.ty q.ty.rep q.num = .ok q := by
        unfold mkQty
        rw [if_pos (by cases q.ty.rep.floating <;> simp), convNum_self]; rfl
      rw [this]; rfl

/-- C77: what an operator that is accepted asks of the types: a value is never itself a quantity, converts to the representation, and does not bring a fraction to a
representation without one; every result is a representation. -/
theorem C77_needs {S : OpSys} {E : Env} {q r : QtyG S} {t : QTyG S} {v : S.Ty × S.Val} :
    (mkG t v = .ok r → S.quantity v.1 = false ∧ S.quantity t.rep = false ∧ S.convertible v.1 t.rep = true ∧
      (S.treatFloating v.1 = true → S.treatFloating t.rep = true) ∧ r.ty = t) ∧
    (∀ o, scaleG o q v = .ok r → S.quantity v.1 = false ∧ S.representation q.ty.rep = true ∧ S.opTy o q.ty.rep v.1 = some r.ty.rep ∧
      S.representation r.ty.rep = true ∧ S.quantity q.ty.rep = false ∧ S.convertible q.ty.rep r.ty.rep = true ∧
      (S.treatFloating q.ty.rep = true → S.treatFloating r.ty.rep = true)) ∧
    (scaleLeftG v q = .ok r → S.quantity v.1 = false ∧ S.opTy .mul v.1 q.ty.rep = some r.ty.rep ∧ S.representation r.ty.rep = true ∧
      S.quantity q.ty.rep = false ∧ S.convertible q.ty.rep r.ty.rep = true ∧ (S.treatFloating q.ty.rep = true → S.treatFloating r.ty.rep = true)) ∧
    (recipG E v q = .ok r → S.quantity v.1 = false ∧ S.opTy .div v.1 q.ty.rep = some r.ty.rep ∧ S.representation r.ty.rep = true ∧
      S.quantity q.ty.rep = false ∧ S.convertible q.ty.rep r.ty.rep = true ∧ (S.treatFloating q.ty.rep = true → S.treatFloating r.ty.rep = true)) := by
  have hsafe : ∀ {s d : S.Ty}, S.safeConvertible s d = true → S.quantity s = false ∧ S.quantity d = false ∧ S.convertible s d = true ∧
      (S.treatFloating s = true → S.treatFloating d = true) := by
    intro s d h
    simp only [OpSys.safeConvertible, Bool.and_eq_true, Bool.or_eq_true, Bool.not_eq_true'] at h
    obtain ⟨⟨⟨h1, h2⟩, h3⟩, h4⟩ := h
    refine ⟨h1, h2, h3, fun h5 => ?_⟩
    rcases h4 with h4 | h4
    · exact h4
    · rw [h5] at h4; cases h4
  have hres : ∀ {t u w x : S.Ty} {o : BinOp}, S.resultFrom t o u w = some x → S.opTy o u w = some x ∧ S.representation x = true ∧ S.representation t = true ∧
      S.safeConvertible t x = true := by
    intro t u w x o h
    have h' := resultFrom_some h
    refine ⟨h'.1, h'.2, ?_⟩
    unfold OpSys.resultFrom at h
    split at h
    · split at h
      · rename_i hc
        cases h
        simpa using hc
      · cases h
    · cases h
  refine ⟨fun h => ?_, fun o h => ?_, fun h => ?_, fun h => ?_⟩
  · unfold mkG at h
    split at h
    · rename_i hs
      obtain ⟨y, -, h⟩ := bind_ok.1 h
      cases h
      obtain ⟨h1, h2, h3, h4⟩ := hsafe hs
      exact ⟨h1, h2, h3, h4, rfl⟩
    · cases h
  · unfold scaleG at h
    split at h
    · cases h
    rename_i hq
    split at h
    · cases h
    rename_i x hx
    obtain ⟨z, -, h⟩ := bind_ok.1 h
    cases h
    obtain ⟨h1, h2, h3, h4⟩ := hres hx
    obtain ⟨k1, k2, k3, k4⟩ := hsafe h4
    have : S.quantity v.1 = false := by
      cases hv : S.quantity v.1
      · rfl
      · simp [hv] at hq
    exact ⟨this, h3, h1, h2, k1, k3, k4⟩
  · unfold scaleLeftG at h
    split at h
    · cases h
    rename_i hq
    split at h
    · cases h
    rename_i x hx
    obtain ⟨z, -, h⟩ := bind_ok.1 h
    cases h
    obtain ⟨h1, h2, h3, h4⟩ := hres hx
    obtain ⟨k1, k2, k3, k4⟩ := hsafe h4
    exact ⟨by simpa using hq, h1, h2, k1, k3, k4⟩
  · unfold recipG at h
    split at h
    · cases h
    rename_i hq
    split at h
    · cases h
    rename_i x hx
    obtain ⟨d, -, h⟩ := bind_ok.1 h
    obtain ⟨i, -, h⟩ := bind_ok.1 h
    obtain ⟨u, -, h⟩ := bind_ok.1 h
    obtain ⟨z, -, h⟩ := bind_ok.1 h
    cases h
    obtain ⟨h1, h2, h3, h4⟩ := hres hx
    obtain ⟨k1, k2, k3, k4⟩ := hsafe h4
    exact ⟨by simpa using hq, h1, h2, k1, k3, k4⟩

/-- The numbers and vectors of `exactOps` with a unary plus, and a step for the numbers. -/
abbrev exactSteps : StepSys where
  toOpSys := exactOps
  posTy t := some t
  pos _ x := .ok x
  commonWith a b := decide (a = b)
  preStep
    | _, .sc _ => true
    | _, .vec _ => false
  step
    | up, .sc _, .sc x => .ok (.sc (if up then x + 1 else x - 1))
    | _, _, _ => .error .rejected
  postStep
    | _, .sc _ => true
    | _, .vec _ => false
  post
    | up, .sc _, .sc x => .ok (.sc x, .sc (if up then x + 1 else x - 1))
    | _, _, _ => .error .rejected

example (β : String → ℝ) (q r old : QtyG exactOps) :
    (posG (S := exactSteps) q = .ok r → r.amount β exactVec = q.amount β exactVec) ∧
    (preG (S := exactSteps) true q = .ok r → r.amount β exactVec = q.amount β exactVec + q.ty.size β • (fun _ => 1)) ∧
    (postG (S := exactSteps) false q = .ok (r, old) → old.amount β exactVec = q.amount β exactVec ∧
      r.amount β exactVec = q.amount β exactVec - q.ty.size β • (fun _ => 1)) := by
  have hs : ∀ up, _ := fun up => C77_steps (S := exactSteps) (num := exactNum) (vec := exactVec) exact_linear (fun _ _ => 1)
    (by rintro t r x z hr hz; cases hr; cases hz; rfl)
    (by
      rintro up (t | t) (x | x) z hz <;> cases hz
      cases up <;> funext i <;> simp [exactVec])
    (by
      rintro up (t | t) (x | x) y z hz <;> cases hz
      cases up <;> refine ⟨rfl, ?_⟩ <;> funext i <;> simp [exactVec]) β q r old up
  exact ⟨fun h => ((hs true).1 h).2.2.2.2, fun h => ((hs true).2.1 h).2, fun h => ((hs false).2.2 h).2.2⟩

example : exNumOf (posG (S := exactSteps) ⟨exKmV, .vec [2, 1 / 2]⟩) = .ok (.vec [2, 1 / 2]) ∧
    exNumOf (preG (S := exactSteps) true ⟨exKmN, .sc (5 / 2)⟩) = .ok (.sc (7 / 2)) ∧
    exNumOf (preG (S := exactSteps) true ⟨exKmV, .vec [2, 1 / 2]⟩) = .error .rejected ∧
    (postG (S := exactSteps) false ⟨exKmN, .sc (5 / 2)⟩).map (fun p => (p.1.num, p.2.num)) = .ok (.sc (3 / 2), .sc (5 / 2)) ∧
    exNumOf (recipG exEnv (.sc (), .sc 3) ⟨exKmN, .sc 2⟩) = .ok (.sc (3 / 2)) ∧
    exNumOf (recipG exEnv (.vec (), .vec [3, 1]) ⟨exKmN, .sc 2⟩) = .error .rejected := by
  decide +kernel

/-- Three divided by two kilometres: the hypotheses of the reciprocal hold. -/
example : (recipG (S := exactOps) exEnv (.sc (), .sc 3) ⟨exKmN, .sc 2⟩).map (fun r => exKmN.dim.unit.ratio.val * r.ty.dim.unit.ratio.val) = .ok 1 ∧
    exactNum exKmN.rep (.sc 2) = some 2 :=
  ⟨by decide +kernel, by simp [exactNum, exKmN]⟩

/-- The meaning of the integers. -/
def intOf : Rep → Num → ℤ
  | _, .i x => x
  | _, .f _ => 0

/-- Minus seven kilometres by three kilometres, and by the number three. -/
example : (modG (S := builtinOps exEnv.fl) ⟨QTy.gen _ (exKms (.int .i64)), .i (-7)⟩ ⟨QTy.gen _ (exKms (.int .i64)), .i 3⟩).map QtyG.num = .ok (.i (-1)) ∧
    (scaleG (S := builtinOps exEnv.fl) .mod ⟨QTy.gen _ (exKms (.int .i64)), .i (-7)⟩ (.int .i64, .i 3)).map QtyG.num = .ok (.i (-1)) := by
  decide +kernel

/-- The operator of 64 bit integers means the remainder. -/
example (fl : Rounding) (x y : ℤ) (t : Rep) (z : Num) (hz : (builtinOps fl).mod (.int .i64) (.int .i64) (.i x) (.i y) = .ok z) :
    intOf (.int .i64) (.i y) ≠ 0 ∧ intOf t z = (intOf (.int .i64) (.i x)).tmod (intOf (.int .i64) (.i y)) := by
  have h : (do let w ← intOp .i64 .mod x y; Except.ok (Num.i w)) = Except.ok z := hz
  obtain ⟨w, hw, h⟩ := bind_ok.1 h
  cases h
  simp only [intOp] at hw
  split at hw
  · cases hw
  · rename_i h0
    split at hw
    · cases hw
    · cases hw
      exact ⟨h0, rfl⟩

end Verif
