import Verif.RepOps
import Verif.Props.RepresentationProps
import Verif.Props.ArithProps

/-!
# C77: the operators of `quantity` for representation types supplied by the user
-/

set_option linter.unusedTactic false

namespace Verif

open Ratio

/-! ### What the operators mean -/

/-- A system of types whose operators are those of a real vector space, see `Linear`. -/
structure Means (S : OpSys) {V : Type} [AddCommGroup V] [Module ℝ V] (num : S.Ty → S.Val → Option ℝ) (vec : S.Ty → S.Val → V) : Prop
    extends Linear S.toTypeSys num vec where
  add_vec : ∀ {t u r x y z}, S.addTy t u = some r → S.add t u x y = .ok z → vec r z = vec t x + vec u y
  sub_vec : ∀ {t u r x y z}, S.subTy t u = some r → S.sub t u x y = .ok z → vec r z = vec t x - vec u y
  neg_vec : ∀ {t r x z}, S.negTy t = some r → S.neg t x = .ok z → vec r z = -vec t x
  num_mul_vec : ∀ {t u r x y z p}, S.mulTy t u = some r → S.mul t u x y = .ok z → num t x = some p → vec r z = p • vec u y
  assign_add : ∀ {t u x y z}, S.assign .add t u x y = .ok z → vec t z = vec t x + vec u y
  assign_sub : ∀ {t u x y z}, S.assign .sub t u x y = .ok z → vec t z = vec t x - vec u y
  assign_mul : ∀ {t u x y z q}, S.assign .mul t u x y = .ok z → num u y = some q → vec t z = q • vec t x
  assign_div : ∀ {t u x y z q}, S.assign .div t u x y = .ok z → num u y = some q → q ≠ 0 → vec t z = q⁻¹ • vec t x
  eqv_vec : ∀ {t x y b}, S.eqv t x y = .ok b → (b = true ↔ vec t x = vec t y)

/-- The dimension and the unit of a quantity type, with a representation of no importance. -/
def QTyG.under {S : OpSys} (t : QTyG S) : QTy := ⟨t.dim, t.unit, .int .i64⟩

/-- A quantity type that can be named: see `QTy.Good`. -/
def QTyG.Good {S : OpSys} (E : Env) (t : QTyG S) : Prop := t.under.Good E

/-- The size of the unit of a quantity type. -/
noncomputable def QTyG.size {S : OpSys} (β : String → ℝ) (t : QTyG S) : ℝ := t.under.size β

/-- The amount a quantity denotes, given what the values of the representation mean. -/
noncomputable def QtyG.amount {S : OpSys} {V : Type} [AddCommGroup V] [Module ℝ V] (β : String → ℝ) (vec : S.Ty → S.Val → V) (q : QtyG S) : V :=
  q.ty.size β • vec q.ty.rep q.num

section
variable {S : OpSys} {V : Type} [AddCommGroup V] [Module ℝ V] {num : S.Ty → S.Val → Option ℝ} {vec : S.Ty → S.Val → V}
variable {E : Env} {β : String → ℝ}

theorem valueFor_some {o : BinOp} {t u r : S.Ty} (h : S.valueFor o t u = some r) : S.opTy o t u = some r ∧ S.representation r = true := by
  unfold OpSys.valueFor at h
  split at h
  · rename_i r' h'
    split at h
    · cases h; rename_i h2; exact ⟨h', h2⟩
    · cases h
  · cases h

theorem resultFrom_some {t u v r : S.Ty} {o : BinOp} (h : S.resultFrom t o u v = some r) : S.opTy o u v = some r ∧ S.representation r = true := by
  unfold OpSys.resultFrom at h
  split at h
  · rename_i r' h'
    split at h
    · cases h; exact valueFor_some h'
    · cases h
  · cases h

theorem same_eq {a b : QTyG S} : a.same b = true ↔ a = b := by
  obtain ⟨d, u, r⟩ := a
  obtain ⟨d', u', r'⟩ := b
  simp [QTyG.same, and_assoc]

theorem commonQtyG_eq_ok {t1 t2 t : QTyG S} {r : S.Ty} (h : commonQtyG E t1 t2 r = .ok t) :
    commonQty E t1.under t2.under (.int .i64) = .ok t.under ∧ t.rep = r ∧ S.representation r = true := by
  unfold commonQtyG at h
  obtain ⟨b, hb, h⟩ := bind_ok.1 h
  split at h
  · rename_i hc
    simp only [Bool.and_eq_true] at hc
    obtain ⟨⟨d, u⟩, hu, h⟩ := bind_ok.1 h
    cases h
    refine ⟨?_, rfl, hc.2⟩
    unfold commonQty
    show (dimEquivalent t2.dim t1.dim >>= _) = _
    rw [hb, hc.1]
    show (commonUnit E.est E.units t1.dim t1.unit t2.dim t2.unit >>= _) = _
    rw [hu]; rfl
  · cases h

theorem convertG_eq_ok {t : QTyG S} {q r : QtyG S} (h : convertG E t q = .ok r) :
    (q.ty = t ∧ r = q) ∨ (q.ty ≠ t ∧ dimEquivalent t.dim q.ty.dim = .ok true ∧ r.ty = t ∧
      ∃ c, castRatio E.est q.ty.dim q.ty.unit t.dim t.unit = .ok c ∧ S.castG q.ty.rep t.rep c q.num = .ok r.num) := by
  unfold convertG at h
  split at h
  · rename_i hs
    cases h
    exact Or.inl ⟨same_eq.1 hs, rfl⟩
  · rename_i hs
    obtain ⟨b, hb, h⟩ := bind_ok.1 h
    split at h
    · unfold quantityCastG at h
      obtain ⟨e, he, h⟩ := bind_ok.1 h
      split at h
      · rename_i hee
        obtain ⟨c, hc, h⟩ := bind_ok.1 h
        obtain ⟨x, hx, h⟩ := bind_ok.1 h
        cases h
        rw [hee] at he
        exact Or.inr ⟨fun h => hs (same_eq.2 h), he, rfl, c, hc, hx⟩
      · cases h
    · cases h

theorem convertG_amount (L : Linear S.toTypeSys num vec) (hβ : Sizes β) {t : QTyG S} {q r : QtyG S} (g1 : q.ty.Good E) (g2 : t.Good E)
    (hco : Coherent β q.ty.dim t.dim) (h : convertG E t q = .ok r) : r.ty = t ∧ r.amount β vec = q.amount β vec := by
  rcases convertG_eq_ok h with ⟨rfl, rfl⟩ | ⟨-, he, rfl, c, hc, hx⟩
  · exact ⟨rfl, rfl⟩
  · exact ⟨rfl, C76_amount hβ g1.dim g2.dim g1.rooted g2.rooted g1.unit g2.unit g1.unitOf g2.unitOf (C17_symmetric _ _ he) hco hc L hx⟩

theorem value_ok {o : BinOp} {x y z : S.Ty × S.Val} (h : S.value o x y = .ok z) : S.opTy o x.1 y.1 = some z.1 ∧ S.op o x.1 y.1 x.2 y.2 = .ok z.2 := by
  unfold OpSys.value at h
  split at h
  · cases h
  · rename_i t ht
    obtain ⟨w, hw, h⟩ := bind_ok.1 h
    cases h
    exact ⟨ht, hw⟩

theorem mkG_amount (L : Linear S.toTypeSys num vec) {t : QTyG S} {x : S.Ty × S.Val} {r : QtyG S} (h : mkG t x = .ok r) :
    r.ty = t ∧ r.amount β vec = t.size β • vec x.1 x.2 := by
  unfold mkG at h
  split at h
  · obtain ⟨y, hy, h⟩ := bind_ok.1 h
    cases h
    exact ⟨rfl, by unfold QtyG.amount; rw [L.cast_vec hy]⟩
  · cases h

theorem addSubG_amount (M : Means S num vec) (hE : E.OK) (hβ : Sizes β) {o : BinOp} {a b r : QtyG S} (ga : a.ty.Good E) (gb : b.ty.Good E)
    (hr : Related β a.ty.under b.ty.under) (h : addSubG E o a b = .ok r) :
    r.ty.Good E ∧ IsCommonSize (a.ty.size β) (b.ty.size β) (r.ty.size β) ∧ S.valueFor o a.ty.rep b.ty.rep = some r.ty.rep ∧
    ∃ x y : V, r.ty.size β • x = a.amount β vec ∧ r.ty.size β • y = b.amount β vec ∧
      ((o = .add → r.amount β vec = r.ty.size β • (x + y)) ∧ (o = .sub → r.amount β vec = r.ty.size β • (x - y))) := by
  unfold addSubG at h
  split at h
  · cases h
  rename_i rt hrt
  obtain ⟨t, ht, h1⟩ := bind_ok.1 h
  obtain ⟨x, hx, h2⟩ := bind_ok.1 h1
  obtain ⟨y, hy, h3⟩ := bind_ok.1 h2
  obtain ⟨z, hz, h4⟩ := bind_ok.1 h3
  obtain ⟨ht1, rfl, -⟩ := commonQtyG_eq_ok ht
  obtain ⟨gt, -, -, hcs, c1, c2⟩ := commonQty_sound hE hβ ga gb hr ht1
  obtain ⟨hx1, hx2⟩ := convertG_amount M.toLinear hβ ga gt c1 hx
  obtain ⟨hy1, hy2⟩ := convertG_amount M.toLinear hβ gb gt c2 hy
  obtain ⟨hz1, hz2⟩ := value_ok hz
  obtain ⟨rfl, hm⟩ := mkG_amount (β := β) M.toLinear h4
  refine ⟨gt, hcs, hrt, vec r.ty.rep x.num, vec r.ty.rep y.num, ?_, ?_, ?_, ?_⟩
  · rw [← hx2, QtyG.amount, hx1]
  · rw [← hy2, QtyG.amount, hy1]
  · rintro rfl
    rw [hm, M.add_vec hz1 hz2]
  · rintro rfl
    rw [hm, M.sub_vec hz1 hz2]

end

/-- C77: for any representation with the operators of a vector space, a sum means the sum of the amounts, in the largest common unit. -/
theorem C77_sum_partial {S : OpSys} {V : Type} [AddCommGroup V] [Module ℝ V] {num : S.Ty → S.Val → Option ℝ} {vec : S.Ty → S.Val → V}
    (M : Means S num vec) {E : Env} (hE : E.OK) {β : String → ℝ} (hβ : Sizes β) {a b r : QtyG S} (ga : a.ty.Good E) (gb : b.ty.Good E)
    (hr : Related β a.ty.under b.ty.under) (h : addSubG E .add a b = .ok r) :
    r.amount β vec = a.amount β vec + b.amount β vec ∧ r.ty.Good E ∧ IsCommonSize (a.ty.size β) (b.ty.size β) (r.ty.size β) ∧
      S.addTy a.ty.rep b.ty.rep = some r.ty.rep ∧ S.representation r.ty.rep = true := by
  obtain ⟨g, c, hv, x, y, hx, hy, hs, -⟩ := addSubG_amount M hE hβ ga gb hr h
  exact ⟨by rw [hs rfl, smul_add, hx, hy], g, c, valueFor_some hv⟩

/-- C77: likewise for a difference. -/
theorem C77_difference_partial {S : OpSys} {V : Type} [AddCommGroup V] [Module ℝ V] {num : S.Ty → S.Val → Option ℝ} {vec : S.Ty → S.Val → V}
    (M : Means S num vec) {E : Env} (hE : E.OK) {β : String → ℝ} (hβ : Sizes β) {a b r : QtyG S} (ga : a.ty.Good E) (gb : b.ty.Good E)
    (hr : Related β a.ty.under b.ty.under) (h : addSubG E .sub a b = .ok r) :
    r.amount β vec = a.amount β vec - b.amount β vec ∧ r.ty.Good E ∧ IsCommonSize (a.ty.size β) (b.ty.size β) (r.ty.size β) ∧
      S.subTy a.ty.rep b.ty.rep = some r.ty.rep ∧ S.representation r.ty.rep = true := by
  obtain ⟨g, c, hv, x, y, hx, hy, -, hs⟩ := addSubG_amount M hE hβ ga gb hr h
  exact ⟨by rw [hs rfl, smul_sub, hx, hy], g, c, valueFor_some hv⟩

/-- C77: equality of quantities is equality of the amounts. -/
theorem C77_equality_partial {S : OpSys} {V : Type} [AddCommGroup V] [Module ℝ V] {num : S.Ty → S.Val → Option ℝ} {vec : S.Ty → S.Val → V}
    (M : Means S num vec) {E : Env} (hE : E.OK) {β : String → ℝ} (hβ : Sizes β) {a b : QtyG S} {e : Bool} (ga : a.ty.Good E) (gb : b.ty.Good E)
    (hr : Related β a.ty.under b.ty.under) (h : eqG E a b = .ok e) : e = true ↔ a.amount β vec = b.amount β vec := by
  unfold eqG at h
  split at h
  · rename_i hs
    have hs := same_eq.1 hs
    have hp := (show 0 < a.ty.size β from ga.size_pos hβ).ne'
    rw [M.eqv_vec h, QtyG.amount, QtyG.amount, ← hs, smul_right_inj hp]
  · split at h
    · split at h
      · cases h
      · obtain ⟨t, ht, h1⟩ := bind_ok.1 h
        obtain ⟨x, hx, h2⟩ := bind_ok.1 h1
        obtain ⟨y, hy, h3⟩ := bind_ok.1 h2
        obtain ⟨ht1, rfl, -⟩ := commonQtyG_eq_ok ht
        obtain ⟨gt, -, -, -, c1, c2⟩ := commonQty_sound hE hβ ga gb hr ht1
        obtain ⟨hx1, hx2⟩ := convertG_amount M.toLinear hβ ga gt c1 hx
        obtain ⟨hy1, hy2⟩ := convertG_amount M.toLinear hβ gb gt c2 hy
        have hp := (show 0 < t.size β from gt.size_pos hβ).ne'
        rw [M.eqv_vec h3, ← hx2, ← hy2, QtyG.amount, QtyG.amount, hx1, hy1, smul_right_inj hp]
    · cases h

/-- C77: whatever `<=>` of the representation means, it means of the amounts, if it does not depend on the unit. -/
theorem C77_order_partial {S : OpSys} {V : Type} [AddCommGroup V] [Module ℝ V] {num : S.Ty → S.Val → Option ℝ} {vec : S.Ty → S.Val → V}
    (L : Linear S.toTypeSys num vec) (R : Option Ordering → V → V → Prop) (hR : ∀ {o x y} {k : ℝ}, 0 < k → R o x y → R o (k • x) (k • y))
    (hcmp : ∀ {t x y o}, S.cmp t x y = .ok o → R o (vec t x) (vec t y))
    {E : Env} (hE : E.OK) {β : String → ℝ} (hβ : Sizes β) {a b : QtyG S} {o : Option Ordering} (ga : a.ty.Good E) (gb : b.ty.Good E)
    (hr : Related β a.ty.under b.ty.under) (h : compareG E a b = .ok o) : R o (a.amount β vec) (b.amount β vec) := by
  unfold compareG at h
  split at h
  swap
  · cases h
  split at h
  · rename_i hs
    have hs := same_eq.1 hs
    have hp : 0 < a.ty.size β := ga.size_pos hβ
    rw [QtyG.amount, QtyG.amount, ← hs]
    exact hR hp (hcmp h)
  · split at h
    · cases h
    · obtain ⟨t, ht, h1⟩ := bind_ok.1 h
      obtain ⟨x, hx, h2⟩ := bind_ok.1 h1
      obtain ⟨y, hy, h3⟩ := bind_ok.1 h2
      obtain ⟨ht1, rfl, -⟩ := commonQtyG_eq_ok ht
      obtain ⟨gt, -, -, -, c1, c2⟩ := commonQty_sound hE hβ ga gb hr ht1
      obtain ⟨hx1, hx2⟩ := convertG_amount L hβ ga gt c1 hx
      obtain ⟨hy1, hy2⟩ := convertG_amount L hβ gb gt c2 hy
      have hp : 0 < t.size β := gt.size_pos hβ
      rw [← hx2, ← hy2, QtyG.amount, QtyG.amount, hx1, hy1]
      exact hR hp (hcmp h3)

/-- C77: if the product of the values means a bilinear product, the product of the quantities means the product of the amounts. -/
theorem C77_product {S : OpSys} {V₁ V₂ V₃ : Type} [AddCommGroup V₁] [Module ℝ V₁] [AddCommGroup V₂] [Module ℝ V₂] [AddCommGroup V₃] [Module ℝ V₃]
    {m₁ : S.Ty → S.Val → V₁} {m₂ : S.Ty → S.Val → V₂} {m₃ : S.Ty → S.Val → V₃} (B : V₁ →ₗ[ℝ] V₂ →ₗ[ℝ] V₃)
    {E : Env} (hE : E.OK) {β : String → ℝ} (hβ : Sizes β) {a b r : QtyG S} (ga : a.ty.Good E) (gb : b.ty.Good E) (gr : r.ty.dim.Good)
    (hB : ∀ {t z}, S.mulTy a.ty.rep b.ty.rep = some t → S.mul a.ty.rep b.ty.rep a.num b.num = .ok z →
      m₃ t z = B (m₁ a.ty.rep a.num) (m₂ b.ty.rep b.num))
    (h : mulG E a b = .ok r) :
    r.amount β m₃ = B (a.amount β m₁) (b.amount β m₂) ∧ S.mulTy a.ty.rep b.ty.rep = some r.ty.rep ∧ S.representation r.ty.rep = true := by
  unfold mulG at h
  split at h
  · cases h
  rename_i t ht
  obtain ⟨⟨d, u⟩, hd, h⟩ := bind_ok.1 h
  obtain ⟨z, hz, h⟩ := bind_ok.1 h
  cases h
  obtain ⟨h1, h2⟩ := valueFor_some ht
  obtain ⟨-, -, k⟩ := refMultiply_sound hE hβ ga.dim gb.dim gr ga.unit gb.unit hd
  refine ⟨?_, h1, h2⟩
  have hk : (⟨d, u, t⟩ : QTyG S).size β = a.ty.size β * b.ty.size β := k
  rw [QtyG.amount, QtyG.amount, QtyG.amount, hB h1 hz, hk]
  simp only [map_smul, LinearMap.smul_apply, smul_smul]
  congr 1; ring

/-- C77: a quantity divided by a quantity whose representation is a number. -/
theorem C77_quotient {S : OpSys} {V : Type} [AddCommGroup V] [Module ℝ V] {num : S.Ty → S.Val → Option ℝ} {vec : S.Ty → S.Val → V}
    (L : Linear S.toTypeSys num vec) {E : Env} (hE : E.OK) {β : String → ℝ} (hβ : Sizes β) {a b r : QtyG S} (ga : a.ty.Good E)
    (gb : b.ty.Good E) (gr : r.ty.dim.Good) {q : ℝ} (hq : num b.ty.rep b.num = some q) (h0 : q ≠ 0) (h : divG E a b = .ok r) :
    r.amount β vec = (b.ty.size β * q)⁻¹ • a.amount β vec ∧ S.divTy a.ty.rep b.ty.rep = some r.ty.rep ∧ S.representation r.ty.rep = true := by
  unfold divG at h
  split at h
  · cases h
  rename_i t ht
  obtain ⟨⟨d, u⟩, hd, h⟩ := bind_ok.1 h
  obtain ⟨z, hz, h⟩ := bind_ok.1 h
  cases h
  obtain ⟨h1, h2⟩ := valueFor_some ht
  obtain ⟨-, -, k⟩ := refDivide_sound hE hβ ga.dim gb.dim gr ga.unit gb.unit hd
  refine ⟨?_, h1, h2⟩
  have hk : (⟨d, u, t⟩ : QTyG S).size β = a.ty.size β / b.ty.size β := k
  rw [QtyG.amount, QtyG.amount, L.div_vec h1 hz hq h0, hk, smul_smul, smul_smul]
  congr 1
  rw [mul_inv, div_eq_mul_inv]; ring

/-- C77: a number times a quantity, a quantity times or divided by a number, and the negative. -/
theorem C77_scale {S : OpSys} {V : Type} [AddCommGroup V] [Module ℝ V] {num : S.Ty → S.Val → Option ℝ} {vec : S.Ty → S.Val → V}
    (M : Means S num vec) (β : String → ℝ) {q : QtyG S} {v : S.Ty × S.Val} {p : ℝ} (hv : num v.1 v.2 = some p) (r : QtyG S) :
    (scaleG .mul q v = .ok r → r.amount β vec = p • q.amount β vec ∧ r.ty.dim = q.ty.dim ∧ r.ty.unit = q.ty.unit) ∧
    (scaleLeftG v q = .ok r → r.amount β vec = p • q.amount β vec ∧ r.ty.dim = q.ty.dim ∧ r.ty.unit = q.ty.unit) ∧
    (p ≠ 0 → scaleG .div q v = .ok r → r.amount β vec = p⁻¹ • q.amount β vec ∧ r.ty.dim = q.ty.dim ∧ r.ty.unit = q.ty.unit) ∧
    (negG q = .ok r → r.amount β vec = -q.amount β vec ∧ r.ty.dim = q.ty.dim ∧ r.ty.unit = q.ty.unit) := by
  refine ⟨fun h => ?_, fun h => ?_, fun h0 h => ?_, fun h => ?_⟩
  · unfold scaleG at h
    split at h
    · cases h
    split at h
    · cases h
    rename_i t ht
    obtain ⟨z, hz, h⟩ := bind_ok.1 h
    cases h
    refine ⟨?_, rfl, rfl⟩
    rw [QtyG.amount, QtyG.amount, M.mul_vec (resultFrom_some ht).1 hz hv, smul_comm]; rfl
  · unfold scaleLeftG at h
    split at h
    · cases h
    split at h
    · cases h
    rename_i t ht
    obtain ⟨z, hz, h⟩ := bind_ok.1 h
    cases h
    refine ⟨?_, rfl, rfl⟩
    rw [QtyG.amount, QtyG.amount, M.num_mul_vec (resultFrom_some ht).1 hz hv, smul_comm]; rfl
  · unfold scaleG at h
    split at h
    · cases h
    split at h
    · cases h
    rename_i t ht
    obtain ⟨z, hz, h⟩ := bind_ok.1 h
    cases h
    refine ⟨?_, rfl, rfl⟩
    rw [QtyG.amount, QtyG.amount, M.div_vec (resultFrom_some ht).1 hz hv h0, smul_comm]; rfl
  · unfold negG at h
    split at h
    · cases h
    rename_i t ht
    split at h
    · obtain ⟨z, hz, h⟩ := bind_ok.1 h
      cases h
      refine ⟨?_, rfl, rfl⟩
      rw [QtyG.amount, QtyG.amount, M.neg_vec ht hz, smul_neg]; rfl
    · cases h

/-- C77: the compound assignments change the amount accordingly and keep the unit and the type. -/
theorem C77_assign_partial {S : OpSys} {V : Type} [AddCommGroup V] [Module ℝ V] {num : S.Ty → S.Val → Option ℝ} {vec : S.Ty → S.Val → V}
    (M : Means S num vec) {E : Env} {β : String → ℝ} (hβ : Sizes β) {a b r : QtyG S} {v : S.Ty × S.Val} (ga : a.ty.Good E)
    (gb : b.ty.Good E) (hco : Coherent β b.ty.dim a.ty.dim) :
    (assignG E .add a b = .ok r → r.ty = a.ty ∧ r.amount β vec = a.amount β vec + b.amount β vec) ∧
    (assignG E .sub a b = .ok r → r.ty = a.ty ∧ r.amount β vec = a.amount β vec - b.amount β vec) ∧
    (∀ p, num v.1 v.2 = some p → assignNumG .mul a v = .ok r → r.ty = a.ty ∧ r.amount β vec = p • a.amount β vec) ∧
    (∀ p, num v.1 v.2 = some p → p ≠ 0 → assignNumG .div a v = .ok r → r.ty = a.ty ∧ r.amount β vec = p⁻¹ • a.amount β vec) := by
  refine ⟨fun h => ?_, fun h => ?_, fun p hp h => ?_, fun p hp h0 h => ?_⟩
  · obtain ⟨b', hb, h⟩ := bind_ok.1 h
    obtain ⟨h1, h2⟩ := convertG_amount M.toLinear hβ gb ga hco hb
    split at h
    · cases h
    obtain ⟨z, hz, h⟩ := bind_ok.1 h
    cases h
    refine ⟨rfl, ?_⟩
    rw [← h2, QtyG.amount, QtyG.amount, QtyG.amount, h1, M.assign_add hz, smul_add]
  · obtain ⟨b', hb, h⟩ := bind_ok.1 h
    obtain ⟨h1, h2⟩ := convertG_amount M.toLinear hβ gb ga hco hb
    split at h
    · cases h
    obtain ⟨z, hz, h⟩ := bind_ok.1 h
    cases h
    refine ⟨rfl, ?_⟩
    rw [← h2, QtyG.amount, QtyG.amount, QtyG.amount, h1, M.assign_sub hz, smul_sub]
  · unfold assignNumG at h
    split at h
    · cases h
    obtain ⟨z, hz, h⟩ := bind_ok.1 h
    cases h
    refine ⟨rfl, ?_⟩
    rw [QtyG.amount, QtyG.amount, M.assign_mul hz hp, smul_comm]
  · unfold assignNumG at h
    split at h
    · cases h
    obtain ⟨z, hz, h⟩ := bind_ok.1 h
    cases h
    refine ⟨rfl, ?_⟩
    rw [QtyG.amount, QtyG.amount, M.assign_div hz hp h0, smul_comm]


/-! ### The arithmetic types -/

/-- A type of quantities over the arithmetic types. -/
def QTy.gen (fl : Rounding) (t : QTy) : QTyG (builtinOps fl) := ⟨t.dim, t.unit, t.rep⟩

/-- A quantity over the arithmetic types. -/
def Qty.gen (fl : Rounding) (q : Qty) : QtyG (builtinOps fl) := ⟨q.ty.gen fl, q.num⟩

/-- An outcome with a quantity over the arithmetic types. -/
def genC (fl : Rounding) (x : C Qty) : C (QtyG (builtinOps fl)) := x.map (Qty.gen fl)

section
variable {E : Env}

theorem mul_wf {l r x : Ratio} (h : Ratio.mul l r = .ok x) : x.WF := by
  unfold Ratio.mul at h
  obtain ⟨g1, -, h⟩ := bind_ok.1 h
  obtain ⟨g2, -, h⟩ := bind_ok.1 h
  obtain ⟨a, -, h⟩ := bind_ok.1 h
  obtain ⟨b, -, h⟩ := bind_ok.1 h
  obtain ⟨n, hn, h⟩ := bind_ok.1 h
  obtain ⟨c, -, h⟩ := bind_ok.1 h
  obtain ⟨d, -, h⟩ := bind_ok.1 h
  obtain ⟨m, hm, h⟩ := bind_ok.1 h
  obtain ⟨e, he, h⟩ := bind_ok.1 h
  have key : ∀ {a b n : Int}, safeMultiply a b = .ok n → I64 n := by
    intro a b n hn
    unfold safeMultiply at hn
    obtain ⟨_, -, hn⟩ := bind_ok.1 hn
    obtain ⟨_, -, hn⟩ := bind_ok.1 hn
    obtain ⟨_, -, hn⟩ := bind_ok.1 hn
    obtain ⟨_, -, hn⟩ := bind_ok.1 hn
    obtain ⟨_, -, hn⟩ := bind_ok.1 hn
    obtain ⟨_, -, hn⟩ := bind_ok.1 hn
    obtain ⟨_, -, hn⟩ := bind_ok.1 hn
    obtain ⟨_, -, hn⟩ := bind_ok.1 hn
    obtain ⟨_, -, hn⟩ := bind_ok.1 hn
    obtain ⟨_, -, hn⟩ := bind_ok.1 hn
    obtain ⟨_, -, hn⟩ := bind_ok.1 hn
    obtain ⟨_, -, hn⟩ := bind_ok.1 hn
    obtain ⟨_, -, hn⟩ := bind_ok.1 hn
    obtain ⟨_, -, hn⟩ := bind_ok.1 hn
    obtain ⟨_, -, hn⟩ := bind_ok.1 hn
    obtain ⟨_, -, hn⟩ := bind_ok.1 hn
    obtain ⟨h1, rfl⟩ := mul64_eq_ok.1 hn
    exact h1
  obtain ⟨he1, rfl⟩ := add64_eq_ok.1 he
  exact (make_sound (key hn) (key hm) he1 h).1

theorem castRatio_wf {est : RootEstimate} {d1 d2 : Dim} {u1 u2 : MUnit} {c : Ratio} (h : castRatio est d1 u1 d2 u2 = .ok c) : c.WF := by
  have key : ∀ {a b x : Ratio}, Ratio.div a b = .ok x → x.WF := by
    intro a b x h
    obtain ⟨i, -, h⟩ := bind_ok.1 h
    exact mul_wf h
  unfold castRatio at h
  split at h
  · exact key h
  · obtain ⟨_, -, h⟩ := bind_ok.1 h
    obtain ⟨_, -, h⟩ := bind_ok.1 h
    exact key h

theorem bo_safe (fl : Rounding) (a b : Rep) : (builtinOps fl).safeConvertible a b = (b.floating || !a.floating) := by
  unfold OpSys.safeConvertible
  erw [treat_builtin, treat_builtin]
  rfl

theorem bo_value (fl : Rounding) {o : BinOp} (ho : o ≠ .mod) (a b : Rep) : (builtinOps fl).valueFor o a b = some (a.arith b) := by
  unfold OpSys.valueFor
  have h : (builtinOps fl).opTy o a b = some (a.arith b) := by cases o <;> first | rfl | exact absurd rfl ho
  rw [h]
  exact if_pos (builtin_representation fl _)

theorem bo_value_mod (fl : Rounding) (a b : IntTy) : (builtinOps fl).valueFor .mod (.int a) (.int b) = some ((Rep.int a).arith (.int b)) :=
  if_pos (builtin_representation fl _)

theorem arith_floating (a b : Rep) : (a.arith b).floating = (a.floating || b.floating) := by
  cases a <;> cases b <;> rfl

theorem bo_result (fl : Rounding) {o : BinOp} (ho : o ≠ .mod) {t : Rep} (a b : Rep) (ht : t = a ∨ t = b) :
    (builtinOps fl).resultFrom t o a b = some (a.arith b) := by
  unfold OpSys.resultFrom
  rw [bo_value fl ho]
  refine if_pos ?_
  rw [bo_safe, builtin_representation, arith_floating]
  rcases ht with ht | ht <;> rw [ht] <;> cases a <;> cases b <;> rfl

theorem bo_result_mod (fl : Rounding) (a b : IntTy) :
    (builtinOps fl).resultFrom (.int a) .mod (.int a) (.int b) = some ((Rep.int a).arith (.int b)) := by
  unfold OpSys.resultFrom
  rw [bo_value_mod]
  refine if_pos ?_
  rw [bo_safe, builtin_representation, arith_floating]
  rfl

theorem bo_same (fl : Rounding) (a b : QTy) : (a.gen fl).same (b.gen fl) = decide (a = b) := by
  rw [Bool.eq_iff_iff, same_eq, decide_eq_true_iff]
  obtain ⟨d, u, r⟩ := a
  obtain ⟨d', u', r'⟩ := b
  constructor
  · intro h
    have h1 := congrArg QTyG.dim h
    have h2 := congrArg QTyG.unit h
    have h3 := congrArg QTyG.rep h
    cases h1; cases h2; cases h3; rfl
  · intro h; rw [h]

theorem bo_cast (hfl : KeepsOneTen E.fl) (t : QTy) (q : Qty) (hq : q.num.Typed q.ty.rep) :
    quantityCastG E (t.gen E.fl) (q.gen E.fl) = genC E.fl (quantityCast E t q) := by
  unfold quantityCastG quantityCast
  show (dimEquivalent t.dim q.ty.dim >>= _) = _
  cases he : dimEquivalent t.dim q.ty.dim with
  | error e => rfl
  | ok b =>
    cases b
    · rfl
    · show (castRatio E.est q.ty.dim q.ty.unit t.dim t.unit >>= _) = genC E.fl (castRatio E.est q.ty.dim q.ty.unit t.dim t.unit >>= _)
      cases hc : castRatio E.est q.ty.dim q.ty.unit t.dim t.unit with
      | error e => rfl
      | ok c =>
        have w := castRatio_wf hc
        have hk := (C76_arithmetic E.fl hfl q.ty.rep t.rep c w.num_range.1 ⟨(show intMin ≤ 0 by decide).trans w.den_pos.le, w.den_range⟩ q.num hq).2
        show ((builtin E.fl).castG q.ty.rep t.rep c q.num >>= _) = genC E.fl (castNum E.fl q.ty.rep t.rep c q.num >>= _)
        rw [hk]
        cases castNum E.fl q.ty.rep t.rep c q.num <;> rfl

theorem bo_safeCastable (src dst : QTy) : safeCastableG E (src.gen E.fl) (dst.gen E.fl) = safeCastable E src dst := by
  unfold safeCastableG safeCastable
  show (dimEquivalent dst.dim src.dim >>= _) = (dimEquivalent dst.dim src.dim >>= _)
  cases he : dimEquivalent dst.dim src.dim with
  | error e => rfl
  | ok b =>
    cases b
    · rfl
    · have h1 : (builtin E.fl).scalableWith src.rep dst.rep = true := by
        have := builtin_accepts (fl := E.fl) src.rep dst.rep
        unfold TypeSys.castAccepts at this
        rw [Bool.and_eq_true] at this
        exact this.1
      have h2 := treat_builtin (fl := E.fl) dst.rep
      have h3 := treat_builtin (fl := E.fl) src.rep
      show (if (true && (builtin E.fl).scalableWith src.rep dst.rep) = true then (if (builtin E.fl).treatFloating dst.rep = true then _ else
        if (builtin E.fl).treatFloating src.rep = true then _ else harmonic E src dst) else _) = _
      rw [h1, h2, h3]
      rfl

theorem bo_convert (hfl : KeepsOneTen E.fl) (t : QTy) (q : Qty) (hq : q.num.Typed q.ty.rep) :
    convertG E (t.gen E.fl) (q.gen E.fl) = genC E.fl (convertQty E t q) := by
  unfold convertG convertQty
  show (if (q.ty.gen E.fl).same (t.gen E.fl) = true then _ else (safeCastableG E (q.ty.gen E.fl) (t.gen E.fl) >>= _)) = _
  rw [bo_same, bo_safeCastable]
  by_cases h : q.ty = t
  · rw [if_pos (by simpa using h), if_pos h]; rfl
  · rw [if_neg (by simpa using h), if_neg h]
    cases safeCastable E q.ty t with
    | error e => rfl
    | ok b =>
      cases b
      · rfl
      · exact bo_cast hfl t q hq

theorem bo_common (a b : QTy) (r : Rep) : commonQtyG E (a.gen E.fl) (b.gen E.fl) r = (commonQty E a b r).map (QTy.gen E.fl) := by
  unfold commonQtyG commonQty
  show (dimEquivalent b.dim a.dim >>= _) = _
  cases dimEquivalent b.dim a.dim with
  | error e => rfl
  | ok e =>
    cases e
    · rfl
    · show (if (true && (builtin E.fl).representation r) = true then (commonUnit E.est E.units a.dim a.unit b.dim b.unit >>= _) else _) =
        Except.map _ (commonUnit E.est E.units a.dim a.unit b.dim b.unit >>= _)
      rw [builtin_representation]
      cases commonUnit E.est E.units a.dim a.unit b.dim b.unit <;> rfl

theorem bo_mk (t : QTy) (r : Rep) (v : Num) : mkG (t.gen E.fl) (r, v) = genC E.fl (mkQty E t r v) := by
  unfold mkG mkQty
  rw [show (builtinOps E.fl).safeConvertible r (t.gen E.fl).rep = (t.rep.floating || !r.floating) from bo_safe _ _ _]
  by_cases h : t.rep.floating = true ∨ ¬ r.floating = true
  · rw [if_pos h, if_pos (by simpa using h)]
    show (convNum E.fl r t.rep v >>= _) = genC E.fl (convNum E.fl r t.rep v >>= _)
    cases convNum E.fl r t.rep v <;> rfl
  · rw [if_neg h, if_neg (by simpa using h)]; rfl

theorem commonQty_rep {a b t : QTy} {r : Rep} (h : commonQty E a b r = .ok t) : t.rep = r := by
  unfold commonQty at h
  obtain ⟨e, -, h⟩ := bind_ok.1 h
  split at h
  · obtain ⟨⟨d, u⟩, -, h⟩ := bind_ok.1 h
    cases h; rfl
  · cases h

theorem rep_common_self (r : Rep) : r.common r = r := if_pos rfl

theorem bo_common_self (t : QTy) : commonQty E t t t.rep = .ok t := by
  unfold commonQty
  rw [C17_reflexive]
  show (commonUnit E.est E.units t.dim t.unit t.dim t.unit >>= _) = _
  unfold commonUnit
  rw [if_pos ⟨rfl, rfl⟩]
  rfl

theorem bo_convert_self {t : QTy} {q : Qty} (h : q.ty = t) : convertQty E t q = .ok q := if_pos h

theorem gen_inj {fl : Rounding} {p q : Qty} : Qty.gen fl p = Qty.gen fl q ↔ p = q := by
  constructor
  · intro h
    obtain ⟨⟨d, u, r⟩, n⟩ := p
    obtain ⟨⟨d', u', r'⟩, n'⟩ := q
    have e1 := congrArg (fun q => q.ty.dim) h
    have e2 := congrArg (fun q => q.ty.unit) h
    have e3 := congrArg (fun q => q.ty.rep) h
    have e4 := congrArg QtyG.num h
    cases e1; cases e2; cases e3; cases e4; rfl
  · intro h; rw [h]

theorem genC_ok {fl : Rounding} {x : C Qty} {q : Qty} : genC fl x = .ok (Qty.gen fl q) ↔ x = .ok q := by
  cases x with
  | error e => exact iff_of_false (fun h => by cases h) (fun h => by cases h)
  | ok y =>
    show Except.ok (Qty.gen fl y) = _ ↔ _
    rw [Except.ok.injEq, Except.ok.injEq]
    exact gen_inj

theorem bo_mod (a b q : Qty) : modG (a.gen E.fl) (b.gen E.fl) = .ok (Qty.gen E.fl q) ↔ modQty E a b = .ok q := by
  have h1 := treat_builtin (fl := E.fl) a.ty.rep
  have h2 := treat_builtin (fl := E.fl) b.ty.rep
  have h3 := bo_same E.fl a.ty b.ty
  obtain ⟨⟨d, u, ra⟩, x⟩ := a
  obtain ⟨⟨d', u', rb⟩, y⟩ := b
  by_cases hf : ra.floating = true ∨ rb.floating = true
  · refine iff_of_false (fun h => ?_) (fun h => ?_)
    · have h' : modG (Qty.gen E.fl ⟨⟨d, u, ra⟩, x⟩) (Qty.gen E.fl ⟨⟨d', u', rb⟩, y⟩) = .error .rejected := by
        refine if_pos ?_
        erw [h1, h2]
        simpa using hf
      rw [h'] at h; cases h
    · unfold modQty at h
      obtain ⟨e, -, h⟩ := bind_ok.1 h
      obtain ⟨e', -, h⟩ := bind_ok.1 h
      rw [if_neg (by tauto)] at h
      cases h
  · rw [← genC_ok (fl := E.fl)]
    cases ra with
    | flt f => exact absurd (Or.inl rfl) hf
    | int s =>
      cases rb with
      | flt f => exact absurd (Or.inr rfl) hf
      | int t =>
        suffices H : ∀ p, modG (Qty.gen E.fl ⟨⟨d, u, .int s⟩, x⟩) (Qty.gen E.fl ⟨⟨d', u', .int t⟩, y⟩) = .ok p ↔
            genC E.fl (modQty E ⟨⟨d, u, .int s⟩, x⟩ ⟨⟨d', u', .int t⟩, y⟩) = .ok p from H _
        intro p
        have hv := bo_value_mod E.fl s t
        have hv' := bo_result_mod E.fl s s
        unfold modG
        have k1 : (builtin E.fl).treatFloating (.int s) = false := h1
        have k2 : (builtin E.fl).treatFloating (.int t) = false := h2
        rw [if_neg]
        swap
        · show ¬ ((builtin E.fl).treatFloating (.int s) || (builtin E.fl).treatFloating (.int t)) = true
          rw [k1, k2]; exact Bool.false_ne_true
        rw [show (builtinOps E.fl).resultFrom (Qty.gen E.fl ⟨⟨d, u, .int s⟩, x⟩).ty.rep .mod (Qty.gen E.fl ⟨⟨d, u, .int s⟩, x⟩).ty.rep
          (Qty.gen E.fl ⟨⟨d, u, .int s⟩, x⟩).ty.rep = _ from hv']
        rw [show (builtinOps E.fl).valueFor .mod (Qty.gen E.fl ⟨⟨d, u, .int s⟩, x⟩).ty.rep (Qty.gen E.fl ⟨⟨d', u', .int t⟩, y⟩).ty.rep = _ from hv]
        rw [show (Qty.gen E.fl ⟨⟨d, u, .int s⟩, x⟩).ty.same (Qty.gen E.fl ⟨⟨d', u', .int t⟩, y⟩).ty = _ from h3]
        unfold modQty
        by_cases hs : (⟨d, u, .int s⟩ : QTy) = ⟨d', u', .int t⟩
        · cases hs
          rw [if_pos (by simp)]
          show (numOp E.fl .mod (.int s) (.int s) x y >>= _) = _ ↔ genC E.fl (dimEquivalent d d >>= _) = _
          rw [C17_reflexive]
          show _ ↔ genC E.fl (if true = true ∧ ¬ false = true ∧ ¬ false = true then (numOp E.fl .mod (.int s) (.int s) x y >>= _) else .error .rejected) = _
          rw [if_pos (by simp)]
          cases numOp E.fl .mod (.int s) (.int s) x y <;> exact Iff.rfl
        · rw [if_neg (by simpa using hs)]
          show (dimEquivalent d d' >>= _) = _ ↔ genC E.fl (dimEquivalent d d' >>= _) = _
          cases dimEquivalent d d' with
          | error e => exact Iff.rfl
          | ok e =>
            show ((if e = true then Except.ok true else dimEquivalent d' (.named dimOne)) >>= _) = _ ↔
              genC E.fl ((if e = true then Except.ok true else dimEquivalent d' (.named dimOne)) >>= _) = _
            cases (if e = true then Except.ok true else dimEquivalent d' (.named dimOne)) with
            | error e => exact Iff.rfl
            | ok k =>
              cases k
              · exact Iff.rfl
              · show (numOp E.fl .mod (.int s) (.int t) x y >>= _) = _ ↔
                  genC E.fl (if true = true ∧ ¬ false = true ∧ ¬ false = true then (numOp E.fl .mod (.int s) (.int t) x y >>= _) else .error .rejected) = _
                rw [if_pos (by simp)]
                cases numOp E.fl .mod (.int s) (.int t) x y <;> exact Iff.rfl

theorem numOp_mod_int {fl : Rounding} {ra rb : Rep} {x y z : Num} (h : numOp fl .mod ra rb x y = .ok z) : ra.floating = false ∧ rb.floating = false := by
  unfold numOp at h
  obtain ⟨p, -, h⟩ := bind_ok.1 h
  obtain ⟨q, -, h⟩ := bind_ok.1 h
  have hf := arith_floating ra rb
  cases hr : ra.arith rb with
  | flt f =>
    rw [hr] at h
    cases p <;> cases q <;> cases h
  | int t =>
    rw [hr] at hf
    cases ra <;> cases rb <;> simp_all [Rep.floating]

theorem bo_scale_mod (a : Qty) (r : Rep) (v : Num) (q : Qty) :
    scaleG .mod (a.gen E.fl) (r, v) = .ok (Qty.gen E.fl q) ↔ scaleQty E .mod a r v = .ok q := by
  have h1 := treat_builtin (fl := E.fl) a.ty.rep
  have h2 := treat_builtin (fl := E.fl) r
  obtain ⟨⟨d, u, ra⟩, x⟩ := a
  by_cases hf : ra.floating = true ∨ r.floating = true
  · refine iff_of_false (fun h => ?_) (fun h => ?_)
    · have h' : scaleG .mod (Qty.gen E.fl ⟨⟨d, u, ra⟩, x⟩) (r, v) = .error .rejected := by
        refine if_pos ?_
        erw [h1, h2]
        simpa using hf
      rw [h'] at h; cases h
    · unfold scaleQty at h
      obtain ⟨z, hz, h⟩ := bind_ok.1 h
      have := numOp_mod_int hz
      simp_all
  · rw [← genC_ok (fl := E.fl)]
    cases ra with
    | flt f => exact absurd (Or.inl rfl) hf
    | int s =>
      cases r with
      | flt f => exact absurd (Or.inr rfl) hf
      | int t =>
        have hv := bo_result_mod E.fl s t
        unfold scaleG scaleQty
        have k1 : (builtin E.fl).treatFloating (.int s) = false := h1
        have k2 : (builtin E.fl).treatFloating (.int t) = false := h2
        rw [if_neg]
        swap
        · show ¬ (false || true && ((builtin E.fl).treatFloating (.int s) || (builtin E.fl).treatFloating (.int t))) = true
          rw [k1, k2]; exact Bool.false_ne_true
        rw [show (builtinOps E.fl).resultFrom (Qty.gen E.fl ⟨⟨d, u, .int s⟩, x⟩).ty.rep .mod (Qty.gen E.fl ⟨⟨d, u, .int s⟩, x⟩).ty.rep
          (Rep.int t) = _ from hv]
        show (numOp E.fl .mod (.int s) (.int t) x v >>= _) = _ ↔ genC E.fl (numOp E.fl .mod (.int s) (.int t) x v >>= _) = _
        cases numOp E.fl .mod (.int s) (.int t) x v <;> exact Iff.rfl

end

/-- C77: for the arithmetic types the general operators are those of C25 to C31. -/
theorem C77_arithmetic (E : Env) (hfl : KeepsOneTen E.fl) (a b : Qty) (r : Rep) (v : Num) (ha : a.num.Typed a.ty.rep) (hb : b.num.Typed b.ty.rep) :
    (∀ t, convertG E (t.gen E.fl) (a.gen E.fl) = genC E.fl (convertQty E t a)) ∧
    (∀ o, o = .add ∨ o = .sub → addSubG E o (a.gen E.fl) (b.gen E.fl) = genC E.fl (addSub E o a b)) ∧
    mulG E (a.gen E.fl) (b.gen E.fl) = genC E.fl (mulQty E a b) ∧
    divG E (a.gen E.fl) (b.gen E.fl) = genC E.fl (divQty E a b) ∧
    eqG E (a.gen E.fl) (b.gen E.fl) = eqQty E a b ∧
    compareG E (a.gen E.fl) (b.gen E.fl) = (compareQty E a b).map some ∧
    negG (a.gen E.fl) = genC E.fl (negQty a) ∧
    (∀ o, o = .mul ∨ o = .div → scaleG o (a.gen E.fl) (r, v) = genC E.fl (scaleQty E o a r v)) ∧
    scaleLeftG (r, v) (a.gen E.fl) = genC E.fl (scaleQtyLeft E r v a) ∧
    recipG E (r, v) (a.gen E.fl) = genC E.fl (recipQty E r v a) ∧
    (∀ o, assignG E o (a.gen E.fl) (b.gen E.fl) = genC E.fl (assignQty E o a b)) ∧
    (∀ o, assignNumG o (a.gen E.fl) (r, v) = genC E.fl (assignNum E o a r v)) ∧
    (∀ q, modG (a.gen E.fl) (b.gen E.fl) = .ok (Qty.gen E.fl q) ↔ modQty E a b = .ok q) ∧
    (∀ q, scaleG .mod (a.gen E.fl) (r, v) = .ok (Qty.gen E.fl q) ↔ scaleQty E .mod a r v = .ok q) := by
  refine ⟨fun t => bo_convert hfl t a ha, fun o ho => ?_, ?_, ?_, ?_, ?_, ?_, fun o ho => ?_, ?_, ?_, fun o => ?_, fun o => ?_, fun q => ?_, fun q => ?_⟩
  · have hm : o ≠ .mod := by rintro rfl; rcases ho with h | h <;> cases h
    unfold addSubG addSub
    rw [show (builtinOps E.fl).valueFor o (a.gen E.fl).ty.rep (b.gen E.fl).ty.rep = some (a.ty.rep.arith b.ty.rep) from bo_value _ hm _ _]
    show (commonQtyG E (a.ty.gen E.fl) (b.ty.gen E.fl) (a.ty.rep.arith b.ty.rep) >>= _) =
      genC E.fl (commonQty E a.ty b.ty (a.ty.rep.arith b.ty.rep) >>= _)
    rw [bo_common]
    cases ht : commonQty E a.ty b.ty (a.ty.rep.arith b.ty.rep) with
    | error e => rfl
    | ok t =>
      show (convertG E (t.gen E.fl) (a.gen E.fl) >>= _) = genC E.fl (convertQty E t a >>= _)
      rw [bo_convert hfl t a ha]
      cases convertQty E t a with
      | error e => rfl
      | ok x =>
        show (convertG E (t.gen E.fl) (b.gen E.fl) >>= _) = genC E.fl (convertQty E t b >>= _)
        rw [bo_convert hfl t b hb]
        cases convertQty E t b with
        | error e => rfl
        | ok y =>
          have hr := commonQty_rep ht
          have hv : (builtinOps E.fl).value o (t.rep, x.num) (t.rep, y.num) =
              (do let z ← numOp E.fl o t.rep t.rep x.num y.num; Except.ok (t.rep.arith t.rep, z)) := by
            rcases ho with rfl | rfl <;> rfl
          show ((builtinOps E.fl).value o (t.rep, x.num) (t.rep, y.num) >>= fun z => mkG (t.gen E.fl) z) =
            genC E.fl (numOp E.fl o (a.ty.rep.arith b.ty.rep) (a.ty.rep.arith b.ty.rep) x.num y.num >>= _)
          rw [hv, ← hr]
          cases numOp E.fl o t.rep t.rep x.num y.num with
          | error e => rfl
          | ok z => exact bo_mk t _ z
  · unfold mulG mulQty
    rw [show (builtinOps E.fl).valueFor .mul (a.gen E.fl).ty.rep (b.gen E.fl).ty.rep = some (a.ty.rep.arith b.ty.rep) from bo_value _ (by decide) _ _]
    show (refMultiply E a.ty.dim a.ty.unit b.ty.dim b.ty.unit >>= _) = genC E.fl (refMultiply E a.ty.dim a.ty.unit b.ty.dim b.ty.unit >>= _)
    cases refMultiply E a.ty.dim a.ty.unit b.ty.dim b.ty.unit with
    | error e => rfl
    | ok du =>
      show (numOp E.fl .mul a.ty.rep b.ty.rep a.num b.num >>= _) = genC E.fl (numOp E.fl .mul a.ty.rep b.ty.rep a.num b.num >>= _)
      cases numOp E.fl .mul a.ty.rep b.ty.rep a.num b.num <;> rfl
  · unfold divG divQty
    rw [show (builtinOps E.fl).valueFor .div (a.gen E.fl).ty.rep (b.gen E.fl).ty.rep = some (a.ty.rep.arith b.ty.rep) from bo_value _ (by decide) _ _]
    show (refDivide E a.ty.dim a.ty.unit b.ty.dim b.ty.unit >>= _) = genC E.fl (refDivide E a.ty.dim a.ty.unit b.ty.dim b.ty.unit >>= _)
    cases refDivide E a.ty.dim a.ty.unit b.ty.dim b.ty.unit with
    | error e => rfl
    | ok du =>
      show (numOp E.fl .div a.ty.rep b.ty.rep a.num b.num >>= _) = genC E.fl (numOp E.fl .div a.ty.rep b.ty.rep a.num b.num >>= _)
      cases numOp E.fl .div a.ty.rep b.ty.rep a.num b.num <;> rfl
  · unfold eqG eqQty
    show (if (a.ty.gen E.fl).same (b.ty.gen E.fl) = true then _ else _) = _
    rw [bo_same]
    by_cases h : a.ty = b.ty
    · rw [if_pos (by simpa using h), ← h, rep_common_self, bo_common_self]
      show _ = (convertQty E a.ty a >>= _)
      rw [bo_convert_self rfl]
      show _ = (convertQty E a.ty b >>= _)
      rw [bo_convert_self h.symm]
      rfl
    · rw [if_neg (by simpa using h)]
      show (commonQtyG E (a.ty.gen E.fl) (b.ty.gen E.fl) (a.ty.rep.common b.ty.rep) >>= _) = _
      rw [bo_common]
      cases ht : commonQty E a.ty b.ty (a.ty.rep.common b.ty.rep) with
      | error e => rfl
      | ok t =>
        show (convertG E (t.gen E.fl) (a.gen E.fl) >>= _) = (convertQty E t a >>= _)
        rw [bo_convert hfl t a ha]
        cases convertQty E t a with
        | error e => rfl
        | ok x =>
          show (convertG E (t.gen E.fl) (b.gen E.fl) >>= _) = (convertQty E t b >>= _)
          rw [bo_convert hfl t b hb]
          cases convertQty E t b <;> rfl
  · unfold compareG compareQty
    show (if a.ty.rep.threeWay b.ty.rep = true then (if (a.ty.gen E.fl).same (b.ty.gen E.fl) = true then _ else _) else _) = _
    rw [bo_same]
    by_cases hw : a.ty.rep.threeWay b.ty.rep = true
    swap
    · rw [if_neg hw, if_neg hw]; rfl
    rw [if_pos hw, if_pos hw]
    by_cases h : a.ty = b.ty
    · rw [if_pos (by simpa using h), ← h, rep_common_self, bo_common_self]
      show _ = Except.map some (convertQty E a.ty a >>= _)
      rw [bo_convert_self rfl]
      show _ = Except.map some (convertQty E a.ty b >>= _)
      rw [bo_convert_self h.symm]
      rfl
    · rw [if_neg (by simpa using h)]
      show (commonQtyG E (a.ty.gen E.fl) (b.ty.gen E.fl) (a.ty.rep.common b.ty.rep) >>= _) = _
      rw [bo_common]
      cases ht : commonQty E a.ty b.ty (a.ty.rep.common b.ty.rep) with
      | error e => rfl
      | ok t =>
        show (convertG E (t.gen E.fl) (a.gen E.fl) >>= _) = Except.map some (convertQty E t a >>= _)
        rw [bo_convert hfl t a ha]
        cases convertQty E t a with
        | error e => rfl
        | ok x =>
          show (convertG E (t.gen E.fl) (b.gen E.fl) >>= _) = Except.map some (convertQty E t b >>= _)
          rw [bo_convert hfl t b hb]
          cases convertQty E t b <;> rfl
  · unfold negG negQty
    show (if (builtin E.fl).representation a.ty.rep.promote = true then (numNeg a.ty.rep a.num >>= _) else _) = genC E.fl (numNeg a.ty.rep a.num >>= _)
    rw [builtin_representation]
    cases numNeg a.ty.rep a.num <;> rfl
  · have hm : o ≠ .mod := by rintro rfl; rcases ho with h | h <;> cases h
    unfold scaleG scaleQty
    rw [show (builtinOps E.fl).resultFrom (a.gen E.fl).ty.rep o (a.gen E.fl).ty.rep r = some (a.ty.rep.arith r) from
      bo_result _ hm _ _ (Or.inl rfl)]
    rw [if_neg (by rcases ho with rfl | rfl <;> simp)]
    have ho : (builtinOps E.fl).op o (a.gen E.fl).ty.rep r (a.gen E.fl).num v = numOp E.fl o a.ty.rep r a.num v := by
      rcases ho with rfl | rfl <;> rfl
    show ((builtinOps E.fl).op o (a.gen E.fl).ty.rep r (a.gen E.fl).num v >>= _) = genC E.fl (numOp E.fl o a.ty.rep r a.num v >>= _)
    rw [ho]
    cases numOp E.fl o a.ty.rep r a.num v <;> rfl
  · unfold scaleLeftG scaleQtyLeft
    rw [show (builtinOps E.fl).resultFrom (a.gen E.fl).ty.rep .mul r (a.gen E.fl).ty.rep = some (r.arith a.ty.rep) from
      bo_result _ (by decide) _ _ (Or.inr rfl)]
    show (numOp E.fl .mul r a.ty.rep v a.num >>= _) = genC E.fl (numOp E.fl .mul r a.ty.rep v a.num >>= _)
    cases numOp E.fl .mul r a.ty.rep v a.num <;> rfl
  · unfold recipG recipQty
    rw [show (builtinOps E.fl).resultFrom (a.gen E.fl).ty.rep .div r (a.gen E.fl).ty.rep = some (r.arith a.ty.rep) from
      bo_result _ (by decide) _ _ (Or.inr rfl)]
    show (dimInvert E.dims a.ty.dim >>= _) = genC E.fl (dimInvert E.dims a.ty.dim >>= _)
    cases dimInvert E.dims a.ty.dim with
    | error e => rfl
    | ok d =>
      show (Ratio.inverse a.ty.unit.ratio >>= _) = genC E.fl (Ratio.inverse a.ty.unit.ratio >>= _)
      cases Ratio.inverse a.ty.unit.ratio with
      | error e => rfl
      | ok i =>
        show (downcastUnit E.units d i >>= _) = genC E.fl (downcastUnit E.units d i >>= _)
        cases downcastUnit E.units d i with
        | error e => rfl
        | ok u =>
          show (numOp E.fl .div r a.ty.rep v a.num >>= _) = genC E.fl (numOp E.fl .div r a.ty.rep v a.num >>= _)
          cases numOp E.fl .div r a.ty.rep v a.num <;> rfl
  · unfold assignG assignQty
    show (convertG E (a.ty.gen E.fl) (b.gen E.fl) >>= _) = genC E.fl (convertQty E a.ty b >>= _)
    rw [bo_convert hfl _ b hb]
    cases convertQty E a.ty b with
    | error e => rfl
    | ok x =>
      have h1 : ((decide (o = .mod) && (builtin E.fl).treatFloating a.ty.rep) || !(builtinOps E.fl).assignable o a.ty.rep a.ty.rep) =
          decide (o = .mod ∧ a.ty.rep.floating = true) := by
        rw [treat_builtin]
        cases o <;> simp
      show (if ((decide (o = .mod) && (builtin E.fl).treatFloating a.ty.rep) || !(builtinOps E.fl).assignable o a.ty.rep a.ty.rep) = true then _ else
        (compound E.fl o a.ty.rep a.ty.rep a.num x.num >>= _)) = genC E.fl (if o = .mod ∧ a.ty.rep.floating = true then _ else
        (compound E.fl o a.ty.rep a.ty.rep a.num x.num >>= _))
      rw [h1]
      by_cases h : o = .mod ∧ a.ty.rep.floating = true
      · rw [if_pos (by simpa using h), if_pos h]; rfl
      · rw [if_neg (by simpa using h), if_neg h]
        cases compound E.fl o a.ty.rep a.ty.rep a.num x.num <;> rfl
  · unfold assignNumG assignNum
    have h1 : ((decide (o = .mod) && ((builtin E.fl).treatFloating a.ty.rep || (builtin E.fl).treatFloating r)) ||
        !(builtinOps E.fl).assignable o a.ty.rep r) = decide (o = .mod ∧ (a.ty.rep.floating = true ∨ r.floating = true)) := by
      rw [treat_builtin, treat_builtin]
      cases o <;> simp
    show (if ((decide (o = .mod) && ((builtin E.fl).treatFloating a.ty.rep || (builtin E.fl).treatFloating r)) ||
        !(builtinOps E.fl).assignable o a.ty.rep r) = true then _ else (compound E.fl o a.ty.rep r a.num v >>= _)) = _
    rw [h1]
    by_cases h : o = .mod ∧ (a.ty.rep.floating = true ∨ r.floating = true)
    · rw [if_pos (by simpa using h), if_pos h]; rfl
    · rw [if_neg (by simpa using h), if_neg h]
      cases compound E.fl o a.ty.rep r a.num v <;> rfl
  · exact bo_mod a b q
  · exact bo_scale_mod a r v q


/-! ### A class with `*`, `/` and `==` only -/

/-- A quantity with numbers of type `intmax_t` as one with the class around them. -/
def Qty.classed (fl : Rounding) (q : Qty) : QtyG (minExpl fl) := ⟨⟨q.ty.dim, q.ty.unit, none⟩, q.num⟩

theorem mx_rep (fl : Rounding) : (minExpl fl).toTypeSys.representation none = true :=
  (C76_class fl ⟨1, 1, 0⟩ (by decide) (by decide) 0).1

theorem mx_value (fl : Rounding) {o : BinOp} (ho : o = .mul ∨ o = .div) : (minExpl fl).valueFor o none none = some none := by
  unfold OpSys.valueFor
  have h : (minExpl fl).opTy o none none = some none := by rcases ho with rfl | rfl <;> rfl
  rw [h]
  exact if_pos (mx_rep fl)

theorem mx_same (fl : Rounding) {a b : QTy} (ha : a.rep = .int .i64) (hb : b.rep = .int .i64) :
    (⟨a.dim, a.unit, none⟩ : QTyG (minExpl fl)).same ⟨b.dim, b.unit, none⟩ = decide (a = b) := by
  rw [Bool.eq_iff_iff, same_eq, decide_eq_true_iff]
  obtain ⟨d, u, r⟩ := a
  obtain ⟨d', u', r'⟩ := b
  cases ha; cases hb
  constructor
  · intro h
    have h1 := congrArg QTyG.dim h
    have h2 := congrArg QTyG.unit h
    cases h1; cases h2; rfl
  · intro h; cases h; rfl

theorem mx_convert (E : Env) {t : QTy} {q : Qty} (ht : t.rep = .int .i64) (hq : q.ty.rep = .int .i64) {x : Int} (hx : q.num = .i x) :
    convertG E ⟨t.dim, t.unit, none⟩ (q.classed E.fl) = (convertQty E t q).map (Qty.classed E.fl) := by
  have hf : (minExpl E.fl).toTypeSys.treatFloating none = false := TypeSys.treat_none rfl
  unfold convertG convertQty
  rw [show (q.classed E.fl).ty.same ⟨t.dim, t.unit, none⟩ = _ from mx_same E.fl hq ht]
  by_cases h : q.ty = t
  · rw [if_pos (by simpa using h), if_pos h]; rfl
  · rw [if_neg (by simpa using h), if_neg h]
    have h1 : safeCastableG E (q.classed E.fl).ty ⟨t.dim, t.unit, none⟩ = safeCastable E q.ty t := by
      unfold safeCastableG safeCastable
      show (dimEquivalent t.dim q.ty.dim >>= _) = (dimEquivalent t.dim q.ty.dim >>= _)
      cases dimEquivalent t.dim q.ty.dim with
      | error e => rfl
      | ok b =>
        cases b
        · rfl
        · rw [ht, hq]
          show (if (minExpl E.fl).toTypeSys.treatFloating none = true then Except.ok true else
            if (minExpl E.fl).toTypeSys.treatFloating none = true then Except.ok false else _) = _
          rw [hf]; rfl
    rw [h1]
    cases safeCastable E q.ty t with
    | error e => rfl
    | ok b =>
      cases b
      · rfl
      · show quantityCastG E _ _ = Except.map _ (quantityCast E t q)
        unfold quantityCastG quantityCast
        show (dimEquivalent t.dim q.ty.dim >>= _) = Except.map _ (dimEquivalent t.dim q.ty.dim >>= _)
        cases dimEquivalent t.dim q.ty.dim with
        | error e => rfl
        | ok b =>
          cases b
          · rfl
          · show (castRatio E.est q.ty.dim q.ty.unit t.dim t.unit >>= _) = Except.map _ (castRatio E.est q.ty.dim q.ty.unit t.dim t.unit >>= _)
            cases hc : castRatio E.est q.ty.dim q.ty.unit t.dim t.unit with
            | error e => rfl
            | ok c =>
              have w := castRatio_wf hc
              have k := (C76_class E.fl c w.num_range.1 ⟨(show intMin ≤ 0 by decide).trans w.den_pos.le, w.den_range⟩ x).2
              rw [hx, ht, hq]
              show ((myRep E.fl true).castG none none c q.num >>= _) = Except.map _ (castNum E.fl (.int .i64) (.int .i64) c (.i x) >>= _)
              rw [hx, k]
              cases castNum E.fl (.int .i64) (.int .i64) c (.i x) <;> rfl

theorem mx_common (E : Env) (a b : QTy) : commonQtyG E (⟨a.dim, a.unit, none⟩ : QTyG (minExpl E.fl)) ⟨b.dim, b.unit, none⟩ none =
    (commonQty E a b (.int .i64)).map fun t => ⟨t.dim, t.unit, none⟩ := by
  unfold commonQtyG commonQty
  show (dimEquivalent b.dim a.dim >>= _) = _
  cases dimEquivalent b.dim a.dim with
  | error e => rfl
  | ok e =>
    cases e
    · rfl
    · show (if (true && (minExpl E.fl).toTypeSys.representation none) = true then (commonUnit E.est E.units a.dim a.unit b.dim b.unit >>= _) else
        .error .rejected) = Except.map _ (commonUnit E.est E.units a.dim a.unit b.dim b.unit >>= _)
      rw [mx_rep]
      cases commonUnit E.est E.units a.dim a.unit b.dim b.unit <;> rfl

/-- C77: with a class that has only `*`, `/` and `==`, quantities are converted, multiplied, divided and compared for equality as with the number
in it, and every other operator is rejected. -/
theorem C77_class (E : Env) (a b : Qty) (ha : a.ty.rep = .int .i64) (hb : b.ty.rep = .int .i64) {x y : Int} (hx : a.num = .i x) (hy : b.num = .i y) :
    (∀ t : QTy, t.rep = .int .i64 → convertG E ⟨t.dim, t.unit, none⟩ (a.classed E.fl) = (convertQty E t a).map (Qty.classed E.fl)) ∧
    mulG E (a.classed E.fl) (b.classed E.fl) = (mulQty E a b).map (Qty.classed E.fl) ∧
    divG E (a.classed E.fl) (b.classed E.fl) = (divQty E a b).map (Qty.classed E.fl) ∧
    eqG E (a.classed E.fl) (b.classed E.fl) = eqQty E a b ∧
    (∀ r, compareG E (a.classed E.fl) (b.classed E.fl) ≠ .ok r) ∧
    (∀ o r, o = .add ∨ o = .sub → addSubG E o (a.classed E.fl) (b.classed E.fl) ≠ .ok r) ∧
    (∀ r, modG (a.classed E.fl) (b.classed E.fl) ≠ .ok r) ∧
    (∀ r, negG (a.classed E.fl) ≠ .ok r) ∧
    (∀ o r, assignG E o (a.classed E.fl) (b.classed E.fl) ≠ .ok r) ∧
    (∀ o v r, assignNumG o (a.classed E.fl) v ≠ .ok r) ∧
    (∀ o t v r, scaleG o (a.classed E.fl) (some t, v) ≠ .ok r) ∧
    (∀ t v r, scaleLeftG (some t, v) (a.classed E.fl) ≠ .ok r) := by
  refine ⟨fun t ht => mx_convert E ht ha hx, ?_, ?_, ?_, ?_, ?_, ?_, ?_, ?_, ?_, ?_, ?_⟩
  · unfold mulG mulQty
    rw [show (minExpl E.fl).valueFor .mul (a.classed E.fl).ty.rep (b.classed E.fl).ty.rep = some none from mx_value _ (Or.inl rfl), ha, hb]
    show (refMultiply E a.ty.dim a.ty.unit b.ty.dim b.ty.unit >>= _) = Except.map _ (refMultiply E a.ty.dim a.ty.unit b.ty.dim b.ty.unit >>= _)
    cases refMultiply E a.ty.dim a.ty.unit b.ty.dim b.ty.unit with
    | error e => rfl
    | ok du =>
      show (numOp E.fl .mul (.int .i64) (.int .i64) a.num b.num >>= _) = Except.map _ (numOp E.fl .mul (.int .i64) (.int .i64) a.num b.num >>= _)
      cases numOp E.fl .mul (.int .i64) (.int .i64) a.num b.num <;> rfl
  · unfold divG divQty
    rw [show (minExpl E.fl).valueFor .div (a.classed E.fl).ty.rep (b.classed E.fl).ty.rep = some none from mx_value _ (Or.inr rfl), ha, hb]
    show (refDivide E a.ty.dim a.ty.unit b.ty.dim b.ty.unit >>= _) = Except.map _ (refDivide E a.ty.dim a.ty.unit b.ty.dim b.ty.unit >>= _)
    cases refDivide E a.ty.dim a.ty.unit b.ty.dim b.ty.unit with
    | error e => rfl
    | ok du =>
      show (numOp E.fl .div (.int .i64) (.int .i64) a.num b.num >>= _) = Except.map _ (numOp E.fl .div (.int .i64) (.int .i64) a.num b.num >>= _)
      cases numOp E.fl .div (.int .i64) (.int .i64) a.num b.num <;> rfl
  · unfold eqG eqQty
    rw [show (a.classed E.fl).ty.same (b.classed E.fl).ty = _ from mx_same E.fl ha hb]
    by_cases h : a.ty = b.ty
    · rw [if_pos (by simpa using h), ← h, rep_common_self, bo_common_self]
      show _ = (convertQty E a.ty a >>= _)
      rw [bo_convert_self rfl]
      show _ = (convertQty E a.ty b >>= _)
      rw [bo_convert_self h.symm]
      rfl
    · rw [if_neg (by simpa using h), ha, hb, rep_common_self]
      show (commonQtyG E (a.classed E.fl).ty (b.classed E.fl).ty none >>= _) = _
      rw [show commonQtyG E (a.classed E.fl).ty (b.classed E.fl).ty none = _ from mx_common E a.ty b.ty]
      cases ht : commonQty E a.ty b.ty (.int .i64) with
      | error e => rfl
      | ok t =>
        have hr := commonQty_rep ht
        show (convertG E ⟨t.dim, t.unit, none⟩ (a.classed E.fl) >>= _) = (convertQty E t a >>= _)
        rw [mx_convert E hr ha hx]
        cases convertQty E t a with
        | error e => rfl
        | ok x =>
          show (convertG E ⟨t.dim, t.unit, none⟩ (b.classed E.fl) >>= _) = (convertQty E t b >>= _)
          rw [mx_convert E hr hb hy]
          cases convertQty E t b <;> rfl
  · intro r h; cases h
  · rintro o r (rfl | rfl) h <;> cases h
  · intro r h
    have hf : (minExpl E.fl).toTypeSys.treatFloating none = false := TypeSys.treat_none rfl
    unfold modG at h
    split at h
    · cases h
    · split at h <;> cases h
  · intro r h; cases h
  · intro o r h
    obtain ⟨z, -, h⟩ := bind_ok.1 h
    rw [if_pos (by simp [Qty.classed])] at h
    cases h
  · intro o v r h
    unfold assignNumG at h
    rw [if_pos (by simp [Qty.classed])] at h
    cases h
  · intro o t v r h
    unfold scaleG at h
    split at h
    · cases h
    · cases o <;> cases h
  · intro t v r h; cases h


/-! ### Concrete cases -/

/-- Rational numbers and vectors of them with their operators; vectors of different lengths cannot be added. -/
abbrev exactOps : OpSys where
  toTypeSys := exactVecs
  convertible
    | .sc _, .sc _ => true
    | .vec _, .vec _ => true
    | _, _ => false
  addTy
    | .sc _, .sc _ => some (.sc ())
    | .vec _, .vec _ => some (.vec ())
    | _, _ => none
  subTy
    | .sc _, .sc _ => some (.sc ())
    | .vec _, .vec _ => some (.vec ())
    | _, _ => none
  modTy _ _ := none
  negTy t := some t
  assignable
    | .add, a, b => decide (a = b)
    | .sub, a, b => decide (a = b)
    | .mul, _, .sc _ => true
    | .div, _, .sc _ => true
    | _, _, _ => false
  eqWith a b := decide (a = b)
  threeWay
    | .sc _, .sc _ => true
    | _, _ => false
  add
    | .sc _, .sc _, .sc x, .sc y => .ok (.sc (x + y))
    | .vec _, .vec _, .vec xs, .vec ys => if xs.length = ys.length then .ok (.vec (List.zipWith (· + ·) xs ys)) else .error .precondition
    | _, _, _, _ => .error .rejected
  sub
    | .sc _, .sc _, .sc x, .sc y => .ok (.sc (x - y))
    | .vec _, .vec _, .vec xs, .vec ys => if xs.length = ys.length then .ok (.vec (List.zipWith (· - ·) xs ys)) else .error .precondition
    | _, _, _, _ => .error .rejected
  mod _ _ _ _ := .error .rejected
  neg
    | .sc _, .sc x => .ok (.sc (-x))
    | .vec _, .vec xs => .ok (.vec (xs.map (- ·)))
    | _, _ => .error .rejected
  assign
    | .add, .sc _, .sc _, .sc x, .sc y => .ok (.sc (x + y))
    | .add, .vec _, .vec _, .vec xs, .vec ys =>
      if xs.length = ys.length then .ok (.vec (List.zipWith (· + ·) xs ys)) else .error .precondition
    | .sub, .sc _, .sc _, .sc x, .sc y => .ok (.sc (x - y))
    | .sub, .vec _, .vec _, .vec xs, .vec ys =>
      if xs.length = ys.length then .ok (.vec (List.zipWith (· - ·) xs ys)) else .error .precondition
    | .mul, .sc _, .sc _, .sc x, .sc y => .ok (.sc (x * y))
    | .mul, .vec _, .sc _, .vec xs, .sc y => .ok (.vec (xs.map (· * y)))
    | .div, .sc _, .sc _, .sc x, .sc y => if y = 0 then .error .divZero else .ok (.sc (x / y))
    | .div, .vec _, .sc _, .vec xs, .sc y => if y = 0 then .error .divZero else .ok (.vec (xs.map (· / y)))
    | _, _, _, _, _ => .error .rejected
  eqv
    | .sc _, .sc x, .sc y => .ok (decide (x = y))
    | .vec _, .vec xs, .vec ys => if xs.length = ys.length then .ok (decide (xs = ys)) else .error .precondition
    | _, _, _ => .error .rejected
  cmp
    | .sc _, .sc x, .sc y => .ok (some (compare x y))
    | _, _, _ => .error .rejected

theorem getD_zip {f : ℚ → ℚ → ℚ} (h0 : f 0 0 = 0) : ∀ {xs ys : List ℚ}, xs.length = ys.length → ∀ i,
    (List.zipWith f xs ys).getD i 0 = f (xs.getD i 0) (ys.getD i 0)
  | [], [], _, i => by simp [h0]
  | x :: xs, y :: ys, h, 0 => by simp
  | x :: xs, y :: ys, h, i + 1 => by
    simpa using getD_zip h0 (xs := xs) (ys := ys) (by simpa using h) i

theorem exact_means : Means exactOps exactNum exactVec where
  toLinear := exact_linear
  add_vec := by
    rintro (t | t) (u | u) r (x | x) (y | y) z hr h <;> try (cases h; done)
    · cases h; cases hr; funext i; simp [exactVec]
    · simp only at h
      split at h
      · rename_i hl
        cases h; cases hr; funext i
        simp only [exactVec, getD_zip (f := (· + ·)) (by simp) hl, Pi.add_apply]
        push_cast; rfl
      · cases h
  sub_vec := by
    rintro (t | t) (u | u) r (x | x) (y | y) z hr h <;> try (cases h; done)
    · cases h; cases hr; funext i; simp [exactVec]
    · simp only at h
      split at h
      · rename_i hl
        cases h; cases hr; funext i
        simp only [exactVec, getD_zip (f := (· - ·)) (by simp) hl, Pi.sub_apply]
        push_cast; rfl
      · cases h
  neg_vec := by
    rintro (t | t) r (x | x) z hr h <;> try (cases h; done)
    · cases h; cases hr; funext i; simp [exactVec]
    · cases h; cases hr; funext i
      simp only [exactVec, getD_map (fun x => -x) (by simp), Pi.neg_apply]
      push_cast; rfl
  num_mul_vec := by
    rintro (t | t) (u | u) r (x | x) (y | y) z p hr h hp <;> try (cases h; done)
    · obtain ⟨w, hw, h⟩ := bind_ok.1 h
      cases h; cases hr; cases hw; cases hp; funext i; simp [exactVec]
    · cases hp
  assign_add := by
    rintro (t | t) (u | u) (x | x) (y | y) z h <;> try (cases h; done)
    · cases h; funext i; simp [exactVec]
    · simp only at h
      split at h
      · rename_i hl
        cases h; funext i
        simp only [exactVec, getD_zip (f := (· + ·)) (by simp) hl, Pi.add_apply]
        push_cast; rfl
      · cases h
  assign_sub := by
    rintro (t | t) (u | u) (x | x) (y | y) z h <;> try (cases h; done)
    · cases h; funext i; simp [exactVec]
    · simp only at h
      split at h
      · rename_i hl
        cases h; funext i
        simp only [exactVec, getD_zip (f := (· - ·)) (by simp) hl, Pi.sub_apply]
        push_cast; rfl
      · cases h
  assign_mul := by
    rintro (t | t) (u | u) (x | x) (y | y) z q h hq <;> try (cases h; done)
    · cases h; cases hq; funext i; simp [exactVec, mul_comm]
    · cases h; cases hq; funext i
      simp only [exactVec, getD_map (fun x => x * y) (zero_mul y), Pi.smul_apply, smul_eq_mul]
      push_cast; ring
  assign_div := by
    rintro (t | t) (u | u) (x | x) (y | y) z q h hq h0 <;> try (cases h; done)
    · cases hq
      have hy0 : y ≠ 0 := by rintro rfl; exact h0 (by simp)
      simp only [if_neg hy0] at h
      cases h; funext i; simp [exactVec, div_eq_inv_mul]
    · cases hq
      have hy0 : y ≠ 0 := by rintro rfl; exact h0 (by simp)
      simp only [if_neg hy0] at h
      cases h; funext i
      simp only [exactVec, getD_map (fun x => x / y) (zero_div y), Pi.smul_apply, smul_eq_mul]
      push_cast; ring
  eqv_vec := by
    rintro (t | t) (x | x) (y | y) b h <;> try (cases h; done)
    · cases h
      simp only [exactVec, decide_eq_true_iff]
      exact ⟨fun h => by rw [h], fun h => by simpa using congrFun h 0⟩
    · simp only at h
      split at h
      · rename_i hl
        cases h
        simp only [exactVec, decide_eq_true_iff]
        refine ⟨fun h => by rw [h], fun h => List.ext_getElem hl fun i h1 h2 => ?_⟩
        have := congrFun h i
        simpa [List.getD, h1, h2] using this
      · cases h

/-- Kilometres and centimetres with vectors of numbers. -/
def exKmV : QTyG exactOps := ⟨(exKms (.int .i64)).dim, (exKms (.int .i64)).unit, .vec ()⟩
def exCmV : QTyG exactOps := ⟨(exCms (.int .i64)).dim, (exCms (.int .i64)).unit, .vec ()⟩
def exKmN : QTyG exactOps := ⟨(exKms (.int .i64)).dim, (exKms (.int .i64)).unit, .sc ()⟩

/-- The number of the outcome. -/
def exNumOf (x : C (QtyG exactOps)) : Except UB (VVal ℚ) := x.map QtyG.num

example : exNumOf (addSubG exEnv .add ⟨exKmV, .vec [2, 1 / 2]⟩ ⟨exCmV, .vec [5, 7]⟩) = .ok (.vec [200005, 50007]) ∧
    exNumOf (addSubG exEnv .sub ⟨exKmV, .vec [2, 1 / 2]⟩ ⟨exCmV, .vec [5, 7]⟩) = .ok (.vec [199995, 49993]) ∧
    eqG exEnv ⟨exKmV, .vec [2, 1 / 2]⟩ ⟨exCmV, .vec [200000, 50000]⟩ = .ok true ∧
    eqG exEnv ⟨exKmV, .vec [2, 1 / 2]⟩ ⟨exCmV, .vec [200000, 50001]⟩ = .ok false ∧
    compareG exEnv ⟨exKmN, .sc 2⟩ ⟨exKmN, .sc (5 / 2)⟩ = .ok (some .lt) ∧
    exNumOf (scaleG .mul ⟨exKmV, .vec [2, 1 / 2]⟩ (.sc (), .sc 3)) = .ok (.vec [6, 3 / 2]) ∧
    exNumOf (scaleG .div ⟨exKmV, .vec [2, 1 / 2]⟩ (.sc (), .sc 2)) = .ok (.vec [1, 1 / 4]) ∧
    exNumOf (scaleLeftG (S := exactOps) (.sc (), .sc 3) ⟨exKmN, .sc 2⟩) = .ok (.sc 6) ∧
    exNumOf (negG ⟨exKmV, .vec [2, 1 / 2]⟩) = .ok (.vec [-2, -1 / 2]) ∧
    exNumOf (mulG exEnv ⟨exKmV, .vec [2, 1 / 2]⟩ ⟨exKmN, .sc 3⟩) = .ok (.vec [6, 3 / 2]) ∧
    exNumOf (divG exEnv ⟨exKmV, .vec [2, 1 / 2]⟩ ⟨exKmN, .sc 2⟩) = .ok (.vec [1, 1 / 4]) ∧
    exNumOf (assignG exEnv .add ⟨exCmV, .vec [5, 7]⟩ ⟨exKmV, .vec [2, 1 / 2]⟩) = .ok (.vec [200005, 50007]) ∧
    exNumOf (assignNumG .div ⟨exCmV, .vec [5, 7]⟩ (.sc (), .sc 2)) = .ok (.vec [5 / 2, 7 / 2]) := by
  decide +kernel

example (β : String → ℝ) : exKmV.Good exEnv ∧ exCmV.Good exEnv ∧ exEnv.OK ∧ Related β exKmV.under exCmV.under :=
  ⟨exKms_good _ _, exCms_good _ _, exEnv_ok, exKm_cm_related β _ _⟩

/-- The quantities of the last theorems: three kilometres times two centimetres with the class, and its sum, which does not exist. -/
example : (mulG exEnv (Qty.classed exEnv.fl ⟨exKms (.int .i64), .i 3⟩) (Qty.classed exEnv.fl ⟨exCms (.int .i64), .i 2⟩)).map QtyG.num =
      .ok (Num.i 6) ∧
    eqG exEnv (Qty.classed exEnv.fl ⟨exKms (.int .i64), .i 3⟩) (Qty.classed exEnv.fl ⟨exCms (.int .i64), .i 300000⟩) = .ok true ∧
    (addSubG exEnv .add (Qty.classed exEnv.fl ⟨exKms (.int .i64), .i 3⟩) (Qty.classed exEnv.fl ⟨exCms (.int .i64), .i 2⟩)).map QtyG.num =
      .error .rejected ∧
    (addSubG exEnv .add (Qty.gen exEnv.fl ⟨exKms (.int .i32), .i 2⟩) (Qty.gen exEnv.fl ⟨exCms (.int .i64), .i 5⟩)).map QtyG.num =
      .ok (Num.i 200005) := by
  decide +kernel

end Verif
