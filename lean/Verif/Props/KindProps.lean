import Verif.Props.PointProps
import Verif.Kind

/-!
# Quantity kinds and quantity point kinds (C39, C40, C41)
-/

namespace Verif

/-! ### Helper lemmas -/

/-- The registry of kinds only returns children of the base asked for. -/
def KindReg.OK (κ : KindReg) : Prop := ∀ b d k, κ b d = some k → k.base = b ∧ k.dim = d

theorem downcastKind_sound {κ : KindReg} (hκ : κ.OK) (b : String) (d : Dim) :
    (downcastKind κ b d).base = b ∧ (downcastKind κ b d).dim = d := by
  unfold downcastKind
  split
  · rename_i k hk; exact hκ _ _ _ hk
  · exact ⟨rfl, rfl⟩

/-- A kind of a nameable type holding a value of its representation. -/
structure Kd.Good (E : Env) (k : Kd) : Prop where
  common : k.common.Good E

theorem convertQty_ty {E : Env} {t : QTy} {q x : Qty} (h : convertQty E t q = .ok x) : x.ty = t := by
  rcases convertQty_cases h with ⟨h1, rfl⟩ | ⟨-, -, h1⟩
  · exact h1
  · obtain ⟨-, c, n, -, -, rfl⟩ := quantityCast_eq_ok h1; rfl

theorem convertQty_self (E : Env) (q : Qty) : convertQty E q.ty q = .ok q := by
  unfold convertQty; rw [if_pos rfl]

theorem constructKind_iff {E : Env} {t : KTy} {q : Qty} {k : Kd} :
    constructKind E t q = .ok k ↔ t.unit.ref = t.kind.dim.unit.ref ∧ k.ty = t ∧ convertQty E t.qty q = .ok k.common := by
  unfold constructKind
  split
  · rename_i hu
    simp only [bind_ok, Except.ok.injEq]
    constructor
    · rintro ⟨x, hx, rfl⟩
      refine ⟨hu, rfl, ?_⟩
      rw [hx]
      have := convertQty_ty hx
      unfold Kd.common; cases x; simp only at this ⊢; rw [this]
    · rintro ⟨-, ht, hc⟩
      refine ⟨k.common, hc, ?_⟩
      cases k; simp only at ht; rw [← ht]; rfl
  · rename_i hu
    constructor
    · intro h; cases h
    · rintro ⟨h, -⟩; exact absurd h hu

/-- Making a kind of the dimension of the quantity changes nothing. -/
theorem makeKind_same {E : Env} {K : Kind} {q : Qty} {k : Kd} (hd : q.ty.dim = K.dim) (hu : q.ty.unit.ref = K.dim.unit.ref) :
    makeKind E K q = .ok k ↔ k.ty.kind = K ∧ k.common = q := by
  unfold makeKind
  rw [constructKind_iff]
  have hq : KTy.qty ⟨K, q.ty.unit, q.ty.rep⟩ = q.ty := by unfold KTy.qty; simp only [← hd]
  rw [hq, convertQty_self]
  constructor
  · rintro ⟨-, h1, h2⟩
    exact ⟨by rw [h1], (Except.ok.inj h2).symm⟩
  · rintro ⟨h1, h2⟩
    refine ⟨hu, ?_, by rw [h2]⟩
    rw [← h2, ← h1]; rfl

theorem makeKind_exact {E : Env} {β : String → ℝ} (hβ : Sizes β) {K : Kind} {q : Qty} {k : Kd} (h : makeKind E K q = .ok k) :
    k.ty = ⟨K, q.ty.unit, q.ty.rep⟩ ∧ q.ty.unit.ref = K.dim.unit.ref ∧ convertQty E k.ty.qty q = .ok k.common ∧
      (q.ty.dim = K.dim → k.common = q) ∧
      (q.Good E → K.dim.Good → K.dim.Rooted E.est → k.Good E ∧
        (Coherent β q.ty.dim K.dim → (q.ty.rep.floating = true → FlExact E.fl) → CastGuard E k.ty.qty q →
          Holds β k.ty.qty (q.amount β) → k.amount β = q.amount β)) := by
  unfold makeKind at h
  obtain ⟨h1, h2, h3⟩ := constructKind_iff.mp h
  have hty : k.ty.qty = KTy.qty ⟨K, q.ty.unit, q.ty.rep⟩ := by rw [h2]
  refine ⟨h2, h1, by rw [hty]; exact h3, fun hd => ?_, fun gq gd gr => ?_⟩
  · have hq : KTy.qty ⟨K, q.ty.unit, q.ty.rep⟩ = q.ty := by unfold KTy.qty; simp only [← hd]
    rw [hq, convertQty_self] at h3
    exact (Except.ok.inj h3).symm
  · have gt : k.ty.qty.Good E := by rw [hty]; exact ⟨gd, gq.ty.unit, h1, gr⟩
    rw [← hty] at h3
    have hn : k.num.Typed k.ty.rep := by
      rcases convertQty_cases h3 with ⟨he, hk⟩ | ⟨-, -, hc⟩
      · have e : k.num = q.num := by
          have : k.common = q := hk
          rw [← this]; rfl
        rw [e]
        have := gq.num; rw [he] at this; exact this
      · obtain ⟨-, c, n, -, hn, he⟩ := quantityCast_eq_ok hc
        have e : k.num = n := congrArg Qty.num he
        rw [e]; exact castNum_typed hn
    refine ⟨⟨gt, hn⟩, fun hco hfl hg hh => ?_⟩
    have hrep : k.ty.rep = q.ty.rep := by rw [h2]
    have hdim : k.ty.qty.dim = K.dim := by rw [hty]; rfl
    exact (convertQty_exact hβ gq.ty gt (by rw [hdim]; exact hco) gq.num
      (fun hf => hfl (by rw [← hrep]; exact hf)) hg hh h3).2.2

theorem kindEquivalent_base {a b : Kind} (h : kindEquivalent a b = .ok true) :
    a.base = b.base ∧ dimEquivalent a.dim b.dim = .ok true := by
  unfold kindEquivalent at h
  split at h
  · rename_i hb; exact ⟨hb, h⟩
  · cases h

theorem addSubKind_eq_ok {E : Env} {op : BinOp} {a b r : Kd} :
    addSubKind E op a b = .ok r ↔ kindEquivalent b.ty.kind a.ty.kind = .ok true ∧
      ∃ s, addSub E op a.common b.common = .ok s ∧ makeKind E a.ty.kind s = .ok r := by
  unfold addSubKind
  simp only [bind_ok]
  constructor
  · rintro ⟨e, he, h⟩
    cases e with
    | false => cases h
    | true =>
      simp only [if_true, bind_ok] at h
      exact ⟨he, h⟩
  · rintro ⟨he, h⟩
    refine ⟨true, he, ?_⟩
    simp only [if_true, bind_ok]
    exact h

/-! ## C39 -/

/-- No step of a sum or difference of kinds leaves the range of the representations: neither that of the
underlying quantities nor the conversion to the dimension of the left kind. -/
structure KSumFits (E : Env) (β : String → ℝ) (op : BinOp) (a b r : Kd) : Prop where
  sum : ∀ s, addSub E op a.common b.common = .ok s → SumFits E β op a.common b.common s
  guard : ∀ s, addSub E op a.common b.common = .ok s → CastGuard E r.ty.qty s
  result : Holds β r.ty.qty (if op = .add then a.amount β + b.amount β else a.amount β - b.amount β)

/-- C39: a sum or difference of kinds has the kind of the left operand and the amount of the sum or
difference of the amounts; it is the sum of the underlying quantities when their dimensions agree. -/
theorem C39_add_sub_partial (E : Env) (hE : E.OK) (β : String → ℝ) (hβ : Sizes β) (op : BinOp)
    (hop : op = .add ∨ op = .sub) (a b r : Kd) (ga : a.Good E) (gb : b.Good E) (hr : Related β a.ty.qty b.ty.qty)
    (h : addSubKind E op a b = .ok r) :
    a.ty.kind.base = b.ty.kind.base ∧ r.ty.kind = a.ty.kind ∧ r.Good E ∧
    ∃ s, addSub E op a.common b.common = .ok s ∧ r.ty.unit = s.ty.unit ∧ r.ty.rep = s.ty.rep ∧
      (a.ty.kind.dim = b.ty.kind.dim → r.common = s) ∧
      (KSumFits E β op a b r → r.amount β = if op = .add then a.amount β + b.amount β else a.amount β - b.amount β) := by
  obtain ⟨he, s, hs, hm⟩ := addSubKind_eq_ok.mp h
  obtain ⟨hb, -⟩ := kindEquivalent_base he
  obtain ⟨k1, k2, k3, kd, -, k5⟩ := addSub_sound hE hβ hop ga.common.ty gb.common.ty hr ga.common.num gb.common.num hs
  obtain ⟨m1, m2, -, m4, m5⟩ := makeKind_exact hβ hm
  obtain ⟨m6, m7⟩ := m5 ⟨k1, k3⟩ ga.common.ty.dim ga.common.ty.rooted
  refine ⟨hb.symm, by rw [m1], m6, s, hs, by rw [m1], by rw [m1], fun hd => m4 ?_, fun hk => ?_⟩
  · rcases kd with kd | kd
    · exact kd
    · rw [kd]; exact hd.symm
  · have hf := hk.sum s hs
    have hco : Coherent β s.ty.dim a.ty.kind.dim := by
      rcases kd with kd | kd
      · rw [kd]; exact Coherent.refl _ _
      · rw [kd]; exact hr.symm.coherent
    have e := k5 hf.exact hf.guardl hf.guardr hf.left hf.right hf.result
    rw [m7 hco hf.exact (hk.guard s hs) (by rw [e]; exact hk.result)]
    exact e

/-- C39: kinds over one dimension add and subtract exactly as the underlying quantities do: accepted in the
same cases, with the same value (or the same error). -/
theorem C39_add_sub_same_dimension (E : Env) (hE : E.OK) (op : BinOp) (a b r : Kd)
    (hop : op = .add ∨ op = .sub) (β : String → ℝ) (hβ : Sizes β) (ga : a.Good E) (gb : b.Good E)
    (hb : a.ty.kind.base = b.ty.kind.base) (hd : a.ty.kind.dim = b.ty.kind.dim) :
    addSubKind E op a b = .ok r ↔ addSub E op a.common b.common = .ok r.common ∧ r.ty.kind = a.ty.kind := by
  have hrel : Related β a.ty.qty b.ty.qty := Related.refl hd
  rw [addSubKind_eq_ok]
  have main : ∀ s, addSub E op a.common b.common = .ok s → s.ty.dim = a.ty.kind.dim ∧ s.ty.unit.ref = a.ty.kind.dim.unit.ref := by
    intro s hs
    obtain ⟨k1, -, -, kd, -⟩ := addSub_sound hE hβ hop ga.common.ty gb.common.ty hrel ga.common.num gb.common.num hs
    have : s.ty.dim = a.ty.kind.dim := by
      rcases kd with kd | kd
      · exact kd
      · rw [kd]; exact hd.symm
    exact ⟨this, by rw [← this]; exact k1.unitOf⟩
  constructor
  · rintro ⟨-, s, hs, hm⟩
    obtain ⟨d1, d2⟩ := main s hs
    obtain ⟨h1, h2⟩ := (makeKind_same d1 d2).mp hm
    exact ⟨by rw [h2]; exact hs, h1⟩
  · rintro ⟨hs, hk⟩
    obtain ⟨d1, d2⟩ := main _ hs
    refine ⟨?_, r.common, hs, (makeKind_same d1 d2).mpr ⟨hk, rfl⟩⟩
    unfold kindEquivalent
    rw [if_pos hb.symm, hd]
    exact C17_reflexive _

/-- C39: unrelated kinds do not add, subtract, multiply, divide, compare, convert or combine in any other
way. -/
theorem C39_unrelated_rejected (E : Env) (κ : KindReg) (hκ : κ.OK) (op : BinOp) (m : Bool) (a b : Kd)
    (h : a.ty.kind.base ≠ b.ty.kind.base) :
    addSubKind E op a b = .error .rejected ∧ mulDivKinds E κ m a b = .error .rejected ∧
    modKinds E a b = .error .rejected ∧ compareKinds E a b = .error .rejected ∧ eqKinds E a b = .error .rejected ∧
    convertKind E a.ty b = .error .rejected ∧ assignKind E op a b = .error .rejected ∧
    assignKindDimless E κ op a b = .error .rejected ∧ assignKindMod E κ a b = .error .rejected := by
  have h1 : kindEquivalent b.ty.kind a.ty.kind = .ok false := by
    unfold kindEquivalent; rw [if_neg (fun e => h e.symm)]
  have h1' : kindEquivalent a.ty.kind b.ty.kind = .ok false := by
    unfold kindEquivalent; rw [if_neg h]
  have h2 : convertKind E a.ty b = .error .rejected := by
    unfold convertKind; rw [if_neg (fun e => h (by rw [e])), h1]; rfl
  have h3 : b.ty.kind ≠ downcastKind κ a.ty.kind.base (.named dimOne) := by
    intro e; exact h (by rw [e]; exact (downcastKind_sound hκ _ _).1.symm)
  refine ⟨?_, ?_, ?_, ?_, ?_, h2, ?_, ?_, ?_⟩
  · unfold addSubKind; rw [h1]; rfl
  · unfold mulDivKinds; rw [if_neg h]
  · unfold modKinds; rw [h1]; rfl
  · unfold compareKinds; rw [h1]; rfl
  · unfold eqKinds; rw [h1]; rfl
  · unfold assignKind; rw [h2]; rfl
  · unfold assignKindDimless; rw [if_neg (fun e => h3 e.1)]
  · unfold assignKindMod; rw [h1']; simp only [ok_bind]; rw [if_neg]; rintro (e | e)
    · cases e
    · exact h3 e

theorem mulQty_unit {E : Env} (hE : E.OK) {a b r : Qty} (h : mulQty E a b = .ok r) : r.ty.unit.ref = r.ty.dim.unit.ref := by
  obtain ⟨h1, -, -⟩ := mulQty_eq_ok h
  unfold refMultiply at h1
  simp only [bind_ok, Except.ok.injEq, Prod.mk.injEq] at h1
  obtain ⟨d, -, x, -, y, -, z, -, w, -, u, hu, rfl, rfl⟩ := h1
  exact (downcastUnit_eq_ok hE.units hu).2.1

theorem divQty_unit {E : Env} (hE : E.OK) {a b r : Qty} (h : divQty E a b = .ok r) : r.ty.unit.ref = r.ty.dim.unit.ref := by
  obtain ⟨h1, -, -⟩ := divQty_eq_ok h
  unfold refDivide at h1
  simp only [bind_ok, Except.ok.injEq, Prod.mk.injEq] at h1
  obtain ⟨d, -, x, -, y, -, z, -, w, -, u, hu, rfl, rfl⟩ := h1
  exact (downcastUnit_eq_ok hE.units hu).2.1

theorem recipQty_unit {E : Env} (hE : E.OK) {rep : Rep} {v : Num} {q r : Qty} (h : recipQty E rep v q = .ok r) :
    r.ty.unit.ref = r.ty.dim.unit.ref := by
  unfold recipQty at h
  simp only [bind_ok, Except.ok.injEq] at h
  obtain ⟨d, -, i, -, u, hu, z, -, rfl⟩ := h
  exact (downcastUnit_eq_ok hE.units hu).2.1

/-- The product or quotient of quantities, as one function of the operator. -/
theorem mulDiv_unit {E : Env} (hE : E.OK) {m : Bool} {a b r : Qty}
    (h : (if m then mulQty E a b else divQty E a b) = .ok r) : r.ty.unit.ref = r.ty.dim.unit.ref := by
  cases m with
  | true => exact mulQty_unit hE h
  | false => exact divQty_unit hE h

theorem downcastedKind_iff {E : Env} {κ : KindReg} (hκ : κ.OK) {b : String} {q : Qty} {k : Kd}
    (hu : q.ty.unit.ref = q.ty.dim.unit.ref) :
    downcastedKind E κ b q = .ok k ↔ k.ty.kind = downcastKind κ b q.ty.dim ∧ k.common = q := by
  unfold downcastedKind
  have hd := (downcastKind_sound hκ b q.ty.dim).2
  exact makeKind_same hd.symm (by rw [hd]; exact hu)

/-- C39: products and quotients of related kinds, of kinds and quantities and of numbers by kinds are the
products and quotients of the underlying quantities, accepted in the same cases, with the kind that
downcasting finds for the base kind and the new dimension. -/
theorem C39_products (E : Env) (hE : E.OK) (κ : KindReg) (hκ : κ.OK) (m : Bool) (a b r : Kd) (q : Qty) (rep : Rep) (v : Num)
    (hb : a.ty.kind.base = b.ty.kind.base) :
    (mulDivKinds E κ m a b = .ok r ↔ (if m then mulQty E a.common b.common else divQty E a.common b.common) = .ok r.common ∧
      r.ty.kind = downcastKind κ a.ty.kind.base r.ty.kind.dim) ∧
    (mulDivKindQty E κ m a q = .ok r ↔ (if m then mulQty E a.common q else divQty E a.common q) = .ok r.common ∧
      r.ty.kind = downcastKind κ a.ty.kind.base r.ty.kind.dim) ∧
    (mulDivQtyKind E κ m q a = .ok r ↔ (if m then mulQty E q a.common else divQty E q a.common) = .ok r.common ∧
      r.ty.kind = downcastKind κ a.ty.kind.base r.ty.kind.dim) ∧
    (recipKind E κ rep v a = .ok r ↔ recipQty E rep v a.common = .ok r.common ∧
      r.ty.kind = downcastKind κ a.ty.kind.base r.ty.kind.dim) := by
  have key : ∀ (f : C Qty), (∀ s, f = .ok s → s.ty.unit.ref = s.ty.dim.unit.ref) →
      ((do let s ← f; downcastedKind E κ a.ty.kind.base s) = .ok r ↔
        f = .ok r.common ∧ r.ty.kind = downcastKind κ a.ty.kind.base r.ty.kind.dim) := by
    intro f hf
    simp only [bind_ok]
    constructor
    · rintro ⟨s, hs, h⟩
      obtain ⟨h1, h2⟩ := (downcastedKind_iff hκ (hf s hs)).mp h
      subst h2
      exact ⟨hs, h1⟩
    · rintro ⟨hs, h⟩
      exact ⟨_, hs, (downcastedKind_iff hκ (hf _ hs)).mpr ⟨h, rfl⟩⟩
  refine ⟨?_, ?_, ?_, ?_⟩
  · unfold mulDivKinds; rw [if_pos hb]; exact key _ (fun s hs => mulDiv_unit hE hs)
  · unfold mulDivKindQty; exact key _ (fun s hs => mulDiv_unit hE hs)
  · unfold mulDivQtyKind; exact key _ (fun s hs => mulDiv_unit hE hs)
  · unfold recipKind; exact key _ (fun s hs => recipQty_unit hE hs)

/-- C39: the amount of a product of related kinds is the product of the amounts, and likewise for a quotient;
the base kind is that of the operands. -/
theorem C39_product_amount (E : Env) (hE : E.OK) (κ : KindReg) (hκ : κ.OK) (β : String → ℝ) (hβ : Sizes β) (m : Bool)
    (a b r : Kd) (ga : a.Good E) (gb : b.Good E) (gr : r.ty.kind.dim.Good) (hb : a.ty.kind.base = b.ty.kind.base)
    (hfl : r.ty.rep.floating = true → FlExact E.fl)
    (ua : UFits r.ty.rep a.num.q) (ub : UFits r.ty.rep b.num.q)
    (um : m = true → UFits r.ty.rep (a.num.q * b.num.q))
    (ud : m = false → r.ty.rep.floating = true ∨ ∃ n : ℤ, a.num.q / b.num.q = n)
    (h : mulDivKinds E κ m a b = .ok r) :
    r.ty.kind.base = a.ty.kind.base ∧ (m = true → r.amount β = a.amount β * b.amount β) ∧
      (m = false → r.amount β = a.amount β / b.amount β) := by
  obtain ⟨h1, h2⟩ := (C39_products E hE κ hκ m a b r ⟨a.ty.qty, a.num⟩ a.ty.rep a.num hb).1.mp h
  refine ⟨by rw [h2]; exact (downcastKind_sound hκ _ _).1, ?_, ?_⟩
  · rintro rfl
    exact (C27_product_exact E hE β hβ a.common b.common r.common ga.common gb.common gr h1 hfl ua ub (um rfl)).1
  · rintro rfl
    exact (C27_quotient_exact E hE β hβ a.common b.common r.common ga.common gb.common gr h1 hfl ua ub (ud rfl)).2.1

/-- C39: scaling by a number, the remainder by a number and negation act on the underlying quantity and keep
the kind. -/
theorem C39_scaling (E : Env) (op : BinOp) (a r : Kd) (rep : Rep) (v : Num) (ga : a.Good E) :
    (scaleKind E op a rep v = .ok r ↔ scaleQty E op a.common rep v = .ok r.common ∧ r.ty.kind = a.ty.kind) ∧
    (scaleKindLeft E rep v a = .ok r ↔ scaleQtyLeft E rep v a.common = .ok r.common ∧ r.ty.kind = a.ty.kind) ∧
    (negKind E a = .ok r ↔ negQty a.common = .ok r.common ∧ r.ty.kind = a.ty.kind) := by
  have key : ∀ (f : C Qty), (∀ s, f = .ok s → s.ty.dim = a.ty.kind.dim ∧ s.ty.unit = a.ty.unit) →
      ((do let s ← f; makeKind E a.ty.kind s) = .ok r ↔ f = .ok r.common ∧ r.ty.kind = a.ty.kind) := by
    intro f hf
    have hu : a.ty.unit.ref = a.ty.kind.dim.unit.ref := ga.common.ty.unitOf
    simp only [bind_ok]
    constructor
    · rintro ⟨s, hs, h⟩
      obtain ⟨d1, d2⟩ := hf s hs
      obtain ⟨h1, h2⟩ := (makeKind_same d1 (by rw [d2]; exact hu)).mp h
      subst h2
      exact ⟨hs, h1⟩
    · rintro ⟨hs, h⟩
      obtain ⟨d1, d2⟩ := hf _ hs
      exact ⟨_, hs, (makeKind_same d1 (by rw [d2]; exact hu)).mpr ⟨h, rfl⟩⟩
  refine ⟨key _ ?_, key _ ?_, key _ ?_⟩
  · intro s hs
    unfold scaleQty at hs
    simp only [bind_ok, Except.ok.injEq] at hs
    obtain ⟨z, -, rfl⟩ := hs; exact ⟨rfl, rfl⟩
  · intro s hs
    unfold scaleQtyLeft at hs
    simp only [bind_ok, Except.ok.injEq] at hs
    obtain ⟨z, -, rfl⟩ := hs; exact ⟨rfl, rfl⟩
  · intro s hs
    unfold negQty at hs
    simp only [bind_ok, Except.ok.injEq] at hs
    obtain ⟨z, -, rfl⟩ := hs; exact ⟨rfl, rfl⟩

/-- C39: the remainder of equivalent kinds, and by a dimensionless quantity, is that of the underlying
quantities and keeps the kind. -/
theorem C39_remainder (E : Env) (a b r : Kd) (d : Qty) (ga : a.Good E) :
    (kindEquivalent b.ty.kind a.ty.kind = .ok true →
      (modKinds E a b = .ok r ↔ modQty E a.common b.common = .ok r.common ∧ r.ty.kind = a.ty.kind)) ∧
    (dimEquivalent d.ty.dim (.named dimOne) = .ok true →
      (modKindQty E a d = .ok r ↔ modQty E a.common d = .ok r.common ∧ r.ty.kind = a.ty.kind)) := by
  have hu : a.ty.unit.ref = a.ty.kind.dim.unit.ref := ga.common.ty.unitOf
  have hm : ∀ q s, modQty E a.common q = .ok s → s.ty.dim = a.ty.kind.dim ∧ s.ty.unit = a.ty.unit := by
    intro q s hs
    unfold modQty at hs
    simp only [bind_ok] at hs
    obtain ⟨e, -, x, -, hs⟩ := hs
    split at hs
    · simp only [bind_ok, Except.ok.injEq] at hs
      obtain ⟨z, -, rfl⟩ := hs; exact ⟨rfl, rfl⟩
    · cases hs
  have key : ∀ q, ((do let s ← modQty E a.common q; makeKind E a.ty.kind s) = .ok r ↔
      modQty E a.common q = .ok r.common ∧ r.ty.kind = a.ty.kind) := by
    intro q
    simp only [bind_ok]
    constructor
    · rintro ⟨s, hs, h⟩
      obtain ⟨d1, d2⟩ := hm q s hs
      obtain ⟨h1, h2⟩ := (makeKind_same d1 (by rw [d2]; exact hu)).mp h
      subst h2
      exact ⟨hs, h1⟩
    · rintro ⟨hs, h⟩
      obtain ⟨d1, d2⟩ := hm q _ hs
      exact ⟨_, hs, (makeKind_same d1 (by rw [d2]; exact hu)).mpr ⟨h, rfl⟩⟩
  refine ⟨fun he => ?_, fun he => ?_⟩
  · unfold modKinds; rw [he]; exact key _
  · unfold modKindQty; rw [he]; exact key _

theorem compareKinds_ok {E : Env} {a b : Kd} {o : Ordering} :
    compareKinds E a b = .ok o ↔ kindEquivalent b.ty.kind a.ty.kind = .ok true ∧
      comparableQty E a.ty.qty b.ty.qty = .ok true ∧ compareQty E a.common b.common = .ok o := by
  unfold compareKinds
  simp only [bind_ok]
  constructor
  · rintro ⟨e, he, h⟩
    cases e with
    | false => cases h
    | true =>
      simp only [if_true, bind_ok] at h
      obtain ⟨c, hc, h⟩ := h
      cases c with
      | false => cases h
      | true => exact ⟨he, hc, h⟩
  · rintro ⟨he, hc, h⟩
    exact ⟨true, he, by simp only [if_true, bind_ok]; exact ⟨true, hc, h⟩⟩

theorem eqKinds_ok {E : Env} {a b : Kd} {o : Bool} :
    eqKinds E a b = .ok o ↔ kindEquivalent b.ty.kind a.ty.kind = .ok true ∧
      comparableQty E a.ty.qty b.ty.qty = .ok true ∧ eqQty E a.common b.common = .ok o := by
  unfold eqKinds
  simp only [bind_ok]
  constructor
  · rintro ⟨e, he, h⟩
    cases e with
    | false => cases h
    | true =>
      simp only [if_true, bind_ok] at h
      obtain ⟨c, hc, h⟩ := h
      cases c with
      | false => cases h
      | true => exact ⟨he, hc, h⟩
  · rintro ⟨he, hc, h⟩
    exact ⟨true, he, by simp only [if_true, bind_ok]; exact ⟨true, hc, h⟩⟩

/-- C39: kinds of one base compare as their amounts. -/
theorem C39_compare_partial (E : Env) (hE : E.OK) (β : String → ℝ) (hβ : Sizes β) (a b : Kd)
    (ga : a.Good E) (gb : b.Good E) (hr : Related β a.ty.qty b.ty.qty) (hf : CmpFits E β a.common b.common) :
    (∀ o, compareKinds E a b = .ok o → a.ty.kind.base = b.ty.kind.base ∧ (o = .lt ↔ a.amount β < b.amount β) ∧
      (o = .eq ↔ a.amount β = b.amount β) ∧ (o = .gt ↔ b.amount β < a.amount β)) ∧
    (∀ e, eqKinds E a b = .ok e → a.ty.kind.base = b.ty.kind.base ∧ (e = true ↔ a.amount β = b.amount β)) := by
  constructor
  · intro o h
    obtain ⟨he, -, h⟩ := compareKinds_ok.mp h
    exact ⟨(kindEquivalent_base he).1.symm, C26_compare_partial E hE β hβ a.common b.common o ga.common gb.common hr hf h⟩
  · intro o h
    obtain ⟨he, -, h⟩ := eqKinds_ok.mp h
    exact ⟨(kindEquivalent_base he).1.symm, C26_eq_partial E hE β hβ a.common b.common o ga.common gb.common hr hf h⟩

theorem convertKind_common {E : Env} {t : KTy} {k r : Kd} (h : convertKind E t k = .ok r) :
    convertQty E t.qty k.common = .ok r.common := by
  unfold convertKind at h
  split at h
  · rename_i he
    cases h; rw [← he]; exact convertQty_self E k.common
  · simp only [bind_ok] at h
    obtain ⟨e, -, h⟩ := h
    cases e with
    | false => cases h
    | true =>
      simp only [if_true, bind_ok, Except.ok.injEq] at h
      obtain ⟨x, hx, rfl⟩ := h
      have : (⟨t, x.num⟩ : Kd).common = x := by unfold Kd.common; simp only; rw [← convertQty_ty hx]
      rw [this]; exact hx

/-- C39: a conversion is accepted only between kinds of one base, and keeps the amount. -/
theorem C39_convert_partial (E : Env) (β : String → ℝ) (hβ : Sizes β) (t : KTy) (k r : Kd)
    (gk : k.Good E) (gt : t.qty.Good E) (hco : Coherent β k.ty.kind.dim t.kind.dim)
    (hfl : t.rep.floating = true → FlExact E.fl) (hg : CastGuard E t.qty k.common) (hh : Holds β t.qty (k.amount β))
    (h : convertKind E t k = .ok r) :
    r.ty = t ∧ k.ty.kind.base = t.kind.base ∧ r.Good E ∧ r.amount β = k.amount β := by
  unfold convertKind at h
  split at h
  · rename_i he
    simp only [Except.ok.injEq] at h
    subst h
    exact ⟨he, by rw [he], gk, rfl⟩
  · simp only [bind_ok] at h
    obtain ⟨e, he, h⟩ := h
    cases e with
    | false => cases h
    | true =>
      simp only [if_true, bind_ok, Except.ok.injEq] at h
      obtain ⟨x, hx, rfl⟩ := h
      obtain ⟨k1, k2, k3⟩ := convertQty_exact hβ gk.common.ty gt hco gk.common.num hfl hg hh hx
      have e : (⟨t, x.num⟩ : Kd).common = x := by unfold Kd.common; rw [← k1]
      exact ⟨rfl, (kindEquivalent_base he).1, ⟨⟨gt, k2⟩⟩, by unfold Kd.amount; rw [e]; exact k3⟩

/-- C39: `+=` and `-=` on kinds of one base add and subtract the amounts. -/
theorem C39_assign_partial (E : Env) (β : String → ℝ) (hβ : Sizes β) (op : BinOp) (hop : op = .add ∨ op = .sub)
    (a b r : Kd) (ga : a.Good E) (gb : b.Good E) (hco : Coherent β b.ty.kind.dim a.ty.kind.dim)
    (hfl : a.ty.rep.floating = true → FlExact E.fl) (hg : CastGuard E a.ty.qty b.common) (hq : Holds β a.ty.qty (b.amount β))
    (hs : Holds β a.ty.qty (if op = .add then a.amount β + b.amount β else a.amount β - b.amount β))
    (h : assignKind E op a b = .ok r) :
    r.ty = a.ty ∧ a.ty.kind.base = b.ty.kind.base ∧ r.Good E ∧
      r.amount β = if op = .add then a.amount β + b.amount β else a.amount β - b.amount β := by
  unfold assignKind at h
  simp only [bind_ok, Except.ok.injEq] at h
  obtain ⟨b', hb', x, hx, rfl⟩ := h
  obtain ⟨t1, t2, t3, t4⟩ := C39_convert_partial E β hβ a.ty b b' gb ga.common.ty hco hfl hg hq hb'
  have hself : assignQty E op a.common b.common = .ok x := by
    unfold assignQty at hx ⊢
    have e1 : convertQty E a.common.ty b'.common = .ok b'.common := by
      have : a.common.ty = b'.common.ty := by show a.ty.qty = b'.ty.qty; rw [t1]
      rw [this, convertQty_self]
    have e2 : convertQty E a.common.ty b.common = .ok b'.common := convertKind_common hb'
    rw [e1] at hx
    rw [e2]; exact hx
  obtain ⟨m1, m2, m3⟩ := C30_add_sub_exact_partial E β hβ op hop a.common b.common x ga.common gb.common hco hfl hg hq hs hself
  have e : (⟨a.ty, x.num⟩ : Kd).common = x := by unfold Kd.common; rw [show a.ty.qty = x.ty from m1.symm]
  refine ⟨rfl, t2.symm, ⟨?_⟩, ?_⟩
  · rw [e]; exact ⟨by rw [m1]; exact ga.common.ty, by rw [m1]; exact m2⟩
  · unfold Kd.amount; rw [e, m3]

/-- C39: `*=`, `/=` and `%=` by numbers, by dimensionless quantities and by dimensionless kinds of the family,
`%=` by kinds and `++`/`--` act on the underlying quantity; the type never changes, and the postfix forms
return the old value. -/
theorem C39_assign_underlying (E : Env) (κ : KindReg) (op : BinOp) (a b r : Kd) (rep : Rep) (v : Num) (d : Qty) (ga : a.Good E) :
    (assignKindNum E op a rep v = .ok r ↔ assignNum E op a.common rep v = .ok r.common ∧ r.ty = a.ty) ∧
    (assignKindQty E op a d = .ok r ↔ assignDimless E op a.common d = .ok r.common ∧ r.ty = a.ty) ∧
    (assignKindDimless E κ op a b = .ok r → assignDimless E op a.common b.common = .ok r.common ∧ r.ty = a.ty) ∧
    (assignKindMod E κ a b = .ok r → r.ty = a.ty ∧ (assignDimless E .mod a.common b.common = .ok r.common ∨
      assignQty E .mod a.common b.common = .ok r.common)) ∧
    (incDecKind E op a = .ok r ↔ incDec E op a.common = .ok r.common ∧ r.ty = a.ty) ∧
    (incDecKindPost E op a = .ok (r, b) ↔ incDecKind E op a = .ok r ∧ b = a) := by
  have ty1 : ∀ {op rep v x}, assignNum E op a.common rep v = .ok x → x.ty = a.ty.qty := by
    intro op rep v x h
    unfold assignNum at h
    split at h
    · cases h
    · simp only [bind_ok, Except.ok.injEq] at h
      obtain ⟨z, -, rfl⟩ := h; rfl
  have ty2 : ∀ {op d x}, assignDimless E op a.common d = .ok x → x.ty = a.ty.qty := by
    intro op d x h
    unfold assignDimless at h
    split at h
    · exact ty1 h
    · cases h
  have ty3 : ∀ {op d x}, assignQty E op a.common d = .ok x → x.ty = a.ty.qty := by
    intro op d x h
    unfold assignQty at h
    simp only [bind_ok] at h
    obtain ⟨y, -, h⟩ := h
    split at h
    · cases h
    · simp only [bind_ok, Except.ok.injEq] at h
      obtain ⟨z, -, rfl⟩ := h; rfl
  have ty4 : ∀ {op x}, incDec E op a.common = .ok x → x.ty = a.ty.qty := by
    intro op x h
    unfold incDec at h
    simp only [bind_ok, Except.ok.injEq] at h
    obtain ⟨z, -, rfl⟩ := h; rfl
  have fwd : ∀ {f : C Qty} {r : Kd}, (∀ x, f = .ok x → x.ty = a.ty.qty) →
      ((do let x ← f; (.ok ⟨a.ty, x.num⟩ : C Kd)) = .ok r ↔ f = .ok r.common ∧ r.ty = a.ty) := by
    intro f r hf
    simp only [bind_ok, Except.ok.injEq]
    constructor
    · rintro ⟨x, hx, rfl⟩
      have e : (⟨a.ty, x.num⟩ : Kd).common = x := by unfold Kd.common; simp only; rw [← hf x hx]
      exact ⟨by rw [e]; exact hx, rfl⟩
    · rintro ⟨h, ht⟩
      exact ⟨_, h, by rw [← ht]; rfl⟩
  refine ⟨fwd (fun x => ty1), fwd (fun x => ty2), ?_, ?_, fwd (fun x => ty4), ?_⟩
  · intro h
    unfold assignKindDimless at h
    split at h
    · exact (fwd (fun x => ty2)).mp h
    · cases h
  · intro h
    unfold assignKindMod at h
    simp only [bind_ok] at h
    obtain ⟨e, -, h⟩ := h
    split at h
    · split at h
      · obtain ⟨h1, h2⟩ := (fwd (fun x => ty2)).mp h
        exact ⟨h2, Or.inl h1⟩
      · obtain ⟨h1, h2⟩ := (fwd (fun x => ty3)).mp h
        exact ⟨h2, Or.inr h1⟩
    · cases h
  · have hu : a.ty.unit.ref = a.ty.kind.dim.unit.ref := ga.common.ty.unitOf
    have hc : constructKind E a.ty a.common = .ok a :=
      constructKind_iff.mpr ⟨hu, rfl, convertQty_self E a.common⟩
    unfold incDecKindPost incDecPost incDecKind incDec
    cases hz : compound E.fl op a.common.ty.rep (.int .i32) a.common.num (.i 1) with
    | error e => simp only [error_bind]; exact ⟨(fun h => nomatch h), (fun h => nomatch h.1)⟩
    | ok z =>
      simp only [ok_bind, hc, Except.ok.injEq, Prod.mk.injEq]
      constructor
      · rintro ⟨h1, h2⟩; exact ⟨h1, h2.symm⟩
      · rintro ⟨h1, h2⟩; exact ⟨h1, h2.symm⟩

/-! ### Examples -/

def exWidth : Kind := ⟨some "width_kind", "width_kind", .base exL⟩
def exHeight : Kind := ⟨some "height_kind", "height_kind", .base exL⟩
def exWidthCgs : Kind := ⟨some "width_cgs", "width_kind", .base exLcgs⟩

/-- `width_kind` over lengths and a derived kind over areas, as in
test/unit_test/static/quantity_kind_test.cpp:51-56. -/
def exKinds : KindReg := fun b d =>
  if b = "width_kind" ∧ d = .base exL then some exWidth
  else if b = "width_kind" ∧ d = .named exArea then some ⟨some "horizontal_area_kind", "width_kind", d⟩
  else none

theorem exKinds_ok : exKinds.OK := by
  intro b d k h
  unfold exKinds at h
  split at h
  · rename_i hc; cases h; exact ⟨hc.1.symm, hc.2.symm⟩
  · split at h
    · rename_i hc; cases h; exact ⟨hc.1.symm, rfl⟩
    · cases h

/-- Widths add in the common unit, multiply to a horizontal area, divide to a dimensionless width; a width and
a height do not mix. -/
example :
    addSubKind exEnv .add ⟨⟨exWidth, exKm, .int .i32⟩, .i 2⟩ ⟨⟨exWidth, exCmUnit, .int .i64⟩, .i 5⟩ =
      .ok ⟨⟨exWidth, exCmUnit, .int .i64⟩, .i 200005⟩ ∧
    addSubKind exEnv .sub ⟨⟨exWidthCgs, exCmUnit, .int .i32⟩, .i 200⟩ ⟨⟨exWidth, exMetre, .int .i64⟩, .i 5⟩ =
      .ok ⟨⟨exWidthCgs, exCmUnit, .int .i64⟩, .i (-300)⟩ ∧
    (mulDivKinds exEnv exKinds true ⟨⟨exWidth, exMetre, .int .i32⟩, .i 2⟩ ⟨⟨exWidth, exMetre, .int .i32⟩, .i 5⟩).map
      (fun k => (k.ty.kind.id, k.num)) = .ok (some "horizontal_area_kind", .i 10) ∧
    (mulDivKinds exEnv exKinds false ⟨⟨exWidth, exKm, .int .i32⟩, .i 8⟩ ⟨⟨exWidth, exMetre, .int .i32⟩, .i 5⟩).map
      (fun k => (k.ty.kind.id, k.ty.kind.base, k.num)) = .ok (none, "width_kind", .i 1) ∧
    addSubKind exEnv .add ⟨⟨exWidth, exKm, .int .i32⟩, .i 2⟩ ⟨⟨exHeight, exMetre, .int .i64⟩, .i 5⟩ = .error .rejected ∧
    compareKinds exEnv ⟨⟨exWidth, exKm, .int .i32⟩, .i 2⟩ ⟨⟨exWidth, exMetre, .int .i64⟩, .i 5⟩ = .ok .gt ∧
    modKinds exEnv ⟨⟨exWidth, exMetre, .int .i32⟩, .i 17⟩ ⟨⟨exWidth, exMetre, .int .i32⟩, .i 5⟩ =
      .ok ⟨⟨exWidth, exMetre, .int .i32⟩, .i 2⟩ ∧
    assignKind exEnv .add ⟨⟨exWidth, exMetre, .int .i32⟩, .i 17⟩ ⟨⟨exWidth, exKm, .int .i32⟩, .i 5⟩ =
      .ok ⟨⟨exWidth, exMetre, .int .i32⟩, .i 5017⟩ ∧
    assignKindMod exEnv exKinds ⟨⟨exWidth, exMetre, .int .i32⟩, .i 17⟩ ⟨⟨exWidth, exMetre, .int .i32⟩, .i 5⟩ =
      .ok ⟨⟨exWidth, exMetre, .int .i32⟩, .i 2⟩ ∧
    assignKindDimless exEnv exKinds .mul ⟨⟨exWidth, exMetre, .int .i32⟩, .i 17⟩
      ⟨⟨⟨none, "width_kind", .named dimOne⟩, unitOne, .int .i32⟩, .i 2⟩ = .ok ⟨⟨exWidth, exMetre, .int .i32⟩, .i 34⟩ ∧
    incDecKindPost exEnv .sub ⟨⟨exWidth, exMetre, .int .i32⟩, .i 17⟩ =
      .ok (⟨⟨exWidth, exMetre, .int .i32⟩, .i 16⟩, ⟨⟨exWidth, exMetre, .int .i32⟩, .i 17⟩) := by
  decide +kernel

theorem exCmUnit_wf : exCmUnit.WF :=
  ⟨⟨by decide, by decide, fun _ => by decide, by decide, by decide, by decide, by decide, by decide⟩, by decide⟩

/-- The first two sums meet the conditions of `C39_add_sub_partial`; here the one of different dimensions. -/
example (β : String → ℝ) : (⟨⟨exWidthCgs, exCmUnit, .int .i32⟩, .i 200⟩ : Kd).Good exEnv ∧
    (⟨⟨exWidth, exMetre, .int .i64⟩, .i 5⟩ : Kd).Good exEnv ∧
    Related β (KTy.qty ⟨exWidthCgs, exCmUnit, .int .i32⟩) (KTy.qty ⟨exWidth, exMetre, .int .i64⟩) := by
  refine ⟨⟨?_⟩, ⟨exMetres_good _ _, _, rfl, by decide⟩, (exKm_cm_related β (.int .i64) (.int .i32)).symm.of_dim rfl rfl⟩
  exact ⟨⟨(exCms_good exEnv (.int .i32)).dim, exCmUnit_wf, by decide, (exCms_good exEnv (.int .i32)).rooted⟩,
    _, rfl, by decide⟩

/-! ## C40 -/

/-- The registry of point kinds only returns children of the base asked for. -/
def PKindReg.OK (ρ : PKindReg) : Prop := ∀ k o p, ρ k o = some p → p.kind = k ∧ p.origin = o

theorem downcastPKind_sound {ρ : PKindReg} (hρ : ρ.OK) (k : Kind) (o : Origin) :
    (downcastPKind ρ k o).kind = k ∧ (downcastPKind ρ k o).origin = o := by
  unfold downcastPKind
  split
  · rename_i p hp; exact hρ _ _ _ hp
  · exact ⟨rfl, rfl⟩

theorem deducePk_sound {ρ : PKindReg} (hρ : ρ.OK) (k : Kd) :
    (deducePk ρ k).rel = k ∧ (deducePk ρ k).ty.pk.origin = dynamicOrigin k.ty.kind.dim := by
  obtain ⟨h1, h2⟩ := downcastPKind_sound hρ k.ty.kind (dynamicOrigin k.ty.kind.dim)
  refine ⟨?_, h2⟩
  unfold deducePk Pk.rel PKTy.kty
  simp only [h1]

/-- A point of a nameable type holding a value of its representation. -/
structure Pk.Good (E : Env) (p : Pk) : Prop where
  rel : p.rel.Good E
  origin : p.ty.pk.OK

theorem addSubPk_eq_ok {E : Env} {ρ : PKindReg} (hρ : ρ.OK) {op : BinOp} {p r : Pk} {k : Kd} (h : addSubPk E ρ op p k = .ok r) :
    addSubKind E op p.rel k = .ok r.rel ∧ r.ty.pk.origin = dynamicOrigin r.ty.pk.kind.dim := by
  unfold addSubPk at h
  simp only [bind_ok, Except.ok.injEq] at h
  obtain ⟨s, hs, rfl⟩ := h
  obtain ⟨h1, h2⟩ := deducePk_sound hρ s
  have h3 : (deducePk ρ s).ty.pk.kind = s.ty.kind := by
    have : (deducePk ρ s).rel.ty.kind = s.ty.kind := by rw [h1]
    exact this
  exact ⟨by rw [h1]; exact hs, by rw [h2, h3]⟩

/-- C40: adding a kind to a point moves it by exactly the amount, and keeps the kind. -/
theorem C40_translate_partial (E : Env) (hE : E.OK) (ρ : PKindReg) (hρ : ρ.OK) (β : String → ℝ) (hβ : Sizes β) (op : BinOp)
    (hop : op = .add ∨ op = .sub) (p r : Pk) (k : Kd) (gp : p.Good E) (gk : k.Good E)
    (hr : Related β p.rel.ty.qty k.ty.qty) (h : addSubPk E ρ op p k = .ok r) :
    r.Good E ∧ r.ty.pk.kind = p.ty.pk.kind ∧ p.ty.pk.kind.base = k.ty.kind.base ∧
      (p.ty.pk.origin = dynamicOrigin p.ty.pk.kind.dim → r.ty.pk.origin = p.ty.pk.origin) ∧
      (KSumFits E β op p.rel k r.rel → r.pos β = if op = .add then p.pos β + k.amount β else p.pos β - k.amount β) := by
  obtain ⟨h1, h2⟩ := addSubPk_eq_ok hρ h
  obtain ⟨a1, a2, a3, s, -, -, -, -, a5⟩ := C39_add_sub_partial E hE β hβ op hop p.rel k r.rel gp.rel gk hr h1
  have hk : r.ty.pk.kind = p.ty.pk.kind := a2
  exact ⟨⟨a3, by unfold PKind.OK; rw [h2]; rfl⟩, hk, a1, fun ho => by rw [h2, ho, hk], a5⟩

theorem pkindEquivalent_same {R : Rebinds} {a b : PKind} (h1 : a.kind = b.kind) (h2 : a.origin = b.origin) :
    pkindEquivalent R a b = .ok true := by
  unfold pkindEquivalent kindEquivalent originEquivalent
  rw [h1, h2, if_pos rfl, C17_reflexive, if_pos rfl]; rfl

/-- C40: `(p + q) - p == q` for point kinds with a dynamic origin; the difference is accepted whenever the
difference of the relative kinds is.  Partial: for other origins it is rejected
(`C40_static_origin_rejected`). -/
theorem C40_add_sub_partial (E : Env) (hE : E.OK) (R : Rebinds) (ρ : PKindReg) (hρ : ρ.OK) (β : String → ℝ) (hβ : Sizes β)
    (p r : Pk) (k : Kd) (gp : p.Good E) (gk : k.Good E) (hr : Related β p.rel.ty.qty k.ty.qty)
    (ho : p.ty.pk.origin = dynamicOrigin p.ty.pk.kind.dim) (h : addSubPk E ρ .add p k = .ok r)
    (hf : KSumFits E β .add p.rel k r.rel) :
    subPks E R r p = addSubKind E .sub r.rel p.rel ∧
    ∀ d, subPks E R r p = .ok d → KSumFits E β .sub r.rel p.rel d →
      d.ty.kind = p.ty.pk.kind ∧ d.amount β = k.amount β ∧
        (CmpFits E β d.common k.common → ∀ e, eqKinds E d k = .ok e → e = true) := by
  obtain ⟨g1, g2, -, g4, g5⟩ := C40_translate_partial E hE ρ hρ β hβ .add (Or.inl rfl) p r k gp gk hr h
  have hpos := g5 hf
  rw [if_pos rfl] at hpos
  have heq : pkindEquivalent R p.ty.pk r.ty.pk = .ok true := pkindEquivalent_same g2.symm (g4 ho).symm
  have hsub : subPks E R r p = addSubKind E .sub r.rel p.rel := by
    unfold subPks; rw [heq]; rfl
  refine ⟨hsub, fun d hd hfd => ?_⟩
  rw [hsub] at hd
  have hdim : r.rel.ty.qty.dim = p.rel.ty.qty.dim := by show r.ty.pk.kind.dim = _; rw [g2]; rfl
  obtain ⟨-, d2, d3, s, -, -, -, -, d5⟩ := C39_add_sub_partial E hE β hβ .sub (Or.inr rfl) r.rel p.rel d g1.rel gp.rel
    (Related.refl hdim) hd
  have hda := d5 hfd
  rw [if_neg (by simp)] at hda
  have hres : d.amount β = k.amount β := by
    rw [hda]; show r.pos β - p.pos β = _; rw [hpos]; ring
  have hdk : d.ty.kind = p.ty.pk.kind := by rw [d2]; exact g2
  refine ⟨hdk, hres, fun hc e he => ?_⟩
  have hrel : Related β d.ty.qty k.ty.qty := hr.of_dim (by show d.ty.kind.dim = _; rw [hdk]; rfl) rfl
  exact ((C39_compare_partial E hE β hβ d k d3 gk hrel hc).2 e he).2.mpr hres

/-- C40 fails for every other origin: the sum has a dynamic origin, and the difference with the original
point is rejected. -/
theorem C40_static_origin_rejected (E : Env) (R : Rebinds) (ρ : PKindReg) (hρ : ρ.OK) (op : BinOp) (p r : Pk) (k : Kd)
    (hp : p.ty.pk.origin.name ≠ "dynamic_origin") (h : addSubPk E ρ op p k = .ok r) :
    r.ty.pk.origin ≠ p.ty.pk.origin ∧ subPks E R r p = .error .rejected ∧ eqPks E R r p = .error .rejected ∧
      convertPk E R p.ty r = .error .rejected := by
  obtain ⟨h1, h2⟩ := addSubPk_eq_ok hρ h
  obtain ⟨-, s, -, hm⟩ := addSubKind_eq_ok.mp h1
  have hk : r.ty.pk.kind = p.ty.pk.kind := by
    have := (constructKind_iff.mp hm).2.1
    exact congrArg KTy.kind this
  have hn : r.ty.pk.origin.name = "dynamic_origin" := by rw [h2]; rfl
  have hne : r.ty.pk.origin ≠ p.ty.pk.origin := fun e => hp (by rw [← e]; exact hn)
  have hkr : kindEquivalent p.ty.pk.kind r.ty.pk.kind = .ok true := by
    unfold kindEquivalent; rw [hk, if_pos rfl]; exact C17_reflexive _
  have hkr' : kindEquivalent r.ty.pk.kind p.ty.pk.kind = .ok true := by
    unfold kindEquivalent; rw [hk, if_pos rfl]; exact C17_reflexive _
  have hno : ∀ o : Origin, rebindOrigin R r.ty.pk.origin o.dim = some o → o.name ≠ "dynamic_origin" → r.ty.pk.origin = o := by
    intro o hro hon
    unfold rebindOrigin at hro
    split at hro
    · exact Option.some.inj hro
    · exact absurd (by rw [← Option.some.inj hro]; rfl) hon
  have he : pkindEquivalent R p.ty.pk r.ty.pk = .ok false := by
    unfold pkindEquivalent
    rw [hkr]
    simp only [ok_bind, if_true]
    unfold originEquivalent
    rw [if_neg (fun e => hne e.symm), if_neg]
    rintro ⟨-, -, h3, -⟩
    exact hne (hno _ h3 hp)
  have he' : pkindEquivalent R r.ty.pk p.ty.pk = .ok false := by
    unfold pkindEquivalent
    rw [hkr']
    simp only [ok_bind, if_true]
    unfold originEquivalent
    rw [if_neg hne, if_neg]
    rintro ⟨-, -, -, h3⟩
    exact hne (hno _ h3 hp)
  refine ⟨hne, ?_, ?_, ?_⟩
  · unfold subPks; rw [he]; rfl
  · unfold eqPks; rw [he]; rfl
  · unfold convertPk
    rw [if_neg (fun e => hne (by rw [e])), he']; rfl

theorem comparePks_ok {E : Env} {R : Rebinds} {a b : Pk} {o : Ordering} :
    comparePks E R a b = .ok o ↔ pkindEquivalent R b.ty.pk a.ty.pk = .ok true ∧
      comparableKind E a.ty.kty b.ty.kty = .ok true ∧ compareKinds E a.rel b.rel = .ok o := by
  unfold comparePks
  simp only [bind_ok]
  constructor
  · rintro ⟨e, he, h⟩
    cases e with
    | false => cases h
    | true =>
      simp only [if_true, bind_ok] at h
      obtain ⟨c, hc, h⟩ := h
      cases c with
      | false => cases h
      | true => exact ⟨he, hc, h⟩
  · rintro ⟨he, hc, h⟩
    exact ⟨true, he, by simp only [if_true, bind_ok]; exact ⟨true, hc, h⟩⟩

theorem eqPks_ok {E : Env} {R : Rebinds} {a b : Pk} {o : Bool} :
    eqPks E R a b = .ok o ↔ pkindEquivalent R b.ty.pk a.ty.pk = .ok true ∧
      comparableKind E a.ty.kty b.ty.kty = .ok true ∧ eqKinds E a.rel b.rel = .ok o := by
  unfold eqPks
  simp only [bind_ok]
  constructor
  · rintro ⟨e, he, h⟩
    cases e with
    | false => cases h
    | true =>
      simp only [if_true, bind_ok] at h
      obtain ⟨c, hc, h⟩ := h
      cases c with
      | false => cases h
      | true => exact ⟨he, hc, h⟩
  · rintro ⟨he, hc, h⟩
    exact ⟨true, he, by simp only [if_true, bind_ok]; exact ⟨true, hc, h⟩⟩

theorem subPks_eq_ok {E : Env} {R : Rebinds} {a b : Pk} {d : Kd} (h : subPks E R a b = .ok d) :
    pkindEquivalent R b.ty.pk a.ty.pk = .ok true ∧ addSubKind E .sub a.rel b.rel = .ok d := by
  unfold subPks at h
  simp only [bind_ok] at h
  obtain ⟨e, he, h⟩ := h
  cases e with
  | false => cases h
  | true => exact ⟨he, h⟩

/-- C40: points of different base kinds, or of origins that are not equivalent, do not mix. -/
theorem C40_mixing_rejected (E : Env) (R : Rebinds) (a b : Pk)
    (h : a.ty.pk.kind.base ≠ b.ty.pk.kind.base ∨ originEquivalent R b.ty.pk.origin a.ty.pk.origin ≠ .ok true) :
    (∀ d, subPks E R a b ≠ .ok d) ∧ (∀ o, comparePks E R a b ≠ .ok o) ∧ (∀ e, eqPks E R a b ≠ .ok e) := by
  have key : pkindEquivalent R b.ty.pk a.ty.pk ≠ .ok true := by
    intro he
    unfold pkindEquivalent at he
    simp only [bind_ok] at he
    obtain ⟨e, hk, he⟩ := he
    cases e with
    | false => cases he
    | true =>
      rcases h with h | h
      · exact h (kindEquivalent_base hk).1.symm
      · exact h he
  refine ⟨fun d hd => key (subPks_eq_ok hd).1, fun o ho => ?_, fun o ho => ?_⟩
  · exact key (comparePks_ok.mp ho).1
  · exact key (eqPks_ok.mp ho).1

/-- C40: points compare as their distances from the origin. -/
theorem C40_compare_partial (E : Env) (hE : E.OK) (R : Rebinds) (β : String → ℝ) (hβ : Sizes β) (a b : Pk)
    (ga : a.Good E) (gb : b.Good E) (hr : Related β a.rel.ty.qty b.rel.ty.qty) (hf : CmpFits E β a.rel.common b.rel.common) :
    (∀ o, comparePks E R a b = .ok o → (o = .lt ↔ a.pos β < b.pos β) ∧ (o = .eq ↔ a.pos β = b.pos β) ∧
      (o = .gt ↔ b.pos β < a.pos β)) ∧
    (∀ e, eqPks E R a b = .ok e → (e = true ↔ a.pos β = b.pos β)) := by
  constructor
  · intro o h
    obtain ⟨-, -, h⟩ := comparePks_ok.mp h
    exact ((C39_compare_partial E hE β hβ a.rel b.rel ga.rel gb.rel hr hf).1 o h).2
  · intro o h
    obtain ⟨-, -, h⟩ := eqPks_ok.mp h
    exact ((C39_compare_partial E hE β hβ a.rel b.rel ga.rel gb.rel hr hf).2 o h).2

/-- C40: `(p1 - p2) + p2 == p1`, whenever the comparison is accepted. -/
theorem C40_sub_add_partial (E : Env) (hE : E.OK) (R : Rebinds) (ρ : PKindReg) (hρ : ρ.OK) (β : String → ℝ) (hβ : Sizes β)
    (p1 p2 r : Pk) (d : Kd) (g1 : p1.Good E) (g2 : p2.Good E) (hr : Related β p1.rel.ty.qty p2.rel.ty.qty)
    (h : subPks E R p1 p2 = .ok d) (h' : addSubPk E ρ .add p2 d = .ok r)
    (hf : KSumFits E β .sub p1.rel p2.rel d) (hf' : KSumFits E β .add p2.rel d r.rel) :
    r.pos β = p1.pos β ∧ (CmpFits E β r.rel.common p1.rel.common → ∀ e, eqPks E R r p1 = .ok e → e = true) := by
  obtain ⟨-, hs⟩ := subPks_eq_ok h
  obtain ⟨-, d2, d3, s, -, -, -, -, d5⟩ := C39_add_sub_partial E hE β hβ .sub (Or.inr rfl) p1.rel p2.rel d g1.rel g2.rel hr hs
  have hda := d5 hf
  rw [if_neg (by simp)] at hda
  have hdd : d.ty.qty.dim = p1.rel.ty.qty.dim := by show d.ty.kind.dim = _; rw [d2]; rfl
  obtain ⟨t1, t2, -, -, t5⟩ := C40_translate_partial E hE ρ hρ β hβ .add (Or.inl rfl) p2 r d g2 d3
    (hr.symm.of_dim rfl hdd) h'
  have hpos := t5 hf'
  rw [if_pos rfl, hda] at hpos
  have hres : r.pos β = p1.pos β := by rw [hpos]; show p2.pos β + (p1.pos β - p2.pos β) = _; ring
  refine ⟨hres, fun hc e he => ?_⟩
  have hrel : Related β r.rel.ty.qty p1.rel.ty.qty := hr.symm.of_dim (by show r.ty.pk.kind.dim = _; rw [t2]; rfl) rfl
  exact ((C40_compare_partial E hE R β hβ r p1 t1 g1 hrel hc).2 e he).mpr hres

/-- C40: `p + (q + s) == (p + q) + s`. -/
theorem C40_assoc_partial (E : Env) (hE : E.OK) (R : Rebinds) (ρ : PKindReg) (hρ : ρ.OK) (β : String → ℝ) (hβ : Sizes β)
    (p pq l r : Pk) (q s qs : Kd) (gp : p.Good E) (gq : q.Good E) (gs : s.Good E)
    (hpq : Related β p.rel.ty.qty q.ty.qty) (hps : Related β p.rel.ty.qty s.ty.qty) (hqs : Related β q.ty.qty s.ty.qty)
    (h1 : addSubPk E ρ .add p q = .ok pq) (h2 : addSubPk E ρ .add pq s = .ok l)
    (h3 : addSubKind E .add q s = .ok qs) (h4 : addSubPk E ρ .add p qs = .ok r)
    (f1 : KSumFits E β .add p.rel q pq.rel) (f2 : KSumFits E β .add pq.rel s l.rel)
    (f3 : KSumFits E β .add q s qs) (f4 : KSumFits E β .add p.rel qs r.rel) :
    l.pos β = r.pos β ∧ l.ty.pk.kind = r.ty.pk.kind ∧ l.ty.pk.origin = r.ty.pk.origin ∧
      (CmpFits E β l.rel.common r.rel.common → ∀ e, eqPks E R l r = .ok e → e = true) := by
  obtain ⟨a1, a2, -, -, a5⟩ := C40_translate_partial E hE ρ hρ β hβ .add (Or.inl rfl) p pq q gp gq hpq h1
  have e1 : pq.rel.ty.qty.dim = p.rel.ty.qty.dim := by show pq.ty.pk.kind.dim = _; rw [a2]; rfl
  obtain ⟨b1, b2, -, -, b5⟩ := C40_translate_partial E hE ρ hρ β hβ .add (Or.inl rfl) pq l s a1 gs (hps.of_dim e1 rfl) h2
  obtain ⟨-, c2, c3, w, -, -, -, -, c5⟩ := C39_add_sub_partial E hE β hβ .add (Or.inl rfl) q s qs gq gs hqs h3
  have e2 : qs.ty.qty.dim = q.ty.qty.dim := by show qs.ty.kind.dim = _; rw [c2]; rfl
  obtain ⟨d1, d2, -, -, d5⟩ := C40_translate_partial E hE ρ hρ β hβ .add (Or.inl rfl) p r qs gp c3 (hpq.of_dim rfl e2) h4
  have a5 := a5 f1
  have b5 := b5 f2
  have c5 := c5 f3
  have d5 := d5 f4
  simp only [if_true] at a5 b5 c5 d5
  have hres : l.pos β = r.pos β := by rw [b5, a5, d5, c5]; ring
  have hk : l.ty.pk.kind = r.ty.pk.kind := by rw [b2, a2, d2]
  refine ⟨hres, hk, ?_, fun hc e he => ?_⟩
  · rw [(addSubPk_eq_ok hρ h2).2, (addSubPk_eq_ok hρ h4).2, hk]
  · have hrel : Related β l.rel.ty.qty r.rel.ty.qty := Related.refl (by show l.ty.pk.kind.dim = r.ty.pk.kind.dim; rw [hk])
    exact ((C40_compare_partial E hE R β hβ l r b1 d1 hrel hc).2 e he).mpr hres

/-- C40: the order on points is invariant under translation. -/
theorem C40_order_translation_partial (E : Env) (hE : E.OK) (R : Rebinds) (ρ : PKindReg) (hρ : ρ.OK) (β : String → ℝ)
    (hβ : Sizes β) (a b a' b' : Pk) (q : Kd) (o o' : Ordering) (ga : a.Good E) (gb : b.Good E) (gq : q.Good E)
    (hab : Related β a.rel.ty.qty b.rel.ty.qty) (haq : Related β a.rel.ty.qty q.ty.qty) (hbq : Related β b.rel.ty.qty q.ty.qty)
    (ha : addSubPk E ρ .add a q = .ok a') (hb : addSubPk E ρ .add b q = .ok b')
    (fa : KSumFits E β .add a.rel q a'.rel) (fb : KSumFits E β .add b.rel q b'.rel)
    (h : comparePks E R a b = .ok o) (h' : comparePks E R a' b' = .ok o')
    (fc : CmpFits E β a.rel.common b.rel.common) (fc' : CmpFits E β a'.rel.common b'.rel.common) : o' = o := by
  obtain ⟨a1, a2, -, -, a5⟩ := C40_translate_partial E hE ρ hρ β hβ .add (Or.inl rfl) a a' q ga gq haq ha
  obtain ⟨b1, b2, -, -, b5⟩ := C40_translate_partial E hE ρ hρ β hβ .add (Or.inl rfl) b b' q gb gq hbq hb
  have e1 : a'.rel.ty.qty.dim = a.rel.ty.qty.dim := by show a'.ty.pk.kind.dim = _; rw [a2]; rfl
  have e2 : b'.rel.ty.qty.dim = b.rel.ty.qty.dim := by show b'.ty.pk.kind.dim = _; rw [b2]; rfl
  have k1 := (C40_compare_partial E hE R β hβ a b ga gb hab fc).1 o h
  have k2 := (C40_compare_partial E hE R β hβ a' b' a1 b1 (hab.of_dim e1 e2) fc').1 o' h'
  have a5 := a5 fa
  have b5 := b5 fb
  simp only [if_true] at a5 b5
  rw [a5, b5] at k2
  cases o with
  | lt => exact k2.1.mpr (by linarith [k1.1.mp rfl])
  | eq => exact k2.2.1.mpr (by rw [k1.2.1.mp rfl])
  | gt => exact k2.2.2.mpr (by linarith [k1.2.2.mp rfl])

/-- C40: conversions between point kinds keep the distance from the origin, and need one base kind and
equivalent origins. -/
theorem C40_convert_partial (E : Env) (R : Rebinds) (β : String → ℝ) (hβ : Sizes β) (t : PKTy) (p r : Pk)
    (gp : p.Good E) (gt : t.kty.qty.Good E) (hco : Coherent β p.ty.pk.kind.dim t.pk.kind.dim)
    (hfl : t.rep.floating = true → FlExact E.fl) (hg : CastGuard E t.kty.qty p.rel.common) (hh : Holds β t.kty.qty (p.pos β))
    (h : convertPk E R t p = .ok r) :
    r.ty = t ∧ p.ty.pk.kind.base = t.pk.kind.base ∧ originEquivalent R p.ty.pk.origin t.pk.origin = .ok true ∧
      r.pos β = p.pos β := by
  unfold convertPk at h
  split at h
  · rename_i he
    simp only [Except.ok.injEq] at h
    subst h
    refine ⟨he, by rw [he], ?_, rfl⟩
    rw [he]; unfold originEquivalent; rw [if_pos rfl]
  · simp only [bind_ok] at h
    obtain ⟨e, he, h⟩ := h
    cases e with
    | false => cases h
    | true =>
      simp only [if_true, bind_ok, Except.ok.injEq] at h
      obtain ⟨x, hx, rfl⟩ := h
      obtain ⟨k1, k2, k3, k4⟩ := C39_convert_partial E β hβ t.kty p.rel x gp.rel gt hco hfl hg hh hx
      have e : (⟨t, x.num⟩ : Pk).rel = x := by unfold Pk.rel; rw [← k1]
      unfold pkindEquivalent at he
      simp only [bind_ok] at he
      obtain ⟨b, -, he⟩ := he
      cases b with
      | false => cases he
      | true => exact ⟨rfl, k2, he, by unfold Pk.pos; rw [e]; exact k4⟩

/-- C40: `p += q` and `p -= q` move the point by the amount, also for static origins. -/
theorem C40_assign_partial (E : Env) (β : String → ℝ) (hβ : Sizes β) (op : BinOp) (hop : op = .add ∨ op = .sub)
    (p r : Pk) (k : Kd) (gp : p.Good E) (gk : k.Good E) (hco : Coherent β k.ty.kind.dim p.ty.pk.kind.dim)
    (hfl : p.ty.rep.floating = true → FlExact E.fl) (hg : CastGuard E p.ty.kty.qty k.common)
    (hq : Holds β p.ty.kty.qty (k.amount β))
    (hs : Holds β p.ty.kty.qty (if op = .add then p.pos β + k.amount β else p.pos β - k.amount β))
    (h : assignPk E op p k = .ok r) :
    r.ty = p.ty ∧ p.ty.pk.kind.base = k.ty.kind.base ∧
      r.pos β = if op = .add then p.pos β + k.amount β else p.pos β - k.amount β := by
  unfold assignPk at h
  simp only [bind_ok, Except.ok.injEq] at h
  obtain ⟨k', hk', x, hx, rfl⟩ := h
  obtain ⟨t1, t2, t3, t4⟩ := C39_convert_partial E β hβ p.ty.kty k k' gk gp.rel.common.ty hco hfl hg hq hk'
  have hx' : assignKind E op p.rel k = .ok x := by
    unfold assignKind at hx ⊢
    have e1 : convertKind E p.rel.ty k' = .ok k' := by unfold convertKind; rw [if_pos (show k'.ty = p.rel.ty from t1)]
    have e2 : convertKind E p.rel.ty k = .ok k' := hk'
    rw [e1] at hx; rw [e2]; exact hx
  obtain ⟨m1, m2, m3, m4⟩ := C39_assign_partial E β hβ op hop p.rel k x gp.rel gk hco hfl hg hq hs hx'
  have e : (⟨p.ty, x.num⟩ : Pk).rel = x := by unfold Pk.rel; rw [show p.ty.kty = x.ty from m1.symm]
  exact ⟨rfl, m2, by unfold Pk.pos; rw [e]; exact m4⟩

/-! ### Examples -/

def exScreen : Origin := ⟨"screen_origin", .base exL⟩
def exX : PKind := ⟨some "x_coordinate_kind", exWidth, dynamicOrigin (.base exL)⟩
def exScreenX : PKind := ⟨some "screen_x", exWidth, exScreen⟩

def exPKinds : PKindReg := fun k o =>
  if k = exWidth ∧ o = dynamicOrigin (.base exL) then some exX
  else if k = exWidth ∧ o = exScreen then some exScreenX
  else none

theorem exPKinds_ok : exPKinds.OK := by
  intro k o p h
  unfold exPKinds at h
  split at h
  · rename_i hc; cases h; exact ⟨hc.1.symm, hc.2.symm⟩
  · split at h
    · rename_i hc; cases h; exact ⟨hc.1.symm, hc.2.symm⟩
    · cases h

/-- A coordinate with a dynamic origin moves, and the difference gives the width back; on the screen the
difference is rejected. -/
example :
    addSubPk exEnv exPKinds .add ⟨⟨exX, exKm, .int .i32⟩, .i 2⟩ ⟨⟨exWidth, exCmUnit, .int .i64⟩, .i 5⟩ =
      .ok ⟨⟨exX, exCmUnit, .int .i64⟩, .i 200005⟩ ∧
    subPks exEnv exScreenRebind ⟨⟨exX, exCmUnit, .int .i64⟩, .i 200005⟩ ⟨⟨exX, exKm, .int .i32⟩, .i 2⟩ =
      .ok ⟨⟨exWidth, exCmUnit, .int .i64⟩, .i 5⟩ ∧
    addSubPk exEnv exPKinds .add ⟨⟨exScreenX, exKm, .int .i32⟩, .i 2⟩ ⟨⟨exWidth, exCmUnit, .int .i64⟩, .i 5⟩ =
      .ok ⟨⟨exX, exCmUnit, .int .i64⟩, .i 200005⟩ ∧
    subPks exEnv exScreenRebind ⟨⟨exX, exCmUnit, .int .i64⟩, .i 200005⟩ ⟨⟨exScreenX, exKm, .int .i32⟩, .i 2⟩ =
      .error .rejected ∧
    comparePks exEnv exScreenRebind ⟨⟨exScreenX, exCmUnit, .int .i64⟩, .i 200005⟩ ⟨⟨exScreenX, exKm, .int .i32⟩, .i 2⟩ = .ok .gt ∧
    assignPk exEnv .add ⟨⟨exScreenX, exMetre, .int .i32⟩, .i 2⟩ ⟨⟨exWidth, exKm, .int .i64⟩, .i 5⟩ =
      .ok ⟨⟨exScreenX, exMetre, .int .i32⟩, .i 5002⟩ ∧
    convertPk exEnv exScreenRebind ⟨exScreenX, exMetre, .int .i32⟩ ⟨⟨exScreenX, exKm, .int .i64⟩, .i 5⟩ =
      .ok ⟨⟨exScreenX, exMetre, .int .i32⟩, .i 5000⟩ := by
  decide +kernel

/-! ## C41 -/

/-- The parts of the specification can be used to name a type. -/
def KindSpec.Good (E : Env) : KindSpec → Prop
  | .type t => t.qty.Good E
  | .kind K => K.dim.Good ∧ K.dim.Rooted E.est
  | .qty s => s.Good E
  | .kindUnit K u => K.dim.Good ∧ K.dim.Rooted E.est ∧ u.WF

/-- What a cast of kinds may change, without the functions of the model: a cast to anything but a kind keeps
the kind (and with it the dimension), and changes the unit and representation as `quantity_cast` does. -/
def KindSpec.Changes : KindSpec → KTy → KTy → Prop
  | .type t', _, t => t = t'
  | .kind K, s, t => t.kind = K ∧ t.unit = s.unit ∧ t.rep = s.rep
  | .qty c, s, t => t.kind = s.kind ∧ ∃ d, c.Changes s.qty ⟨d, t.unit, t.rep⟩
  | .kindUnit K u, s, t => t.kind = K ∧ t.unit = u ∧ t.rep = s.rep

/-- The conditions under which a conversion from `q` to `t` keeps the amount. -/
structure Keeps (E : Env) (β : String → ℝ) (t : QTy) (q : Qty) : Prop where
  coherent : Coherent β q.ty.dim t.dim
  exact : q.ty.rep.floating = true ∨ t.rep.floating = true → FlExact E.fl
  guard : CastGuard E t q
  holds : Holds β t (q.amount β)

theorem constructKind_typed {E : Env} {t : KTy} {q : Qty} {k : Kd} (hq : q.num.Typed q.ty.rep)
    (h : constructKind E t q = .ok k) : k.ty = t ∧ k.num.Typed k.ty.rep := by
  obtain ⟨-, h2, h3⟩ := constructKind_iff.mp h
  refine ⟨h2, ?_⟩
  rw [h2]
  rcases convertQty_cases h3 with ⟨he, hk⟩ | ⟨-, -, hc⟩
  · have : k.num = q.num := by rw [← hk]; rfl
    rw [this]; have := hq; rw [he] at this; exact this
  · obtain ⟨-, c, n, -, hn, he⟩ := quantityCast_eq_ok hc
    have e : k.num = n := congrArg Qty.num he
    rw [e]; exact castNum_typed hn

theorem constructKind_exact {E : Env} {β : String → ℝ} (hβ : Sizes β) {t : KTy} {q : Qty} {k : Kd} (gq : q.Good E)
    (gt : t.qty.Good E) (hk : Keeps E β t.qty q) (h : constructKind E t q = .ok k) : k.amount β = q.amount β := by
  obtain ⟨-, -, h3⟩ := constructKind_iff.mp h
  exact (convertQty_exact hβ gq.ty gt hk.coherent gq.num (fun hf => hk.exact (Or.inr hf)) hk.guard hk.holds h3).2.2

/-- C41: a cast of a kind changes only what the specification names.  Its amount is that of the argument when
the types on the way hold it; and a cast to a type of kinds or to a kind and a unit gives exactly the number
of the corresponding `quantity_cast`. -/
theorem C41_kind_cast_partial (E : Env) (hE : E.OK) (β : String → ℝ) (hβ : Sizes β) (s : KindSpec) (k r : Kd)
    (hs : s.Good E) (gk : k.Good E) (h : kindCast E s k = .ok r) :
    r.Good E ∧ s.Changes k.ty r.ty ∧
      (∀ t, s = .type t → quantityCast E t.qty k.common = .ok r.common) ∧
      (∀ K u, s = .kindUnit K u → quantityCast E ⟨K.dim, u, k.ty.rep⟩ k.common = .ok r.common) ∧
      (∀ K, s = .kind K → K.dim = k.ty.kind.dim → r.num = k.num) ∧
      (∀ c, s = .qty c → ∃ x, quantityCastBy E c k.common = .ok x ∧ (x.ty.dim = k.ty.kind.dim → r.common = x) ∧
        (Keeps E β x.ty k.common → Keeps E β r.ty.qty x → r.amount β = k.amount β)) ∧
      ((∀ c, s ≠ .qty c) → Keeps E β r.ty.qty k.common → r.amount β = k.amount β) := by
  have typeCase : ∀ (t : KTy), t.qty.Good E → (do let x ← quantityCast E t.qty k.common; constructKind E t x) = .ok r →
      r.Good E ∧ r.ty = t ∧ quantityCast E t.qty k.common = .ok r.common ∧
        (Keeps E β r.ty.qty k.common → r.amount β = k.amount β) := by
    intro t gt h
    simp only [bind_ok] at h
    obtain ⟨x, hx, h⟩ := h
    have ety : x.ty = t.qty := by obtain ⟨-, c, n, -, -, rfl⟩ := quantityCast_eq_ok hx; rfl
    have etyped : x.num.Typed t.rep := by obtain ⟨-, c, n, -, hn, rfl⟩ := quantityCast_eq_ok hx; exact castNum_typed hn
    obtain ⟨h1, h2, h3⟩ := constructKind_iff.mp h
    rw [← ety, convertQty_self] at h3
    have hx' : r.common = x := (Except.ok.inj h3).symm
    have hn : r.num = x.num := by rw [← hx']; rfl
    refine ⟨⟨by show r.ty.qty.Good E; rw [h2]; exact gt, by show r.num.Typed r.ty.rep; rw [h2, hn]; exact etyped⟩, h2,
      by rw [hx']; exact hx, fun hk => ?_⟩
    unfold Kd.amount
    rw [hx']
    rw [h2] at hk
    exact (quantityCast_exact hβ gk.common.ty gt hk.coherent gk.common.num hk.exact hk.guard hk.holds hx).2.2
  cases s with
  | type t =>
    obtain ⟨h1, h2, h3, h4⟩ := typeCase t hs h
    refine ⟨h1, h2, fun t' e => ?_, (fun _ _ e => nomatch e), (fun _ e => nomatch e), (fun _ e => nomatch e), fun _ => h4⟩
    cases e; exact h3
  | kind K =>
    unfold kindCast at h
    obtain ⟨h1, h2, h3⟩ := constructKind_iff.mp h
    have gt : KTy.qty ⟨K, k.ty.unit, k.ty.rep⟩ |>.Good E := ⟨hs.1, gk.common.ty.unit, h1, hs.2⟩
    obtain ⟨-, hn⟩ := constructKind_typed gk.common.num h
    refine ⟨⟨⟨by show r.ty.qty.Good E; rw [h2]; exact gt, hn⟩⟩, ⟨by rw [h2], by rw [h2], by rw [h2]⟩, (fun _ e => nomatch e),
      (fun _ _ e => nomatch e), fun K' e hd => ?_, (fun _ e => nomatch e), fun _ hk => ?_⟩
    · cases e
      have : KTy.qty ⟨K, k.ty.unit, k.ty.rep⟩ = k.common.ty := by
        unfold KTy.qty; simp only [hd]; rfl
      rw [this, convertQty_self] at h3
      have e : r.common = k.common := (Except.ok.inj h3).symm
      exact congrArg Qty.num e
    · have hk' : Keeps E β (KTy.qty ⟨K, k.ty.unit, k.ty.rep⟩) k.common := by rw [← h2]; exact hk
      exact constructKind_exact hβ gk.common gt hk' h
  | qty c =>
    unfold kindCast at h
    simp only [bind_ok] at h
    obtain ⟨x, hx, h⟩ := h
    obtain ⟨q1, q2, q3, q4⟩ := C38_quantity_cast_spec_partial E hE β hβ c k.common x hs gk.common hx
    obtain ⟨m1, m2, -, m4, m5⟩ := makeKind_exact hβ h
    obtain ⟨m6, m7⟩ := m5 ⟨q1, q3⟩ gk.common.ty.dim gk.common.ty.rooted
    refine ⟨m6, ⟨by rw [m1], x.ty.dim, by rw [m1]; exact q2⟩, (fun _ e => nomatch e), (fun _ _ e => nomatch e),
      (fun _ e => nomatch e), fun c' e => ?_, fun hn => absurd rfl (hn c)⟩
    cases e
    refine ⟨x, hx, m4, fun k1 k2 => ?_⟩
    have hd : r.ty.qty.dim = k.ty.kind.dim := by show r.ty.kind.dim = _; rw [m1]
    rw [m7 (by rw [← hd]; exact k2.coherent) (fun hf => k2.exact (Or.inl hf)) k2.guard k2.holds,
      q4 k1.coherent k1.exact k1.guard k1.holds]
    rfl
  | kindUnit K u =>
    unfold kindCast at h
    simp only [bind_ok] at h
    obtain ⟨b, -, h⟩ := h
    split at h
    · rename_i hc
      obtain ⟨h1, h2, h3, h4⟩ := typeCase ⟨K, u, k.ty.rep⟩ ⟨hs.1, hs.2.2, hc.2, hs.2.1⟩ h
      refine ⟨h1, ⟨by rw [h2], by rw [h2], by rw [h2]⟩, (fun _ e => nomatch e), fun K' u' e => ?_, (fun _ e => nomatch e),
        (fun _ e => nomatch e), fun _ => h4⟩
      cases e; exact h3
    · cases h

/-- Casts of a width. -/
example :
    kindCast exEnv (.kind exHeight) ⟨⟨exWidth, exKm, .int .i32⟩, .i 2⟩ = .ok ⟨⟨exHeight, exKm, .int .i32⟩, .i 2⟩ ∧
    kindCast exEnv (.type ⟨exHeight, exMetre, .int .i64⟩) ⟨⟨exWidth, exCmUnit, .int .i32⟩, .i 278⟩ =
      .ok ⟨⟨exHeight, exMetre, .int .i64⟩, .i 2⟩ ∧
    kindCast exEnv (.qty (.unit exMetre)) ⟨⟨exWidth, exKm, .int .i32⟩, .i 2⟩ = .ok ⟨⟨exWidth, exMetre, .int .i32⟩, .i 2000⟩ ∧
    kindCast exEnv (.qty (.rep (.int .i8))) ⟨⟨exWidth, exKm, .int .i32⟩, .i 2⟩ = .ok ⟨⟨exWidth, exKm, .int .i8⟩, .i 2⟩ ∧
    kindCast exEnv (.qty (.dim (.base exLcgs))) ⟨⟨exWidth, exCmUnit, .int .i32⟩, .i 2⟩ = .ok ⟨⟨exWidth, exCmUnit, .int .i32⟩, .i 2⟩ ∧
    kindCast exEnv (.kindUnit exHeight exMetre) ⟨⟨exWidthCgs, exCmUnit, .int .i32⟩, .i 500⟩ =
      .ok ⟨⟨exHeight, exMetre, .int .i32⟩, .i 5⟩ := by
  decide +kernel

theorem pkCast_castTo {E : Env} {R : Rebinds} {p r : Pk} {t : PKTy} (h : pkCast.castTo E R p t = .ok r) :
    originEquivalent R p.ty.pk.origin t.pk.origin = .ok true ∧ r.ty = t ∧ kindCast E (.type t.kty) p.rel = .ok r.rel := by
  unfold pkCast.castTo at h
  simp only [bind_ok] at h
  obtain ⟨e, he, h⟩ := h
  cases e with
  | false => cases h
  | true =>
    simp only [if_true, bind_ok] at h
    obtain ⟨x, hx, h⟩ := h
    have ety : x.ty = t.kty := by
      unfold kindCast at hx
      simp only [bind_ok] at hx
      obtain ⟨y, -, hx⟩ := hx
      exact (constructKind_iff.mp hx).2.1
    unfold constructPkKind convertKind at h
    rw [if_pos ety] at h
    simp only [ok_bind, Except.ok.injEq] at h
    subst h
    refine ⟨he, rfl, ?_⟩
    have : (⟨t, x.num⟩ : Pk).rel = x := by unfold Pk.rel; rw [← ety]
    rw [this]; exact hx

/-- The cast of the relative kind that a cast of a point kind performs. -/
def PkSpec.onKind (p : Pk) : PkSpec → KindSpec
  | .type t => .type t.kty
  | .pkind k => .kind k.kind
  | .kind s => s
  | .pkindUnit k u => .type ⟨k.kind, u, p.ty.rep⟩

/-- C41: a cast of a point kind is where the cast of its relative kind is (for which see
`C41_kind_cast_partial`); a cast to a type of point kinds, or to a point kind and a unit, has the origin
named, which must be equivalent to that of the argument, and any other cast has a dynamic origin. -/
theorem C41_point_kind_cast_partial (E : Env) (R : Rebinds) (ρ : PKindReg) (hρ : ρ.OK) (s : PkSpec) (p r : Pk)
    (h : pkCast E R ρ s p = .ok r) :
    kindCast E (s.onKind p) p.rel = .ok r.rel ∧
      (∀ t, s = .type t → r.ty = t ∧ originEquivalent R p.ty.pk.origin t.pk.origin = .ok true) ∧
      (∀ k u, s = .pkindUnit k u → r.ty = ⟨k, u, p.ty.rep⟩ ∧ originEquivalent R p.ty.pk.origin k.origin = .ok true) ∧
      ((∀ t, s ≠ .type t) → (∀ k u, s ≠ .pkindUnit k u) → r.ty.pk.origin = dynamicOrigin r.ty.pk.kind.dim) := by
  have ded : ∀ k : Kd, (deducePk ρ k).rel = k ∧ (deducePk ρ k).ty.pk.origin = dynamicOrigin (deducePk ρ k).ty.pk.kind.dim := by
    intro k
    obtain ⟨h1, h2⟩ := deducePk_sound hρ k
    have h3 : (deducePk ρ k).ty.pk.kind = k.ty.kind := by
      have : (deducePk ρ k).rel.ty.kind = k.ty.kind := by rw [h1]
      exact this
    exact ⟨h1, by rw [h2, h3]⟩
  cases s with
  | type t =>
    obtain ⟨h1, h2, h3⟩ := pkCast_castTo (t := t) h
    exact ⟨h3, fun t' e => by cases e; exact ⟨h2, h1⟩, (fun _ _ e => nomatch e), fun hn => absurd rfl (hn t)⟩
  | pkind k =>
    simp only [pkCast] at h
    split at h
    · simp only [bind_ok, Except.ok.injEq] at h
      obtain ⟨x, hx, rfl⟩ := h
      obtain ⟨d1, d2⟩ := ded x
      exact ⟨by rw [d1]; exact hx, (fun _ e => nomatch e), (fun _ _ e => nomatch e), fun _ _ => d2⟩
    · cases h
  | kind c =>
    simp only [pkCast, bind_ok, Except.ok.injEq] at h
    obtain ⟨x, hx, rfl⟩ := h
    obtain ⟨d1, d2⟩ := ded x
    exact ⟨by rw [d1]; exact hx, (fun _ e => nomatch e), (fun _ _ e => nomatch e), fun _ _ => d2⟩
  | pkindUnit k u =>
    simp only [pkCast, bind_ok] at h
    obtain ⟨b, -, h⟩ := h
    split at h
    · obtain ⟨h1, h2, h3⟩ := pkCast_castTo h
      exact ⟨h3, (fun _ e => nomatch e), fun k' u' e => by cases e; exact ⟨h2, h1⟩, fun _ hn => absurd rfl (hn k u)⟩
    · cases h

/-- C41: a cast of a point kind with a dynamic origin to a unit or a representation keeps the origin and the
kind. -/
theorem C41_point_origin_partial (E : Env) (hE : E.OK) (R : Rebinds) (ρ : PKindReg) (hρ : ρ.OK) (c : CastSpec) (p r : Pk)
    (hc : c.Good E) (gp : p.Good E) (hp : p.ty.pk.origin = dynamicOrigin p.ty.pk.kind.dim)
    (h : pkCast E R ρ (.kind (.qty c)) p = .ok r) :
    r.ty.pk.kind = p.ty.pk.kind ∧ r.ty.pk.origin = p.ty.pk.origin := by
  obtain ⟨h1, -, -, h2⟩ := C41_point_kind_cast_partial E R ρ hρ _ p r h
  obtain ⟨-, h3, -⟩ := C41_kind_cast_partial E hE (fun _ => 1) (fun _ => one_pos) (.qty c) p.rel r.rel hc gp.rel h1
  have hk : r.ty.pk.kind = p.ty.pk.kind := h3.1
  refine ⟨hk, ?_⟩
  rw [h2 (fun _ e => nomatch e) (fun _ _ e => nomatch e), hp, hk]

/-- C41 fails for other origins: a cast to a unit, a representation, a quantity, a kind or a point kind turns
every origin into a dynamic one. -/
theorem C41_static_origin_lost (E : Env) (R : Rebinds) (ρ : PKindReg) (hρ : ρ.OK) (s : PkSpec) (p r : Pk)
    (hs : (∀ t, s ≠ .type t) ∧ ∀ k u, s ≠ .pkindUnit k u) (hp : p.ty.pk.origin.name ≠ "dynamic_origin")
    (h : pkCast E R ρ s p = .ok r) : r.ty.pk.origin ≠ p.ty.pk.origin ∧ eqPks E R p r ≠ .ok true := by
  obtain ⟨-, -, -, h2⟩ := C41_point_kind_cast_partial E R ρ hρ s p r h
  have ho := h2 hs.1 hs.2
  have hn : r.ty.pk.origin.name = "dynamic_origin" := by rw [ho]; rfl
  refine ⟨fun e => hp (by rw [← e]; exact hn), fun he => ?_⟩
  refine (C40_mixing_rejected E R p r (Or.inr fun hq => ?_)).2.2 _ he
  have := (C37_equivalent_origins R _ _ hq).2.2.1 hn
  exact hp (by rw [this]; rfl)

/-- A coordinate on the screen, cast to metres, to another representation, and to the point kind that it
already has: the origin is lost.  A cast to its own type keeps it. -/
example :
    pkCast exEnv exScreenRebind exPKinds (.kind (.qty (.unit exMetre))) ⟨⟨exScreenX, exKm, .int .i32⟩, .i 2⟩ =
      .ok ⟨⟨exX, exMetre, .int .i32⟩, .i 2000⟩ ∧
    pkCast exEnv exScreenRebind exPKinds (.kind (.qty (.rep (.int .i64)))) ⟨⟨exScreenX, exKm, .int .i32⟩, .i 2⟩ =
      .ok ⟨⟨exX, exKm, .int .i64⟩, .i 2⟩ ∧
    pkCast exEnv exScreenRebind exPKinds (.pkind exScreenX) ⟨⟨exScreenX, exKm, .int .i32⟩, .i 2⟩ =
      .ok ⟨⟨exX, exKm, .int .i32⟩, .i 2⟩ ∧
    pkCast exEnv exScreenRebind exPKinds (.type ⟨exScreenX, exMetre, .int .i32⟩) ⟨⟨exScreenX, exKm, .int .i32⟩, .i 2⟩ =
      .ok ⟨⟨exScreenX, exMetre, .int .i32⟩, .i 2000⟩ ∧
    pkCast exEnv exScreenRebind exPKinds (.pkindUnit exScreenX exMetre) ⟨⟨exScreenX, exKm, .int .i32⟩, .i 2⟩ =
      .ok ⟨⟨exScreenX, exMetre, .int .i32⟩, .i 2000⟩ ∧
    pkCast exEnv exScreenRebind exPKinds (.kind (.qty (.unit exMetre))) ⟨⟨exX, exKm, .int .i32⟩, .i 2⟩ =
      .ok ⟨⟨exX, exMetre, .int .i32⟩, .i 2000⟩ := by
  decide +kernel

end Verif
