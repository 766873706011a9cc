import Verif.Props.KindProps

set_option Elab.async false

/-!
# When points and kinds may be compared (C71)
-/

namespace Verif

/-! ### The common reference type -/

theorem convertibleTo_self {α : Type} [DecidableEq α] (conv : α → α → C Bool) (a : α) : convertibleTo conv a a = .ok true := by
  unfold convertibleTo; rw [if_pos rfl]

/-- What `std::common_reference_with` evaluates to. -/
theorem commonRefWith_ok {α : Type} [DecidableEq α] {conv : α → α → C Bool} {common : α → α → C (Option α)} {a b : α} {c : Bool}
    (hne : a ≠ b) (h : commonRefWith conv common a b = .ok c) :
    ∃ ab ba, conv a b = .ok ab ∧ conv b a = .ok ba ∧ (ab ≠ ba → c = true) ∧
      (ab = ba → ∃ x y, common a b = .ok x ∧ common b a = .ok y ∧
        ((∀ t, x = some t → y ≠ some t) → c = false) ∧
        (∀ t, x = some t → y = some t → ∃ p q, convertibleTo conv a t = .ok p ∧ convertibleTo conv b t = .ok q ∧ c = (p && q))) := by
  unfold commonRefWith commonRef at h
  rw [if_neg hne, if_neg (fun e => hne e.symm)] at h
  simp only [bind_ok] at h
  obtain ⟨x, ⟨ab, hab, ba, hba, hx⟩, y, ⟨ba', hba', ab', hab', hy⟩, h⟩ := h
  rw [hab] at hab'; rw [hba] at hba'
  simp only [Except.ok.injEq] at hab' hba'
  subst hab'; subst hba'
  refine ⟨ab, ba, hab, hba, fun hxor => ?_, fun heq => ?_⟩
  · cases ab <;> cases ba <;> simp at hxor hx hy <;> subst hx <;> subst hy <;>
      · simp only [if_true, bind_ok, Except.ok.injEq] at h
        obtain ⟨p, hp, q, hq, h⟩ := h
        unfold convertibleTo at hp hq
        simp_all
  · subst heq
    have hx : common a b = .ok x := by cases ab <;> simpa using hx
    have hy : common b a = .ok y := by cases ab <;> simpa using hy
    refine ⟨x, y, hx, hy, fun hn => ?_, ?_⟩
    · cases x with
      | none => simpa using h.symm
      | some t =>
        cases y with
        | none => simpa using h.symm
        | some s =>
          have : t ≠ s := fun e => hn t rfl (by rw [e])
          simp only [if_neg this, Except.ok.injEq] at h
          exact h.symm
    · rintro t rfl rfl
      simp only [if_true, bind_ok, Except.ok.injEq] at h
      obtain ⟨p, hp, q, hq, h⟩ := h
      exact ⟨p, q, hp, hq, h.symm⟩

theorem commonRefWith_symm {α : Type} [DecidableEq α] {conv : α → α → C Bool} {common : α → α → C (Option α)} {a b : α} {c : Bool}
    (h : commonRefWith conv common a b = .ok c) : commonRefWith conv common b a = .ok c := by
  unfold commonRefWith at h ⊢
  simp only [bind_ok] at h ⊢
  obtain ⟨x, hx, y, hy, h⟩ := h
  refine ⟨y, hy, x, hx, ?_⟩
  cases x with
  | none => cases y <;> exact h
  | some t =>
    cases y with
    | none => exact h
    | some s =>
      by_cases he : t = s
      · subst he
        simp only [if_true, bind_ok, Except.ok.injEq] at h ⊢
        obtain ⟨p, hp, q, hq, h⟩ := h
        exact ⟨q, hq, p, hp, by rw [Bool.and_comm]; exact h⟩
      · simp only [if_neg he] at h
        simp only [if_neg (fun e => he e.symm : ¬ s = t)]
        exact h

/-! ### The common unit in both orders -/

theorem Rep.common_comm (a b : Rep) : a.common b = b.common a := by
  cases a <;> cases b <;> rename_i x y <;> cases x <;> cases y <;> rfl

theorem Rep.common_int {a b : Rep} (h : (a.common b).floating = false) : a.floating = false ∧ b.floating = false := by
  cases a <;> cases b <;> rename_i x y <;> cases x <;> cases y <;> first | exact ⟨rfl, rfl⟩ | cases h

/-- Which dimension the common quantity has. -/
theorem commonUnit_dim {est : RootEstimate} {Υ : UnitReg} {d1 d2 d : Dim} {u1 u2 u : MUnit}
    (h : commonUnit est Υ d1 u1 d2 u2 = .ok (d, u)) :
    d = d1 ∨ (d = d2 ∧ d1.unit.ref ≠ d2.unit.ref ∧ ∃ es, d1 = .unknown es) := by
  unfold commonUnit at h
  split at h
  · simp only [Except.ok.injEq, Prod.mk.injEq] at h; exact Or.inl h.1.symm
  · split at h
    · simp only [bind_ok, Except.ok.injEq, Prod.mk.injEq] at h
      obtain ⟨-, -, -, -, h, -⟩ := h
      exact Or.inl h.symm
    · rename_i hs
      simp only [bind_ok, Except.ok.injEq, Prod.mk.injEq] at h
      obtain ⟨-, -, -, -, -, -, -, -, -, -, -, -, -, -, -, -, h, -⟩ := h
      cases d1 with
      | base b => exact Or.inl h.symm
      | named n => exact Or.inl h.symm
      | unknown es =>
        refine Or.inr ⟨h.symm, fun e => hs (Or.inr ?_), es, rfl⟩
        unfold sameUnitReference; simp [e]

/-- ... and conversely. -/
theorem commonUnit_dim_unknown {est : RootEstimate} {Υ : UnitReg} {es : List Exp} {d2 d : Dim} {u1 u2 u : MUnit}
    (hr : (Dim.unknown es).unit.ref ≠ d2.unit.ref) (h : commonUnit est Υ (.unknown es) u1 d2 u2 = .ok (d, u)) : d = d2 := by
  unfold commonUnit at h
  have hd : Dim.unknown es ≠ d2 := fun e => hr (by rw [e])
  rw [if_neg (fun e => hd e.1), if_neg (by
    rintro (e | e)
    · exact hd e
    · unfold sameUnitReference at e; exact hr (by simpa using e))] at h
  simp only [bind_ok, Except.ok.injEq, Prod.mk.injEq] at h
  obtain ⟨-, -, -, -, -, -, -, -, -, -, -, -, -, -, -, -, h, -⟩ := h
  exact h.symm

/-- The common unit does not depend on the order, if the dimension does not. -/
theorem commonUnit_symm {est : RootEstimate} {Υ : UnitReg} {d1 d2 d : Dim} {u1 u2 u u' : MUnit}
    (h : commonUnit est Υ d1 u1 d2 u2 = .ok (d, u)) (h' : commonUnit est Υ d2 u2 d1 u1 = .ok (d, u')) : u = u' := by
  unfold commonUnit at h h'
  by_cases hs : d1 = d2 ∧ u1 = u2
  · rw [if_pos hs] at h; rw [if_pos ⟨hs.1.symm, hs.2.symm⟩] at h'
    simp only [Except.ok.injEq, Prod.mk.injEq] at h h'
    rw [← h.2, ← h'.2, hs.2]
  · rw [if_neg hs] at h; rw [if_neg (fun e => hs ⟨e.1.symm, e.2.symm⟩)] at h'
    have hsym : sameUnitReference d2.unit d1.unit = sameUnitReference d1.unit d2.unit := by
      unfold sameUnitReference; exact Bool.beq_comm
    by_cases hr : d1 = d2 ∨ sameUnitReference d1.unit d2.unit = true
    · rw [if_pos hr] at h
      rw [if_pos (hr.imp Eq.symm (fun e => by rw [hsym]; exact e))] at h'
      simp only [bind_ok, Except.ok.injEq, Prod.mk.injEq] at h h'
      obtain ⟨r, hc, v, hv, hd, rfl⟩ := h
      obtain ⟨r', hc', v', hv', hd', rfl⟩ := h'
      rw [common_symm hc hc', hd, ← hd', hv'] at hv
      simpa using hv.symm
    · rw [if_neg hr] at h
      rw [if_neg (fun e => hr (e.imp Eq.symm (fun e => by rw [← hsym]; exact e)))] at h'
      simp only [bind_ok, Except.ok.injEq, Prod.mk.injEq] at h h'
      obtain ⟨b1, hb1, r1, hr1, b2, hb2, r2, hr2, cr, hcr, b, hb, x, hx, v, hv, hd, rfl⟩ := h
      obtain ⟨c2, hc2, s2, hs2, c1, hc1, s1, hs1, cr', hcr', b', hb', x', hx', v', hv', hd', rfl⟩ := h'
      rw [hb1] at hc1; rw [hb2] at hc2
      simp only [Except.ok.injEq] at hc1 hc2
      subst hc1; subst hc2
      rw [hr1] at hs1; rw [hr2] at hs2
      simp only [Except.ok.injEq] at hs1 hs2
      subst hs1; subst hs2
      have := common_symm hcr hcr'
      subst this
      rw [hd] at hb hv; rw [hd'] at hb' hv'
      rw [hb] at hb'
      simp only [Except.ok.injEq] at hb'
      subst hb'
      rw [hx] at hx'
      simp only [Except.ok.injEq] at hx'
      subst hx'
      rw [hv] at hv'
      simpa using hv'

/-! ### Both types convert to their common type -/

/-- An integral target accepts every integral multiple. -/
theorem safeCastable_multiple {E : Env} {β : String → ℝ} (hβ : Sizes β) {s t : QTy} {c : Bool} (g1 : s.Good E) (g2 : t.Good E)
    (hs : s.rep.floating = false) (ht : t.rep.floating = false) (heq : dimEquivalent t.dim s.dim = .ok true)
    (hk : ∃ k : ℤ, s.size β = k * t.size β) (h : safeCastable E s t = .ok c) : c = true := by
  unfold safeCastable at h
  rw [heq] at h
  simp only [ok_bind, if_true, ht, hs, Bool.false_eq_true, if_false] at h
  unfold harmonic at h
  simp only [bind_ok] at h
  obtain ⟨r1, h1, r2, h2, x, hx, hi⟩ := h
  obtain ⟨es1, e1, hw1⟩ := g1.dim.exps
  obtain ⟨es2, e2, hw2⟩ := g2.dim.exps
  obtain ⟨w1, p1, s1⟩ := quantityRatio_sound hβ g1.dim g1.rooted g1.unit e1 h1
  obtain ⟨w2, p2, s2⟩ := quantityRatio_sound hβ g2.dim g2.rooted g2.unit e2 h2
  obtain ⟨w, v, -⟩ := div_sound w1 w2 hx
  have hxp : 0 < x.val := by rw [v]; exact div_pos p1 p2
  have href : refSize β es1 = refSize β es2 := refSize_congr β (dimEquivalent_eq_ok e1 e2 (C17_symmetric _ _ heq))
  refine ((isIntegral_eq_ok w (w.val_pos.mp hxp)).mp hi).mpr ?_
  obtain ⟨k, hk⟩ := hk
  refine ⟨k, ?_⟩
  unfold QTy.size at hk
  rw [s1, s2, href] at hk
  have hp := refSize_pos hβ es2
  have h3 : (r1.val : ℝ) = k * r2.val := mul_right_cancel₀ hp.ne' (by rw [hk]; ring)
  have h4 : r1.val = k * r2.val := by exact_mod_cast h3
  rw [v, h4]; field_simp

theorem commonQty_convertible {E : Env} (hE : E.OK) {β : String → ℝ} (hβ : Sizes β) {a b t : QTy} {p q : Bool} (ga : a.Good E) (gb : b.Good E)
    (hr : Related β a b) (h : commonQty E a b (a.rep.common b.rep) = .ok t)
    (hp : convertibleTo (safeCastable E) a t = .ok p) (hq : convertibleTo (safeCastable E) b t = .ok q) : p = true ∧ q = true := by
  obtain ⟨gt, htr, hd, hc, -, -⟩ := commonQty_sound hE hβ ga gb hr h
  have e1 : dimEquivalent t.dim a.dim = .ok true := by
    rcases hd with e | e <;> rw [e]
    · exact C17_reflexive _
    · exact C17_symmetric _ _ hr.equiv
  have e2 : dimEquivalent t.dim b.dim = .ok true := by
    rcases hd with e | e <;> rw [e]
    · exact hr.equiv
    · exact C17_reflexive _
  have key : ∀ (s : QTy) (c : Bool), s.Good E → dimEquivalent t.dim s.dim = .ok true → (∃ k : ℤ, s.size β = k * t.size β) →
      (t.rep.floating = false → s.rep.floating = false) → convertibleTo (safeCastable E) s t = .ok c → c = true := by
    intro s c gs he hk hf h
    unfold convertibleTo at h
    split at h
    · simpa using h.symm
    · cases ht : t.rep.floating with
      | true =>
        unfold safeCastable at h
        rw [he, ht] at h
        simpa [ok_bind] using h.symm
      | false => exact safeCastable_multiple hβ gs gt (hf ht) ht he hk h
  rw [htr] at key
  exact ⟨key a p ga e1 hc.left (fun h => (Rep.common_int h).1) hp, key b q gb e2 hc.right (fun h => (Rep.common_int h).2) hq⟩

/-! ### C71 -/

/-- C71: every quantity type is comparable with itself, and being comparable does not depend on the order. -/
theorem C71_symmetric (E : Env) (a b : QTy) :
    comparableQty E a a = .ok true ∧ (∀ c, comparableQty E a b = .ok c → comparableQty E b a = .ok c) := by
  refine ⟨?_, fun c h => commonRefWith_symm h⟩
  unfold comparableQty commonRefWith commonRef
  simp [ok_bind, convertibleTo_self]

theorem commonTypeQty_ok {E : Env} {a b : QTy} {x : Option QTy} (he : dimEquivalent b.dim a.dim = .ok true)
    (h : commonTypeQty E a b = .ok x) :
    ∃ t, x = some t ∧ commonQty E a b (a.rep.common b.rep) = .ok t ∧ t.rep = a.rep.common b.rep ∧
      commonUnit E.est E.units a.dim a.unit b.dim b.unit = .ok (t.dim, t.unit) := by
  unfold commonTypeQty at h
  rw [he] at h
  simp only [ok_bind, if_true, bind_ok, Except.ok.injEq] at h
  obtain ⟨t, ht, rfl⟩ := h
  refine ⟨t, rfl, ht, ?_⟩
  unfold commonQty at ht
  rw [he] at ht
  simp only [ok_bind, if_true, bind_ok, Except.ok.injEq] at ht
  obtain ⟨⟨d, u⟩, hc, rfl⟩ := ht
  exact ⟨rfl, hc⟩

/-- One of two dimensions is `unknown_dimension`, and the other one has a coherent unit of its own. -/
def OneUnknown (d1 d2 : Dim) : Prop :=
  d1.unit.ref ≠ d2.unit.ref ∧ ((∃ es, d1 = .unknown es) ↔ ¬ ∃ es, d2 = .unknown es)

/-- C71: quantity types of equivalent dimensions are comparable exactly when they have one dimension, or just one
of them has an unknown dimension, or just one of them converts implicitly to the other. -/
theorem C71_exactly (E : Env) (hE : E.OK) (β : String → ℝ) (hβ : Sizes β) (a b : QTy) (ga : a.Good E) (gb : b.Good E)
    (hr : Related β a b) (c : Bool) (h : comparableQty E a b = .ok c) :
    c = true ↔ a.dim = b.dim ∨ OneUnknown a.dim b.dim ∨ (safeCastable E a b = .ok true ∧ safeCastable E b a = .ok false) ∨
      (safeCastable E b a = .ok true ∧ safeCastable E a b = .ok false) := by
  by_cases hne : a = b
  · subst hne
    rw [(C71_symmetric E a a).1] at h
    simp only [Except.ok.injEq] at h
    subst h
    simp
  obtain ⟨ab, ba, hab, hba, h1, h2⟩ := commonRefWith_ok hne h
  rw [hab, hba]
  by_cases hx : ab = ba
  swap
  · rw [h1 hx]
    cases ab <;> cases ba <;> simp at hx ⊢
  obtain ⟨x, y, hx, hy, h3, h4⟩ := h2 hx
  obtain ⟨t, rfl, ht, tr, tu⟩ := commonTypeQty_ok (C17_symmetric _ _ hr.equiv) hx
  obtain ⟨s, rfl, hs, sr, su⟩ := commonTypeQty_ok hr.equiv hy
  have hxor : (a.dim = b.dim ∨ OneUnknown a.dim b.dim ∨ ((.ok ab : C Bool) = .ok true ∧ (.ok ba : C Bool) = .ok false) ∨
      ((.ok ba : C Bool) = .ok true ∧ (.ok ab : C Bool) = .ok false)) ↔ a.dim = b.dim ∨ OneUnknown a.dim b.dim := by
    subst ‹ab = ba›; cases ab <;> simp
  rw [hxor]
  by_cases hd : t.dim = s.dim
  · have hts : t = s := by
      have hu : t.unit = s.unit := by rw [hd] at tu; exact commonUnit_symm tu su
      cases t; cases s; simp only at hd hu tr sr
      subst hd; subst hu; rw [tr, sr, Rep.common_comm]
    subst hts
    obtain ⟨p, q, hp, hq, rfl⟩ := h4 t rfl rfl
    obtain ⟨rfl, rfl⟩ := commonQty_convertible hE hβ ga gb hr ht hp hq
    simp only [Bool.and_self, true_iff]
    rcases commonUnit_dim tu with e | ⟨e, hne1, es, he⟩
    · rcases commonUnit_dim su with e' | ⟨e', hne2, es, he⟩
      · exact Or.inl (e.symm.trans e')
      · by_cases hd : a.dim = b.dim
        · exact Or.inl hd
        refine Or.inr ⟨Ne.symm hne2, ⟨?_, fun hn => absurd ⟨es, he⟩ hn⟩⟩
        rintro ⟨es', he'⟩
        rw [he'] at tu
        exact absurd (e.symm.trans (commonUnit_dim_unknown (by rw [← he']; exact Ne.symm hne2) tu)) hd
    · rcases commonUnit_dim su with e' | ⟨e', hne2, es', he'⟩
      · refine Or.inr ⟨hne1, ⟨?_, fun _ => ⟨es, he⟩⟩⟩
        rintro - ⟨es', he'⟩
        rw [he'] at su
        have := commonUnit_dim_unknown (by rw [← he']; exact Ne.symm hne1) su
        exact hne1 (by rw [← this, e'])
      · exact Or.inl (e'.symm.trans e)
  · rw [h3 (fun t' e e' => hd (by simp only [Option.some.injEq] at e e'; rw [e, e']))]
    simp only [Bool.false_eq_true, false_iff, not_or]
    refine ⟨fun e => ?_, ?_⟩
    · rcases commonUnit_dim tu with k | ⟨k, hn, -⟩
      · rcases commonUnit_dim su with k' | ⟨k', hn', -⟩
        · exact hd (by rw [k, k', e])
        · exact hn' (by rw [e])
      · exact hn (by rw [e])
    · rintro ⟨hn, hiff⟩
      by_cases hu : ∃ es, a.dim = .unknown es
      · obtain ⟨es, he⟩ := hu
        have k : t.dim = b.dim := by rw [he] at tu; exact commonUnit_dim_unknown (by rw [← he]; exact hn) tu
        rcases commonUnit_dim su with k' | ⟨k', -, hb⟩
        · exact hd (k.trans k'.symm)
        · exact hiff.mp ⟨es, he⟩ hb
      · have hb : ∃ es, b.dim = .unknown es := by
          by_contra hb; exact hu (hiff.mpr hb)
        obtain ⟨es, he⟩ := hb
        have k : s.dim = a.dim := by rw [he] at su; exact commonUnit_dim_unknown (by rw [← he]; exact Ne.symm hn) su
        rcases commonUnit_dim tu with k' | ⟨k', -, hb⟩
        · exact hd (k'.trans k.symm)
        · exact hu hb

/-- An area with its own dimension and coherent unit. -/
def exAreaTy (r : Rep) : QTy :=
  ⟨.named ⟨"dim_area2", [⟨exL, 2, 1⟩], ⟨.named "square_metre", Ratio.one, "square_metre", [], false, "m²", none⟩⟩,
    ⟨.named "square_metre", Ratio.one, "square_metre", [], false, "m²", none⟩, r⟩

/-- Kilometres and metres; SI kilometres and CGS centimetres, one of them as integers; an area and a quantity of
the unknown dimension with the exponents of an area.  SI metres and CGS centimetres as `double` are not comparable. -/
example : comparableQty exEnv (exAreaTy (.flt .f64)) ⟨.unknown [⟨exL, 2, 1⟩], unknownCoherentUnit, .flt .f64⟩ = .ok true ∧
    comparableQty exEnv (exKms (.int .i32)) (exMetres (.flt .f64)) = .ok true ∧
    comparableQty exEnv (exKms (.flt .f64)) (exMetres (.flt .f32)) = .ok true ∧
    comparableQty exEnv (exKms (.int .i32)) (exCms (.int .i64)) = .ok true ∧
    comparableQty exEnv (exKms (.flt .f64)) (exCms (.int .i64)) = .ok true ∧
    comparableQty exEnv (exMetres (.flt .f64)) (exCms (.flt .f64)) = .ok false ∧
    comparableQty exEnv (exMetres (.flt .f64)) (exCms (.flt .f32)) = .ok false := by
  decide +kernel

/-- C71: points and kinds of one dimension compare whenever, and as, their quantities do. -/
theorem C71_one_dimension (E : Env) (hE : E.OK) (R : Rebinds) (β : String → ℝ) (hβ : Sizes β) (c : Bool) :
    (∀ a b : Pt, a.ty.qty.Good E → b.ty.qty.Good E → a.ty.origin = b.ty.origin → comparableQty E a.ty.qty b.ty.qty = .ok c →
      comparePoints E R a b = compareQty E a.rel b.rel ∧ eqPoints E R a b = eqQty E a.rel b.rel) ∧
    (∀ a b : Kd, a.ty.qty.Good E → b.ty.qty.Good E → a.ty.kind = b.ty.kind → comparableQty E a.ty.qty b.ty.qty = .ok c →
      compareKinds E a b = compareQty E a.common b.common ∧ eqKinds E a b = eqQty E a.common b.common) := by
  refine ⟨fun a b ga gb ho hc => ?_, fun a b ga gb hk hc => ?_⟩
  · have hd : a.ty.qty.dim = b.ty.qty.dim := by show a.ty.origin.dim = _; rw [ho]; rfl
    have := (C71_exactly E hE β hβ _ _ ga gb (Related.refl hd) c hc).mpr (Or.inl hd)
    subst this
    unfold comparePoints eqPoints originEquivalent
    rw [if_pos ho.symm]
    simp only [ok_bind, if_true, hc]
    exact ⟨trivial, trivial⟩
  · have hd : a.ty.qty.dim = b.ty.qty.dim := by show a.ty.kind.dim = _; rw [hk]; rfl
    have := (C71_exactly E hE β hβ _ _ ga gb (Related.refl hd) c hc).mpr (Or.inl hd)
    subst this
    unfold compareKinds eqKinds kindEquivalent
    rw [if_pos (by rw [hk]), hk, C17_reflexive]
    simp only [ok_bind, if_true, hc]
    exact ⟨trivial, trivial⟩

/-- Altitudes above the sea, and widths. -/
example : comparableQty exEnv (⟨exSea, exKm, .flt .f64⟩ : PTy).qty (⟨exSea, exMetre, .flt .f64⟩ : PTy).qty = .ok true ∧
    comparePoints exEnv exNoRebind ⟨⟨exSea, exKm, .flt .f64⟩, .f 2⟩ ⟨⟨exSea, exMetre, .flt .f64⟩, .f 1999⟩ = .ok .gt ∧
    eqPoints exEnv exNoRebind ⟨⟨exSea, exKm, .flt .f64⟩, .f 2⟩ ⟨⟨exSea, exMetre, .flt .f64⟩, .f 2000⟩ = .ok true ∧
    compareKinds exEnv ⟨⟨exWidth, exKm, .flt .f64⟩, .f 2⟩ ⟨⟨exWidth, exMetre, .flt .f64⟩, .f 1999⟩ = .ok .gt := by
  decide +kernel

/-- C71 fails for floating point numbers in different known dimensions: the points, the kinds and the points of a
kind are not comparable, however equivalent the dimensions. -/
theorem C71_floating_rejected (E : Env) (a b : QTy) (ha : a.rep.floating = true) (hb : b.rep.floating = true)
    (hd : a.dim ≠ b.dim) (ka : ∀ es, a.dim ≠ .unknown es) (kb : ∀ es, b.dim ≠ .unknown es) : comparableQty E a b ≠ .ok true := by
  intro h
  have hne : a ≠ b := fun e => hd (by rw [e])
  obtain ⟨ab, ba, hab, hba, -, h2⟩ := commonRefWith_ok hne h
  unfold safeCastable at hab hba
  simp only [bind_ok, hb, ha, if_true] at hab hba
  obtain ⟨e, he, hab⟩ := hab
  obtain ⟨e', he', hba⟩ := hba
  have hee : e' = e := by
    cases e with
    | true =>
      rw [C17_symmetric _ _ he] at he'
      simpa using he'.symm
    | false =>
      cases e' with
      | false => rfl
      | true => rw [C17_symmetric _ _ he'] at he; simp at he
  subst hee
  have hxx : ab = ba := by cases e' <;> simp_all
  obtain ⟨x, y, hx, hy, h3, -⟩ := h2 hxx
  cases e' with
  | false =>
    unfold commonTypeQty at hx
    rw [he] at hx
    simp only [ok_bind, Bool.false_eq_true, if_false, Except.ok.injEq] at hx
    subst hx
    exact absurd (h3 (fun t e => nomatch e)) (by simp)
  | true =>
    obtain ⟨t, rfl, -, -, tu⟩ := commonTypeQty_ok he hx
    obtain ⟨s, rfl, -, -, su⟩ := commonTypeQty_ok he' hy
    have k1 : t.dim = a.dim := by
      rcases commonUnit_dim tu with k | ⟨-, -, es, k⟩
      · exact k
      · exact absurd k (ka es)
    have k2 : s.dim = b.dim := by
      rcases commonUnit_dim su with k | ⟨-, -, es, k⟩
      · exact k
      · exact absurd k (kb es)
    refine absurd (h3 (fun t' e e' => hd ?_)) (by simp)
    simp only [Option.some.injEq] at e e'
    rw [← k1, ← k2, e, e']

/-- C71 fails: no comparison of points or kinds over two dimensions is accepted for floating point numbers. -/
theorem C71_two_systems_rejected (E : Env) (R : Rebinds) :
    (∀ a b : Pt, a.ty.rep.floating = true → b.ty.rep.floating = true → a.ty.origin.dim ≠ b.ty.origin.dim →
      (∀ es, a.ty.origin.dim ≠ .unknown es) → (∀ es, b.ty.origin.dim ≠ .unknown es) →
      (∀ o, comparePoints E R a b ≠ .ok o) ∧ (∀ e, eqPoints E R a b ≠ .ok e)) ∧
    (∀ a b : Kd, a.ty.rep.floating = true → b.ty.rep.floating = true → a.ty.kind.dim ≠ b.ty.kind.dim →
      (∀ es, a.ty.kind.dim ≠ .unknown es) → (∀ es, b.ty.kind.dim ≠ .unknown es) →
      (∀ o, compareKinds E a b ≠ .ok o) ∧ (∀ e, eqKinds E a b ≠ .ok e)) ∧
    (∀ a b : Pk, a.ty.rep.floating = true → b.ty.rep.floating = true → a.ty.pk.kind.dim ≠ b.ty.pk.kind.dim →
      (∀ es, a.ty.pk.kind.dim ≠ .unknown es) → (∀ es, b.ty.pk.kind.dim ≠ .unknown es) →
      (∀ o, comparePks E R a b ≠ .ok o) ∧ (∀ e, eqPks E R a b ≠ .ok e)) := by
  have key : ∀ a b : Kd, a.ty.rep.floating = true → b.ty.rep.floating = true → a.ty.kind.dim ≠ b.ty.kind.dim →
      (∀ es, a.ty.kind.dim ≠ .unknown es) → (∀ es, b.ty.kind.dim ≠ .unknown es) →
      (∀ o, compareKinds E a b ≠ .ok o) ∧ (∀ e, eqKinds E a b ≠ .ok e) := by
    intro a b ha hb hd ka kb
    have := C71_floating_rejected E a.ty.qty b.ty.qty ha hb hd ka kb
    exact ⟨fun o h => this (compareKinds_ok.mp h).2.1, fun o h => this (eqKinds_ok.mp h).2.1⟩
  refine ⟨fun a b ha hb hd ka kb => ?_, key, fun a b ha hb hd ka kb => ?_⟩
  · have := C71_floating_rejected E a.ty.qty b.ty.qty ha hb hd ka kb
    exact ⟨fun o h => this (comparePoints_ok.mp h).2.1, fun o h => this (eqPoints_ok.mp h).2.1⟩
  · obtain ⟨k1, k2⟩ := key a.rel b.rel ha hb hd ka kb
    exact ⟨fun o h => k1 o (comparePks_ok.mp h).2.2, fun o h => k2 o (eqPks_ok.mp h).2.2⟩

/-- Two points in metres and centimetres as `double`: the difference is accepted, the quantities and the same
points with integers are compared, but the points are not; nor are the widths. -/
example :
    subPoints exEnv exNoRebind ⟨⟨dynamicOrigin (.base exL), exMetre, .flt .f64⟩, .f 5⟩
      ⟨⟨dynamicOrigin (.base exLcgs), exLcgs.unit, .flt .f64⟩, .f 200⟩ = .ok ⟨exCmSi (.flt .f64), .f 300⟩ ∧
    compareQty exEnv ⟨exMetres (.flt .f64), .f 5⟩ ⟨exCms (.flt .f64), .f 200⟩ = .ok .gt ∧
    comparePoints exEnv exNoRebind ⟨⟨dynamicOrigin (.base exL), exMetre, .int .i32⟩, .i 5⟩
      ⟨⟨dynamicOrigin (.base exLcgs), exLcgs.unit, .int .i32⟩, .i 200⟩ = .ok .gt ∧
    comparePoints exEnv exNoRebind ⟨⟨dynamicOrigin (.base exL), exMetre, .flt .f64⟩, .f 5⟩
      ⟨⟨dynamicOrigin (.base exLcgs), exLcgs.unit, .flt .f64⟩, .f 200⟩ = .error .rejected ∧
    addSubKind exEnv .sub ⟨⟨exWidth, exMetre, .flt .f64⟩, .f 5⟩ ⟨⟨exWidthCgs, exLcgs.unit, .flt .f64⟩, .f 200⟩ =
      .ok ⟨⟨exWidth, exCmUnit, .flt .f64⟩, .f 300⟩ ∧
    eqKinds exEnv ⟨⟨exWidth, exMetre, .flt .f64⟩, .f 2⟩ ⟨⟨exWidthCgs, exLcgs.unit, .flt .f64⟩, .f 200⟩ = .error .rejected := by
  decide +kernel

/-! ### Points of a kind -/

theorem commonTypeKind_ok {E : Env} {a b : KTy} {x : Option KTy} (he : kindEquivalent b.kind a.kind = .ok true)
    (h : commonTypeKind E a b = .ok x) :
    ∃ t, x = some ⟨a.kind, t.unit, t.rep⟩ ∧ commonQty E a.qty b.qty (a.rep.common b.rep) = .ok t := by
  unfold commonTypeKind at h
  rw [he] at h
  simp only [ok_bind, if_true, bind_ok] at h
  obtain ⟨t, ht, h⟩ := h
  split at h
  swap
  · cases h
  simp only [Except.ok.injEq] at h
  exact ⟨t, h.symm, ht⟩

/-- C71: kind types are comparable (and so the points of these kinds) exactly when they have one kind type, or just
one of them converts implicitly to the other. -/
theorem C71_kinds_exactly (E : Env) (hE : E.OK) (β : String → ℝ) (hβ : Sizes β) (a b : KTy) (ga : a.qty.Good E) (gb : b.qty.Good E)
    (hr : kindEquivalent b.kind a.kind = .ok true) (c : Bool) (h : comparableKind E a b = .ok c) :
    c = true ↔ a.kind = b.kind ∨ (kindCastable E a b = .ok true ∧ kindCastable E b a = .ok false) ∨
      (kindCastable E b a = .ok true ∧ kindCastable E a b = .ok false) := by
  by_cases hne : a = b
  · subst hne
    unfold comparableKind commonRefWith commonRef at h
    simp [ok_bind, convertibleTo_self] at h
    subst h
    simp
  obtain ⟨ab, ba, hab, hba, h1, h2⟩ := commonRefWith_ok hne h
  rw [hab, hba]
  by_cases hx : ab = ba
  swap
  · rw [h1 hx]
    cases ab <;> cases ba <;> simp at hx ⊢
  obtain ⟨x, y, hx, hy, h3, h4⟩ := h2 hx
  have hr' : kindEquivalent a.kind b.kind = .ok true := by
    unfold kindEquivalent at hr ⊢
    split at hr
    · rename_i hb; rw [if_pos hb.symm]; exact C17_symmetric _ _ hr
    · cases hr
  obtain ⟨t, rfl, ht⟩ := commonTypeKind_ok hr hx
  obtain ⟨s, rfl, hs⟩ := commonTypeKind_ok hr' hy
  have hxor : (a.kind = b.kind ∨ ((.ok ab : C Bool) = .ok true ∧ (.ok ba : C Bool) = .ok false) ∨
      ((.ok ba : C Bool) = .ok true ∧ (.ok ab : C Bool) = .ok false)) ↔ a.kind = b.kind := by
    subst ‹ab = ba›; cases ab <;> simp
  rw [hxor]
  by_cases hk : a.kind = b.kind
  swap
  · rw [h3 (fun t' e e' => hk ?_)]
    · simp [hk]
    · simp only [Option.some.injEq] at e e'; have := congrArg KTy.kind (e.trans e'.symm); exact this
  simp only [hk, iff_true]
  have hd : a.qty.dim = b.qty.dim := by show a.kind.dim = b.kind.dim; rw [hk]
  have hts : t = s := by
    obtain ⟨t', e, -, tr, tu⟩ := commonTypeQty_ok (E := E) (a := a.qty) (b := b.qty) (x := some t) (by rw [hd]; exact C17_reflexive _)
      (by unfold commonTypeQty; rw [hd, C17_reflexive]; simp only [ok_bind, if_true]; rw [show a.qty.rep = a.rep from rfl, show b.qty.rep = b.rep from rfl, ht]; rfl)
    simp only [Option.some.injEq] at e; subst e
    obtain ⟨s', e, -, sr, su⟩ := commonTypeQty_ok (E := E) (a := b.qty) (b := a.qty) (x := some s) (by rw [hd]; exact C17_reflexive _)
      (by unfold commonTypeQty; rw [hd, C17_reflexive]; simp only [ok_bind, if_true]; rw [show a.qty.rep = a.rep from rfl, show b.qty.rep = b.rep from rfl, hs]; rfl)
    simp only [Option.some.injEq] at e; subst e
    have h1 : t.dim = a.qty.dim := by
      rcases commonUnit_dim tu with k | ⟨k, -⟩
      · exact k
      · exact k.trans hd.symm
    have h2 : s.dim = a.qty.dim := by
      rcases commonUnit_dim su with k | ⟨k, -⟩
      · exact k.trans hd.symm
      · exact k
    rw [h1] at tu; rw [h2] at su
    have hu := commonUnit_symm tu su
    cases t; cases s; simp only at h1 h2 hu tr sr
    subst hu; rw [h1, h2, tr, sr, Rep.common_comm]
  subst hts
  obtain ⟨p, q, hp, hq, rfl⟩ := h4 ⟨a.kind, t.unit, t.rep⟩ rfl (by rw [hk])
  have htd : t.dim = a.kind.dim := by
    rcases (commonQty_sound hE hβ ga gb (Related.refl hd) ht).2.2.1 with e | e
    · exact e
    · exact e.trans hd.symm
  have hq' : (⟨a.kind, t.unit, t.rep⟩ : KTy).qty = t := by
    cases t; simp only at htd; subst htd; rfl
  have key : ∀ (k : KTy) (c : Bool), k.kind = a.kind → convertibleTo (kindCastable E) k ⟨a.kind, t.unit, t.rep⟩ = .ok c →
      convertibleTo (safeCastable E) k.qty t = .ok c := by
    intro k c hk h
    unfold convertibleTo at h
    split at h
    · rename_i e
      rw [e, hq', convertibleTo_self]; exact h
    · unfold kindCastable kindEquivalent at h
      rw [if_pos (by rw [hk]), hk, C17_reflexive, hq'] at h
      exact h
  obtain ⟨rfl, rfl⟩ := commonQty_convertible hE hβ ga gb (Related.refl hd) ht (key a p rfl hp) (key b q hk.symm hq)
  rfl

/-- Widths of one kind as `double`; widths of the kinds of two systems as integers and as `double`. -/
example : comparableKind exEnv ⟨exWidth, exKm, .flt .f64⟩ ⟨exWidth, exMetre, .flt .f32⟩ = .ok true ∧
    comparableKind exEnv ⟨exWidth, exKm, .int .i32⟩ ⟨exWidthCgs, exLcgs.unit, .int .i64⟩ = .ok true ∧
    comparableKind exEnv ⟨exWidth, exKm, .flt .f64⟩ ⟨exWidthCgs, exLcgs.unit, .flt .f64⟩ = .ok false ∧
    kindCastable exEnv ⟨exWidth, exKm, .int .i32⟩ ⟨exWidthCgs, exLcgs.unit, .int .i64⟩ = .ok true ∧
    kindCastable exEnv ⟨exWidthCgs, exLcgs.unit, .int .i64⟩ ⟨exWidth, exKm, .int .i32⟩ = .ok false := by
  decide +kernel

end Verif
