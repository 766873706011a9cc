import Verif.Props.ComparableProps
import Verif.Props.EquivTypeProps
import Verif.CommonType

set_option Elab.async false

/-!
# Common types of points, kinds and points of a kind (C85)
-/

namespace Verif

/-! ### Helper lemmas -/

theorem commonTypeQty_sound {E : Env} (hE : E.OK) {β : String → ℝ} (hβ : Sizes β) {a b t : QTy} (ga : a.Good E) (gb : b.Good E)
    (hr : Related β a b) (h : commonTypeQty E a b = .ok (some t)) :
    t.Good E ∧ t.rep = a.rep.common b.rep ∧ (t.dim = a.dim ∨ t.dim = b.dim) ∧ IsCommonSize (a.size β) (b.size β) (t.size β) ∧
      commonQty E a b (a.rep.common b.rep) = .ok t ∧ commonUnit E.est E.units a.dim a.unit b.dim b.unit = .ok (t.dim, t.unit) := by
  obtain ⟨t', e, hc, -, hu⟩ := commonTypeQty_ok (C17_symmetric _ _ hr.equiv) h
  simp only [Option.some.injEq] at e
  subst e
  obtain ⟨k1, k2, k3, k4, -, -⟩ := commonQty_sound hE hβ ga gb hr hc
  exact ⟨k1, k2, k3, k4, hc, hu⟩

/-- Each of two quantity types converts to their common type, whatever the other one does. -/
theorem common_convertible {E : Env} (hE : E.OK) {β : String → ℝ} (hβ : Sizes β) {a b t : QTy} (ga : a.Good E) (gb : b.Good E)
    (hr : Related β a b) (hq : commonTypeQty E a b = .ok (some t)) :
    ∀ s : QTy, (s = a ∨ s = b) → ∀ c, convertibleTo (safeCastable E) s t = .ok c → c = true := by
  obtain ⟨gt, -, -, -, hc, -⟩ := commonTypeQty_sound hE hβ ga gb hr hq
  obtain ⟨_, htr, hd, hcs, _, _⟩ := commonQty_sound hE hβ ga gb hr hc
  have e1 : dimEquivalent t.dim a.dim = .ok true := by
    rcases hd with e | e <;> rw [e]
    · exact C17_reflexive _
    · exact C17_symmetric _ _ hr.equiv
  have e2 : dimEquivalent t.dim b.dim = .ok true := by
    rcases hd with e | e <;> rw [e]
    · exact hr.equiv
    · exact C17_reflexive _
  intro s hs c h
  have gs : s.Good E := by rcases hs with rfl | rfl; exacts [ga, gb]
  have he : dimEquivalent t.dim s.dim = .ok true := by rcases hs with rfl | rfl; exacts [e1, e2]
  have hk : ∃ k : ℤ, s.size β = k * t.size β := by rcases hs with rfl | rfl; exacts [hcs.left, hcs.right]
  have hf : t.rep.floating = false → s.rep.floating = false := by
    intro hf; rw [htr] at hf
    rcases hs with rfl | rfl
    exacts [(Rep.common_int hf).1, (Rep.common_int hf).2]
  unfold convertibleTo at h
  split at h
  · simpa using h.symm
  · cases ht : t.rep.floating with
    | true =>
      unfold safeCastable at h
      rw [he, ht] at h
      simpa [ok_bind] using h.symm
    | false => exact safeCastable_multiple hβ gs gt (hf ht) ht he hk h

/-- The dimension of the common type does not depend on the order exactly when there is one dimension, or one is unknown. -/
theorem commonTypeQty_order {E : Env} {a b t s : QTy} (he : dimEquivalent b.dim a.dim = .ok true)
    (ht : commonTypeQty E a b = .ok (some t)) (hs : commonTypeQty E b a = .ok (some s)) :
    (t = s ↔ a.dim = b.dim ∨ OneUnknown a.dim b.dim) ∧ (t.dim = s.dim → t = s) := by
  obtain ⟨t', e, -, tr, tu⟩ := commonTypeQty_ok he ht
  simp only [Option.some.injEq] at e; subst e
  obtain ⟨s', e, -, sr, su⟩ := commonTypeQty_ok (C17_symmetric _ _ he) hs
  simp only [Option.some.injEq] at e; subst e
  have hdim : t.dim = s.dim → t = s := by
    intro hd
    have hu : t.unit = s.unit := by rw [hd] at tu; exact commonUnit_symm tu su
    cases t; cases s; simp only at hd hu tr sr
    subst hd; subst hu; rw [tr, sr, Rep.common_comm]
  refine ⟨⟨fun h => ?_, fun h => hdim ?_⟩, hdim⟩
  · have hd : t.dim = s.dim := by rw [h]
    by_cases hab : a.dim = b.dim
    · exact Or.inl hab
    refine Or.inr ?_
    rcases commonUnit_dim tu with e | ⟨e, hn, es, ha⟩
    · rcases commonUnit_dim su with e' | ⟨e', hn', es, hb⟩
      · exact absurd (e.symm.trans (hd.trans e')) hab
      · refine ⟨Ne.symm hn', ?_, fun h => absurd ⟨es, hb⟩ h⟩
        rintro ⟨es', ha⟩
        rw [ha] at tu
        exact absurd (e.symm.trans (commonUnit_dim_unknown (by rw [← ha]; exact Ne.symm hn') tu)) hab
    · refine ⟨hn, fun _ => ?_, fun _ => ⟨es, ha⟩⟩
      rintro ⟨es', hb⟩
      rw [hb] at su
      have := commonUnit_dim_unknown (by rw [← hb]; exact Ne.symm hn) su
      exact hab (this.symm.trans (hd.symm.trans e))
  · rcases h with hab | ⟨hn, hx⟩
    · rcases commonUnit_dim tu with e | ⟨-, hn, -⟩
      · rcases commonUnit_dim su with e' | ⟨-, hn, -⟩
        · rw [e, e', hab]
        · exact absurd (by rw [hab]) hn
      · exact absurd (by rw [hab]) hn
    · by_cases hu : ∃ es, a.dim = .unknown es
      · obtain ⟨es, ha⟩ := hu
        have k : t.dim = b.dim := by rw [ha] at tu; exact commonUnit_dim_unknown (by rw [← ha]; exact hn) tu
        rcases commonUnit_dim su with k' | ⟨-, -, hb⟩
        · exact k.trans k'.symm
        · exact absurd hb (hx.mp ⟨es, ha⟩)
      · have hb : ∃ es, b.dim = .unknown es := by by_contra hb; exact hu (hx.mpr hb)
        obtain ⟨es, hb⟩ := hb
        have k : s.dim = a.dim := by rw [hb] at su; exact commonUnit_dim_unknown (by rw [← hb]; exact Ne.symm hn) su
        rcases commonUnit_dim tu with k' | ⟨-, -, ha⟩
        · exact k'.trans k.symm
        · exact absurd ha hu

theorem kindEquivalent_self (a : Kind) : kindEquivalent a a = .ok true := by
  unfold kindEquivalent; rw [if_pos rfl]; exact C17_reflexive _

theorem pkindEquivalent_true {R : Rebinds} {a b : PKind} :
    pkindEquivalent R a b = .ok true ↔ kindEquivalent a.kind b.kind = .ok true ∧ originEquivalent R a.origin b.origin = .ok true := by
  unfold pkindEquivalent
  simp only [bind_ok]
  constructor
  · rintro ⟨e, he, h⟩
    cases e with
    | false => simp at h
    | true => exact ⟨he, h⟩
  · rintro ⟨h1, h2⟩
    exact ⟨true, h1, by simpa using h2⟩

theorem commonTypePoint_ok {E : Env} {R : Rebinds} {a b : PTy} {x : Option PTy} (h : commonTypePoint E R a b = .ok x) :
    (x = none ∧ originEquivalent R b.origin a.origin = .ok false) ∨
      (originEquivalent R b.origin a.origin = .ok true ∧ ∃ t o, commonTypeQty E a.qty b.qty = .ok (some t) ∧
        rebindOrigin R a.origin t.dim = some o ∧ t.unit.ref = o.dim.unit.ref ∧ x = some ⟨o, t.unit, t.rep⟩) := by
  unfold commonTypePoint at h
  simp only [bind_ok] at h
  obtain ⟨e, he, h⟩ := h
  cases e with
  | false => simp only [Bool.false_eq_true, if_false, Except.ok.injEq] at h; exact Or.inl ⟨h.symm, he⟩
  | true =>
    simp only [if_true, bind_ok] at h
    obtain ⟨y, hy, h⟩ := h
    cases y with
    | none => cases h
    | some t =>
      simp only at h
      split at h
      · cases h
      · rename_i o ho
        split at h
        · rename_i hu
          simp only [Except.ok.injEq] at h
          exact Or.inr ⟨he, t, o, hy, ho, hu, h.symm⟩
        · cases h

theorem commonTypePoint_sound {E : Env} (hE : E.OK) {R : Rebinds} {β : String → ℝ} (hβ : Sizes β) {a b t : PTy}
    (ga : a.qty.Good E) (gb : b.qty.Good E) (hr : Related β a.qty b.qty) (h : commonTypePoint E R a b = .ok (some t)) :
    originEquivalent R b.origin a.origin = .ok true ∧ commonTypeQty E a.qty b.qty = .ok (some t.qty) ∧
      ((t.origin = a.origin ∧ t.qty.dim = a.qty.dim) ∨ (t.origin = b.origin ∧ t.qty.dim = b.qty.dim)) := by
  rcases commonTypePoint_ok h with ⟨e, -⟩ | ⟨he, q, o, hq, ho, hu, e⟩
  · cases e
  simp only [Option.some.injEq] at e
  subst e
  obtain ⟨-, h1, h2⟩ := originEquivalent_true he
  obtain ⟨-, -, hd, -⟩ := commonTypeQty_sound hE hβ ga gb hr hq
  have key : (o = a.origin ∧ q.dim = a.origin.dim) ∨ (o = b.origin ∧ q.dim = b.origin.dim) := by
    rcases hd with e | e
    · rw [e] at ho
      have : rebindOrigin R a.origin a.qty.dim = some a.origin := if_pos rfl
      rw [this] at ho
      simp only [Option.some.injEq] at ho
      exact Or.inl ⟨ho.symm, e⟩
    · rw [e] at ho
      have : rebindOrigin R a.origin b.qty.dim = some b.origin := h2
      rw [this] at ho
      simp only [Option.some.injEq] at ho
      exact Or.inr ⟨ho.symm, e⟩
  have hqd : o.dim = q.dim := by rcases key with ⟨e, e'⟩ | ⟨e, e'⟩ <;> rw [e, e']
  have hqq : (⟨o, q.unit, q.rep⟩ : PTy).qty = q := by unfold PTy.qty; simp only; rw [hqd]
  refine ⟨he, ?_, ?_⟩
  · rw [hq, hqq]
  · rw [hqq]; exact key

/-! ### Points -/

/-- C85: two point types have a common type only if their origins are equivalent.  It is the type of points over the
common type of the two quantity types (whose unit is the greatest common measure), measured from the origin of one of
the points; both point types convert to it. -/
theorem C85_points (E : Env) (hE : E.OK) (R : Rebinds) (β : String → ℝ) (hβ : Sizes β) (a b t : PTy)
    (ga : a.qty.Good E) (gb : b.qty.Good E) (hr : Related β a.qty b.qty) (h : commonTypePoint E R a b = .ok (some t)) :
    originEquivalent R b.origin a.origin = .ok true ∧
    commonTypeQty E a.qty b.qty = .ok (some t.qty) ∧ t.qty.Good E ∧ t.rep = a.rep.common b.rep ∧
    IsCommonSize (a.qty.size β) (b.qty.size β) (t.qty.size β) ∧
    (t.origin = a.origin ∨ t.origin = b.origin) ∧
    (∀ c, pointCastable E R a t = .ok c → c = true) ∧ (∀ c, pointCastable E R b t = .ok c → c = true) := by
  obtain ⟨he, hq, ho⟩ := commonTypePoint_sound hE hβ ga gb hr h
  obtain ⟨gt, hrep, -, hs, hc, -⟩ := commonTypeQty_sound hE hβ ga gb hr hq
  have hself : ∀ o, originEquivalent R o o = .ok true := fun o => by unfold originEquivalent; rw [if_pos rfl]
  have ea : originEquivalent R a.origin t.origin = .ok true := by
    rcases ho with ⟨e, -⟩ | ⟨e, -⟩ <;> rw [e]
    · exact hself _
    · exact originEquivalent_symm he
  have eb : originEquivalent R b.origin t.origin = .ok true := by
    rcases ho with ⟨e, -⟩ | ⟨e, -⟩ <;> rw [e]
    · exact he
    · exact hself _
  have key := common_convertible hE hβ ga gb hr hq
  refine ⟨he, hq, gt, hrep, hs, ho.imp And.left And.left, fun c h => ?_, fun c h => ?_⟩
  · unfold pointCastable at h
    rw [ea] at h
    exact key _ (Or.inl rfl) c h
  · unfold pointCastable at h
    rw [eb] at h
    exact key _ (Or.inr rfl) c h

/-- Altitudes in kilometres and centimetres as integers; positions from dynamic origins of two systems; an origin that
cannot be rebound, or another one, gives no common type. -/
example : commonTypePoint exEnv exNoRebind ⟨exSea, exKm, .int .i32⟩ ⟨exSea, exCmUnit, .int .i64⟩ = .ok (some ⟨exSea, exCmUnit, .int .i64⟩) ∧
    commonTypePoint exEnv exNoRebind ⟨dynamicOrigin (.base exL), exKm, .int .i32⟩ ⟨dynamicOrigin (.base exLcgs), exLcgs.unit, .flt .f64⟩ =
      .ok (some ⟨dynamicOrigin (.base exL), exCmUnit, .flt .f64⟩) ∧
    commonTypePoint exEnv exScreenRebind ⟨⟨"screen_origin", .base exLcgs⟩, exLcgs.unit, .int .i32⟩ ⟨⟨"screen_origin", .base exL⟩, exKm, .int .i32⟩ =
      .ok (some ⟨⟨"screen_origin", .base exLcgs⟩, exCmUnit, .int .i32⟩) ∧
    commonTypePoint exEnv exNoRebind ⟨exSea, exKm, .int .i32⟩ ⟨dynamicOrigin (.base exL), exKm, .int .i32⟩ = .ok none ∧
    commonTypePoint exEnv exNoRebind ⟨exSea, exKm, .int .i32⟩ ⟨⟨"sea_level_origin", .base exLcgs⟩, exLcgs.unit, .int .i32⟩ = .ok none := by
  decide +kernel

/-- C85: points with inequivalent origins have no common type, and `common_quantity_point` does not accept them. -/
theorem C85_points_none (E : Env) (R : Rebinds) (a b : PTy) (h : originEquivalent R b.origin a.origin = .ok false) :
    commonTypePoint E R a b = .ok none ∧ commonQuantityPoint E R a b = .error .rejected := by
  have : commonTypePoint E R a b = .ok none := by unfold commonTypePoint; rw [h]; rfl
  exact ⟨this, by unfold commonQuantityPoint; rw [this]; rfl⟩

example : originEquivalent exNoRebind exSea (dynamicOrigin (.base exL)) = .ok false := by decide +kernel

/-- C85: the common type of points is the same in both orders exactly when the points have one dimension, or one of the
dimensions is unknown. -/
theorem C85_points_order (E : Env) (hE : E.OK) (R : Rebinds) (β : String → ℝ) (hβ : Sizes β) (a b t s : PTy)
    (ga : a.qty.Good E) (gb : b.qty.Good E) (hr : Related β a.qty b.qty)
    (ht : commonTypePoint E R a b = .ok (some t)) (hs : commonTypePoint E R b a = .ok (some s)) :
    t = s ↔ a.origin.dim = b.origin.dim ∨ OneUnknown a.origin.dim b.origin.dim := by
  obtain ⟨he, tq, ho⟩ := commonTypePoint_sound hE hβ ga gb hr ht
  obtain ⟨-, sq, ho'⟩ := commonTypePoint_sound hE hβ gb ga hr.symm hs
  rw [show (a.origin.dim = b.origin.dim ∨ OneUnknown a.origin.dim b.origin.dim) ↔ t.qty = s.qty from
    (commonTypeQty_order (C17_symmetric _ _ hr.equiv) tq sq).1.symm]
  refine ⟨fun h => by rw [h], fun h => ?_⟩
  have hdim : ∀ d, d = a.origin.dim → d = b.origin.dim → a.origin = b.origin := by
    intro d h1 h2
    obtain ⟨-, h3, -⟩ := originEquivalent_true he
    rw [← h1, h2] at h3
    have : rebindOrigin R b.origin b.origin.dim = some b.origin := if_pos rfl
    rw [this] at h3
    simpa using h3.symm
  have hor : t.origin = s.origin := by
    rcases ho with ⟨e, k⟩ | ⟨e, k⟩ <;> rcases ho' with ⟨e', k'⟩ | ⟨e', k'⟩ <;> rw [e, e']
    · exact hdim _ k (by rw [h]; exact k')
    · exact (hdim _ (by rw [h]; exact k') k).symm
  cases t; cases s
  simp only [PTy.qty, QTy.mk.injEq] at h hor
  simp only [PTy.mk.injEq]
  exact ⟨hor, h.2.1, h.2.2⟩

/-- Altitudes of one origin; dynamic origins of two systems, where the order matters. -/
example : commonTypePoint exEnv exNoRebind ⟨exSea, exCmUnit, .int .i64⟩ ⟨exSea, exKm, .int .i32⟩ =
      commonTypePoint exEnv exNoRebind ⟨exSea, exKm, .int .i32⟩ ⟨exSea, exCmUnit, .int .i64⟩ ∧
    commonTypePoint exEnv exNoRebind ⟨dynamicOrigin (.base exLcgs), exLcgs.unit, .flt .f64⟩ ⟨dynamicOrigin (.base exL), exKm, .int .i32⟩ =
      .ok (some ⟨dynamicOrigin (.base exLcgs), exCmUnit, .flt .f64⟩) := by
  decide +kernel

/-- C85: two types of points with equivalent origins are comparable for generic code exactly when their operators `<=>` and
`==` are constrained to accept them, which look at the quantity types. -/
theorem C85_points_comparable (E : Env) (hE : E.OK) (R : Rebinds) (β : String → ℝ) (hβ : Sizes β) (a b : PTy)
    (ga : a.qty.Good E) (gb : b.qty.Good E) (hr : Related β a.qty b.qty) (ho : originEquivalent R b.origin a.origin = .ok true)
    (c d : Bool) (h : comparablePoint E R a b = .ok c) (h' : comparableQty E a.qty b.qty = .ok d) : c = d := by
  by_cases hne : a = b
  · subst hne
    unfold comparablePoint commonRefWith commonRef at h
    simp [ok_bind, convertibleTo_self] at h
    rw [(C71_symmetric E a.qty a.qty).1] at h'
    simp only [Except.ok.injEq] at h'
    rw [h, ← h']
  have hor : a.origin.dim = b.origin.dim → a.origin = b.origin := by
    intro e
    obtain ⟨-, h3, -⟩ := originEquivalent_true ho
    rw [e] at h3
    have : rebindOrigin R b.origin b.origin.dim = some b.origin := if_pos rfl
    rw [this] at h3
    simpa using h3.symm
  have hnq : a.qty ≠ b.qty := by
    intro e
    apply hne
    simp only [PTy.qty, QTy.mk.injEq] at e
    cases a; cases b
    simp only [PTy.mk.injEq]
    exact ⟨hor e.1, e.2.1, e.2.2⟩
  have cab : pointCastable E R a b = safeCastable E a.qty b.qty := by
    unfold pointCastable convertibleTo; rw [originEquivalent_symm ho, if_neg hnq]; rfl
  have cba : pointCastable E R b a = safeCastable E b.qty a.qty := by
    unfold pointCastable convertibleTo; rw [ho, if_neg (Ne.symm hnq)]; rfl
  have hd := C71_exactly E hE β hβ _ _ ga gb hr d h'
  obtain ⟨ab, ba, hab, hba, h1, h2⟩ := commonRefWith_ok hne h
  rw [cab] at hab; rw [cba] at hba
  rw [hab, hba] at hd
  by_cases hx : ab = ba
  swap
  · rw [h1 hx]
    symm
    rw [hd]
    cases ab <;> cases ba <;> simp at hx ⊢
  obtain ⟨x, y, hx', hy', h3, h4⟩ := h2 hx
  have hd' : d = true ↔ a.origin.dim = b.origin.dim ∨ OneUnknown a.origin.dim b.origin.dim := by
    rw [hd]
    show (a.origin.dim = b.origin.dim ∨ OneUnknown a.origin.dim b.origin.dim ∨ _) ↔ _
    subst hx; cases ab <;> simp
  obtain ⟨t, rfl⟩ : ∃ t, x = some t := by
    rcases commonTypePoint_ok hx' with ⟨-, e⟩ | ⟨-, _, _, _, _, _, e⟩
    · rw [ho] at e; simp at e
    · exact ⟨_, e⟩
  obtain ⟨s, rfl⟩ : ∃ t, y = some t := by
    rcases commonTypePoint_ok hy' with ⟨-, e⟩ | ⟨-, _, _, _, _, _, e⟩
    · rw [originEquivalent_symm ho] at e; simp at e
    · exact ⟨_, e⟩
  have hord := C85_points_order E hE R β hβ a b _ _ ga gb hr hx' hy'
  rw [← hord] at hd'
  by_cases hts : t = s
  case pos =>
    obtain ⟨p, q, hp, hq, rfl⟩ := h4 _ rfl (by rw [hts])
    obtain ⟨-, -, -, -, -, -, kp, kq⟩ := C85_points E hE R β hβ a b _ ga gb hr hx'
    have k : ∀ (z t : PTy) (c : Bool), (∀ c, pointCastable E R z t = .ok c → c = true) →
        convertibleTo (pointCastable E R) z t = .ok c → c = true := by
      intro z t c h h'
      unfold convertibleTo at h'
      split at h'
      · simpa using h'.symm
      · exact h c h'
    rw [k _ _ _ kp hp, k _ _ _ kq hq, hd'.mpr hts]; rfl
  case neg =>
    rw [h3 (fun t e e' => hts (by simp only [Option.some.injEq] at e e'; rw [e, e']))]
    cases d with
    | false => rfl
    | true => exact absurd (hd'.mp rfl) hts

/-- Positions in kilometres and metres; SI kilometres and CGS centimetres as integers and as `double`. -/
example : comparablePoint exEnv exNoRebind ⟨exSea, exKm, .flt .f64⟩ ⟨exSea, exMetre, .flt .f32⟩ = .ok true ∧
    comparablePoint exEnv exNoRebind ⟨dynamicOrigin (.base exL), exKm, .int .i32⟩ ⟨dynamicOrigin (.base exLcgs), exLcgs.unit, .int .i64⟩ = .ok true ∧
    comparablePoint exEnv exNoRebind ⟨dynamicOrigin (.base exL), exKm, .flt .f64⟩ ⟨dynamicOrigin (.base exLcgs), exLcgs.unit, .flt .f64⟩ = .ok false := by
  decide +kernel

/-! ### Kinds -/

theorem commonTypeKind_cases {E : Env} {a b : KTy} {x : Option KTy} (h : commonTypeKind E a b = .ok x) :
    (x = none ∧ kindEquivalent b.kind a.kind = .ok false) ∨
      (kindEquivalent b.kind a.kind = .ok true ∧ ∃ t, commonTypeQty E a.qty b.qty = .ok (some t) ∧
        t.unit.ref = a.kind.dim.unit.ref ∧ x = some ⟨a.kind, t.unit, t.rep⟩) := by
  unfold commonTypeKind at h
  simp only [bind_ok] at h
  obtain ⟨e, he, h⟩ := h
  cases e with
  | false => simp only [Bool.false_eq_true, if_false, Except.ok.injEq] at h; exact Or.inl ⟨h.symm, he⟩
  | true =>
    simp only [if_true, bind_ok] at h
    obtain ⟨t, ht, h⟩ := h
    split at h
    · rename_i hu
      simp only [Except.ok.injEq] at h
      refine Or.inr ⟨he, t, ?_, hu, h.symm⟩
      unfold commonTypeQty
      have : dimEquivalent b.qty.dim a.qty.dim = .ok true := (kindEquivalent_base he).2
      rw [this]
      simp only [ok_bind, if_true]
      rw [show a.qty.rep = a.rep from rfl, show b.qty.rep = b.rep from rfl, ht]; rfl
    · cases h

/-- C85: two kind types have a common type only if the kinds are equivalent.  It is of the kind of the first one, over the common
type of the quantity types; both kind types convert to it. -/
theorem C85_kinds (E : Env) (hE : E.OK) (β : String → ℝ) (hβ : Sizes β) (a b t : KTy) (ga : a.qty.Good E) (gb : b.qty.Good E)
    (hr : Related β a.qty b.qty) (h : commonTypeKind E a b = .ok (some t)) :
    a.kind.base = b.kind.base ∧ t.kind = a.kind ∧ commonTypeQty E a.qty b.qty = .ok (some t.qty) ∧ t.qty.Good E ∧
    t.rep = a.rep.common b.rep ∧ IsCommonSize (a.qty.size β) (b.qty.size β) (t.qty.size β) ∧
    (∀ c, kindCastable E a t = .ok c → c = true) ∧ (∀ c, kindCastable E b t = .ok c → c = true) := by
  rcases commonTypeKind_cases h with ⟨e, -⟩ | ⟨he, q, hq, hu, e⟩
  · cases e
  simp only [Option.some.injEq] at e
  subst e
  obtain ⟨gt, hrep, hd, hs, -, tu⟩ := commonTypeQty_sound hE hβ ga gb hr hq
  have hqd : q.dim = a.kind.dim := by
    rcases commonUnit_dim tu with e | ⟨e, hn, -⟩
    · exact e
    · exact absurd (hu.symm.trans (gt.unitOf.trans (by rw [e]))) hn
  have hqq : (⟨a.kind, q.unit, q.rep⟩ : KTy).qty = q := by unfold KTy.qty; simp only; rw [← hqd]
  have key := common_convertible hE hβ ga gb hr hq
  rw [hqq]
  refine ⟨(kindEquivalent_base he).1.symm, rfl, hq, gt, hrep, hs, fun c h => ?_, fun c h => ?_⟩
  · unfold kindCastable at h
    rw [hqq, show kindEquivalent a.kind a.kind = .ok true from kindEquivalent_self _] at h
    exact key _ (Or.inl rfl) c h
  · unfold kindCastable at h
    rw [hqq, show kindEquivalent b.kind a.kind = .ok true from he] at h
    exact key _ (Or.inr rfl) c h

/-- Widths in kilometres and centimetres; over the lengths of two systems; widths and heights. -/
example : commonTypeKind exEnv ⟨exWidth, exKm, .int .i32⟩ ⟨exWidth, exCmUnit, .int .i64⟩ = .ok (some ⟨exWidth, exCmUnit, .int .i64⟩) ∧
    commonTypeKind exEnv ⟨exWidth, exKm, .int .i32⟩ ⟨exWidthCgs, exLcgs.unit, .flt .f64⟩ = .ok (some ⟨exWidth, exCmUnit, .flt .f64⟩) ∧
    commonTypeKind exEnv ⟨exWidth, exKm, .int .i32⟩ ⟨exHeight, exKm, .int .i32⟩ = .ok none ∧
    commonQuantityKind exEnv ⟨exWidth, exKm, .int .i32⟩ ⟨exHeight, exKm, .int .i32⟩ = .error .rejected := by
  decide +kernel

/-- C85 fails for kinds: if the kind on the left has an unknown dimension and the other one a dimension with a coherent unit
of its own, naming the common type is an error, and so is the sum. -/
theorem C85_unknown_left_rejected (E : Env) (hE : E.OK) (β : String → ℝ) (hβ : Sizes β) (op : BinOp)
    (a b : Kd) (ga : a.Good E) (gb : b.Good E) (hr : Related β a.ty.qty b.ty.qty) (es : List Exp) (hu : a.ty.kind.dim = .unknown es)
    (hn : a.ty.kind.dim.unit.ref ≠ b.ty.kind.dim.unit.ref) :
    (∀ t, commonTypeKind E a.ty b.ty ≠ .ok (some t)) ∧ (∀ r, addSubKind E op a b ≠ .ok r) := by
  have key : ∀ q : QTy, q.Good E → commonUnit E.est E.units a.ty.kind.dim a.ty.unit b.ty.kind.dim b.ty.unit = .ok (q.dim, q.unit) →
      q.unit.ref ≠ a.ty.kind.dim.unit.ref := by
    intro q gq tu e
    rw [hu] at tu
    have := commonUnit_dim_unknown (by rw [← hu]; exact hn) tu
    exact hn (e.symm.trans (gq.unitOf.trans (by rw [this])))
  refine ⟨fun t h => ?_, fun r h => ?_⟩
  · rcases commonTypeKind_cases h with ⟨e, -⟩ | ⟨he, q, hq, hu', -⟩
    · cases e
    obtain ⟨gt, -, -, -, -, tu⟩ := commonTypeQty_sound hE hβ ga.common.ty gb.common.ty hr hq
    exact key q gt tu hu'
  · unfold addSubKind at h
    simp only [bind_ok] at h
    obtain ⟨e, he, h⟩ := h
    cases e with
    | false => cases h
    | true =>
      simp only [if_true, bind_ok] at h
      obtain ⟨q, hq, h⟩ := h
      unfold makeKind at h
      obtain ⟨hu', -, -⟩ := constructKind_iff.mp h
      unfold addSub at hq
      simp only [bind_ok] at hq
      obtain ⟨t, ht, x, -, y, -, z, -, hq⟩ := hq
      have gt := (commonQty_sound hE hβ ga.common.ty gb.common.ty hr ht).1
      have hqt : q.ty = t := by
        unfold mkQty at hq
        split at hq
        · simp only [bind_ok, Except.ok.injEq] at hq
          obtain ⟨n, -, rfl⟩ := hq; rfl
        · cases hq
      unfold commonQty at ht
      simp only [bind_ok] at ht
      obtain ⟨e, -, ht⟩ := ht
      cases e with
      | false => cases ht
      | true =>
        simp only [if_true, bind_ok, Except.ok.injEq] at ht
        obtain ⟨⟨d, u⟩, tu, rfl⟩ := ht
        rw [hqt] at hu'
        exact key _ gt tu hu'

/-- The kind of an area, over a product of lengths whose dimension was not looked up, and over the dimension of areas. -/
def exAreaKindU : Kind := ⟨none, "area_kind", .unknown [⟨exL, 2, 1⟩]⟩
def exAreaKind : Kind := ⟨some "area_kind", "area_kind", (exAreaTy (.int .i32)).dim⟩

/-- The unit of the common type where no unit is declared for the ratio. -/
def exSqM : MUnit := ⟨.scaled ⟨1, 1, 0⟩ "square_metre", ⟨1, 1, 0⟩, "square_metre", [], false, "", none⟩

/-- The other order is accepted; so are the quantities, and the points of the quantities, in both orders. -/
example :
    commonTypeKind exEnv ⟨exAreaKindU, unknownCoherentUnit, .int .i32⟩ ⟨exAreaKind, exAreaKind.dim.unit, .int .i32⟩ = .error .rejected ∧
    addSubKind exEnv .add ⟨⟨exAreaKindU, unknownCoherentUnit, .int .i32⟩, .i 2⟩ ⟨⟨exAreaKind, exAreaKind.dim.unit, .int .i32⟩, .i 3⟩ =
      .error .rejected ∧
    commonTypeKind exEnv ⟨exAreaKind, exAreaKind.dim.unit, .int .i32⟩ ⟨exAreaKindU, unknownCoherentUnit, .int .i32⟩ =
      .ok (some ⟨exAreaKind, exSqM, .int .i32⟩) ∧
    addSubKind exEnv .add ⟨⟨exAreaKind, exAreaKind.dim.unit, .int .i32⟩, .i 3⟩ ⟨⟨exAreaKindU, unknownCoherentUnit, .int .i32⟩, .i 2⟩ =
      .ok ⟨⟨exAreaKind, exSqM, .int .i32⟩, .i 5⟩ ∧
    commonTypeQty exEnv ⟨exAreaKindU.dim, unknownCoherentUnit, .int .i32⟩ ⟨exAreaKind.dim, exAreaKind.dim.unit, .int .i32⟩ =
      .ok (some ⟨exAreaKind.dim, exSqM, .int .i32⟩) ∧
    commonTypePoint exEnv exNoRebind ⟨dynamicOrigin exAreaKindU.dim, unknownCoherentUnit, .int .i32⟩
      ⟨dynamicOrigin exAreaKind.dim, exAreaKind.dim.unit, .int .i32⟩ =
      .ok (some ⟨dynamicOrigin exAreaKind.dim, exSqM, .int .i32⟩) := by
  decide +kernel

/-- These kinds satisfy the conditions. -/
example (β : String → ℝ) : (⟨⟨exAreaKindU, unknownCoherentUnit, .int .i32⟩, .i 2⟩ : Kd).Good exEnv ∧
    (⟨⟨exAreaKind, exAreaKind.dim.unit, .int .i32⟩, .i 3⟩ : Kd).Good exEnv ∧
    exAreaKindU.dim.unit.ref ≠ exAreaKind.dim.unit.ref ∧
    Related β (⟨exAreaKindU, unknownCoherentUnit, .int .i32⟩ : KTy).qty (⟨exAreaKind, exAreaKind.dim.unit, .int .i32⟩ : KTy).qty := by
  have e1 : exAreaKindU.dim.exps = .ok [⟨exL, 2, 1⟩] := by decide +kernel
  have e2 : exAreaKind.dim.exps = .ok [⟨exL, 2, 1⟩] := by decide +kernel
  have hw : exAreaKind.dim.unit.WF :=
    ⟨⟨by decide, by decide, fun _ => by decide, by decide, by decide, by decide, by decide, by decide⟩, by decide⟩
  have hes : ∀ e ∈ [(⟨exL, 2, 1⟩ : Exp)], e.dim.unit.WF := by
    intro e he; rw [List.mem_singleton] at he; subst he; exact ⟨one_wf, by decide⟩
  have hn : exAreaKindU.dim.unit.ref ≠ exAreaKind.dim.unit.ref := by decide
  refine ⟨⟨⟨⟨⟨_, e1, hes⟩, unknownCoherentUnit_wf⟩, unknownCoherentUnit_wf, rfl, rooted_of_den_one e1 (by decide)⟩, _, rfl, by decide⟩,
    ⟨⟨⟨⟨_, e2, hes⟩, hw⟩, hw, rfl, rooted_of_den_one e2 (by decide)⟩, _, rfl, by decide⟩, hn,
    by show dimEquivalent exAreaKindU.dim exAreaKind.dim = .ok true; decide +kernel, fun h => absurd h hn, fun _ => ?_⟩
  constructor <;> simp [exAreaKindU, exAreaKind, KTy.qty, exAreaTy, Dim.unit, unknownCoherentUnit, Ratio.one, Ratio.val]

/-! ### Points of a kind -/

/-- C85: two types of points of a kind have a common type only if the kinds and the origins are equivalent.  It is of the
point kind of the first one, over the common type of the kind types; both convert to it. -/
theorem C85_point_kinds (E : Env) (hE : E.OK) (R : Rebinds) (β : String → ℝ) (hβ : Sizes β) (a b t : PKTy)
    (ga : a.kty.qty.Good E) (gb : b.kty.qty.Good E) (hr : Related β a.kty.qty b.kty.qty)
    (h : commonTypePk E R a b = .ok (some t)) :
    a.pk.kind.base = b.pk.kind.base ∧ originEquivalent R b.pk.origin a.pk.origin = .ok true ∧ t.pk = a.pk ∧
    commonTypeKind E a.kty b.kty = .ok (some t.kty) ∧ t.kty.qty.Good E ∧ t.rep = a.rep.common b.rep ∧
    IsCommonSize (a.kty.qty.size β) (b.kty.qty.size β) (t.kty.qty.size β) ∧
    (∀ c, pkCastable E R a t = .ok c → c = true) ∧ (∀ c, pkCastable E R b t = .ok c → c = true) := by
  unfold commonTypePk at h
  simp only [bind_ok] at h
  obtain ⟨e, he, h⟩ := h
  cases e with
  | false => simp at h
  | true =>
    simp only [if_true, bind_ok] at h
    obtain ⟨x, hx, h⟩ := h
    cases x with
    | none => cases h
    | some k =>
      simp only at h
      split at h
      swap
      · cases h
      simp only [Except.ok.injEq, Option.some.injEq] at h
      subst h
      obtain ⟨h1, h2, h3, h4, h5, h6, h7, h8⟩ := C85_kinds E hE β hβ a.kty b.kty k ga gb hr hx
      have hk : (⟨a.pk, k.unit, k.rep⟩ : PKTy).kty = k := by
        cases k; simp only at h2; subst h2; rfl
      obtain ⟨hek, heo⟩ := pkindEquivalent_true.mp he
      have hself : ∀ o, originEquivalent R o o = .ok true := fun o => by unfold originEquivalent; rw [if_pos rfl]
      have conv : ∀ z : KTy, (∀ c, kindCastable E z k = .ok c → c = true) → ∀ c, convertibleTo (kindCastable E) z k = .ok c → c = true := by
        intro z h c h'
        unfold convertibleTo at h'
        split at h'
        · simpa using h'.symm
        · exact h c h'
      rw [hk]
      refine ⟨h1, heo, rfl, hx, h4, h5, h6, fun c h => ?_, fun c h => ?_⟩
      · unfold pkCastable at h
        rw [hk, show pkindEquivalent R a.pk a.pk = .ok true from pkindEquivalent_true.mpr ⟨kindEquivalent_self _, hself _⟩] at h
        exact conv _ h7 c h
      · unfold pkCastable at h
        rw [hk, show pkindEquivalent R b.pk a.pk = .ok true from he] at h
        exact conv _ h8 c h

/-- Altitudes of a kind, in kilometres and centimetres; positions of widths over two systems; another origin. -/
example :
    commonTypePk exEnv exNoRebind ⟨⟨some "altitude_kind", exWidth, exSea⟩, exKm, .int .i32⟩ ⟨⟨none, exWidth, exSea⟩, exCmUnit, .int .i64⟩ =
      .ok (some ⟨⟨some "altitude_kind", exWidth, exSea⟩, exCmUnit, .int .i64⟩) ∧
    commonTypePk exEnv exNoRebind ⟨⟨none, exWidth, dynamicOrigin (.base exL)⟩, exKm, .int .i32⟩
      ⟨⟨none, exWidthCgs, dynamicOrigin (.base exLcgs)⟩, exLcgs.unit, .flt .f64⟩ =
      .ok (some ⟨⟨none, exWidth, dynamicOrigin (.base exL)⟩, exCmUnit, .flt .f64⟩) ∧
    commonTypePk exEnv exNoRebind ⟨⟨none, exWidth, dynamicOrigin (.base exL)⟩, exKm, .int .i32⟩ ⟨⟨none, exWidth, exSea⟩, exKm, .int .i32⟩ =
      .ok none ∧
    commonQuantityPk exEnv exNoRebind ⟨⟨none, exWidth, exSea⟩, exKm, .int .i32⟩ ⟨⟨none, exHeight, exSea⟩, exKm, .int .i32⟩ =
      .error .rejected := by
  decide +kernel

/-- C85: kinds that are not equivalent, and points of kinds where the kinds or the origins are not, have no common type. -/
theorem C85_kinds_none (E : Env) (R : Rebinds) (a b : KTy) (p q : PKTy) :
    (a.kind.base ≠ b.kind.base → commonTypeKind E a b = .ok none ∧ commonQuantityKind E a b = .error .rejected) ∧
    (p.pk.kind.base ≠ q.pk.kind.base → commonTypePk E R p q = .ok none ∧ commonQuantityPk E R p q = .error .rejected) ∧
    (kindEquivalent q.pk.kind p.pk.kind = .ok true → originEquivalent R q.pk.origin p.pk.origin = .ok false →
      commonTypePk E R p q = .ok none ∧ commonQuantityPk E R p q = .error .rejected) := by
  have hk : ∀ x y : Kind, x.base ≠ y.base → kindEquivalent y x = .ok false := fun x y h => by
    unfold kindEquivalent; rw [if_neg (Ne.symm h)]
  refine ⟨fun h => ?_, fun h => ?_, fun h h' => ?_⟩
  · have : commonTypeKind E a b = .ok none := by unfold commonTypeKind; rw [hk _ _ h]; rfl
    exact ⟨this, by unfold commonQuantityKind; rw [this]; rfl⟩
  · have : commonTypePk E R p q = .ok none := by unfold commonTypePk pkindEquivalent; rw [hk _ _ h]; rfl
    exact ⟨this, by unfold commonQuantityPk; rw [this]; rfl⟩
  · have : commonTypePk E R p q = .ok none := by
      unfold commonTypePk pkindEquivalent
      rw [h]; simp only [ok_bind, if_true]; rw [h']; rfl
    exact ⟨this, by unfold commonQuantityPk; rw [this]; rfl⟩

example : exWidth.base ≠ exHeight.base ∧ kindEquivalent exWidth exWidth = .ok true ∧
    originEquivalent exNoRebind exSea (dynamicOrigin (.base exL)) = .ok false := by decide +kernel

/-! ### Implicit conversion as seen by `std::convertible_to` and as done by the constructors -/

theorem convertible_of_ok {E : Env} {t : QTy} {q r : Qty} (h : convertQty E t q = .ok r) : convertibleTo (safeCastable E) q.ty t = .ok true := by
  unfold convertibleTo
  rcases convertQty_cases h with ⟨e, -⟩ | ⟨e, h, -⟩
  · rw [if_pos e]
  · rw [if_neg e]; exact h

theorem rejected_of_not_convertible {E : Env} {t : QTy} {q : Qty} (h : convertibleTo (safeCastable E) q.ty t = .ok false) :
    convertQty E t q = .error .rejected := by
  unfold convertibleTo at h
  unfold convertQty
  split at h
  · simp at h
  · rename_i e
    rw [if_neg e, h]; rfl

theorem kindCastable_of_ok {E : Env} {t : KTy} {k r : Kd} (h : convertKind E t k = .ok r) : kindCastable E k.ty t = .ok true := by
  unfold convertKind at h
  unfold kindCastable
  split at h
  · rename_i e
    rw [e, kindEquivalent_self]; exact convertibleTo_self _ _
  · simp only [bind_ok] at h
    obtain ⟨e, he, h⟩ := h
    cases e with
    | false => cases h
    | true =>
      simp only [if_true, bind_ok] at h
      obtain ⟨x, hx, -⟩ := h
      rw [he]; exact convertible_of_ok hx

theorem not_kindCastable_rejected {E : Env} {t : KTy} {k : Kd} (h : kindCastable E k.ty t = .ok false) : convertKind E t k = .error .rejected := by
  unfold kindCastable at h
  unfold convertKind
  split
  · rename_i e
    rw [e, kindEquivalent_self, ok_bind, if_pos rfl, convertibleTo_self] at h; simp at h
  · simp only [bind_ok] at h
    obtain ⟨e, he, h⟩ := h
    rw [he]
    cases e with
    | false => rfl
    | true =>
      simp only [if_true] at h
      simp only [ok_bind, if_true]
      rw [rejected_of_not_convertible (q := k.common) h]; rfl

/-- C85: `std::convertible_to` on types of points, kinds and points of a kind tells what the converting constructors do: where they
produce a value it is true, and where it is false they are rejected. -/
theorem C85_convertible (E : Env) (R : Rebinds) :
    (∀ (t : PTy) (p : Pt), (∀ r, convertPoint E R t p = .ok r → pointCastable E R p.ty t = .ok true) ∧
      (pointCastable E R p.ty t = .ok false → convertPoint E R t p = .error .rejected)) ∧
    (∀ (t : KTy) (k : Kd), (∀ r, convertKind E t k = .ok r → kindCastable E k.ty t = .ok true) ∧
      (kindCastable E k.ty t = .ok false → convertKind E t k = .error .rejected)) ∧
    (∀ (t : PKTy) (p : Pk), (∀ r, convertPk E R t p = .ok r → pkCastable E R p.ty t = .ok true) ∧
      (pkCastable E R p.ty t = .ok false → convertPk E R t p = .error .rejected)) := by
  have hself : ∀ o, originEquivalent R o o = .ok true := fun o => by unfold originEquivalent; rw [if_pos rfl]
  refine ⟨fun t p => ⟨fun r h => ?_, fun h => ?_⟩, fun t k => ⟨fun r h => kindCastable_of_ok h, not_kindCastable_rejected⟩,
    fun t p => ⟨fun r h => ?_, fun h => ?_⟩⟩
  · unfold convertPoint at h
    unfold pointCastable
    split at h
    · rename_i e
      rw [e, hself]; exact convertibleTo_self _ _
    · simp only [bind_ok] at h
      obtain ⟨e, he, h⟩ := h
      cases e with
      | false => cases h
      | true =>
        simp only [if_true, bind_ok] at h
        obtain ⟨x, hx, -⟩ := h
        rw [he]; exact convertible_of_ok hx
  · unfold pointCastable at h
    unfold convertPoint
    split
    · rename_i e
      rw [e, hself, ok_bind, if_pos rfl, convertibleTo_self] at h; simp at h
    · simp only [bind_ok] at h
      obtain ⟨e, he, h⟩ := h
      rw [he]
      cases e with
      | false => rfl
      | true =>
        simp only [if_true] at h
        simp only [ok_bind, if_true]
        rw [rejected_of_not_convertible (q := p.rel) h]; rfl
  · unfold convertPk at h
    unfold pkCastable
    split at h
    · rename_i e
      rw [e, pkindEquivalent_true.mpr ⟨kindEquivalent_self _, hself _⟩]; exact convertibleTo_self _ _
    · simp only [bind_ok] at h
      obtain ⟨e, he, h⟩ := h
      cases e with
      | false => cases h
      | true =>
        simp only [if_true, bind_ok] at h
        obtain ⟨x, hx, -⟩ := h
        rw [he]
        simp only [ok_bind, if_true]
        unfold convertibleTo
        split
        · rfl
        · exact kindCastable_of_ok hx
  · unfold pkCastable at h
    unfold convertPk
    split
    · rename_i e
      rw [e, pkindEquivalent_true.mpr ⟨kindEquivalent_self _, hself _⟩, ok_bind, if_pos rfl, convertibleTo_self] at h; simp at h
    · simp only [bind_ok] at h
      obtain ⟨e, he, h⟩ := h
      rw [he]
      cases e with
      | false => rfl
      | true =>
        simp only [if_true] at h
        simp only [ok_bind, if_true]
        unfold convertibleTo at h
        split at h
        · simp at h
        · rw [not_kindCastable_rejected (k := p.rel) h]; rfl

/-- Kilometres above the sea to metres, and not to a dynamic origin, nor back to kilometres for integers. -/
example : pointCastable exEnv exNoRebind ⟨exSea, exKm, .int .i32⟩ ⟨exSea, exMetre, .int .i32⟩ = .ok true ∧
    pointCastable exEnv exNoRebind ⟨exSea, exMetre, .int .i32⟩ ⟨exSea, exKm, .int .i32⟩ = .ok false ∧
    pointCastable exEnv exNoRebind ⟨exSea, exKm, .int .i32⟩ ⟨dynamicOrigin (.base exL), exMetre, .int .i32⟩ = .ok false ∧
    kindCastable exEnv ⟨exWidth, exKm, .int .i32⟩ ⟨exHeight, exMetre, .int .i32⟩ = .ok false ∧
    pkCastable exEnv exNoRebind ⟨⟨none, exWidth, exSea⟩, exKm, .int .i32⟩ ⟨⟨some "altitude_kind", exWidth, exSea⟩, exMetre, .int .i32⟩ = .ok true ∧
    pkCastable exEnv exNoRebind ⟨⟨none, exWidth, exSea⟩, exMetre, .int .i32⟩ ⟨⟨none, exWidth, exSea⟩, exKm, .int .i32⟩ = .ok false := by
  decide +kernel

end Verif
