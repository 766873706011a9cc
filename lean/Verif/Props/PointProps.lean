import Verif.Props.AssignProps
import Verif.Point

/-!
# Quantity points (C37, C38)
-/

namespace Verif

/-! ### Helper lemmas -/

theorem Related.of_dim {β : String → ℝ} {t1 t2 s1 s2 : QTy} (h : Related β t1 t2) (h1 : s1.dim = t1.dim)
    (h2 : s2.dim = t2.dim) : Related β s1 s2 :=
  ⟨by rw [h1, h2]; exact h.equiv, by rw [h1, h2]; exact h.coherent, by rw [h1, h2]; exact h.one⟩

theorem Related.either {β : String → ℝ} {a b c r : QTy} (ha : Related β a c) (hb : Related β b c)
    (h : r.dim = a.dim ∨ r.dim = b.dim) : Related β r c := by
  rcases h with h | h
  · exact ha.of_dim h rfl
  · exact hb.of_dim h rfl

/-- The member templates `rebind` give origins of the dimension asked for. -/
def Rebinds.OK (R : Rebinds) : Prop := ∀ o d o', R o d = some o' → o'.dim = d

theorem rebindOrigin_dim {R : Rebinds} (hR : R.OK) {o o' : Origin} {d : Dim} (h : rebindOrigin R o d = some o') : o'.dim = d := by
  unfold rebindOrigin at h
  split at h
  · rename_i he; cases h; exact he
  · split at h
    · cases h; rfl
    · exact hR _ _ _ h

theorem mkPoint_eq_ok {E : Env} {t : PTy} {q : Qty} {p : Pt} (h : mkPoint E t q = .ok p) :
    t.unit.ref = t.origin.dim.unit.ref ∧ p.ty = t ∧ ∃ x, convertQty E t.qty q = .ok x ∧ p.num = x.num ∧ x.ty = t.qty := by
  unfold mkPoint at h
  split at h
  · rename_i hu
    simp only [bind_ok, Except.ok.injEq] at h
    obtain ⟨x, hx, rfl⟩ := h
    refine ⟨hu, rfl, x, hx, rfl, ?_⟩
    rcases convertQty_cases hx with ⟨h1, rfl⟩ | ⟨-, -, h1⟩
    · exact h1
    · obtain ⟨-, c, n, -, -, rfl⟩ := quantityCast_eq_ok h1; rfl
  · cases h

/-- The sum of a point and a quantity is the point at the sum, of the rebound origin. -/
theorem addSubPoint_eq_ok {E : Env} {R : Rebinds} (hR : R.OK) {op : BinOp} {p r : Pt} {q : Qty}
    (h : addSubPoint E R op p q = .ok r) :
    addSub E op p.rel q = .ok r.rel ∧ rebindOrigin R p.ty.origin r.ty.origin.dim = some r.ty.origin := by
  unfold addSubPoint at h
  simp only [bind_ok] at h
  obtain ⟨s, hs, h⟩ := h
  split at h
  · rename_i o ho
    have hd := rebindOrigin_dim hR ho
    obtain ⟨-, ht, x, hx, hn, -⟩ := mkPoint_eq_ok h
    have hq : s.ty = PTy.qty ⟨o, s.ty.unit, s.ty.rep⟩ := by unfold PTy.qty; simp only [hd]
    rcases convertQty_cases hx with ⟨h1, rfl⟩ | ⟨h1, -, -⟩
    · have : r.rel = x := by
        unfold Pt.rel; rw [ht, hn, ← h1]
      refine ⟨by rw [this]; exact hs, ?_⟩
      rw [ht]; simp only; rw [hd]; exact ho
    · exact absurd hq h1
  · cases h

/-- A point of a nameable type holding a value of its representation. -/
structure Pt.Good (E : Env) (p : Pt) : Prop where
  rel : p.rel.Good E

/-! ## C37 -/

/-- The dimensions and sizes of the operands agree (see `Related`), whatever the units. -/
abbrev PRelated (β : String → ℝ) (p : Pt) (q : Qty) : Prop := Related β p.ty.qty q.ty

/-- C37: adding a quantity to a point moves it by exactly the amount of the quantity, and the origin stays the
same (rebound to the common dimension when the dimensions differ). -/
theorem C37_translate_partial (E : Env) (hE : E.OK) (R : Rebinds) (hR : R.OK) (β : String → ℝ) (hβ : Sizes β)
    (op : BinOp) (hop : op = .add ∨ op = .sub) (p r : Pt) (q : Qty) (gp : p.Good E) (gq : q.Good E)
    (hr : PRelated β p q) (h : addSubPoint E R op p q = .ok r) :
    r.Good E ∧ rebindOrigin R p.ty.origin r.ty.origin.dim = some r.ty.origin ∧
      (r.ty.origin.dim = p.ty.origin.dim → r.ty.origin = p.ty.origin) ∧
      (r.ty.origin.dim = p.ty.origin.dim ∨ r.ty.origin.dim = q.ty.dim) ∧
      (SumFits E β op p.rel q r.rel → r.pos β = if op = .add then p.pos β + q.amount β else p.pos β - q.amount β) := by
  obtain ⟨h1, h2⟩ := addSubPoint_eq_ok hR h
  obtain ⟨k1, -, k3, kd, -, k5⟩ := addSub_sound hE hβ hop gp.rel.ty gq.ty hr gp.rel.num gq.num h1
  refine ⟨⟨k1, k3⟩, h2, ?_, kd, fun hf => k5 hf.exact hf.guardl hf.guardr hf.left hf.right hf.result⟩
  intro hd
  unfold rebindOrigin at h2
  rw [if_pos hd.symm] at h2
  exact (Option.some.inj h2).symm

/-- C37: `(p + q) - p == q`, whatever the units and representations. -/
theorem C37_add_sub_partial (E : Env) (hE : E.OK) (R : Rebinds) (hR : R.OK) (β : String → ℝ) (hβ : Sizes β)
    (p r : Pt) (q d : Qty) (gp : p.Good E) (gq : q.Good E) (hr : PRelated β p q)
    (h : addSubPoint E R .add p q = .ok r) (h' : subPoints E R r p = .ok d)
    (hf : SumFits E β .add p.rel q r.rel) (hf' : SumFits E β .sub r.rel p.rel d) :
    d.amount β = q.amount β ∧ (CmpFits E β d q → ∀ e, eqQty E d q = .ok e → e = true) := by
  obtain ⟨gr, -, -, hd, hpos⟩ := C37_translate_partial E hE R hR β hβ .add (Or.inl rfl) p r q gp gq hr h
  have hpos := hpos hf
  rw [if_pos rfl] at hpos
  unfold subPoints at h'
  simp only [bind_ok] at h'
  obtain ⟨e, he, h'⟩ := h'
  cases e with
  | false => cases h'
  | true =>
    simp only [if_true] at h'
    have hrp : Related β r.rel.ty p.rel.ty := Related.either (Related.refl rfl) hr.symm hd
    obtain ⟨k1, -, k3, kd, -, k5⟩ := addSub_sound hE hβ (Or.inr rfl) gr.rel.ty gp.rel.ty hrp gr.rel.num gp.rel.num h'
    have k := k5 hf'.exact hf'.guardl hf'.guardr hf'.left hf'.right hf'.result
    rw [if_neg (by simp)] at k
    have hres : d.amount β = q.amount β := by
      rw [k]; show r.pos β - p.pos β = _; rw [hpos]; ring
    refine ⟨hres, fun hc e he => ?_⟩
    have hdq : Related β d.ty q.ty := by
      refine Related.either (a := r.rel.ty) (b := p.rel.ty) ?_ hr kd
      exact Related.either hr (Related.refl rfl) hd
    rw [C26_eq_partial E hE β hβ d q e ⟨k1, k3⟩ gq hdq hc he]
    exact hres

theorem comparePoints_ok {E : Env} {R : Rebinds} {a b : Pt} {o : Ordering} :
    comparePoints E R a b = .ok o ↔ originEquivalent R b.ty.origin a.ty.origin = .ok true ∧
      comparableQty E a.ty.qty b.ty.qty = .ok true ∧ compareQty E a.rel b.rel = .ok o := by
  unfold comparePoints
  simp only [bind_ok]
  constructor
  · rintro ⟨e, he, h⟩
    cases e with
    | false => cases h
    | true =>
      simp only [if_true, bind_ok] at h
      obtain ⟨c, hc, h⟩ := h
      cases c with
      | false => cases h
      | true => exact ⟨he, hc, h⟩
  · rintro ⟨he, hc, h⟩
    exact ⟨true, he, by simp only [if_true, bind_ok]; exact ⟨true, hc, h⟩⟩

theorem eqPoints_ok {E : Env} {R : Rebinds} {a b : Pt} {o : Bool} :
    eqPoints E R a b = .ok o ↔ originEquivalent R b.ty.origin a.ty.origin = .ok true ∧
      comparableQty E a.ty.qty b.ty.qty = .ok true ∧ eqQty E a.rel b.rel = .ok o := by
  unfold eqPoints
  simp only [bind_ok]
  constructor
  · rintro ⟨e, he, h⟩
    cases e with
    | false => cases h
    | true =>
      simp only [if_true, bind_ok] at h
      obtain ⟨c, hc, h⟩ := h
      cases c with
      | false => cases h
      | true => exact ⟨he, hc, h⟩
  · rintro ⟨he, hc, h⟩
    exact ⟨true, he, by simp only [if_true, bind_ok]; exact ⟨true, hc, h⟩⟩

/-- C37: `(p1 - p2) + p2 == p1`. -/
theorem C37_sub_add_partial (E : Env) (hE : E.OK) (R : Rebinds) (hR : R.OK) (β : String → ℝ) (hβ : Sizes β)
    (p1 p2 r : Pt) (d : Qty) (g1 : p1.Good E) (g2 : p2.Good E) (hr : Related β p1.ty.qty p2.ty.qty)
    (h : subPoints E R p1 p2 = .ok d) (h' : addSubPoint E R .add p2 d = .ok r)
    (hf : SumFits E β .sub p1.rel p2.rel d) (hf' : SumFits E β .add p2.rel d r.rel) :
    r.pos β = p1.pos β ∧ (CmpFits E β r.rel p1.rel → ∀ e, eqPoints E R r p1 = .ok e → e = true) := by
  unfold subPoints at h
  simp only [bind_ok] at h
  obtain ⟨e, he, h⟩ := h
  cases e with
  | false => cases h
  | true =>
    simp only [if_true] at h
    obtain ⟨k1, -, k3, kd, -, k5⟩ := addSub_sound hE hβ (Or.inr rfl) g1.rel.ty g2.rel.ty hr g1.rel.num g2.rel.num h
    have k := k5 hf.exact hf.guardl hf.guardr hf.left hf.right hf.result
    rw [if_neg (by simp)] at k
    have h2d : Related β p2.rel.ty d.ty := (Related.either (a := p1.rel.ty) (b := p2.rel.ty) hr (Related.refl rfl) kd).symm
    obtain ⟨gr, -, -, hd, hpos⟩ := C37_translate_partial E hE R hR β hβ .add (Or.inl rfl) p2 r d g2 ⟨k1, k3⟩ h2d h'
    have hpos := hpos hf'
    rw [if_pos rfl, k] at hpos
    have hres : r.pos β = p1.pos β := by rw [hpos]; show p2.pos β + (p1.pos β - p2.pos β) = _; ring
    refine ⟨hres, fun hc e he => ?_⟩
    obtain ⟨-, -, he⟩ := eqPoints_ok.mp he
    have hr1 : Related β r.rel.ty p1.rel.ty := by
      refine Related.either (a := p2.rel.ty) (b := d.ty) hr.symm ?_ hd
      exact Related.either (a := p1.rel.ty) (b := p2.rel.ty) (Related.refl rfl) hr.symm kd
    rw [C26_eq_partial E hE β hβ r.rel p1.rel e gr.rel g1.rel hr1 hc he]
    exact hres

/-- C37: `p + (q + s) == (p + q) + s`. -/
theorem C37_assoc_partial (E : Env) (hE : E.OK) (R : Rebinds) (hR : R.OK) (β : String → ℝ) (hβ : Sizes β)
    (p pq l r : Pt) (q s qs : Qty) (gp : p.Good E) (gq : q.Good E) (gs : s.Good E)
    (hpq : PRelated β p q) (hps : PRelated β p s) (hqs : Related β q.ty s.ty)
    (h1 : addSubPoint E R .add p q = .ok pq) (h2 : addSubPoint E R .add pq s = .ok l)
    (h3 : addSub E .add q s = .ok qs) (h4 : addSubPoint E R .add p qs = .ok r)
    (f1 : SumFits E β .add p.rel q pq.rel) (f2 : SumFits E β .add pq.rel s l.rel)
    (f3 : SumFits E β .add q s qs) (f4 : SumFits E β .add p.rel qs r.rel) :
    l.pos β = r.pos β ∧ (CmpFits E β l.rel r.rel → ∀ e, eqPoints E R l r = .ok e → e = true) := by
  obtain ⟨a1, -, -, ad, a2⟩ := C37_translate_partial E hE R hR β hβ .add (Or.inl rfl) p pq q gp gq hpq h1
  obtain ⟨c1, -, c3, cd, -, c5⟩ := addSub_sound hE hβ (Or.inl rfl) gq.ty gs.ty hqs gq.num gs.num h3
  have ps : PRelated β pq s := Related.either (a := p.ty.qty) (b := q.ty) hps hqs ad
  have hp' : PRelated β p qs := (Related.either (a := q.ty) (b := s.ty) hpq.symm hps.symm cd).symm
  obtain ⟨b1, -, -, bd, b2⟩ := C37_translate_partial E hE R hR β hβ .add (Or.inl rfl) pq l s a1 gs ps h2
  obtain ⟨d1, -, -, dd, d2⟩ := C37_translate_partial E hE R hR β hβ .add (Or.inl rfl) p r qs gp ⟨c1, c3⟩ hp' h4
  have e := c5 f3.exact f3.guardl f3.guardr f3.left f3.right f3.result
  have a2 := a2 f1
  have b2 := b2 f2
  have d2 := d2 f4
  simp only [if_true] at a2 b2 d2 e
  have hres : l.pos β = r.pos β := by rw [b2, a2, d2, e]; ring
  refine ⟨hres, fun hc e he => ?_⟩
  obtain ⟨-, -, he⟩ := eqPoints_ok.mp he
  have t1 : Related β l.rel.ty p.rel.ty := Related.either (a := pq.rel.ty) (b := s.ty)
    (Related.either (a := p.rel.ty) (b := q.ty) (Related.refl rfl) hpq.symm ad) hps.symm bd
  have t2 : Related β l.rel.ty q.ty := Related.either (a := pq.rel.ty) (b := s.ty)
    (Related.either (a := p.rel.ty) (b := q.ty) hpq (Related.refl rfl) ad) hqs.symm bd
  have t3 : Related β l.rel.ty s.ty := Related.either (a := pq.rel.ty) (b := s.ty) ps (Related.refl rfl) bd
  have t4 : Related β l.rel.ty qs.ty := (Related.either (a := q.ty) (b := s.ty) t2.symm t3.symm cd).symm
  have hlr : Related β l.rel.ty r.rel.ty := (Related.either (a := p.rel.ty) (b := qs.ty) t1.symm t4.symm dd).symm
  rw [C26_eq_partial E hE β hβ l.rel r.rel e b1.rel d1.rel hlr hc he]
  exact hres

/-- C37: points compare as their distances from the origin. -/
theorem C37_compare_partial (E : Env) (hE : E.OK) (R : Rebinds) (β : String → ℝ) (hβ : Sizes β) (a b : Pt)
    (ga : a.Good E) (gb : b.Good E) (hr : Related β a.ty.qty b.ty.qty) (hf : CmpFits E β a.rel b.rel) :
    (∀ o, comparePoints E R a b = .ok o → (o = .lt ↔ a.pos β < b.pos β) ∧ (o = .eq ↔ a.pos β = b.pos β) ∧
      (o = .gt ↔ b.pos β < a.pos β)) ∧
    (∀ e, eqPoints E R a b = .ok e → (e = true ↔ a.pos β = b.pos β)) := by
  constructor
  · intro o h
    exact C26_compare_partial E hE β hβ a.rel b.rel o ga.rel gb.rel hr hf (comparePoints_ok.mp h).2.2
  · intro o h
    exact C26_eq_partial E hE β hβ a.rel b.rel o ga.rel gb.rel hr hf (eqPoints_ok.mp h).2.2

/-- C37: the order on points is invariant under translation. -/
theorem C37_order_translation_partial (E : Env) (hE : E.OK) (R : Rebinds) (hR : R.OK) (β : String → ℝ) (hβ : Sizes β)
    (a b a' b' : Pt) (q : Qty) (o o' : Ordering) (ga : a.Good E) (gb : b.Good E) (gq : q.Good E)
    (hab : Related β a.ty.qty b.ty.qty) (haq : PRelated β a q) (hbq : PRelated β b q)
    (ha : addSubPoint E R .add a q = .ok a') (hb : addSubPoint E R .add b q = .ok b')
    (fa : SumFits E β .add a.rel q a'.rel) (fb : SumFits E β .add b.rel q b'.rel)
    (h : comparePoints E R a b = .ok o) (h' : comparePoints E R a' b' = .ok o')
    (fc : CmpFits E β a.rel b.rel) (fc' : CmpFits E β a'.rel b'.rel) : o' = o := by
  obtain ⟨a1, -, -, ad, a2⟩ := C37_translate_partial E hE R hR β hβ .add (Or.inl rfl) a a' q ga gq haq ha
  obtain ⟨b1, -, -, bd, b2⟩ := C37_translate_partial E hE R hR β hβ .add (Or.inl rfl) b b' q gb gq hbq hb
  have t1 : Related β a'.rel.ty b.rel.ty := Related.either (a := a.rel.ty) (b := q.ty) hab hbq.symm ad
  have t2 : Related β a'.rel.ty q.ty := Related.either (a := a.rel.ty) (b := q.ty) haq (Related.refl rfl) ad
  have t3 : Related β a'.rel.ty b'.rel.ty := (Related.either (a := b.rel.ty) (b := q.ty) t1.symm t2.symm bd).symm
  have k1 := (C37_compare_partial E hE R β hβ a b ga gb hab fc).1 o h
  have k2 := (C37_compare_partial E hE R β hβ a' b' a1 b1 t3 fc').1 o' h'
  have a2 := a2 fa
  have b2 := b2 fb
  simp only [if_true] at a2 b2
  rw [a2, b2] at k2
  cases o with
  | lt => exact k2.1.mpr (by linarith [k1.1.mp rfl])
  | eq => exact k2.2.1.mpr (by rw [k1.2.1.mp rfl])
  | gt => exact k2.2.2.mpr (by linarith [k1.2.2.mp rfl])

/-- C37: a conversion between point types is accepted only between equivalent origins, and keeps the distance
from the origin. -/
theorem C37_convert_partial (E : Env) (R : Rebinds) (β : String → ℝ) (hβ : Sizes β) (t : PTy) (p r : Pt)
    (gp : p.Good E) (gt : t.qty.Good E) (hco : Coherent β p.ty.origin.dim t.origin.dim)
    (hfl : t.rep.floating = true → FlExact E.fl) (hg : CastGuard E t.qty p.rel) (hh : Holds β t.qty (p.pos β))
    (h : convertPoint E R t p = .ok r) :
    r.ty = t ∧ originEquivalent R p.ty.origin t.origin = .ok true ∧ r.pos β = p.pos β := by
  unfold convertPoint at h
  split at h
  · rename_i he
    simp only [Except.ok.injEq] at h
    subst h
    refine ⟨he, ?_, rfl⟩
    rw [he]; unfold originEquivalent; rw [if_pos rfl]
  · simp only [bind_ok] at h
    obtain ⟨e, he, h⟩ := h
    cases e with
    | false => cases h
    | true =>
      simp only [if_true, bind_ok, Except.ok.injEq] at h
      obtain ⟨x, hx, rfl⟩ := h
      obtain ⟨k1, k2, k3⟩ := convertQty_exact hβ gp.rel.ty gt hco gp.rel.num hfl hg hh hx
      refine ⟨rfl, he, ?_⟩
      show (⟨t.qty, x.num⟩ : Qty).amount β = _
      rw [← k1]; exact k3

/-- C37: operations on two points are accepted only between equivalent origins. -/
theorem C37_origins_checked (E : Env) (R : Rebinds) (a b : Pt) :
    (∀ d, subPoints E R a b = .ok d → originEquivalent R b.ty.origin a.ty.origin = .ok true) ∧
    (∀ d, comparePoints E R a b = .ok d → originEquivalent R b.ty.origin a.ty.origin = .ok true) ∧
    (∀ d, eqPoints E R a b = .ok d → originEquivalent R b.ty.origin a.ty.origin = .ok true) := by
  refine ⟨fun d h => ?_, fun d h => ?_, fun d h => ?_⟩
  · unfold subPoints at h
    simp only [bind_ok] at h
    obtain ⟨e, he, h⟩ := h
    cases e with
    | false => cases h
    | true => exact he
  · exact (comparePoints_ok.mp h).1
  · exact (eqPoints_ok.mp h).1

/-- C37: equivalent origins are the same origin, or each is the other rebound to an equivalent dimension;
within one dimension, and for origins without a `rebind` member, only identical origins are equivalent, and
only a dynamic origin is equivalent to a dynamic origin. -/
theorem C37_equivalent_origins (R : Rebinds) (a b : Origin) (h : originEquivalent R a b = .ok true) :
    (a.dim = b.dim → a = b) ∧ ((∀ d, R a d = none) → a.name ≠ "dynamic_origin" → a = b) ∧
      (a.name = "dynamic_origin" → b = dynamicOrigin b.dim) ∧
      (a ≠ b → dimEquivalent a.dim b.dim = .ok true ∧ rebindOrigin R a b.dim = some b ∧ rebindOrigin R b a.dim = some a) := by
  unfold originEquivalent at h
  split at h
  · rename_i he
    subst he
    refine ⟨fun _ => rfl, fun _ _ => rfl, fun hd => ?_, fun hn => absurd rfl hn⟩
    cases a; simp only [dynamicOrigin] at *; rw [hd]
  · rename_i hne
    split at h
    · rename_i hc
      obtain ⟨h1, h2, h3, h4⟩ := hc
      refine ⟨fun hd => ?_, fun hr hn => ?_, fun hd => ?_, fun _ => ⟨h, h4, h3⟩⟩
      · unfold rebindOrigin at h4; rw [if_pos hd] at h4; exact Option.some.inj h4
      · unfold rebindOrigin at h4
        split at h4
        · exact Option.some.inj h4
        · rw [hr] at h4; simp at h4
      · unfold rebindOrigin at h4
        split at h4
        · exact absurd (Option.some.inj h4) hne
        · exact (Option.some.inj h4).symm
    · cases h

/-! ### Examples -/

def exSea : Origin := ⟨"sea_level_origin", .base exL⟩
def exNoRebind : Rebinds := fun _ _ => none

theorem exNoRebind_ok : exNoRebind.OK := fun _ _ _ h => by cases h

/-- `screen_origin` of test/unit_test/static/quantity_point_kind_test.cpp:63-67. -/
def exScreenRebind : Rebinds := fun o d => if o.name = "screen_origin" then some ⟨"screen_origin", d⟩ else none

theorem exScreenRebind_ok : exScreenRebind.OK := by
  intro o d o' h
  unfold exScreenRebind at h
  split at h
  · cases h; rfl
  · cases h

/-- Two kilometres above the sea, plus five centimetres (CGS), minus the same point; in several units. -/
example :
    addSubPoint exEnv exNoRebind .add ⟨⟨exSea, exKm, .int .i32⟩, .i 2⟩ ⟨exCms (.int .i64), .i 5⟩ =
      .ok ⟨⟨exSea, exCmUnit, .int .i64⟩, .i 200005⟩ ∧
    subPoints exEnv exNoRebind ⟨⟨exSea, exCmUnit, .int .i64⟩, .i 200005⟩ ⟨⟨exSea, exKm, .int .i32⟩, .i 2⟩ =
      .ok ⟨exCmSi (.int .i64), .i 5⟩ ∧
    eqQty exEnv ⟨exCmSi (.int .i64), .i 5⟩ ⟨exCms (.int .i64), .i 5⟩ = .ok true ∧
    comparePoints exEnv exNoRebind ⟨⟨exSea, exCmUnit, .int .i64⟩, .i 200005⟩ ⟨⟨exSea, exKm, .int .i32⟩, .i 2⟩ = .ok .gt ∧
    addSubPoint exEnv exNoRebind .add ⟨⟨exSea, exKm, .int .i32⟩, .i 2⟩ ⟨exCmSi (.int .i64), .i 5⟩ =
      .ok ⟨⟨exSea, exCmUnit, .int .i64⟩, .i 200005⟩ ∧
    addSub exEnv .add ⟨exCms (.int .i64), .i 5⟩ ⟨exKms (.int .i32), .i 1⟩ = .ok ⟨⟨.base exLcgs, exCmUnit, .int .i64⟩, .i 100005⟩ ∧
    addSubPoint exEnv exNoRebind .add ⟨⟨exSea, exKm, .int .i32⟩, .i 2⟩ ⟨⟨.base exLcgs, exCmUnit, .int .i64⟩, .i 100005⟩ =
      .ok ⟨⟨exSea, exCmUnit, .int .i64⟩, .i 300005⟩ ∧
    addSubPoint exEnv exNoRebind .add ⟨⟨exSea, exCmUnit, .int .i64⟩, .i 200005⟩ ⟨exKms (.int .i32), .i 1⟩ =
      .ok ⟨⟨exSea, exCmUnit, .int .i64⟩, .i 300005⟩ := by
  decide +kernel

/-- The first of these satisfies the conditions of the theorems. -/
example (β : String → ℝ) : (⟨⟨exSea, exKm, .int .i32⟩, .i 2⟩ : Pt).Good exEnv ∧ (⟨exCms (.int .i64), .i 5⟩ : Qty).Good exEnv ∧
    PRelated β ⟨⟨exSea, exKm, .int .i32⟩, .i 2⟩ ⟨exCms (.int .i64), .i 5⟩ ∧
    SumFits exEnv β .add (Pt.rel ⟨⟨exSea, exKm, .int .i32⟩, .i 2⟩) ⟨exCms (.int .i64), .i 5⟩
      (Pt.rel ⟨⟨exSea, exCmUnit, .int .i64⟩, .i 200005⟩) := by
  refine ⟨⟨exKms_good exEnv (.int .i32), _, rfl, by decide⟩, ⟨exCms_good _ _, _, rfl, by decide⟩, exKm_cm_related β _ _,
    ⟨fun _ => exEnv_exact, no_guard (by decide) (by decide), no_guard (by decide) (by decide), ?_, ?_, ?_⟩⟩
  · rintro ty ⟨⟩
    refine ⟨200000, by decide, ?_⟩
    show (⟨exKms (.int .i32), .i 2⟩ : Qty).amount β = _ * (exCmSi (.int .i64)).size β
    simp only [Qty.amount_eq, exKms_size, exCmSi_size, Num.q]; push_cast; ring
  · rintro ty ⟨⟩
    refine ⟨5, by decide, ?_⟩
    show (⟨exCms (.int .i64), .i 5⟩ : Qty).amount β = _ * (exCmSi (.int .i64)).size β
    simp only [Qty.amount_eq, exCms_size, exCmSi_size, Num.q]; push_cast; ring
  · rintro ty ⟨⟩ h; cases h

/-- Origins that do and do not mix. -/
example : originEquivalent exScreenRebind ⟨"screen_origin", .base exL⟩ ⟨"screen_origin", .base exLcgs⟩ = .ok true ∧
    originEquivalent exScreenRebind exSea (dynamicOrigin (.base exL)) = .ok false ∧
    originEquivalent exScreenRebind exSea ⟨"sea_level_origin", .base exLcgs⟩ = .ok false ∧
    originEquivalent exNoRebind (dynamicOrigin (.base exL)) (dynamicOrigin (.base exLcgs)) = .ok true ∧
    originEquivalent exNoRebind (dynamicOrigin (.base exL)) (dynamicOrigin (.base exT)) = .ok false ∧
    subPoints exEnv exNoRebind ⟨⟨exSea, exKm, .int .i32⟩, .i 2⟩ ⟨⟨dynamicOrigin (.base exL), exKm, .int .i32⟩, .i 2⟩ =
      .error .rejected ∧
    convertPoint exEnv exNoRebind ⟨exSea, exMetre, .int .i32⟩ ⟨⟨exSea, exKm, .int .i32⟩, .i 2⟩ =
      .ok ⟨⟨exSea, exMetre, .int .i32⟩, .i 2000⟩ ∧
    convertPoint exEnv exNoRebind ⟨dynamicOrigin (.base exL), exMetre, .int .i32⟩ ⟨⟨exSea, exKm, .int .i32⟩, .i 2⟩ =
      .error .rejected := by
  decide +kernel

/-- C37: `p += q` and `p -= q` move the point by the amount of the quantity. -/
theorem C37_assign_partial (E : Env) (β : String → ℝ) (hβ : Sizes β) (op : BinOp) (hop : op = .add ∨ op = .sub)
    (p r : Pt) (q : Qty) (gp : p.Good E) (gq : q.Good E) (hco : Coherent β q.ty.dim p.ty.origin.dim)
    (hfl : p.ty.rep.floating = true → FlExact E.fl) (hg : CastGuard E p.ty.qty q) (hq : Holds β p.ty.qty (q.amount β))
    (hs : Holds β p.ty.qty (if op = .add then p.pos β + q.amount β else p.pos β - q.amount β))
    (h : assignPoint E op p q = .ok r) :
    r.ty = p.ty ∧ r.Good E ∧ r.pos β = if op = .add then p.pos β + q.amount β else p.pos β - q.amount β := by
  unfold assignPoint at h
  simp only [bind_ok, Except.ok.injEq] at h
  obtain ⟨q', hq', x, hx, rfl⟩ := h
  have gpt : p.ty.qty.Good E := gp.rel.ty
  obtain ⟨k1, k2, k3⟩ := convertQty_exact hβ gq.ty gpt hco gq.num hfl hg hq hq'
  have hself : assignQty E op p.rel q = .ok x := by
    unfold assignQty at hx ⊢
    have : convertQty E p.rel.ty q' = .ok q' := by
      unfold convertQty; rw [if_pos (show q'.ty = p.rel.ty from k1)]
    rw [this] at hx
    have hq'' : convertQty E p.rel.ty q = .ok q' := hq'
    rw [hq'']; exact hx
  obtain ⟨m1, m2, m3⟩ := C30_add_sub_exact_partial E β hβ op hop p.rel q x gp.rel gq hco hfl hg hq hs hself
  have e : (⟨p.ty, x.num⟩ : Pt).rel = x := by unfold Pt.rel; rw [show p.ty.qty = x.ty from m1.symm]
  refine ⟨rfl, ⟨?_⟩, ?_⟩
  · rw [e]; exact ⟨by rw [m1]; exact gp.rel.ty, by rw [m1]; exact m2⟩
  · unfold Pt.pos; rw [e]; exact m3

example : assignPoint exEnv .sub ⟨⟨exSea, exMetre, .int .i32⟩, .i 2⟩ ⟨exKms (.int .i64), .i 5⟩ =
    .ok ⟨⟨exSea, exMetre, .int .i32⟩, .i (-4998)⟩ := by decide +kernel

/-- C37: `++p`, `--p` and the postfix forms move the point by one unit, in its type; the postfix forms return
the old point. -/
theorem C37_increment (E : Env) (β : String → ℝ) (op : BinOp) (p : Pt)
    (hu : p.ty.unit.ref = p.ty.origin.dim.unit.ref) (x : Qty) (hx : incDec E op p.rel = .ok x) :
    incDecPoint E op p = .ok ⟨p.ty, x.num⟩ ∧ (⟨p.ty, x.num⟩ : Pt).pos β = x.amount β ∧
      incDecPointPost E op p = .ok (⟨p.ty, x.num⟩, p) := by
  have ht : x.ty = p.ty.qty := by
    unfold incDec at hx
    simp only [bind_ok, Except.ok.injEq] at hx
    obtain ⟨z, -, rfl⟩ := hx; rfl
  refine ⟨by unfold incDecPoint; rw [hx]; rfl, ?_, ?_⟩
  · unfold Pt.pos Pt.rel; simp only; rw [← ht]
  · unfold incDec at hx
    unfold incDecPointPost incDecPost
    simp only [bind_ok, Except.ok.injEq] at hx
    obtain ⟨z, hz, rfl⟩ := hx
    rw [hz]
    simp only [ok_bind]
    unfold mkPoint convertQty
    rw [if_pos hu, if_pos (show p.rel.ty = p.ty.qty from rfl)]
    rfl

example : incDecPointPost exEnv .add ⟨⟨exSea, exMetre, .int .i32⟩, .i 2⟩ =
    .ok (⟨⟨exSea, exMetre, .int .i32⟩, .i 3⟩, ⟨⟨exSea, exMetre, .int .i32⟩, .i 2⟩) := by decide +kernel

/-! ## C38 -/

/-- The parts of a cast specification can be used to name a quantity type. -/
def CastSpec.Good (E : Env) : CastSpec → Prop
  | .qty t => t.Good E
  | .dim d => d.Good ∧ d.Rooted E.est
  | .unit u => u.WF
  | .dimUnit d u => d.Good ∧ d.Rooted E.est ∧ u.WF
  | .rep _ => True

/-- A cast to `s` changes only what `s` names: the specification of the target type, written without the
functions of the model.  A cast to a dimension keeps the ratio of the unit. -/
def CastSpec.Changes : CastSpec → QTy → QTy → Prop
  | .qty t', _, t => t = t'
  | .dim d, s, t => t.dim = d ∧ t.unit.ratio = s.unit.ratio ∧ t.rep = s.rep
  | .unit u, s, t => t.dim = s.dim ∧ t.unit = u ∧ t.rep = s.rep
  | .dimUnit d u, s, t => t.dim = d ∧ t.unit = u ∧ t.rep = s.rep
  | .rep r, s, t => t.dim = s.dim ∧ t.unit = s.unit ∧ t.rep = r

theorem castTarget_sound {E : Env} (hE : E.OK) {s : CastSpec} {q t : QTy} (hs : s.Good E) (hq : q.Good E)
    (h : castTarget E s q = .ok t) : t.Good E ∧ s.Changes q t := by
  cases s with
  | qty t' => cases h; exact ⟨hs, rfl⟩
  | dim d =>
    unfold castTarget at h
    simp only [bind_ok] at h
    obtain ⟨e, -, h⟩ := h
    cases e with
    | false => cases h
    | true =>
      simp only [if_true, bind_ok, Except.ok.injEq] at h
      obtain ⟨u, hu, rfl⟩ := h
      obtain ⟨h1, h2, -⟩ := downcastUnit_eq_ok hE.units hu
      exact ⟨⟨hs.1, downcastUnit_wf hE.units hq.unit.1 hu, h2, hs.2⟩, rfl, h1, rfl⟩
  | unit u =>
    simp only [castTarget] at h
    split at h
    · rename_i hu
      cases h
      exact ⟨⟨hq.dim, hs, hu, hq.rooted⟩, rfl, rfl, rfl⟩
    · cases h
  | dimUnit d u =>
    unfold castTarget at h
    simp only [bind_ok] at h
    obtain ⟨e, -, h⟩ := h
    split at h
    · rename_i hu
      cases h
      exact ⟨⟨hs.1, hs.2.2, hu.2, hs.2.1⟩, rfl, rfl, rfl⟩
    · cases h
  | rep r => cases h; exact ⟨⟨hq.dim, hq.unit, hq.unitOf, hq.rooted⟩, rfl, rfl, rfl⟩

/-- C38 (and the casts of quantities): `quantity_cast<Spec>` changes only what the specification names, and
the amount is kept when the target type can hold it. -/
theorem C38_quantity_cast_spec_partial (E : Env) (hE : E.OK) (β : String → ℝ) (hβ : Sizes β) (s : CastSpec) (q r : Qty)
    (hs : s.Good E) (gq : q.Good E) (h : quantityCastBy E s q = .ok r) :
    r.ty.Good E ∧ s.Changes q.ty r.ty ∧ r.num.Typed r.ty.rep ∧
      (Coherent β q.ty.dim r.ty.dim → (q.ty.rep.floating = true ∨ r.ty.rep.floating = true → FlExact E.fl) →
        CastGuard E r.ty q → Holds β r.ty (q.amount β) → r.amount β = q.amount β) := by
  unfold quantityCastBy at h
  simp only [bind_ok] at h
  obtain ⟨t, ht, h⟩ := h
  obtain ⟨gt, hc⟩ := castTarget_sound hE hs gq.ty ht
  have ety : r.ty = t := by obtain ⟨-, c, n, -, -, rfl⟩ := quantityCast_eq_ok h; rfl
  have etyped : r.num.Typed t.rep := by obtain ⟨-, c, n, -, hn, rfl⟩ := quantityCast_eq_ok h; exact castNum_typed hn
  subst ety
  exact ⟨gt, hc, etyped, fun hco hfl hg hh => (quantityCast_exact hβ gq.ty gt hco gq.num hfl hg hh h).2.2⟩

/-- `quantity_cast<dim_length>(cgs)`, `quantity_cast<metre>`, `quantity_cast<std::int8_t>`. -/
example : quantityCastBy exEnv (.dim (.base exL)) ⟨exCms (.int .i64), .i 500⟩ = .ok ⟨exCmSi (.int .i64), .i 500⟩ ∧
    quantityCastBy exEnv (.unit exMetre) ⟨exKms (.int .i64), .i 5⟩ = .ok ⟨exMetres (.int .i64), .i 5000⟩ ∧
    quantityCastBy exEnv (.dimUnit (.base exL) exMetre) ⟨exCms (.int .i64), .i 500⟩ = .ok ⟨exMetres (.int .i64), .i 5⟩ ∧
    quantityCastBy exEnv (.rep (.int .i8)) ⟨exMetres (.int .i64), .i 5⟩ = .ok ⟨exMetres (.int .i8), .i 5⟩ ∧
    quantityCastBy exEnv (.dim (.base exT)) ⟨exMetres (.int .i64), .i 5⟩ = .error .rejected := by
  decide +kernel

/-- The specification of what `quantity_point_cast` may change. -/
def PointSpec.Changes : PointSpec → QTy → QTy → Prop
  | .point t', _, t => t = t'.qty
  | .qty s, q, t => s.Changes q t
  | .dimUnit d u, q, t => t.dim = d ∧ t.unit = u ∧ t.rep = q.rep

def PointSpec.Good (E : Env) : PointSpec → Prop
  | .point t => t.qty.Good E
  | .qty s => s.Good E
  | .dimUnit d u => d.Good ∧ d.Rooted E.est ∧ u.WF

theorem pointCast_castTo {E : Env} {R : Rebinds} {p r : Pt} {t : PTy} (h : pointCast.castTo E R p t = .ok r) :
    originEquivalent R p.ty.origin t.origin = .ok true ∧ r.ty = ⟨dynamicOrigin t.origin.dim, t.unit, t.rep⟩ ∧
      quantityCast E t.qty p.rel = .ok r.rel := by
  unfold pointCast.castTo at h
  simp only [bind_ok] at h
  obtain ⟨e, he, h⟩ := h
  cases e with
  | false => cases h
  | true =>
    simp only [if_true, bind_ok, Except.ok.injEq] at h
    obtain ⟨q, hq, rfl⟩ := h
    have ht : q.ty = t.qty := by obtain ⟨-, c, n, -, -, rfl⟩ := quantityCast_eq_ok hq; rfl
    refine ⟨he, by unfold deducePoint; rw [ht]; rfl, ?_⟩
    have : (deducePoint q).rel = q := by cases q; rfl
    rw [this]; exact hq

theorem pointCast_rel {E : Env} {R : Rebinds} {s : PointSpec} {p r : Pt} (h : pointCast E R s p = .ok r) :
    r.ty.origin = dynamicOrigin r.ty.origin.dim ∧ quantityCast E r.ty.qty p.rel = .ok r.rel := by
  cases s with
  | point t =>
    obtain ⟨-, h1, h2⟩ := pointCast_castTo (t := t) h
    have ht : r.ty.qty = t.qty := by rw [h1]; rfl
    exact ⟨by rw [h1]; rfl, by rw [ht]; exact h2⟩
  | qty s =>
    unfold pointCast at h
    simp only [bind_ok, Except.ok.injEq] at h
    obtain ⟨q, hq, rfl⟩ := h
    refine ⟨rfl, ?_⟩
    unfold quantityCastBy at hq
    simp only [bind_ok] at hq
    obtain ⟨t, -, hq⟩ := hq
    have ety : q.ty = t := by obtain ⟨-, c, n, -, -, rfl⟩ := quantityCast_eq_ok hq; rfl
    subst ety
    exact hq
  | dimUnit d u =>
    unfold pointCast at h
    simp only [bind_ok] at h
    obtain ⟨b, -, h⟩ := h
    split at h
    · split at h
      · rename_i o ho
        obtain ⟨-, h1, h2⟩ := pointCast_castTo h
        have ht : r.ty.qty = PTy.qty ⟨o, u, p.ty.rep⟩ := by rw [h1]; rfl
        exact ⟨by rw [h1]; rfl, by rw [ht]; exact h2⟩
      · cases h
    · cases h

/-- C38: a point cast changes only what the specification names, and the new point is where the cast
relative quantity is: at the same position, when the target type can hold it. -/
theorem C38_position_partial (E : Env) (hE : E.OK) (R : Rebinds) (hR : R.OK) (β : String → ℝ) (hβ : Sizes β) (s : PointSpec)
    (p r : Pt) (hs : s.Good E) (gp : p.Good E) (h : pointCast E R s p = .ok r) :
    r.Good E ∧ s.Changes p.ty.qty r.ty.qty ∧ quantityCast E r.ty.qty p.rel = .ok r.rel ∧
      (Coherent β p.ty.origin.dim r.ty.origin.dim → (p.ty.rep.floating = true ∨ r.ty.rep.floating = true → FlExact E.fl) →
        CastGuard E r.ty.qty p.rel → Holds β r.ty.qty (p.pos β) → r.pos β = p.pos β) := by
  have key : ∀ t : QTy, t.Good E → r.ty.qty = t → quantityCast E t p.rel = .ok r.rel →
      r.Good E ∧ quantityCast E r.ty.qty p.rel = .ok r.rel ∧
      (Coherent β p.ty.origin.dim r.ty.origin.dim → (p.ty.rep.floating = true ∨ r.ty.rep.floating = true → FlExact E.fl) →
        CastGuard E r.ty.qty p.rel → Holds β r.ty.qty (p.pos β) → r.pos β = p.pos β) := by
    intro t gt ht hc
    subst ht
    have etyped : r.num.Typed r.ty.rep := by
      obtain ⟨-, c, n, -, hn, he⟩ := quantityCast_eq_ok hc
      have := castNum_typed hn
      have e : r.num = n := congrArg Qty.num he
      rw [e]; exact this
    exact ⟨⟨gt, etyped⟩, hc, fun hco hfl hg hh => (quantityCast_exact hβ gp.rel.ty gt hco gp.rel.num hfl hg hh hc).2.2⟩
  cases s with
  | point t =>
    obtain ⟨-, h1, h2⟩ := pointCast_castTo (t := t) h
    have ht : r.ty.qty = t.qty := by rw [h1]; rfl
    obtain ⟨k1, k2, k3⟩ := key t.qty hs ht h2
    exact ⟨k1, ht, k2, k3⟩
  | qty s =>
    unfold pointCast at h
    simp only [bind_ok, Except.ok.injEq] at h
    obtain ⟨q, hq, rfl⟩ := h
    have e : (deducePoint q).rel = q := by cases q; rfl
    have e' : (deducePoint q).ty.qty = q.ty := by cases q; rfl
    obtain ⟨g, hc, -, -⟩ := C38_quantity_cast_spec_partial E hE β hβ s p.rel q hs gp.rel hq
    unfold quantityCastBy at hq
    simp only [bind_ok] at hq
    obtain ⟨t, ht, hq⟩ := hq
    have ety : q.ty = t := by obtain ⟨-, c, n, -, -, rfl⟩ := quantityCast_eq_ok hq; rfl
    obtain ⟨k1, k2, k3⟩ := key q.ty g e' (by rw [e, ety]; exact hq)
    exact ⟨k1, by rw [e']; exact hc, k2, k3⟩
  | dimUnit d u =>
    unfold pointCast at h
    simp only [bind_ok] at h
    obtain ⟨b, -, h⟩ := h
    split at h
    · rename_i hc
      split at h
      · rename_i o ho
        have hd := rebindOrigin_dim hR ho
        obtain ⟨-, h1, h2⟩ := pointCast_castTo h
        have ht : r.ty.qty = ⟨d, u, p.ty.rep⟩ := by rw [h1]; unfold PTy.qty dynamicOrigin; simp only [hd]
        have hq : PTy.qty ⟨o, u, p.ty.rep⟩ = ⟨d, u, p.ty.rep⟩ := by unfold PTy.qty; simp only [hd]
        rw [hq] at h2
        obtain ⟨k1, k2, k3⟩ := key _ ⟨hs.1, hs.2.2, hc.2.1, hs.2.1⟩ ht h2
        exact ⟨k1, by rw [ht]; exact ⟨rfl, rfl, rfl⟩, k2, k3⟩
      · cases h
    · cases h

/-- C38: a cast of a point with a dynamic origin gives a point whose origin is equivalent to that of the
argument, and is the same origin when the dimension does not change. -/
theorem C38_origin_partial (E : Env) (R : Rebinds) (s : PointSpec) (p r : Pt) (hp : p.ty.origin = dynamicOrigin p.ty.origin.dim)
    (h : pointCast E R s p = .ok r) :
    originEquivalent R p.ty.origin r.ty.origin = .ok true ∧ (r.ty.origin.dim = p.ty.origin.dim → r.ty.origin = p.ty.origin) := by
  obtain ⟨hr, hc⟩ := pointCast_rel h
  have hd : dimEquivalent p.ty.origin.dim r.ty.origin.dim = .ok true := by
    obtain ⟨he, -⟩ := quantityCast_eq_ok hc
    first | exact he | exact C17_symmetric _ _ he
  have same : r.ty.origin.dim = p.ty.origin.dim → r.ty.origin = p.ty.origin := by
    intro e; rw [hr, hp, e]
  refine ⟨?_, same⟩
  unfold originEquivalent
  split
  · rfl
  · rename_i hne
    have hnd : ¬ r.ty.origin.dim = p.ty.origin.dim := fun e => hne (same e).symm
    have h1 : rebindOrigin R r.ty.origin p.ty.origin.dim = some p.ty.origin := by
      unfold rebindOrigin; rw [if_neg hnd, if_pos (by rw [hr]; rfl), ← hp]
    have h2 : rebindOrigin R p.ty.origin r.ty.origin.dim = some r.ty.origin := by
      unfold rebindOrigin; rw [if_neg (fun e => hnd e.symm), if_pos (by rw [hp]; rfl), ← hr]
    rw [if_pos ⟨by unfold rebindable; rw [h2]; simp, by unfold rebindable; rw [h1]; simp, h1, h2⟩]
    exact hd

example : pointCast exEnv exNoRebind (.qty (.unit exMetre)) ⟨⟨dynamicOrigin (.base exL), exKm, .int .i32⟩, .i 2⟩ =
      .ok ⟨⟨dynamicOrigin (.base exL), exMetre, .int .i32⟩, .i 2000⟩ ∧
    pointCast exEnv exNoRebind (.dimUnit (.base exL) exMetre) ⟨⟨dynamicOrigin (.base exLcgs), exCmUnit, .int .i32⟩, .i 500⟩ =
      .ok ⟨⟨dynamicOrigin (.base exL), exMetre, .int .i32⟩, .i 5⟩ ∧
    pointCast exEnv exNoRebind (.point ⟨dynamicOrigin (.base exL), exMetre, .int .i64⟩)
      ⟨⟨dynamicOrigin (.base exLcgs), exCmUnit, .int .i32⟩, .i 567⟩ = .ok ⟨⟨dynamicOrigin (.base exL), exMetre, .int .i64⟩, .i 5⟩ := by
  decide +kernel

/-- C38 fails for every point with another origin: whatever the cast, the result has a dynamic origin, which
is not the origin of the argument, not even equivalent to it. -/
theorem C38_static_origin_lost (E : Env) (R : Rebinds) (s : PointSpec) (p r : Pt) (hp : p.ty.origin.name ≠ "dynamic_origin")
    (h : pointCast E R s p = .ok r) :
    r.ty.origin = dynamicOrigin r.ty.origin.dim ∧ r.ty.origin ≠ p.ty.origin ∧
      originEquivalent R r.ty.origin p.ty.origin ≠ .ok true ∧ eqPoints E R p r ≠ .ok true := by
  obtain ⟨hr, hc⟩ := pointCast_rel h
  clear hc
  have hn : r.ty.origin.name = "dynamic_origin" := by rw [hr]; rfl
  have hne : originEquivalent R r.ty.origin p.ty.origin ≠ .ok true := by
    intro he
    have := (C37_equivalent_origins R _ _ he).2.2.1 hn
    exact hp (by rw [this]; rfl)
  refine ⟨hr, fun e => hp (by rw [← e]; exact hn), hne, fun he => hne ((C37_origins_checked E R p r).2.2 _ he)⟩

/-- Altitudes above the sea, cast to metres and cast to the very type they have. -/
example : pointCast exEnv exNoRebind (.qty (.unit exMetre)) ⟨⟨exSea, exKm, .int .i32⟩, .i 2⟩ =
      .ok ⟨⟨dynamicOrigin (.base exL), exMetre, .int .i32⟩, .i 2000⟩ ∧
    pointCast exEnv exNoRebind (.point ⟨exSea, exKm, .int .i32⟩) ⟨⟨exSea, exKm, .int .i32⟩, .i 2⟩ =
      .ok ⟨⟨dynamicOrigin (.base exL), exKm, .int .i32⟩, .i 2⟩ := by
  decide +kernel

end Verif
