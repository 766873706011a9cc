import Verif.Construct
import Verif.Props.KindProps
import Verif.Props.RefProps
import Verif.Props.MathProps

/-!
# C73: constructors and implicit conversions

src/core/include/units/quantity.h:145-160, quantity_point.h:73-89, quantity_kind.h:92-106, quantity_point_kind.h:60-77
-/

set_option Elab.async false

namespace Verif

/-! ### Specification -/

/-- The amount that a value denotes: a number itself, a duration or a time point its seconds (from the epoch), a point its distance from the
origin. -/
noncomputable def Val.amount (β : String → ℝ) : Val → ℝ
  | .num _ v => v.q
  | .dur d => d.seconds * β "units::isq::si::second"
  | .time p => p.since.seconds * β "units::isq::si::second"
  | .qty q => q.amount β
  | .pt p => p.pos β
  | .kd k => k.amount β
  | .pk p => p.pos β

/-- The type of an object of the class templates. -/
def Val.type : Val → Option Ty
  | .qty q => some (.qty q.ty)
  | .pt p => some (.pt p.ty)
  | .kd k => some (.kd k.ty)
  | .pk p => some (.pk p.ty)
  | _ => none

/-- The number that a value holds. -/
def Val.number : Val → Num
  | .num _ v => v
  | .dur d => d.count
  | .time p => p.since.count
  | .qty q => q.num
  | .pt p => p.num
  | .kd k => k.num
  | .pk p => p.num

/-- The type of quantities that an object of the type consists of. -/
def Ty.under : Ty → QTy
  | .qty t => t
  | .pt t => t.qty
  | .kd t => t.qty
  | .pk t => t.kty.qty

/-- The template of a type. -/
def Ty.cls : Ty → Cls
  | .qty _ => .qty
  | .pt _ => .pt
  | .kd _ => .kd
  | .pk _ => .pk

/-- The reference unit of a type matches its dimension, and the kind and the origin of a point kind have one dimension: the constraints
on the template parameters. -/
def Ty.OK : Ty → Prop
  | .qty t => t.unit.ref = t.dim.unit.ref
  | .pt t => t.unit.ref = t.origin.dim.unit.ref
  | .kd t => t.unit.ref = t.kind.dim.unit.ref
  | .pk t => t.unit.ref = t.pk.kind.dim.unit.ref ∧ t.pk.OK

/-- What may be given to the constructors of a type, whatever the dimensions: the rows of the table are the targets. -/
def Allowed : Ty → Val → Prop
  | .qty _, x => x.cls = .plain ∨ x.cls = .qty ∨ ∃ d, x = .dur d
  | .pt _, x => x.cls = .plain ∨ x.cls = .qty ∨ x.cls = .chrono ∨ x.cls = .pt
  | .kd t, x => (x.cls = .plain ∧ dimEquivalent t.kind.dim (.named dimOne) = .ok true) ∨ x.cls = .qty ∨ x.cls = .kd ∨ ∃ d, x = .dur d
  | .pk t, x => (x.cls = .plain ∧ dimEquivalent t.pk.kind.dim (.named dimOne) = .ok true) ∨ x.cls ≠ .plain

/-- The kinds and the origins of the source and the target, where both have them, are equivalent. -/
def Agrees (R : Rebinds) : Ty → Val → Prop
  | .pt t, .pt p => originEquivalent R p.ty.origin t.origin = .ok true
  | .pt t, .time p => originEquivalent R t.origin (clockOrigin p.clock) = .ok true
  | .kd t, .kd k => k.ty.kind.base = t.kind.base
  | .pk t, .kd k => k.ty.kind.base = t.pk.kind.base
  | .pk t, .pt p => originEquivalent R p.ty.origin t.pk.origin = .ok true
  | .pk t, .time p => originEquivalent R t.pk.origin (clockOrigin p.clock) = .ok true
  | .pk t, .pk p => p.ty.pk.kind.base = t.pk.kind.base ∧ originEquivalent R p.ty.pk.origin t.pk.origin = .ok true
  | _, _ => True

/-- The quantity that a value other than a number consists of; for `std::chrono` the one deduced from it (C43). -/
def Val.under (E : Env) : Val → C Qty
  | .num _ _ => .error .rejected
  | .dur d => deduceDuration E d
  | .time p => deduceDuration E p.since
  | .qty q => .ok q
  | .pt p => .ok p.rel
  | .kd k => .ok k.common
  | .pk p => .ok p.rel.common

/-- Valid periods of durations. -/
def Val.Valid : Val → Prop
  | .dur d => d.OK
  | .time p => p.since.OK
  | _ => True

/-- A value of a nameable type. -/
def Val.Good (E : Env) : Val → Prop
  | .num r v => v.Typed r
  | .dur d => d.OK
  | .time p => p.since.OK
  | .qty q => q.Good E
  | .pt p => p.rel.Good E
  | .kd k => k.common.Good E
  | .pk p => p.rel.common.Good E

theorem Val.Good.valid {E : Env} {x : Val} (h : x.Good E) : x.Valid := by
  cases x <;> first | exact h | exact trivial

/-! ### Lemmas -/

theorem originEquivalent_self (R : Rebinds) (o : Origin) : originEquivalent R o o = .ok true := by
  unfold originEquivalent; rw [if_pos rfl]

theorem constructQty_under {E : Env} (hE : E.OK) {t : QTy} {x : Val} {r : Qty} (hv : x.Valid) (hx : x.cls ≠ .plain)
    (h : constructQty E t x = .ok r) : ∃ q, x.under E = .ok q ∧ convertQty E t q = .ok r := by
  cases x with
  | dur d =>
    obtain ⟨l, h1, -, -, h4⟩ := fromDuration_eq_ok hE hv h
    exact ⟨_, h1, h4⟩
  | qty q => exact ⟨q, rfl, h⟩
  | num r v => exact absurd rfl hx
  | _ => cases h

theorem convertPoint_under {E : Env} {R : Rebinds} {t : PTy} {p r : Pt} (h : convertPoint E R t p = .ok r) :
    r.ty = t ∧ originEquivalent R p.ty.origin t.origin = .ok true ∧ convertQty E t.qty p.rel = .ok r.rel := by
  unfold convertPoint at h
  split at h
  · rename_i he
    cases h
    subst he
    exact ⟨rfl, originEquivalent_self _ _, convertQty_self E p.rel⟩
  · simp only [bind_ok] at h
    obtain ⟨e, he, h⟩ := h
    cases e with
    | false => cases h
    | true =>
      simp only [if_true, bind_ok, Except.ok.injEq] at h
      obtain ⟨x, hx, rfl⟩ := h
      refine ⟨rfl, he, ?_⟩
      rw [hx]
      have := convertQty_ty hx
      cases x; cases this; rfl

theorem convertKind_under {E : Env} {t : KTy} {k r : Kd} (h : convertKind E t k = .ok r) :
    r.ty = t ∧ k.ty.kind.base = t.kind.base ∧ convertQty E t.qty k.common = .ok r.common := by
  unfold convertKind at h
  split at h
  · rename_i he
    cases h
    subst he
    exact ⟨rfl, rfl, convertQty_self E k.common⟩
  · simp only [bind_ok] at h
    obtain ⟨e, he, h⟩ := h
    cases e with
    | false => cases h
    | true =>
      simp only [if_true, bind_ok, Except.ok.injEq] at h
      obtain ⟨x, hx, rfl⟩ := h
      refine ⟨rfl, (kindEquivalent_base he).1, ?_⟩
      rw [hx]
      have := convertQty_ty hx
      cases x; cases this; rfl

theorem convertPk_under {E : Env} {R : Rebinds} {t : PKTy} {p r : Pk} (h : convertPk E R t p = .ok r) :
    r.ty = t ∧ p.ty.pk.kind.base = t.pk.kind.base ∧ originEquivalent R p.ty.pk.origin t.pk.origin = .ok true ∧
      convertQty E t.kty.qty p.rel.common = .ok r.rel.common := by
  unfold convertPk at h
  split at h
  · rename_i he
    cases h
    subst he
    exact ⟨rfl, rfl, originEquivalent_self _ _, convertQty_self E p.rel.common⟩
  · simp only [bind_ok] at h
    obtain ⟨e, he, h⟩ := h
    cases e with
    | false => cases h
    | true =>
      simp only [if_true, bind_ok, Except.ok.injEq] at h
      obtain ⟨x, hx, rfl⟩ := h
      obtain ⟨h1, h2, h3⟩ := convertKind_under hx
      unfold pkindEquivalent at he
      simp only [bind_ok] at he
      obtain ⟨b, -, he⟩ := he
      cases b with
      | false => cases he
      | true =>
        refine ⟨rfl, h2, he, ?_⟩
        rw [h3]
        cases x; cases h1; rfl

theorem constructPt_under {E : Env} {R : Rebinds} (hE : E.OK) {t : PTy} {x : Val} {r : Pt} (hv : x.Valid) (hx : x.cls ≠ .plain)
    (h : constructPt E R t x = .ok r) : r.ty = t ∧ Agrees R (.pt t) x ∧ ∃ q, x.under E = .ok q ∧ convertQty E t.qty q = .ok r.rel := by
  unfold constructPt at h
  split at h
  swap
  · cases h
  have plain : ∀ x : Val, x.Valid → x.cls ≠ .plain → (do let q ← constructQty E t.qty x; .ok ⟨t, q.num⟩ : C Pt) = .ok r →
      r.ty = t ∧ ∃ q, x.under E = .ok q ∧ convertQty E t.qty q = .ok r.rel := by
    intro x hv hx h
    simp only [bind_ok, Except.ok.injEq] at h
    obtain ⟨y, hy, rfl⟩ := h
    obtain ⟨q, h1, h2⟩ := constructQty_under hE hv hx hy
    refine ⟨rfl, q, h1, ?_⟩
    rw [h2]
    have := convertQty_ty h2
    cases y; cases this; rfl
  cases x with
  | num r v => exact absurd rfl hx
  | dur d => obtain ⟨h1, h2⟩ := plain _ hv hx h; exact ⟨h1, trivial, h2⟩
  | qty q => obtain ⟨h1, h2⟩ := plain _ hv hx h; exact ⟨h1, trivial, h2⟩
  | kd k => obtain ⟨h1, h2⟩ := plain _ hv hx h; exact ⟨h1, trivial, h2⟩
  | pk p => obtain ⟨h1, h2⟩ := plain _ hv hx h; exact ⟨h1, trivial, h2⟩
  | pt p =>
    obtain ⟨h1, h2, h3⟩ := convertPoint_under h
    exact ⟨h1, h2, _, rfl, h3⟩
  | time p =>
    simp only [fromTimePoint, bind_ok] at h
    obtain ⟨b, hb, h⟩ := h
    cases b with
    | false => cases h
    | true =>
      simp only [if_true, bind_ok, Except.ok.injEq] at h
      obtain ⟨y, hy, rfl⟩ := h
      obtain ⟨q, h1, h2⟩ := constructQty_under (x := .dur p.since) hE hv (by simp [Val.cls]) hy
      refine ⟨rfl, hb, q, h1, ?_⟩
      rw [h2]
      have := convertQty_ty h2
      cases y; cases this; rfl

theorem constructKd_under {E : Env} (hE : E.OK) {t : KTy} {x : Val} {r : Kd} (hv : x.Valid) (hx : x.cls ≠ .plain)
    (h : constructKd E t x = .ok r) :
    r.ty = t ∧ (∀ k, x = .kd k → k.ty.kind.base = t.kind.base) ∧ ∃ q, x.under E = .ok q ∧ convertQty E t.qty q = .ok r.common := by
  unfold constructKd at h
  split at h
  swap
  · cases h
  have plain : ∀ x : Val, x.Valid → x.cls ≠ .plain → (do let q ← constructQty E t.qty x; .ok ⟨t, q.num⟩ : C Kd) = .ok r →
      r.ty = t ∧ ∃ q, x.under E = .ok q ∧ convertQty E t.qty q = .ok r.common := by
    intro x hv hx h
    simp only [bind_ok, Except.ok.injEq] at h
    obtain ⟨y, hy, rfl⟩ := h
    obtain ⟨q, h1, h2⟩ := constructQty_under hE hv hx hy
    refine ⟨rfl, q, h1, ?_⟩
    rw [h2]
    have := convertQty_ty h2
    cases y; cases this; rfl
  cases x with
  | num r v => exact absurd rfl hx
  | dur d => obtain ⟨h1, h2⟩ := plain _ hv hx h; exact ⟨h1, fun k hk => (by cases hk), h2⟩
  | qty q => obtain ⟨h1, h2⟩ := plain _ hv hx h; exact ⟨h1, fun k hk => (by cases hk), h2⟩
  | pt p => obtain ⟨h1, h2⟩ := plain _ hv hx h; exact ⟨h1, fun k hk => (by cases hk), h2⟩
  | pk p => obtain ⟨h1, h2⟩ := plain _ hv hx h; exact ⟨h1, fun k hk => (by cases hk), h2⟩
  | time p => obtain ⟨h1, h2⟩ := plain _ hv hx h; exact ⟨h1, fun k hk => (by cases hk), h2⟩
  | kd k =>
    obtain ⟨h1, h2, h3⟩ := convertKind_under h
    exact ⟨h1, fun k' hk' => by cases hk'; exact h2, _, rfl, h3⟩

theorem constructPk_under {E : Env} {R : Rebinds} (hE : E.OK) {t : PKTy} {x : Val} {r : Pk} (ht : t.pk.OK) (hv : x.Valid)
    (hx : x.cls ≠ .plain) (h : constructPk E R t x = .ok r) :
    r.ty = t ∧ Agrees R (.pk t) x ∧ ∃ q, x.under E = .ok q ∧ convertQty E t.kty.qty q = .ok r.rel.common := by
  unfold constructPk at h
  split at h
  swap
  · cases h
  have plain : ∀ x : Val, x.Valid → x.cls ≠ .plain → (do let k ← constructKd E t.kty x; .ok ⟨t, k.num⟩ : C Pk) = .ok r →
      r.ty = t ∧ (∀ k, x = .kd k → k.ty.kind.base = t.pk.kind.base) ∧ ∃ q, x.under E = .ok q ∧ convertQty E t.kty.qty q = .ok r.rel.common := by
    intro x hv hx h
    simp only [bind_ok, Except.ok.injEq] at h
    obtain ⟨y, hy, rfl⟩ := h
    obtain ⟨h0, hb, q, h1, h2⟩ := constructKd_under hE hv hx hy
    refine ⟨rfl, hb, q, h1, ?_⟩
    rw [h2]
    cases y; cases h0; rfl
  cases x with
  | num r v => exact absurd rfl hx
  | dur d => obtain ⟨h1, -, h2⟩ := plain _ hv hx h; exact ⟨h1, trivial, h2⟩
  | qty q => obtain ⟨h1, -, h2⟩ := plain _ hv hx h; exact ⟨h1, trivial, h2⟩
  | kd k => obtain ⟨h1, hb, h2⟩ := plain _ hv hx h; exact ⟨h1, hb k rfl, h2⟩
  | pk p =>
    obtain ⟨h1, h2, h3, h4⟩ := convertPk_under h
    exact ⟨h1, ⟨h2, h3⟩, _, rfl, h4⟩
  | pt p =>
    simp only [bind_ok] at h
    obtain ⟨y, hy, h⟩ := h
    obtain ⟨y1, y2, y3⟩ := convertPoint_under hy
    have e : y.rel.ty = t.kty.qty := by
      show y.ty.qty = _
      rw [y1]
      show (⟨t.pk.origin.dim, t.unit, t.rep⟩ : QTy) = _
      rw [ht]; rfl
    obtain ⟨h1, -, q, h2, h3⟩ := plain (.qty y.rel) trivial (by simp [Val.cls]) (by simpa only [bind_ok] using h)
    cases h2
    rw [← e, convertQty_self] at h3
    refine ⟨h1, y2, _, rfl, ?_⟩
    rw [show t.kty.qty = (⟨t.pk.origin, t.unit, t.rep⟩ : PTy).qty by rw [← e]; show y.ty.qty = _; rw [y1], y3, h3]
  | time p =>
    simp only [bind_ok] at h
    obtain ⟨y, hy, h⟩ := h
    obtain ⟨-, y2, -⟩ := constructPt_under (x := .time p) hE hv hx hy
    obtain ⟨h1, -, q, h2, h3⟩ := plain (.dur p.since) hv (by simp [Val.cls]) (by simpa only [bind_ok] using h)
    exact ⟨h1, y2, q, h2, h3⟩

/-- Everything but numbers is constructed by the conversion of the quantities they consist of. -/
theorem construct_under {E : Env} {R : Rebinds} (hE : E.OK) {t : Ty} {x y : Val} (ht : t.OK) (hv : x.Valid) (hx : x.cls ≠ .plain)
    (h : construct E R t x = .ok y) :
    y.type = some t ∧ Agrees R t x ∧ ∃ q r, x.under E = .ok q ∧ y.under E = .ok r ∧ convertQty E t.under q = .ok r := by
  cases t with
  | qty t =>
    simp only [construct, bind_ok, Except.ok.injEq] at h
    obtain ⟨r, hr, rfl⟩ := h
    obtain ⟨q, h1, h2⟩ := constructQty_under hE hv hx hr
    exact ⟨congrArg _ (congrArg _ (convertQty_ty h2)), trivial, q, r, h1, rfl, h2⟩
  | pt t =>
    simp only [construct, bind_ok, Except.ok.injEq] at h
    obtain ⟨r, hr, rfl⟩ := h
    obtain ⟨h0, ha, q, h1, h2⟩ := constructPt_under hE hv hx hr
    exact ⟨congrArg _ (congrArg _ h0), ha, q, _, h1, rfl, h2⟩
  | kd t =>
    simp only [construct, bind_ok, Except.ok.injEq] at h
    obtain ⟨r, hr, rfl⟩ := h
    obtain ⟨h0, ha, q, h1, h2⟩ := constructKd_under hE hv hx hr
    refine ⟨congrArg _ (congrArg _ h0), ?_, q, _, h1, rfl, h2⟩
    cases x with
    | kd k => exact ha k rfl
    | _ => exact trivial
  | pk t =>
    simp only [construct, bind_ok, Except.ok.injEq] at h
    obtain ⟨r, hr, rfl⟩ := h
    obtain ⟨h0, ha, q, h1, h2⟩ := constructPk_under hE ht.2 hv hx hr
    exact ⟨congrArg _ (congrArg _ h0), ha, q, _, h1, rfl, h2⟩

theorem under_amount {E : Env} (hE : E.OK) {β : String → ℝ} {x : Val} {q : Qty} (hg : x.Good E) (h : x.under E = .ok q) :
    q.Good E ∧ q.amount β = x.amount β := by
  cases x with
  | num r v => cases h
  | dur d =>
    obtain ⟨q', h1, h2, -, -, -, h3⟩ := C43_duration E hE β d hg
    have : q = q' := Except.ok.inj (h.symm.trans h1)
    subst this; exact ⟨h2, h3⟩
  | time p =>
    obtain ⟨q', h1, h2, -, -, -, h3⟩ := C43_duration E hE β p.since hg
    have : q = q' := Except.ok.inj (h.symm.trans h1)
    subst this; exact ⟨h2, h3⟩
  | qty x => cases h; exact ⟨hg, rfl⟩
  | pt p => cases h; exact ⟨hg, rfl⟩
  | kd k => cases h; exact ⟨hg, rfl⟩
  | pk p => cases h; exact ⟨hg, rfl⟩

/-! ## C73 -/

/-- C73: an implicit conversion gives what the constructor gives. -/
theorem C73_implicit_is_explicit (E : Env) (R : Rebinds) (t : Ty) (x y : Val) (h : convert E R t x = .ok y) :
    construct E R t x = .ok y := by
  cases t <;> cases x <;> simp only [convert] at h <;> try cases h
  · simp only [bind_ok, Except.ok.injEq] at h
    obtain ⟨q, hq, rfl⟩ := h
    unfold implicitNum at hq
    split at hq
    · simp only [construct, constructQty, hq, ok_bind]
    · cases hq
  · simpa only [construct, constructQty] using h
  all_goals
    split at h
    · rename_i hu
      first
      | simpa only [construct, constructPt, hu, if_true] using h
      | simpa only [construct, constructKd, hu, if_true] using h
      | simpa only [construct, constructPk, hu, if_true] using h
    · cases h

/-- C73: implicit conversions stay within one template, but for a number that becomes a quantity of dimension one and unit one. -/
theorem C73_implicit_within (E : Env) (R : Rebinds) (t : Ty) (x y : Val) (h : convert E R t x = .ok y) :
    x.cls = t.cls ∨ (x.cls = .plain ∧ ∃ r, t = .qty ⟨.named dimOne, unitOne, r⟩) := by
  cases t <;> cases x <;> simp only [convert] at h <;> try cases h
  · simp only [bind_ok, Except.ok.injEq] at h
    obtain ⟨q, hq, rfl⟩ := h
    unfold implicitNum at hq
    split at hq
    · rename_i t _ _ hc
      refine Or.inr ⟨rfl, t.rep, ?_⟩
      obtain ⟨h1, h2⟩ := hc
      cases t; cases h1; cases h2; rfl
    · cases hq
  all_goals exact Or.inl rfl

/-- C73: within one template, what can be constructed converts implicitly. -/
theorem C73_within_implicit (E : Env) (R : Rebinds) (t : Ty) (x y : Val) (hc : x.cls = t.cls) (h : construct E R t x = .ok y) :
    convert E R t x = .ok y := by
  cases t <;> cases x <;> simp only [Val.cls, Ty.cls, reduceCtorEq] at hc
  · simpa only [construct, constructQty, convert] using h
  all_goals
    simp only [construct, bind_ok, Except.ok.injEq] at h
    obtain ⟨r, hr, rfl⟩ := h
    first | unfold constructPt at hr | unfold constructKd at hr | unfold constructPk at hr
    split at hr
    · rename_i hu
      simp only [convert, hu, if_true, hr, ok_bind]
    · cases hr

/-- C73: what the constructors of each template accept, whatever the dimensions; numbers make a kind or a point kind only if it is
dimensionless. -/
theorem C73_accepted (E : Env) (R : Rebinds) (t : Ty) (x y : Val) (h : construct E R t x = .ok y) : Allowed t x := by
  have kdnum : ∀ (t : KTy) r v k, constructKd E t (.num r v) = .ok k → dimEquivalent t.kind.dim (.named dimOne) = .ok true := by
    intro t r v k h
    unfold constructKd at h
    split at h
    · simp only [bind_ok] at h
      obtain ⟨e, he, h⟩ := h
      cases e with
      | true => exact he
      | false => cases h
    · cases h
  cases t with
  | qty t =>
    cases x <;> simp only [construct, constructQty] at h <;> try cases h
    · exact Or.inl rfl
    · exact Or.inr (Or.inr ⟨_, rfl⟩)
    · exact Or.inr (Or.inl rfl)
  | pt t =>
    simp only [construct, bind_ok, Except.ok.injEq] at h
    obtain ⟨r, hr, rfl⟩ := h
    unfold constructPt at hr
    split at hr
    swap
    · cases hr
    cases x <;> simp only [constructQty, error_bind, reduceCtorEq] at hr <;> simp [Allowed, Val.cls]
  | kd t =>
    simp only [construct, bind_ok, Except.ok.injEq] at h
    obtain ⟨r, hr, rfl⟩ := h
    cases x with
    | num r v => exact Or.inl ⟨rfl, kdnum t r v _ hr⟩
    | _ =>
      unfold constructKd at hr
      split at hr
      swap
      · cases hr
      simp only [constructQty, error_bind, reduceCtorEq] at hr <;> simp [Allowed, Val.cls]
  | pk t =>
    simp only [construct, bind_ok, Except.ok.injEq] at h
    obtain ⟨r, hr, rfl⟩ := h
    cases x with
    | num a v =>
      unfold constructPk at hr
      split at hr
      swap
      · cases hr
      simp only [bind_ok] at hr
      obtain ⟨k, hk, -⟩ := hr
      exact Or.inl ⟨rfl, kdnum t.kty a v _ hk⟩
    | _ => exact Or.inr (by simp [Val.cls])

/-- C73: construction from anything but a number gives an object of the type asked for, and needs equivalent origins and one base kind where
both sides have them.  The amount is a whole number of units of an integral target, which holds this number (modulo its width); a
floating-point target has the same amount if its arithmetic is exact.  Partial: see C22 for `Coherent` and `CastGuard`, and C69 for rounding
formats. -/
theorem C73_amount_partial (E : Env) (hE : E.OK) (R : Rebinds) (β : String → ℝ) (hβ : Sizes β) (t : Ty) (x y : Val) (ht : t.OK)
    (gx : x.Good E) (hx : x.cls ≠ .plain) (h : construct E R t x = .ok y) :
    y.type = some t ∧ Agrees R t x ∧
      (t.under.Good E → (∀ q, x.under E = .ok q → Coherent β q.ty.dim t.under.dim ∧ CastGuard E t.under q) →
        (∀ ty, t.under.rep = .int ty → ∃ n : ℤ, x.amount β = n * t.under.size β ∧ y.number = .i (ty.wrap n) ∧
          (ty.In n → y.amount β = x.amount β)) ∧
        (t.under.rep.floating = true → FlExact E.fl → y.amount β = x.amount β)) := by
  obtain ⟨h1, h2, q, r, hq, hr, hc⟩ := construct_under hE ht gx.valid hx h
  refine ⟨h1, h2, fun gt hk => ?_⟩
  obtain ⟨gq, aq⟩ := under_amount (β := β) hE gx hq
  obtain ⟨k1, k2⟩ := hk q hq
  have ar : y.amount β = r.amount β ∧ y.number = r.num := by
    cases y with
    | num => cases h1
    | dur => cases h1
    | time => cases h1
    | _ => cases hr; exact ⟨rfl, rfl⟩
  rw [ar.1, ar.2, ← aq]
  refine ⟨fun ty hty => ?_, fun hf hfl => ?_⟩
  · obtain ⟨-, -, n, n1, n2, n3⟩ := C22_implicit_conversion_exact_partial E β hβ t.under q r ty gq.ty gt k1 gq.num hty k2 hc
    exact ⟨n, n1, n2, n3⟩
  · exact (C22_implicit_conversion_float_partial E β hβ t.under q r gq.ty gt k1 gq.num hf hfl hc).2

/-- C73: construction from a number takes the number, when the representation holds it; a floating-point number never becomes an
integral one. -/
theorem C73_number (E : Env) (R : Rebinds) (t : Ty) (r : Rep) (v : Num) (y : Val) (hv : v.Typed r)
    (h : construct E R t (.num r v) = .ok y) :
    y.type = some t ∧ (t.under.rep.floating = false → r.floating = false) ∧ y.number.Typed t.under.rep ∧
      ((t.under.rep.floating = true → FlExact E.fl) → RFits t.under.rep v.q → y.number.q = v.q) := by
  have base : ∀ (t : QTy) q, mkQty E t r v = .ok q → q.ty = t ∧ (t.rep.floating = false → r.floating = false) ∧ q.num.Typed t.rep ∧
      ((t.rep.floating = true → FlExact E.fl) → RFits t.rep v.q → q.num.q = v.q) := by
    intro t q h
    unfold mkQty at h
    split at h
    · rename_i hc
      simp only [bind_ok, Except.ok.injEq] at h
      obtain ⟨x, hx, rfl⟩ := h
      refine ⟨rfl, fun hf => ?_, convNum_typed hv hx, fun hfl hf => convNum_fits hv hfl hf hx⟩
      simp only [hf, Bool.false_eq_true, false_or] at hc
      simpa using hc
    · cases h
  have kd : ∀ (t : KTy) k, constructKd E t (.num r v) = .ok k → k.ty = t ∧ ∃ q, mkQty E t.qty r v = .ok q ∧ q.num = k.num := by
    intro t k h
    unfold constructKd at h
    split at h
    · simp only [bind_ok] at h
      obtain ⟨e, he, h⟩ := h
      cases e with
      | true =>
        simp only [if_true, bind_ok, Except.ok.injEq] at h
        obtain ⟨q, hq, rfl⟩ := h
        exact ⟨rfl, q, hq, rfl⟩
      | false => cases h
    · cases h
  cases t with
  | qty t =>
    simp only [construct, bind_ok, Except.ok.injEq] at h
    obtain ⟨q, hq, rfl⟩ := h
    obtain ⟨h1, h2⟩ := base t q hq
    exact ⟨congrArg _ (congrArg _ h1), h2⟩
  | pt t =>
    simp only [construct, bind_ok, Except.ok.injEq] at h
    obtain ⟨p, hp, rfl⟩ := h
    unfold constructPt at hp
    split at hp
    · simp only [bind_ok, Except.ok.injEq] at hp
      obtain ⟨q, hq, rfl⟩ := hp
      exact ⟨rfl, (base _ q hq).2⟩
    · cases hp
  | kd t =>
    simp only [construct, bind_ok, Except.ok.injEq] at h
    obtain ⟨k, hk, rfl⟩ := h
    obtain ⟨h1, q, hq, e⟩ := kd t k hk
    have := (base _ q hq).2
    rw [e] at this
    exact ⟨congrArg _ (congrArg _ h1), this⟩
  | pk t =>
    simp only [construct, bind_ok, Except.ok.injEq] at h
    obtain ⟨p, hp, rfl⟩ := h
    unfold constructPk at hp
    split at hp
    · simp only [bind_ok, Except.ok.injEq] at hp
      obtain ⟨k, hk, rfl⟩ := hp
      obtain ⟨h1, q, hq, e⟩ := kd _ k hk
      have := (base _ q hq).2
      rw [e] at this
      exact ⟨rfl, this⟩
    · cases hp

/-- C73: a quantity makes a point, a kind or a point kind exactly when it converts to the quantity that these consist of. -/
theorem C73_from_quantity (E : Env) (R : Rebinds) (t : Ty) (q : Qty) (ht : t.OK) :
    (∃ y, construct E R t (.qty q) = .ok y) ↔ ∃ r, convertQty E t.under q = .ok r := by
  cases t with
  | qty t => simp only [construct, constructQty, bind_ok, Ty.under]; constructor <;> rintro ⟨_, h⟩
             · obtain ⟨r, hr, -⟩ := h; exact ⟨r, hr⟩
             · exact ⟨_, _, h, rfl⟩
  | pt t =>
    simp only [construct, constructPt, constructQty, bind_ok, Ty.under, show t.unit.ref = t.origin.dim.unit.ref from ht, if_true]
    constructor
    · rintro ⟨_, _, ⟨r, hr, -⟩, -⟩; exact ⟨r, hr⟩
    · rintro ⟨_, h⟩; exact ⟨_, _, ⟨_, h, rfl⟩, rfl⟩
  | kd t =>
    simp only [construct, constructKd, constructQty, bind_ok, Ty.under, show t.unit.ref = t.kind.dim.unit.ref from ht, if_true]
    constructor
    · rintro ⟨_, _, ⟨r, hr, -⟩, -⟩; exact ⟨r, hr⟩
    · rintro ⟨_, h⟩; exact ⟨_, _, ⟨_, h, rfl⟩, rfl⟩
  | pk t =>
    simp only [construct, constructPk, constructKd, constructQty, bind_ok, Ty.under, ht.1, if_true,
      show t.kty.unit.ref = t.kty.kind.dim.unit.ref from ht.1]
    constructor
    · rintro ⟨_, _, ⟨_, ⟨r, hr, -⟩, -⟩, -⟩; exact ⟨r, hr⟩
    · rintro ⟨_, h⟩; exact ⟨_, _, ⟨_, ⟨_, h, rfl⟩, rfl⟩, rfl⟩

/-- C73: taking a wrapper off and putting it on again changes nothing. -/
theorem C73_round_trip (E : Env) (R : Rebinds) (x : Val) (t : Ty) (q : Qty) (hx : x.type = some t) (ht : t.OK) (hq : x.under E = .ok q) :
    construct E R t (.qty q) = .ok x := by
  cases x with
  | num => cases hx
  | dur => cases hx
  | time => cases hx
  | qty x => cases hx; cases hq; simp only [construct, constructQty, convertQty_self, ok_bind]
  | pt p =>
    cases hx; cases hq
    simp only [construct, constructPt, constructQty, show p.ty.unit.ref = p.ty.origin.dim.unit.ref from ht, if_true,
      show p.ty.qty = p.rel.ty from rfl, convertQty_self, ok_bind]
    rfl
  | kd k =>
    cases hx; cases hq
    simp only [construct, constructKd, constructQty, show k.ty.unit.ref = k.ty.kind.dim.unit.ref from ht, if_true,
      show k.ty.qty = k.common.ty from rfl, convertQty_self, ok_bind]
    rfl
  | pk p =>
    cases hx; cases hq
    simp only [construct, constructPk, constructKd, constructQty, ht.1, if_true,
      show p.ty.kty.unit.ref = p.ty.kty.kind.dim.unit.ref from ht.1,
      show p.ty.kty.qty = p.rel.common.ty from rfl, convertQty_self, ok_bind]
    rfl

/-- C73: `zero`, `one`, `min` and `max` of the wrappers hold the number that those of the quantity hold; points have only `min` and
`max`. -/
theorem C73_special (E : Env) (R : Rebinds) (t : Ty) (s : Special) (ht : t.OK) :
    (∀ y, special E R t s = .ok y → y.type = some t ∧ specialQty E t.under s = .ok ⟨t.under, y.number⟩) ∧
    (∀ q, specialQty E t.under s = .ok q → (t.cls = .pt ∨ t.cls = .pk → s = .min ∨ s = .max) → ∃ y, special E R t s = .ok y) := by
  have ty : ∀ (t : QTy) s q, specialQty E t s = .ok q → q.ty = t := by
    intro t s q h
    have mk : ∀ r v, mkQty E t r v = .ok q → q.ty = t := by
      intro r v h
      unfold mkQty at h
      split at h
      · simp only [bind_ok, Except.ok.injEq] at h
        obtain ⟨_, -, rfl⟩ := h; rfl
      · cases h
    cases s <;> simp only [specialQty, zeroQty, oneQty, minQty, maxQty, bind_ok] at h
    · obtain ⟨_, -, h⟩ := h; exact mk _ _ h
    · obtain ⟨_, -, h⟩ := h; exact mk _ _ h
    · exact mk _ _ h
    · exact mk _ _ h
  have put : ∀ q : Qty, q.ty = t.under → ∃ y, construct E R t (.qty q) = .ok y ∧ y.type = some t ∧ y.number = q.num := by
    intro q hq
    cases t with
    | qty t => cases hq; exact ⟨.qty q, by simp only [construct, constructQty, convertQty_self, ok_bind], rfl, rfl⟩
    | pt t =>
      refine ⟨.pt ⟨t, q.num⟩, ?_, rfl, rfl⟩
      simp only [construct, constructPt, constructQty, show t.unit.ref = t.origin.dim.unit.ref from ht, if_true,
        show t.qty = q.ty from hq.symm, convertQty_self, ok_bind]
    | kd t =>
      refine ⟨.kd ⟨t, q.num⟩, ?_, rfl, rfl⟩
      simp only [construct, constructKd, constructQty, show t.unit.ref = t.kind.dim.unit.ref from ht, if_true,
        show t.qty = q.ty from hq.symm, convertQty_self, ok_bind]
    | pk t =>
      refine ⟨.pk ⟨t, q.num⟩, ?_, rfl, rfl⟩
      simp only [construct, constructPk, constructKd, constructQty, ht.1, if_true, show t.kty.unit.ref = t.kty.kind.dim.unit.ref from ht.1,
        show t.kty.qty = q.ty from hq.symm, convertQty_self, ok_bind]
  have eta : ∀ (q : Qty) (u : QTy) n, q.ty = u → n = q.num → q = ⟨u, n⟩ := by
    rintro ⟨a, b⟩ u n rfl rfl; rfl
  have pnt : ∀ u q, special.point E s u = .ok q ↔ specialQty E u s = .ok q ∧ (s = .min ∨ s = .max) := by
    intro u q
    cases s <;> simp [special.point, specialQty]
  have pk2 : ∀ t' : PKTy, t = .pk t' → ∀ q : Qty, q.ty = t'.kty.qty →
      construct E R (.kd t'.kty) (.qty q) = .ok (.kd ⟨t'.kty, q.num⟩) ∧
      construct E R (.pk t') (.kd ⟨t'.kty, q.num⟩) = .ok (.pk ⟨t', q.num⟩) := by
    rintro t' rfl q hq
    refine ⟨?_, ?_⟩
    · simp only [construct, constructKd, constructQty, if_true, show t'.kty.unit.ref = t'.kty.kind.dim.unit.ref from ht.1,
        ← hq, convertQty_self, ok_bind]
    · simp only [construct, constructPk, constructKd, ht.1, if_true, show t'.kty.unit.ref = t'.kty.kind.dim.unit.ref from ht.1,
        convertKind, ok_bind]
  cases t with
  | qty t =>
    simp only [special, bind_ok, Except.ok.injEq]
    refine ⟨?_, fun q hq _ => ⟨_, q, hq, rfl⟩⟩
    rintro y ⟨q, hq, rfl⟩
    have e := ty _ _ _ hq
    exact ⟨congrArg _ (congrArg _ e), by rw [show Ty.under (.qty t) = t from rfl, hq]; exact congrArg _ (eta _ _ _ e rfl)⟩
  | kd t =>
    simp only [special, bind_ok]
    constructor
    · rintro y ⟨q, hq, hy⟩
      have e := ty _ _ _ hq
      obtain ⟨y', h1, h2, h3⟩ := put q e
      rw [h1] at hy; cases hy
      exact ⟨h2, by rw [show Ty.under (.kd t) = t.qty from rfl, hq]; exact congrArg _ (eta _ _ _ e h3)⟩
    · intro q hq _
      obtain ⟨y', h1, -⟩ := put q (ty _ _ _ hq)
      exact ⟨y', q, hq, h1⟩
  | pt t =>
    simp only [special, bind_ok, pnt]
    constructor
    · rintro y ⟨q, ⟨hq, -⟩, hy⟩
      have e := ty _ _ _ hq
      obtain ⟨y', h1, h2, h3⟩ := put q e
      rw [h1] at hy; cases hy
      exact ⟨h2, by rw [show Ty.under (.pt t) = t.qty from rfl, hq]; exact congrArg _ (eta _ _ _ e h3)⟩
    · intro q hq hs
      obtain ⟨y', h1, -⟩ := put q (ty _ _ _ hq)
      exact ⟨y', q, ⟨hq, hs (Or.inl rfl)⟩, h1⟩
  | pk t =>
    simp only [special, bind_ok, pnt]
    constructor
    · rintro y ⟨q, ⟨hq, -⟩, k, hk, hy⟩
      have e := ty _ _ _ hq
      obtain ⟨p1, p2⟩ := pk2 t rfl q e
      rw [p1] at hk; cases hk
      rw [p2] at hy; cases hy
      exact ⟨rfl, by rw [show Ty.under (.pk t) = t.kty.qty from rfl, hq]; exact congrArg _ (eta _ _ _ e rfl)⟩
    · intro q hq hs
      obtain ⟨p1, p2⟩ := pk2 t rfl q (ty _ _ _ hq)
      exact ⟨_, q, ⟨hq, hs (Or.inr rfl)⟩, _, p1, p2⟩

/-! ### Examples -/

/-- The kinds and point kinds of the examples: widths over lengths, cloth ratios without dimension. -/
def exRatioKind : Kind := ⟨some "ratio_kind", "ratio_kind", .named dimOne⟩
/-- Positions over a static origin. -/
def exSeaKind : PKind := ⟨some "altitude_kind", exWidth, exSea⟩

example : (Ty.pk ⟨exSeaKind, exMetre, .int .i64⟩).OK ∧ (Ty.kd ⟨exRatioKind, unitOne, .int .i32⟩).OK := ⟨⟨rfl, rfl⟩, rfl⟩

/-- Two kilometres above the sea make a point kind of metres; a number makes a kind only without dimension; nothing but a number is
converted implicitly from another template. -/
example :
    construct exEnv exNoRebind (.pk ⟨exSeaKind, exMetre, .int .i64⟩) (.pt ⟨⟨exSea, exKm, .int .i32⟩, .i 2⟩) =
      .ok (.pk ⟨⟨exSeaKind, exMetre, .int .i64⟩, .i 2000⟩) ∧
    construct exEnv exNoRebind (.pk ⟨exSeaKind, exKm, .int .i64⟩) (.pt ⟨⟨exSea, exMetre, .int .i32⟩, .i 2⟩) = .error .rejected ∧
    construct exEnv exNoRebind (.pk ⟨exSeaKind, exMetre, .int .i64⟩) (.pt ⟨⟨dynamicOrigin (.base exL), exMetre, .int .i32⟩, .i 2⟩) =
      .error .rejected ∧
    construct exEnv exNoRebind (.pk ⟨exSeaKind, exMetre, .int .i64⟩) (.qty ⟨exKms (.int .i32), .i 2⟩) =
      .ok (.pk ⟨⟨exSeaKind, exMetre, .int .i64⟩, .i 2000⟩) ∧
    construct exEnv exNoRebind (.kd ⟨exWidth, exMetre, .int .i64⟩) (.num (.int .i32) (.i 2)) = .error .rejected ∧
    construct exEnv exNoRebind (.kd ⟨exRatioKind, unitOne, .flt .f64⟩) (.num (.int .i32) (.i 2)) =
      .ok (.kd ⟨⟨exRatioKind, unitOne, .flt .f64⟩, .f 2⟩) ∧
    construct exEnv exNoRebind (.pt ⟨clockOrigin "system_clock", siSecond, .int .i64⟩) (.time ⟨"system_clock", .int .i64, 60, 1, .i 90⟩) =
      .ok (.pt ⟨⟨clockOrigin "system_clock", siSecond, .int .i64⟩, .i 5400⟩) ∧
    convert exEnv exNoRebind (.pt ⟨exSea, exMetre, .int .i64⟩) (.qty ⟨exKms (.int .i32), .i 2⟩) = .error .rejected ∧
    convert exEnv exNoRebind (.pt ⟨exSea, exMetre, .int .i64⟩) (.pt ⟨⟨exSea, exKm, .int .i32⟩, .i 2⟩) =
      .ok (.pt ⟨⟨exSea, exMetre, .int .i64⟩, .i 2000⟩) ∧
    convert exEnv exNoRebind (.kd ⟨exRatioKind, unitOne, .flt .f64⟩) (.num (.int .i32) (.i 2)) = .error .rejected ∧
    convert exEnv exNoRebind (.qty ⟨.named dimOne, unitOne, .flt .f64⟩) (.num (.int .i32) (.i 2)) =
      .ok (.qty ⟨⟨.named dimOne, unitOne, .flt .f64⟩, .f 2⟩) ∧
    special exEnv exNoRebind (.pk ⟨exSeaKind, exMetre, .int .i16⟩) .min = .ok (.pk ⟨⟨exSeaKind, exMetre, .int .i16⟩, .i (-32768)⟩) ∧
    special exEnv exNoRebind (.pk ⟨exSeaKind, exMetre, .int .i16⟩) .zero = .error .rejected ∧
    special exEnv exNoRebind (.kd ⟨exWidth, exMetre, .int .i16⟩) .one = .ok (.kd ⟨⟨exWidth, exMetre, .int .i16⟩, .i 1⟩) := by
  decide +kernel

/-- The hypotheses of `C73_amount_partial` for the first of these. -/
example (β : String → ℝ) (hβ : Sizes β) :
    ∃ n : ℤ, Val.amount β (.pt ⟨⟨exSea, exKm, .int .i32⟩, .i 2⟩) = n * (exMetres (.int .i64)).size β ∧
      Num.i 2000 = .i (IntTy.wrap .i64 n) := by
  obtain ⟨-, -, h⟩ := C73_amount_partial exEnv exEnv_ok exNoRebind β hβ (.pk ⟨exSeaKind, exMetre, .int .i64⟩)
    (.pt ⟨⟨exSea, exKm, .int .i32⟩, .i 2⟩) (.pk ⟨⟨exSeaKind, exMetre, .int .i64⟩, .i 2000⟩) ⟨rfl, rfl⟩
    ⟨exKms_good _ _, ⟨_, rfl, by decide⟩⟩ (by simp [Val.cls]) (by decide +kernel)
  obtain ⟨n, h1, h2, -⟩ := (h (exMetres_good _ _) (fun q hq => by
    cases hq; exact ⟨Coherent.refl β _, no_guard (by decide) (by decide)⟩)).1 _ rfl
  exact ⟨n, h1, h2⟩

/-- C73: `+` of a quantity promotes its representation, `+` of a kind of it does not, although `-` of the kind does. -/
theorem C73_unary_plus_differs :
    (posKind ⟨⟨exWidth, exMetre, .int .i16⟩, .i 5⟩).ty.rep = .int .i16 ∧
    (negKind exEnv ⟨⟨exWidth, exMetre, .int .i16⟩, .i 5⟩).map (·.ty.rep) = .ok (.int .i32) ∧
    (posQty exEnv (Kd.common ⟨⟨exWidth, exMetre, .int .i16⟩, .i 5⟩)).map (·.ty.rep) = .ok (.int .i32) := by
  decide +kernel

end Verif
