import Verif.EquivType
import Verif.Props.RatioProps
import Verif.Props.ShippedProps

/-!
# `units::equivalent` on quantity types: C67

Types that are reported equivalent should mean the same: the same number of units is the same amount.
-/

namespace Verif

open Systems Standards

set_option Elab.async false

/-- `σ` gives the ratio and the reference of every unit type; the base classes of a unit have its ratio and reference, as they are inherited. -/
structure MUnit.Declared (σ : UnitId → Option (Ratio × String)) (u : MUnit) : Prop where
  self : σ u.id = some (u.ratio, u.ref)
  bases : ∀ b ∈ u.bases, σ b = some (u.ratio, u.ref)

/-- The definitions that a definition is made of. -/
def UnitDef.parts : UnitDef → List UnitDef
  | .unit c => [.unit c]
  | .named c s f => [.named c s f]
  | .namedScaled c s f r u => .namedScaled c s f r u :: u.parts
  | .prefixed c p u => .prefixed c p u :: u.parts
  | .aliasOf c s f u => .aliasOf c s f u :: u.parts
  | .prefixedAlias c u p a => .prefixedAlias c u p a :: (u.parts ++ a.parts)

/-- A definition introduces a declared unit, if `σ` is right about the names that it and its parts introduce. -/
theorem UnitDef.declared {σ : UnitId → Option (Ratio × String)} (hs : ∀ r ref, σ (.scaled r ref) = some (r, ref)) :
    ∀ (d : UnitDef) (u : MUnit), d.eval = .ok u → (∀ d' ∈ d.parts, ∀ u', d'.eval = .ok u' → σ u'.id = some (u'.ratio, u'.ref)) →
      u.Declared σ := by
  intro d
  induction d with
  | unit c =>
    intro u h hp
    refine ⟨hp _ (by simp [UnitDef.parts]) _ h, ?_⟩
    simp only [UnitDef.eval, mkUnit, bind_ok, scaledUnit_eq_ok, Except.ok.injEq] at h
    obtain ⟨_, ⟨-, rfl⟩, rfl⟩ := h
    simp [hs]
  | named c s f =>
    intro u h hp
    refine ⟨hp _ (by simp [UnitDef.parts]) _ h, ?_⟩
    simp only [UnitDef.eval, mkNamed, bind_ok, scaledUnit_eq_ok, Except.ok.injEq] at h
    obtain ⟨_, ⟨-, rfl⟩, rfl⟩ := h
    simp [hs]
  | namedScaled c s f r d' ih =>
    intro u h hp
    refine ⟨hp _ (by simp [UnitDef.parts]) _ h, ?_⟩
    simp only [UnitDef.eval, bind_ok] at h
    obtain ⟨v, -, h⟩ := h
    unfold mkNamedScaled at h
    split at h
    · cases h
    · simp only [bind_ok, scaledUnit_eq_ok, Except.ok.injEq] at h
      obtain ⟨x, -, _, ⟨-, rfl⟩, rfl⟩ := h
      simp [hs]
  | prefixed c p d' ih =>
    intro u h hp
    refine ⟨hp _ (by simp [UnitDef.parts]) _ h, ?_⟩
    simp only [UnitDef.eval, bind_ok] at h
    obtain ⟨v, -, h⟩ := h
    unfold mkPrefixed at h
    split at h
    · cases h
    · simp only [bind_ok, scaledUnit_eq_ok, Except.ok.injEq] at h
      obtain ⟨x, -, _, ⟨-, rfl⟩, rfl⟩ := h
      simp [hs]
  | aliasOf c s f d' ih =>
    intro u h hp
    refine ⟨hp _ (by simp [UnitDef.parts]) _ h, ?_⟩
    simp only [UnitDef.eval, bind_ok, mkAlias, Except.ok.injEq] at h
    obtain ⟨v, hv, rfl⟩ := h
    have := ih v hv fun x hx => hp x (by simp [UnitDef.parts, hx])
    intro b hb
    rcases List.mem_cons.mp hb with rfl | hb
    · exact this.self
    · exact this.bases b hb
  | prefixedAlias c d' p a ih _ =>
    intro u h hp
    refine ⟨hp _ (by simp [UnitDef.parts]) _ h, ?_⟩
    simp only [UnitDef.eval, bind_ok] at h
    obtain ⟨v, hv, w, -, h⟩ := h
    unfold mkPrefixedAlias at h
    split at h
    · cases h
    · simp only [Except.ok.injEq] at h
      subst h
      have := ih v hv fun x hx => hp x (by simp [UnitDef.parts, hx])
      intro b hb
      rcases List.mem_cons.mp hb with rfl | hb
      · exact this.self
      · exact this.bases b hb

theorem unitEquivalent_sound {σ : UnitId → Option (Ratio × String)} {u v : MUnit} (hu : u.Declared σ) (hv : v.Declared σ)
    (h : unitEquivalent u v = true) : u.ratio = v.ratio ∧ u.ref = v.ref := by
  have key : ∀ {x y : MUnit}, x.Declared σ → y.Declared σ → unitIsBaseOf x y = true → x.ratio = y.ratio ∧ x.ref = y.ref := by
    intro x y hx hy h
    unfold unitIsBaseOf at h
    simp only [Bool.or_eq_true, decide_eq_true_eq] at h
    have e : some (x.ratio, x.ref) = some (y.ratio, y.ref) := by
      rcases h with h | h
      · rw [← hx.self, ← hy.self, h]
      · rw [← hx.self, hy.bases _ h]
    simpa using e
  unfold unitEquivalent at h
  rw [Bool.or_eq_true] at h
  rcases h with h | h
  · exact key hu hv h
  · have := key hv hu h
    exact ⟨this.1.symm, this.2.symm⟩

theorem equivalentUnit_eq_ok {u1 u2 : MUnit} {d1 d2 : Dim} {b : Bool} :
    equivalentUnit u1 d1 u2 d2 = .ok b ↔ ∃ r1 r2, Ratio.div u1.ratio d1.unit.ratio = .ok r1 ∧ Ratio.div u2.ratio d2.unit.ratio = .ok r2 ∧
      b = (unitEquivalent u1 u2 || decide (r1 = r2)) := by
  unfold equivalentUnit
  simp only [bind_ok, Except.ok.injEq]
  constructor
  · rintro ⟨r1, h1, r2, h2, h⟩; exact ⟨r1, r2, h1, h2, h.symm⟩
  · rintro ⟨r1, r2, h1, h2, h⟩; exact ⟨r1, h1, r2, h2, h.symm⟩

theorem qtyEquivalent_true {a b : QTy} (h : qtyEquivalent a b = .ok true) :
    a = b ∨ (dimEquivalent a.dim b.dim = .ok true ∧ equivalentUnit a.unit a.dim b.unit b.dim = .ok true) := by
  unfold qtyEquivalent at h
  split at h
  · rename_i e; exact Or.inl e
  · rw [bind_ok] at h
    obtain ⟨e, he, h⟩ := h
    cases e
    · simp at h
    · exact Or.inr ⟨he, by simpa using h⟩

theorem size_quotient {E : Env} {β : String → ℝ} {t : QTy} (h : t.Good E) {r : Ratio} (hr : Ratio.div t.unit.ratio t.dim.unit.ratio = .ok r) :
    t.size β = (r.val : ℝ) * t.dim.size β t.dim.unit := by
  obtain ⟨es, he, -⟩ := h.dim.exps
  unfold QTy.size
  have hp : (t.dim.unit.ratio.val : ℝ) ≠ 0 := by exact_mod_cast h.dim.unit.val_pos.ne'
  rw [Dim.size_eq he, Dim.size_eq he, (div_sound h.unit.ratio h.dim.unit.ratio hr).2.1, div_self hp, one_mul]
  push_cast
  rfl

/-! ### C67 -/

/-- C67: every type is equivalent to itself. -/
theorem C67_reflexive (R : Rebinds) (t : QTy) (p : PTy) (k : KTy) (x : PKTy) : qtyEquivalent t t = .ok true ∧ ptEquivalent R p p = .ok true ∧
    kdEquivalent k k = .ok true ∧ pkEquivalent R x x = .ok true := by
  simp [qtyEquivalent, ptEquivalent, kdEquivalent, pkEquivalent]

/-- C67: equivalence of quantity types is symmetric. -/
theorem C67_symmetric (a b : QTy) (h : qtyEquivalent a b = .ok true) : qtyEquivalent b a = .ok true := by
  rcases qtyEquivalent_true h with rfl | ⟨hd, hu⟩
  · exact h
  · unfold qtyEquivalent
    split
    · rfl
    · rw [bind_ok]
      refine ⟨true, C17_symmetric _ _ hd, ?_⟩
      rw [if_pos rfl]
      rw [equivalentUnit_eq_ok] at hu ⊢
      obtain ⟨r1, r2, h1, h2, h⟩ := hu
      refine ⟨r2, r1, h2, h1, ?_⟩
      rw [h]
      unfold unitEquivalent
      rw [Bool.or_comm (unitIsBaseOf b.unit a.unit), decide_eq_decide.mpr (eq_comm : r1 = r2 ↔ r2 = r1)]

theorem originEquivalent_symm {R : Rebinds} {a b : Origin} (h : originEquivalent R a b = .ok true) : originEquivalent R b a = .ok true := by
  unfold originEquivalent at h ⊢
  split at h
  · rename_i e; rw [if_pos e.symm]
  · rename_i e
    rw [if_neg (Ne.symm e)]
    split at h
    · rename_i k
      rw [if_pos ⟨k.2.1, k.1, k.2.2.2, k.2.2.1⟩]
      exact C17_symmetric _ _ h
    · simp at h

theorem kindEquivalent_symm {a b : Kind} (h : kindEquivalent a b = .ok true) : kindEquivalent b a = .ok true := by
  unfold kindEquivalent at h ⊢
  split at h
  · rename_i e; rw [if_pos e.symm]; exact C17_symmetric _ _ h
  · simp at h

/-- C67: so are those of quantity points, quantity kinds and quantity point kinds. -/
theorem C67_symmetric_points_and_kinds (R : Rebinds) (p q : PTy) (k l : KTy) (x y : PKTy) :
    (ptEquivalent R p q = .ok true → ptEquivalent R q p = .ok true) ∧ (kdEquivalent k l = .ok true → kdEquivalent l k = .ok true) ∧
      (pkEquivalent R x y = .ok true → pkEquivalent R y x = .ok true) := by
  have hk : ∀ k l : KTy, kdEquivalent k l = .ok true → kdEquivalent l k = .ok true := by
    intro k l h
    unfold kdEquivalent at h ⊢
    split at h
    · rename_i e; rw [if_pos e.symm]
    · rename_i e
      rw [if_neg (Ne.symm e), bind_ok]
      rw [bind_ok] at h
      obtain ⟨b, hb, h⟩ := h
      cases b
      · simp at h
      · exact ⟨true, kindEquivalent_symm hb, by simpa using C67_symmetric _ _ (by simpa using h)⟩
  refine ⟨fun h => ?_, hk k l, fun h => ?_⟩
  · unfold ptEquivalent at h ⊢
    split at h
    · rename_i e; rw [if_pos e.symm]
    · rename_i e
      rw [if_neg (Ne.symm e), bind_ok]
      rw [bind_ok] at h
      obtain ⟨b, hb, h⟩ := h
      cases b
      · simp at h
      · exact ⟨true, C67_symmetric _ _ hb, by simpa using originEquivalent_symm (by simpa using h)⟩
  · unfold pkEquivalent at h ⊢
    split at h
    · rename_i e; rw [if_pos e.symm]
    · rename_i e
      rw [if_neg (Ne.symm e), bind_ok]
      rw [bind_ok] at h
      obtain ⟨b, hb, h⟩ := h
      cases b
      · simp at h
      · exact ⟨true, hk _ _ hb, by simpa using originEquivalent_symm (by simpa using h)⟩

/-- C67, partial: the same number of units of equivalent quantity types is the same amount, provided that the coherent units of the two
dimensions have the same size.  Missing for the full claim: other dimensions (see `C67_metre_and_centimetre`). -/
theorem C67_same_amount_partial (E : Env) (β : String → ℝ) (σ : UnitId → Option (Ratio × String)) (a b : QTy) (ga : a.Good E) (gb : b.Good E)
    (da : a.unit.Declared σ) (db : b.unit.Declared σ) (hc : Coherent β a.dim b.dim)
    (hs : a.dim.size β a.dim.unit = b.dim.size β b.dim.unit) (h : qtyEquivalent a b = .ok true) (v : Num) :
    Qty.amount β ⟨a, v⟩ = Qty.amount β ⟨b, v⟩ := by
  rw [Qty.amount_eq, Qty.amount_eq]
  congr 1
  show a.size β = b.size β
  rcases qtyEquivalent_true h with rfl | ⟨-, hu⟩
  · rfl
  rw [equivalentUnit_eq_ok] at hu
  obtain ⟨r1, r2, h1, h2, h⟩ := hu
  replace h := h.symm
  rw [Bool.or_eq_true, decide_eq_true_eq] at h
  rcases h with h | rfl
  · obtain ⟨k1, k2⟩ := unitEquivalent_sound da db h
    have hr : a.dim.unit.ref = b.dim.unit.ref := by rw [← ga.unitOf, ← gb.unitOf, k2]
    obtain ⟨ea, hea, -⟩ := ga.dim.exps
    unfold QTy.size
    rw [hc hr]
    obtain ⟨eb, heb, -⟩ := gb.dim.exps
    rw [Dim.size_eq heb, Dim.size_eq heb]
    rw [k1]
  · rw [size_quotient ga h1, size_quotient gb h2, hs]

/-- C67, partial: conversely, two quantity types of one dimension whose units have the same size are equivalent, if the ratios of the units
have the same power of ten.  Missing for the full claim: other ratios (see `C67_two_miles`). -/
theorem C67_same_size_is_equivalent_partial (E : Env) (β : String → ℝ) (hβ : Sizes β) (a b : QTy) (ga : a.Good E) (gb : b.Good E) (hd : a.dim = b.dim)
    (he : a.unit.ratio.exp = b.unit.ratio.exp) (hs : a.size β = b.size β) (r : Ratio) (hr : Ratio.div a.unit.ratio a.dim.unit.ratio = .ok r) :
    qtyEquivalent a b = .ok true := by
  have hv : a.unit.ratio = b.unit.ratio := by
    refine (C02_equality_same_exponent_partial _ _ ga.unit.ratio gb.unit.ratio he).mpr ?_
    obtain ⟨es, hes, hw⟩ := gb.dim.exps
    unfold QTy.size at hs
    rw [hd, Dim.size_eq hes, Dim.size_eq hes] at hs
    have hp : (b.dim.unit.ratio.val : ℝ) ≠ 0 := by exact_mod_cast gb.dim.unit.val_pos.ne'
    have h2 := mul_right_cancel₀ (dimSize_pos hβ hw).ne' hs
    rw [div_left_inj' hp] at h2
    exact_mod_cast h2
  unfold qtyEquivalent
  split
  · rfl
  · rw [bind_ok]
    refine ⟨true, by rw [hd]; exact C17_reflexive _, ?_⟩
    rw [if_pos rfl, equivalentUnit_eq_ok]
    exact ⟨r, r, hr, by rw [← hv, ← hd]; exact hr, by simp⟩

theorem originEquivalent_true {R : Rebinds} {a b : Origin} (h : originEquivalent R a b = .ok true) :
    dimEquivalent a.dim b.dim = .ok true ∧ rebindOrigin R a b.dim = some b ∧ rebindOrigin R b a.dim = some a := by
  unfold originEquivalent at h
  split at h
  · rename_i e
    subst e
    exact ⟨C17_reflexive _, by simp [rebindOrigin], by simp [rebindOrigin]⟩
  · split at h
    · rename_i k; exact ⟨h, k.2.2.2, k.2.2.1⟩
    · simp at h

/-- C67, partial: equivalent types of points have origins that are the rebinding of each other, equivalent types of kinds have the same base kind,
and the same number is the same amount (since the quantity types are equivalent, `C67_same_amount_partial`).  Missing for the full claim: as there. -/
theorem C67_points_and_kinds_partial (R : Rebinds) (p q : PTy) (k l : KTy) (x y : PKTy) :
    (ptEquivalent R p q = .ok true → qtyEquivalent p.qty q.qty = .ok true ∧ rebindOrigin R p.origin q.origin.dim = some q.origin) ∧
      (kdEquivalent k l = .ok true → qtyEquivalent k.qty l.qty = .ok true ∧ k.kind.base = l.kind.base) ∧
      (pkEquivalent R x y = .ok true → qtyEquivalent x.kty.qty y.kty.qty = .ok true ∧ x.pk.kind.base = y.pk.kind.base ∧
        rebindOrigin R x.pk.origin y.pk.origin.dim = some y.pk.origin) := by
  have hk : ∀ k l : KTy, kdEquivalent k l = .ok true → qtyEquivalent k.qty l.qty = .ok true ∧ k.kind.base = l.kind.base := by
    intro k l h
    unfold kdEquivalent at h
    split at h
    · rename_i e; subst e; exact ⟨by simp [qtyEquivalent], rfl⟩
    · rw [bind_ok] at h
      obtain ⟨b, hb, h⟩ := h
      cases b
      · simp at h
      · refine ⟨by simpa using h, ?_⟩
        unfold kindEquivalent at hb
        split at hb
        · assumption
        · simp at hb
  refine ⟨fun h => ?_, hk k l, fun h => ?_⟩
  · unfold ptEquivalent at h
    split at h
    · rename_i e; subst e; exact ⟨by simp [qtyEquivalent], by simp [rebindOrigin]⟩
    · rw [bind_ok] at h
      obtain ⟨b, hb, h⟩ := h
      cases b
      · simp at h
      · exact ⟨hb, (originEquivalent_true (by simpa using h)).2.1⟩
  · unfold pkEquivalent at h
    split at h
    · rename_i e; subst e; exact ⟨by simp [qtyEquivalent], rfl, by simp [rebindOrigin]⟩
    · rw [bind_ok] at h
      obtain ⟨b, hb, h⟩ := h
      cases b
      · simp at h
      · obtain ⟨h1, h2⟩ := hk _ _ hb
        exact ⟨h1, h2, (originEquivalent_true (by simpa using h)).2.1⟩

/-- C67: equivalent units have the same ratio and the same reference; every unit is equivalent to itself and to the unit that it is an alias
of, in either order. -/
theorem C67_units (σ : UnitId → Option (Ratio × String)) (u v : MUnit) (hu : u.Declared σ) (hv : v.Declared σ) :
    unitEquivalent u u = true ∧ (unitEquivalent u v = true → unitEquivalent v u = true ∧ u.ratio = v.ratio ∧ u.ref = v.ref) ∧
      ∀ c s f, unitEquivalent (mkAlias c s f u) u = true := by
  refine ⟨by simp [unitEquivalent, unitIsBaseOf], fun h => ⟨?_, unitEquivalent_sound hu hv h⟩, fun c s f => ?_⟩
  · unfold unitEquivalent at h ⊢
    rw [Bool.or_comm]; exact h
  · simp [unitEquivalent, unitIsBaseOf, mkAlias]

/-! ### Shipped units -/

namespace Systems

/-- The ratio and the reference of every shipped unit type. -/
def unitSigma : UnitId → Option (Ratio × String)
  | .scaled r ref => some (r, ref)
  | .named n => (unitTable.find? fun r => decide (encode r.ent.name = encode n)).map fun r => (r.ent.unit.ratio, r.ent.unit.ref)

/-- The shipped units are declared by `unitSigma`. -/
def checkDeclared (l : List URow) : Bool :=
  l.all fun r => decide (unitSigma r.ent.unit.id = some (r.ent.unit.ratio, r.ent.unit.ref)) &&
    r.ent.unit.bases.all fun b => decide (unitSigma b = some (r.ent.unit.ratio, r.ent.unit.ref))

theorem checkDeclared_ok : checkDeclared unitTable = true := by decide +kernel

theorem checkDeclared_sound {r : URow} (h : r ∈ unitTable) : r.ent.unit.Declared unitSigma := by
  have hc := checkDeclared_ok
  unfold checkDeclared at hc
  rw [List.all_eq_true] at hc
  have hc := hc r h
  simp only [Bool.and_eq_true, decide_eq_true_eq, List.all_eq_true] at hc
  exact ⟨hc.1, hc.2⟩

/-- The coherent units of equivalent dimensions of one namespace are the same amount. -/
def checkScopes (l : List DRow) : Bool :=
  l.all fun a => l.all fun b => decide (a.scope.code ≠ b.scope.code) || decide (dimEquivalent a.dim b.dim ≠ .ok true) ||
    decide ((denote a.dim a.dim.unit).map (·.factor) = (denote b.dim b.dim.unit).map (·.factor) ∧ (denote a.dim a.dim.unit).isSome = true)

theorem checkScopes_ok : checkScopes dimTable = true := by decide +kernel

/-- Whether two ratios have the same value, in whole numbers. -/
def sameValue (r s : Ratio) : Bool :=
  decide (r.num * s.den * 10 ^ (r.exp - s.exp).toNat = s.num * r.den * 10 ^ (s.exp - r.exp).toNat)

/-- The pair of units of the same size with different ratios. -/
def mileClash (x y : String) : Prop :=
  (x = "units::isq::si::international::mile" ∧ y = "units::isq::si::fps::mile") ∨
    (x = "units::isq::si::fps::mile" ∧ y = "units::isq::si::international::mile")

instance (x y : String) : Decidable (mileClash x y) := by unfold mileClash; infer_instance

/-- The units by their reference. -/
def unitsByRef : Tree (List URow) := group (fun r => refCode r.ent.unit) .leaf unitTable

/-- Units of the same size have the same power of ten, but for one pair. -/
def checkSameSize (l : List URow) : Bool :=
  l.all fun e => withNat (refCode e.ent.unit) fun c => (unitsByRef.list c).all fun f =>
    decide (e.ent.unit.ratio.exp = f.ent.unit.ratio.exp) || !sameValue e.ent.unit.ratio f.ent.unit.ratio || decide (mileClash e.full f.full)

theorem checkSameSize_ok : checkSameSize unitTable = true := by decide +kernel

/-- The ratio of a unit can be divided by that of the coherent unit. -/
def checkQuotients (l : List URow) : Bool :=
  l.all fun e => withNat (refCode e.ent.unit) fun c => (dimsByRef.list c).all fun d =>
    match Ratio.div e.ent.unit.ratio d.dim.unit.ratio with
    | .ok _ => true
    | .error _ => false

theorem checkQuotients_ok : checkQuotients unitTable = true := by decide +kernel

theorem checkScopes_sound {r r' : DRow} (h : r ∈ dimTable) (h' : r' ∈ dimTable) (hs : r.scope = r'.scope)
    (he : dimEquivalent r.dim r'.dim = .ok true) : r.dim.size refSizes r.dim.unit = r'.dim.size refSizes r'.dim.unit := by
  have hc := checkScopes_ok
  unfold checkScopes at hc
  rw [List.all_eq_true] at hc
  have hc := hc r h
  rw [List.all_eq_true] at hc
  have hc := hc r' h'
  rw [hs] at hc
  simp only [Bool.or_eq_true, decide_eq_true_eq, ne_eq, not_true_eq_false, he, false_or, Option.isSome_iff_exists] at hc
  obtain ⟨hc, x, hx⟩ := hc
  rw [hx] at hc
  obtain ⟨y, hy, e⟩ := Option.map_eq_some_iff.mp hc.symm
  rw [denote_size hx, denote_size hy, e]

theorem sameValue_of {r s : Ratio} (hr : r.den ≠ 0) (hs : s.den ≠ 0) (h : r.val = s.val) : sameValue r s = true := by
  unfold sameValue
  rw [decide_eq_true_eq]
  unfold Ratio.val at h
  have hr' : (r.den : ℚ) ≠ 0 := by exact_mod_cast hr
  have hs' : (s.den : ℚ) ≠ 0 := by exact_mod_cast hs
  have key : ∀ a b : ℤ, (10 : ℚ) ^ a * 10 ^ (b - a).toNat = 10 ^ b * 10 ^ (a - b).toNat := by
    intro a b
    rw [← zpow_natCast, ← zpow_natCast, ← zpow_add₀ (by norm_num), ← zpow_add₀ (by norm_num)]
    congr 1
    omega
  have h10 : ((10 : ℚ) ^ r.exp) ≠ 0 := zpow_ne_zero _ (by norm_num)
  have h10' : ((10 : ℚ) ^ s.exp) ≠ 0 := zpow_ne_zero _ (by norm_num)
  have hk := key r.exp s.exp
  have q : (r.num : ℚ) * s.den * 10 ^ (r.exp - s.exp).toNat = s.num * r.den * 10 ^ (s.exp - r.exp).toNat := by
    field_simp at h
    have : ((r.num : ℚ) * s.den * 10 ^ (r.exp - s.exp).toNat) * ((10 : ℚ) ^ s.exp) =
        (s.num * r.den * 10 ^ (s.exp - r.exp).toNat) * ((10 : ℚ) ^ s.exp) := by
      calc ((r.num : ℚ) * s.den * 10 ^ (r.exp - s.exp).toNat) * ((10 : ℚ) ^ s.exp)
          = r.num * s.den * ((10 : ℚ) ^ s.exp * 10 ^ (r.exp - s.exp).toNat) := by ring
        _ = r.num * s.den * ((10 : ℚ) ^ r.exp * 10 ^ (s.exp - r.exp).toNat) := by rw [hk]
        _ = (r.num * (10 : ℚ) ^ r.exp * s.den) * 10 ^ (s.exp - r.exp).toNat := by ring
        _ = (s.num * (10 : ℚ) ^ s.exp * r.den) * 10 ^ (s.exp - r.exp).toNat := by
          congr 1; linarith [h]
        _ = (s.num * r.den * 10 ^ (s.exp - r.exp).toNat) * ((10 : ℚ) ^ s.exp) := by ring
    exact mul_right_cancel₀ h10' this
  exact_mod_cast q

theorem checkSameSize_sound {r r' : URow} (h : r ∈ unitTable) (h' : r' ∈ unitTable) (href : r.ent.unit.ref = r'.ent.unit.ref)
    (hv : r.ent.unit.ratio.val = r'.ent.unit.ratio.val) (hn : ¬ mileClash r.full r'.full) : r.ent.unit.ratio = r'.ent.unit.ratio := by
  have w := (checkWF_sound h).ratio
  have w' := (checkWF_sound h').ratio
  refine (C02_equality_same_exponent_partial _ _ w w' ?_).mpr hv
  have hc := checkSameSize_ok
  unfold checkSameSize at hc
  rw [List.all_eq_true] at hc
  have hc := hc r h
  rw [withNat_eq, List.all_eq_true] at hc
  have hc := hc r' ((mem_group _ _ _ _ _).mpr (Or.inr ⟨h', by simp only [refCode, href]⟩))
  simp only [Bool.or_eq_true, decide_eq_true_eq, Bool.not_eq_true', sameValue_of w.den_pos.ne' w'.den_pos.ne' hv, hn, or_false,
    Bool.true_eq_false] at hc
  exact hc

theorem checkQuotients_sound {r : URow} (h : r ∈ unitTable) {d : DRow} (hd : d ∈ dimTable) (ho : unitOf r.ent.unit d.dim = true) :
    ∃ x, Ratio.div r.ent.unit.ratio d.dim.unit.ratio = .ok x := by
  have hc := checkQuotients_ok
  unfold checkQuotients at hc
  rw [List.all_eq_true] at hc
  have hc := hc r h
  rw [withNat_eq, List.all_eq_true] at hc
  have hc := hc d (mem_dimsByRef hd ho)
  split at hc
  · rename_i x hx; exact ⟨x, hx⟩
  · cases hc

/-- The metre and its dimension, src/systems/si/include/units/isq/si/length.h:37, 61. -/
def exSiMetre : MUnit := ⟨.named "units::isq::si::metre", ⟨1, 1, 0⟩, "units::isq::si::metre", [.scaled ⟨1, 1, 0⟩ "units::isq::si::metre"], true, "m",
  some "units::isq::si::prefix"⟩
def exLengthDim : Dim := .base ⟨"units::isq::si::dim_length", "L", exSiMetre⟩
def exSiMetres (rep : Rep) : QTy := ⟨exLengthDim, exSiMetre, rep⟩

/-- The centimetre, which the cgs dimension of length has as its base unit, src/systems/si-cgs/include/units/isq/si/cgs/length.h:39. -/
def exSiCentimetre : MUnit := exNamed "units::isq::si::centimetre" ⟨1, 1, -2⟩ "units::isq::si::metre" true "cm"
def exCgsLengthDim : Dim := .base ⟨"units::isq::si::cgs::dim_length", "L", exSiCentimetre⟩
def exCgsCentimetres (rep : Rep) : QTy := ⟨exCgsLengthDim, exSiCentimetre, rep⟩

/-- Two miles: src/systems/si-international/include/units/isq/si/international/length.h:55 and
src/systems/si-fps/include/units/isq/si/fps/length.h:53. -/
def exIntlMile : MUnit := exNamed "units::isq::si::international::mile" ⟨25146, 15625, 3⟩ "units::isq::si::metre" true "mi"
def exFpsMile : MUnit := exNamed "units::isq::si::fps::mile" ⟨201168, 125, 0⟩ "units::isq::si::metre" true "mile"
def exIntlMiles (rep : Rep) : QTy := ⟨exLengthDim, exIntlMile, rep⟩
def exFpsMiles (rep : Rep) : QTy := ⟨exLengthDim, exFpsMile, rep⟩

/-- Litres and cubic decimetres, src/systems/si/include/units/isq/si/volume.h:49, 61. -/
def exVolumeDim : Dim := .named ⟨"units::isq::si::dim_volume", [⟨⟨"units::isq::si::dim_length", "L", exSiMetre⟩, 3, 1⟩],
  exNamed "units::isq::si::cubic_metre" ⟨1, 1, 0⟩ "units::isq::si::cubic_metre" false ""⟩
def exLitre : MUnit :=
  ⟨.named "units::isq::si::litre", ⟨1, 1, -3⟩, "units::isq::si::cubic_metre",
    [.named "units::isq::si::cubic_decimetre", .scaled ⟨1, 1, -3⟩ "units::isq::si::cubic_metre"], true, "l", some "units::isq::si::prefix"⟩
def exCubicDecimetre : MUnit := exNamed "units::isq::si::cubic_decimetre" ⟨1, 1, -3⟩ "units::isq::si::cubic_metre" false "dm³"
def exLitres (rep : Rep) : QTy := ⟨exVolumeDim, exLitre, rep⟩
def exCubicDecimetres (rep : Rep) : QTy := ⟨exVolumeDim, exCubicDecimetre, rep⟩

end Systems

section
variable {S : Sys} (hS : everything = .ok S)
include hS

/-- C67, partial: the same number of two shipped units that are reported equivalent in dimensions declared in one namespace is the same
amount.  Missing for the full claim: dimensions of different namespaces (`C67_metre_and_centimetre`) and misdefined or rounded units. -/
theorem C67_shipped_same_amount_partial (t t' : QTy) (d d' : DEnt) (x y : Entry) (a b : Amount) (ux : Uses S t d x a) (uy : Uses S t' d' y b)
    (e e' : Entry) (he : e ∈ S.log) (he' : e' ∈ S.log) (hd : e.ent = .dim d) (hd' : e'.ent = .dim d') (hs : e.scope = e'.scope)
    (h : qtyEquivalent t t' = .ok true) : a.factor = b.factor := by
  have ga := ux.good hS (E := shEnv) rfl
  have gb := uy.good hS (E := shEnv) rfl
  obtain ⟨u, hu, hu'⟩ := ux.unit
  obtain ⟨v, hv, hv'⟩ := uy.unit
  have r1 := dim_row hS he hd
  have r2 := dim_row hS he' hd'
  have heq : dimEquivalent t.dim t'.dim = .ok true := by
    rcases qtyEquivalent_true h with rfl | h
    · exact C17_reflexive _
    · exact h.1
  have hz : t.dim.size refSizes t.dim.unit = t'.dim.size refSizes t'.dim.unit := by
    rw [ux.dimEq, uy.dimEq] at heq ⊢
    exact checkScopes_sound r1 r2 hs heq
  have k := C67_same_amount_partial shEnv refSizes unitSigma t t' ga gb (hu' ▸ checkDeclared_sound (unit_row hS ux.mem hu))
    (hv' ▸ checkDeclared_sound (unit_row hS uy.mem hv)) (ux.coherent hS uy) hz h (.i 1)
  rw [ux.amount hS (q := ⟨t, .i 1⟩), uy.amount hS (q := ⟨t', .i 1⟩)] at k
  have k : ((Num.i 1).q * a.factor : ℚ) = (Num.i 1).q * b.factor := by exact_mod_cast k
  simpa [Num.q] using k

/-- C67, partial: shipped quantity types of one dimension are reported equivalent exactly if their units mean the same amount.  Missing for
the full claim: the mile, of which there are two (`C67_two_miles`), other dimensions (`C67_metre_and_centimetre`), misdefined or rounded units. -/
theorem C67_shipped_partial (t t' : QTy) (d : DEnt) (x y : Entry) (a b : Amount) (ux : Uses S t d x a) (uy : Uses S t' d y b)
    (hn : ¬ mileClash x.full y.full) : qtyEquivalent t t' = .ok true ↔ a.factor = b.factor := by
  obtain ⟨e, he, hd⟩ := ux.dim
  refine ⟨C67_shipped_same_amount_partial hS t t' d d x y a b ux uy e e he he hd hd rfl, fun hab => ?_⟩
  have ga := ux.good hS (E := shEnv) rfl
  have gb := uy.good hS (E := shEnv) rfl
  obtain ⟨u, hu, hu'⟩ := ux.unit
  obtain ⟨v, hv, hv'⟩ := uy.unit
  have hdim : t.dim = t'.dim := by rw [ux.dimEq, uy.dimEq]
  have hsize : t.size refSizes = t'.size refSizes := by rw [ux.size hS, uy.size hS, hab]
  have r1 := unit_row hS ux.mem hu
  have r2 := unit_row hS uy.mem hv
  have href : u.unit.ref = v.unit.ref := by rw [← hu', ← hv', ga.unitOf, gb.unitOf, hdim]
  have hval : u.unit.ratio.val = v.unit.ratio.val := by
    obtain ⟨es, hes, hw⟩ := gb.dim.exps
    unfold QTy.size at hsize
    rw [hdim, Dim.size_eq hes, Dim.size_eq hes, hu', hv'] at hsize
    have hp : (t'.dim.unit.ratio.val : ℝ) ≠ 0 := by exact_mod_cast gb.dim.unit.val_pos.ne'
    have h2 := mul_right_cancel₀ (dimSize_pos refSizes_pos hw).ne' hsize
    rw [div_left_inj' hp] at h2
    exact_mod_cast h2
  have hratio := checkSameSize_sound r1 r2 href hval hn
  have ho := ux.unitOf
  rw [ux.dimEq, hu'] at ho
  obtain ⟨q, hq⟩ := checkQuotients_sound r1 (dim_row hS he hd) ho
  refine C67_same_size_is_equivalent_partial shEnv refSizes refSizes_pos t t' ga gb hdim ?_ hsize q ?_
  · rw [hu', hv', hratio]
  · rw [hu', ux.dimEq]; exact hq

/-- Example: litres and cubic decimetres. -/
example (r r' : Rep) : ∃ d d' x y a b, Uses S (exLitres r) d x a ∧ Uses S (exCubicDecimetres r') d' y b ∧ d.name = d'.name ∧ a.factor = b.factor ∧
    qtyEquivalent (exLitres (.int .i32)) (exCubicDecimetres (.int .i64)) = .ok true := by
  obtain ⟨d, x, n, h⟩ := uses_of_rows (c := ⟨1 / 1000, [3, 0, 0, 0, 0, 0, 0, 0, 0, 0, 0]⟩) (rep := r) hS "units::isq::si::dim_volume" "units::isq::si::litre"
    exVolumeDim exLitre (by decide +kernel) (by decide +kernel) (by decide +kernel) (by decide +kernel) (by decide +kernel)
  obtain ⟨d', y, n', h'⟩ := uses_of_rows (c := ⟨1 / 1000, [3, 0, 0, 0, 0, 0, 0, 0, 0, 0, 0]⟩) (rep := r') hS "units::isq::si::dim_volume"
    "units::isq::si::cubic_decimetre" exVolumeDim exCubicDecimetre (by decide +kernel) (by decide +kernel) (by decide +kernel)
    (by decide +kernel) (by decide +kernel)
  exact ⟨d, d', x, y, _, _, h, h', n.trans n'.symm, rfl, by decide +kernel⟩

/-- Example: the hypotheses of the general theorems for these. -/
example (r r' : Rep) : (exLitres r).Good shEnv ∧ (exCubicDecimetres r').Good shEnv ∧ exLitre.Declared unitSigma ∧ exCubicDecimetre.Declared unitSigma ∧
    Coherent refSizes (exLitres r).dim (exCubicDecimetres r').dim ∧ unitEquivalent exLitre exCubicDecimetre = true ∧ exLitre ≠ exCubicDecimetre ∧
    Ratio.div exLitre.ratio exVolumeDim.unit.ratio = .ok ⟨1, 1, -3⟩ := by
  obtain ⟨d, x, -, h⟩ := uses_of_rows (c := ⟨1 / 1000, [3, 0, 0, 0, 0, 0, 0, 0, 0, 0, 0]⟩) (rep := r) hS "units::isq::si::dim_volume" "units::isq::si::litre"
    exVolumeDim exLitre (by decide +kernel) (by decide +kernel) (by decide +kernel) (by decide +kernel) (by decide +kernel)
  obtain ⟨d', y, -, h'⟩ := uses_of_rows (c := ⟨1 / 1000, [3, 0, 0, 0, 0, 0, 0, 0, 0, 0, 0]⟩) (rep := r') hS "units::isq::si::dim_volume"
    "units::isq::si::cubic_decimetre" exVolumeDim exCubicDecimetre (by decide +kernel) (by decide +kernel) (by decide +kernel)
    (by decide +kernel) (by decide +kernel)
  obtain ⟨u, hu, e⟩ := h.unit
  obtain ⟨v, hv, e'⟩ := h'.unit
  have e : exLitre = u.unit := e
  have e' : exCubicDecimetre = v.unit := e'
  exact ⟨h.good hS rfl, h'.good hS rfl, e ▸ checkDeclared_sound (unit_row hS h.mem hu), e' ▸ checkDeclared_sound (unit_row hS h'.mem hv),
    h.coherent hS h', by decide +kernel, by decide +kernel, by decide +kernel⟩

/-- C67 is false of the code: lengths in metres (SI) and lengths in centimetres (CGS) are reported equivalent. -/
theorem C67_metre_and_centimetre (rep : Rep) : ∃ d d' x y a b, Uses S (exSiMetres rep) d x a ∧ Uses S (exCgsCentimetres rep) d' y b ∧
    qtyEquivalent (exSiMetres rep) (exCgsCentimetres rep) = .ok true ∧ a.factor = 100 * b.factor ∧ a.factor ≠ b.factor := by
  obtain ⟨d, x, -, h⟩ := uses_of_rows (c := ⟨1, [1, 0, 0, 0, 0, 0, 0, 0, 0, 0, 0]⟩) (rep := rep) hS "units::isq::si::dim_length" "units::isq::si::metre"
    exLengthDim exSiMetre (by decide +kernel) (by decide +kernel) (by decide +kernel) (by decide +kernel) (by decide +kernel)
  obtain ⟨d', y, -, h'⟩ := uses_of_rows (c := ⟨1 / 100, [1, 0, 0, 0, 0, 0, 0, 0, 0, 0, 0]⟩) (rep := rep) hS "units::isq::si::cgs::dim_length"
    "units::isq::si::centimetre" exCgsLengthDim exSiCentimetre (by decide +kernel) (by decide +kernel) (by decide +kernel)
    (by decide +kernel) (by decide +kernel)
  refine ⟨d, d', x, y, _, _, h, h', ?_, by norm_num, by norm_num⟩
  have h1 : dimEquivalent exLengthDim exCgsLengthDim = .ok true := by decide +kernel
  have h2 : equivalentUnit exSiMetre exLengthDim exSiCentimetre exCgsLengthDim = .ok true := by decide +kernel
  unfold qtyEquivalent
  split
  · rfl
  · rw [bind_ok]; exact ⟨true, h1, h2⟩

/-- C67 is false of the code in the other direction: lengths in the two miles are the same, but are not reported equivalent. -/
theorem C67_two_miles (rep : Rep) : ∃ d d' x y a, Uses S (exIntlMiles rep) d x a ∧ Uses S (exFpsMiles rep) d' y a ∧
    (exIntlMiles rep).dim = (exFpsMiles rep).dim ∧ mileClash x.full y.full ∧ qtyEquivalent (exIntlMiles rep) (exFpsMiles rep) = .ok false := by
  obtain ⟨e, he, d, hd, h⟩ := exists_dim (P := fun r => decide (r.full = "units::isq::si::dim_length") && decide (r.dim = exLengthDim)) hS (by decide +kernel)
  obtain ⟨x, hx, u, hu, k⟩ := exists_unit hS (P := fun r => decide (r.full = "units::isq::si::international::mile") &&
    decide (r.ent.unit = exIntlMile) &&
    decide (Standards.meaning r.scope.code r.name.code = some ⟨201168 / 125, [1, 0, 0, 0, 0, 0, 0, 0, 0, 0, 0]⟩)) (by decide +kernel)
  obtain ⟨y, hy, v, hv, l⟩ := exists_unit hS (P := fun r => decide (r.full = "units::isq::si::fps::mile") &&
    decide (r.ent.unit = exFpsMile) &&
    decide (Standards.meaning r.scope.code r.name.code = some ⟨201168 / 125, [1, 0, 0, 0, 0, 0, 0, 0, 0, 0, 0]⟩)) (by decide +kernel)
  simp only [Bool.and_eq_true, decide_eq_true_eq] at h k l
  have kf : x.full = "units::isq::si::international::mile" := k.1.1
  have o1 : Systems.unitOf exIntlMile exLengthDim = true := by decide +kernel
  have o2 : Systems.unitOf exFpsMile exLengthDim = true := by decide +kernel
  have lf : y.full = "units::isq::si::fps::mile" := l.1.1
  refine ⟨d, d, x, y, ⟨201168 / 125, [1, 0, 0, 0, 0, 0, 0, 0, 0, 0, 0]⟩,
    ⟨⟨e, he, hd⟩, hx, ⟨u, hu, k.1.2.symm⟩, h.2.symm, o1, by rw [kf]; decide +kernel, by rw [kf]; decide +kernel, k.2⟩,
    ⟨⟨e, he, hd⟩, hy, ⟨v, hv, l.1.2.symm⟩, h.2.symm, o2, by rw [lf]; decide +kernel, by rw [lf]; decide +kernel, l.2⟩, rfl,
    Or.inl ⟨kf, lf⟩, ?_⟩
  have h1 : dimEquivalent exLengthDim exLengthDim = .ok true := by decide +kernel
  have h2 : equivalentUnit exIntlMile exLengthDim exFpsMile exLengthDim = .ok false := by decide +kernel
  unfold qtyEquivalent
  split
  · rename_i e
    have : exIntlMile.symbol = exFpsMile.symbol := congrArg (fun t : QTy => t.unit.symbol) e
    exact absurd this (by decide)
  · rw [bind_ok]; exact ⟨true, h1, h2⟩

end

end Verif
