import Verif.Unit
import Verif.Downcast

/-! # Properties C18 (downcasting) and C19 (scaled and prefixed units) -/

namespace Verif

set_option linter.unusedSimpArgs false

open Downcast

/-! ## C18 -/

/-- C18: with downcasting on, whatever definitions precede, the result for a base type is the child defined
for it if there is one and the base type itself otherwise. -/
theorem C18_downcast_on {κ ν : Type} [DecidableEq κ] (defs : List (ν × κ)) (s : State κ ν)
    (h : defineAll .on State.empty defs = .ok s) (b : κ) (c : ν) :
    (downcast s b = some c ↔ (c, b) ∈ defs) ∧ (downcast s b = none ↔ ∀ d ∈ defs, d.2 ≠ b) := by
  have hd := downcast_defineAll h b
  have hr := defineAll_rec defs h (empty_rec .on b)
  simp only [List.nil_append] at hr
  have hlen := hr.2.2
  have hmem : ∀ c, c ∈ childrenOf defs b ↔ (c, b) ∈ defs := by
    intro c
    simp only [childrenOf, List.mem_map, List.mem_filter, decide_eq_true_eq]
    constructor
    · rintro ⟨⟨x, y⟩, ⟨h1, h2⟩, h3⟩; simp only at h2 h3; rw [← h2, ← h3]; exact h1
    · intro h; exact ⟨(c, b), ⟨h, rfl⟩, rfl⟩
  have hnone : (∀ d ∈ defs, d.2 ≠ b) ↔ childrenOf defs b = [] := by
    rw [List.eq_nil_iff_forall_not_mem]
    constructor
    · intro h c hc; exact h (c, b) ((hmem c).mp hc) rfl
    · rintro h ⟨c, k⟩ hm rfl; exact h c ((hmem c).mpr hm)
  rw [hnone, ← hmem c, hd]
  clear hd hnone hmem hr
  match hc : childrenOf defs b, hlen with
  | [], _ => simp [outcome]
  | [x], _ => simp [outcome, eq_comm]

example : ∃ s : State Nat String, defineAll .on State.empty [("metre", 1), ("kilometre", 1000)] = .ok s ∧
    downcast s 1000 = some "kilometre" ∧ downcast s 100 = none :=
  ⟨_, rfl, by decide, by decide⟩

/-- C18: with downcasting on, the definitions are accepted exactly when no two of them have the same base;
in particular two user types for one dimension or unit are a compile-time error. -/
theorem C18_duplicates_rejected {κ ν : Type} [DecidableEq κ] (defs : List (ν × κ)) :
    (∃ s, defineAll .on (State.empty : State κ ν) defs = .ok s) ↔ (defs.map Prod.snd).Nodup :=
  ⟨fun ⟨_, h⟩ => (defineAll_on_distinct h).1,
    fun h => defineAll_on_accepts defs (fun _ _ => rfl) h⟩

example : ([("litre", 1), ("cubic_decimetre", 1)].map Prod.snd).Nodup ↔ False := by decide

/-- C18: adding definitions for other bases, anywhere, does not change the result. -/
theorem C18_other_definitions_irrelevant {κ ν : Type} [DecidableEq κ] (mode : Mode)
    (d1 d2 extra : List (ν × κ)) (s s' : State κ ν) (b : κ)
    (h : defineAll mode State.empty (d1 ++ d2) = .ok s)
    (h' : defineAll mode State.empty (d1 ++ extra ++ d2) = .ok s')
    (hb : ∀ d ∈ extra, d.2 ≠ b) : downcast s' b = downcast s b := by
  rw [downcast_defineAll h b, downcast_defineAll h' b]
  have : childrenOf extra b = [] := by
    simp only [childrenOf, List.map_eq_nil_iff, List.filter_eq_nil_iff, decide_eq_true_eq]
    exact hb
  have e : childrenOf (d1 ++ extra ++ d2) b = childrenOf (d1 ++ d2) b := by
    simp only [childrenOf, List.filter_append, List.map_append] at this ⊢
    rw [this]; simp
  rw [e]

example : ∃ s s' : State Nat String, defineAll .on State.empty [("a", 1), ("b", 2)] = .ok s ∧
    defineAll .on State.empty [("a", 1), ("x", 5), ("b", 2)] = .ok s' ∧ downcast s' 2 = some "b" :=
  ⟨_, _, rfl, rfl, by decide⟩

/-- C18: in automatic mode a base with exactly one child gives that child; a base with none or with several
gives the base type, and no set of definitions is rejected. -/
theorem C18_downcast_automatic {κ ν : Type} [DecidableEq κ] (defs : List (ν × κ)) :
    ∃ s : State κ ν, defineAll .automatic State.empty defs = .ok s ∧
      ∀ b c, downcast s b = some c ↔ (defs.filter fun d => d.2 = b) = [(c, b)] := by
  have hacc : ∀ (defs : List (ν × κ)) (s : State κ ν), ∃ s', defineAll .automatic s defs = .ok s' := by
    intro defs
    induction defs with
    | nil => exact fun s => ⟨s, rfl⟩
    | cons d rest ih =>
      intro s
      obtain ⟨c, b⟩ := d
      simp only [defineAll, define]
      split <;> exact ih _
  obtain ⟨s, hs⟩ := hacc defs State.empty
  refine ⟨s, hs, fun b c => ?_⟩
  rw [downcast_defineAll hs b]
  have hsnd : ∀ d ∈ defs.filter (fun d => d.2 = b), d.2 = b := by
    intro d hd; simpa using (List.mem_filter.mp hd).2
  unfold childrenOf
  generalize defs.filter (fun d => d.2 = b) = f at hsnd
  match f, hsnd with
  | [], _ => simp [outcome]
  | [(x, k)], hk =>
    have : k = b := hk (x, k) (by simp)
    simp [this, outcome]
  | d1 :: d2 :: tl, _ => simp [outcome]

example : ∃ s : State Nat String, defineAll .automatic State.empty [("a", 1), ("b", 2), ("c", 2)] = .ok s ∧
    downcast s 1 = some "a" ∧ downcast s 2 = none ∧ downcast s 3 = none := ⟨_, rfl, rfl, rfl, rfl⟩

/-- C18: with downcasting off nothing is ever found. -/
theorem C18_downcast_off {κ ν : Type} [DecidableEq κ] (defs : List (ν × κ)) (s : State κ ν)
    (h : defineAll .off State.empty defs = .ok s) (b : κ) : downcast s b = none := by
  rw [downcast_defineAll h b]; rfl

example : ∃ s : State Nat String, defineAll .off State.empty [("a", 1)] = .ok s := ⟨_, rfl⟩

/-! ## C19 -/

/-- Specification: the size of a defined unit in terms of its root is the product of the factors along the
chain of definitions. -/
def specSize : UnitDef → ℚ
  | .unit _ => 1
  | .named _ _ _ => 1
  | .namedScaled _ _ _ r u => r.val * specSize u
  | .prefixed _ p u => p.ratio.val * specSize u
  | .aliasOf _ _ _ u => specSize u
  | .prefixedAlias _ u _ _ => specSize u

/-- Specification: the root of the chain. -/
def specRoot : UnitDef → String
  | .unit c => c
  | .named c _ _ => c
  | .namedScaled _ _ _ _ u => specRoot u
  | .prefixed _ _ u => specRoot u
  | .aliasOf _ _ _ u => specRoot u
  | .prefixedAlias _ u _ _ => specRoot u

/-- Every ratio written in the definitions is a constructible ratio. -/
def RatiosWF : UnitDef → Prop
  | .unit _ => True
  | .named _ _ _ => True
  | .namedScaled _ _ _ r u => r.WF ∧ RatiosWF u
  | .prefixed _ p u => p.ratio.WF ∧ RatiosWF u
  | .aliasOf _ _ _ u => RatiosWF u
  | .prefixedAlias _ u p au => p.ratio.WF ∧ RatiosWF u ∧ RatiosWF au

/-- C19: for every chain of definitions that is accepted, the size relative to the reference is the product
of all factors in the chain, the reference is the root's, and the ratio is positive and normalised. -/
theorem C19_chain_size (d : UnitDef) (u : MUnit) (hd : RatiosWF d) (h : d.eval = .ok u) :
    u.ratio.val = specSize d ∧ u.ref = specRoot d ∧ u.WF := by
  induction d generalizing u with
  | unit c =>
    simp only [UnitDef.eval, mkUnit, mkNamed, mkNamedScaled, mkPrefixed, mkAlias, mkPrefixedAlias, bind_ok, scaledUnit_eq_ok, Except.ok.injEq] at h
    obtain ⟨_, ⟨-, rfl⟩, rfl⟩ := h
    exact ⟨one_val, rfl, one_wf, Int.one_pos⟩
  | named c s f =>
    simp only [UnitDef.eval, mkUnit, mkNamed, mkNamedScaled, mkPrefixed, mkAlias, mkPrefixedAlias, bind_ok, scaledUnit_eq_ok, Except.ok.injEq] at h
    obtain ⟨_, ⟨-, rfl⟩, rfl⟩ := h
    exact ⟨one_val, rfl, one_wf, Int.one_pos⟩
  | namedScaled c s f r d ih =>
    simp only [UnitDef.eval, mkUnit, mkNamed, mkNamedScaled, mkPrefixed, mkAlias, mkPrefixedAlias, bind_ok] at h
    obtain ⟨v, hv, h⟩ := h
    obtain ⟨i1, i2, i3⟩ := ih v hd.2 hv
    split at h
    · cases h
    · simp only [bind_ok, scaledUnit_eq_ok, Except.ok.injEq] at h
      obtain ⟨x, hx, _, ⟨⟨hp, -⟩, rfl⟩, rfl⟩ := h
      obtain ⟨xw, xv⟩ := mul_sound hd.1 i3.ratio hx
      exact ⟨by rw [xv, i1]; rfl, i2, xw, hp⟩
  | prefixed c p d ih =>
    simp only [UnitDef.eval, mkUnit, mkNamed, mkNamedScaled, mkPrefixed, mkAlias, mkPrefixedAlias, bind_ok] at h
    obtain ⟨v, hv, h⟩ := h
    obtain ⟨i1, i2, i3⟩ := ih v hd.2 hv
    split at h
    · cases h
    · simp only [bind_ok, scaledUnit_eq_ok, Except.ok.injEq] at h
      obtain ⟨x, hx, _, ⟨⟨hp, -⟩, rfl⟩, rfl⟩ := h
      obtain ⟨xw, xv⟩ := mul_sound hd.1 i3.ratio hx
      exact ⟨by rw [xv, i1]; rfl, i2, xw, hp⟩
  | aliasOf c s f d ih =>
    simp only [UnitDef.eval, mkUnit, mkNamed, mkNamedScaled, mkPrefixed, mkAlias, mkPrefixedAlias, bind_ok, Except.ok.injEq] at h
    obtain ⟨v, hv, rfl⟩ := h
    obtain ⟨i1, i2, i3⟩ := ih v hd hv
    exact ⟨i1, i2, i3.1, i3.2⟩
  | prefixedAlias c d p a ih _ =>
    simp only [UnitDef.eval, mkUnit, mkNamed, mkNamedScaled, mkPrefixed, mkAlias, mkPrefixedAlias, bind_ok] at h
    obtain ⟨v, hv, w, hw, h⟩ := h
    obtain ⟨i1, i2, i3⟩ := ih v hd.2.1 hv
    split at h
    · cases h
    · simp only [Except.ok.injEq] at h
      subst h
      exact ⟨i1, i2, i3.1, i3.2⟩

/-- A non-trivial chain: gram, kilogram, pound (avoirdupois), ounce (1/16 lb). -/
def exampleOunce : UnitDef :=
  .namedScaled "ounce" "oz" none ⟨1, 16, 0⟩
    (.namedScaled "pound" "lb" none ⟨45359237, 1, -8⟩
      (.prefixed "kilogram" ⟨"si", "k", ⟨1, 1, 3⟩⟩ (.named "gram" "g" (some "si"))))

example : RatiosWF exampleOunce ∧
    (exampleOunce.eval.map fun u => (u.ratio, u.ref)) = .ok (⟨45359237, 16, -5⟩, "gram") := by
  refine ⟨⟨?_, ?_, ?_, trivial⟩, by decide +kernel⟩ <;>
  exact ⟨by decide, by decide +kernel, fun _ => by decide, by decide, by decide, by decide, by decide, by decide⟩

/-- C19: a prefix of another family, or on an unnamed unit, is rejected. -/
theorem C19_prefix_family (c : String) (p : MPrefix) (d : UnitDef) (u : MUnit) (hu : d.eval = .ok u)
    (hbad : u.named = false ∨ u.family ≠ some p.family) (v : MUnit) :
    (UnitDef.prefixed c p d).eval ≠ .ok v := by
  intro h
  simp only [UnitDef.eval, mkUnit, mkNamed, mkNamedScaled, mkPrefixed, mkAlias, mkPrefixedAlias, bind_ok] at h
  obtain ⟨w, hw, h⟩ := h
  rw [hu] at hw
  simp only [Except.ok.injEq] at hw
  subst hw
  split at h
  · cases h
  · rename_i hc
    push Not at hc
    rcases hbad with h1 | h1
    · rw [h1] at hc; exact absurd hc.1 (by decide)
    · exact h1 hc.2

example : (UnitDef.prefixed "kibimetre" ⟨"iec", "Ki", ⟨1024, 1, 0⟩⟩ (.named "metre" "m" (some "si"))).eval
    = .error .rejected := by decide +kernel

end Verif
