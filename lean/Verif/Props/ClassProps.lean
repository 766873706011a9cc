import Verif.Classes
import Mathlib.Data.List.Dedup
import Mathlib.Data.List.Count
import Mathlib.Tactic.Common
import Mathlib.Algebra.BigOperators.Group.List.Basic

/-!
# C82: which classes are units, dimensions, kinds and origins
-/

namespace Verif

open LibClass

/-- The paths of inheritance: the classes passed on the way from a class to a base. -/
inductive Inherits (P : Program) : LibClass → LibClass → List LibClass → Prop
  | here (c : LibClass) : Inherits P c c []
  | step {c b d : LibClass} {p : List LibClass} : b ∈ c.bases P → Inherits P b d p → Inherits P c d (b :: p)

section
variable {P : Program}

theorem subobjects_eq (c : LibClass) : c.subobjects P = c :: (c.bases P).flatMap fun b => b.subobjects P := by
  rw [subobjects]
  simp [List.flatMap_subtype]

theorem lookup_eq (m : Mem) (c : LibClass) : c.lookup P m = match c.own P m with
    | some t => [(c, t)]
    | none => (c.bases P).flatMap fun b => b.lookup P m := by
  rw [lookup]
  cases c.own P m <;> simp [List.flatMap_subtype]

theorem inherits_rank {c d : LibClass} {p : List LibClass} (h : Inherits P c d p) : d.rank P ≤ c.rank P ∧ (d.rank P = c.rank P → p = [] ∧ d = c) := by
  induction h with
  | here c => exact ⟨le_rfl, fun _ => ⟨rfl, rfl⟩⟩
  | step hb _ ih =>
    have := bases_rank hb
    exact ⟨by omega, fun h => by omega⟩

theorem inherits_self {c : LibClass} {p : List LibClass} (h : Inherits P c c p) : p = [] := ((inherits_rank h).2 rfl).1

theorem inherits_trans {a b c : LibClass} {p q : List LibClass} (h : Inherits P a b p) (k : Inherits P b c q) : Inherits P a c (p ++ q) := by
  induction h with
  | here => exact k
  | step hb _ ih => exact .step hb (ih k)

theorem mem_subobjects {c d : LibClass} : d ∈ c.subobjects P ↔ ∃ p, Inherits P c d p := by
  induction hn : c.rank P using Nat.strong_induction_on generalizing c with
  | _ n ih =>
    rw [subobjects_eq]
    simp only [List.mem_cons, List.mem_flatMap]
    constructor
    · rintro (rfl | ⟨b, hb, h⟩)
      · exact ⟨[], .here _⟩
      · obtain ⟨p, hp⟩ := (ih _ (hn ▸ bases_rank hb) rfl).1 h
        exact ⟨_, .step hb hp⟩
    · rintro ⟨p, h⟩
      cases h with
      | here => exact .inl rfl
      | step hb hp => exact .inr ⟨_, hb, (ih _ (hn ▸ bases_rank hb) rfl).2 ⟨_, hp⟩⟩

theorem sum_eq_one {α : Type} (f : α → ℕ) : ∀ {l : List α}, l.Nodup → ((l.map f).sum = 1 ↔ ∃ b ∈ l, f b = 1 ∧ ∀ b' ∈ l, b' ≠ b → f b' = 0)
  | [], _ => by simp
  | a :: l, h => by
    obtain ⟨ha, hl⟩ := List.nodup_cons.1 h
    have ih := sum_eq_one f hl
    have h0 : (l.map f).sum = 0 ↔ ∀ b ∈ l, f b = 0 := by simp [List.sum_eq_zero_iff]
    simp only [List.map_cons, List.sum_cons]
    constructor
    · intro hs
      rcases Nat.eq_zero_or_pos (f a) with h1 | h1
      · obtain ⟨b, hb, h2, h3⟩ := ih.1 (by omega)
        refine ⟨b, List.mem_cons_of_mem _ hb, h2, fun b' hb' hne => ?_⟩
        rcases List.mem_cons.1 hb' with rfl | hb'
        · exact h1
        · exact h3 b' hb' hne
      · refine ⟨a, List.mem_cons_self, by omega, fun b' hb' hne => ?_⟩
        rcases List.mem_cons.1 hb' with rfl | hb'
        · exact absurd rfl hne
        · exact h0.1 (by omega) b' hb'
    · rintro ⟨b, hb, h2, h3⟩
      rcases List.mem_cons.1 hb with rfl | hb
      · have := h0.2 fun b' hb' => h3 b' (List.mem_cons_of_mem _ hb') fun e => ha (e ▸ hb')
        omega
      · have h4 := h3 a List.mem_cons_self fun e => ha (e ▸ hb)
        have := ih.2 ⟨b, hb, h2, fun b' hb' => h3 b' (List.mem_cons_of_mem _ hb')⟩
        omega

/-- No class of the program names a direct base twice, which C++ forbids. -/
def Program.OK (P : Program) : Prop := ∀ n, (P.bases n).Nodup

theorem bases_nodup (hP : P.OK) (c : LibClass) : (c.bases P).Nodup := by
  cases c <;> simp only [bases] <;> try simp
  case user n => exact hP n
  case dcDispatch => split <;> [simp; split <;> simp]

theorem count_one (hP : P.OK) {c d : LibClass} : (c.subobjects P).count d = 1 ↔ ∃! p, Inherits P c d p := by
  induction hn : c.rank P using Nat.strong_induction_on generalizing c with
  | _ n ih =>
    rw [subobjects_eq]
    by_cases hcd : c = d
    · subst hcd
      have h0 : ((c.bases P).flatMap fun b => b.subobjects P).count c = 0 := by
        rw [List.count_eq_zero]
        intro h
        obtain ⟨b, hb, h⟩ := List.mem_flatMap.1 h
        obtain ⟨p, hp⟩ := mem_subobjects.1 h
        have := bases_rank hb
        have := (inherits_rank hp).1
        omega
      simp only [List.count_cons_self, h0, true_iff]
      exact ⟨[], .here c, fun p hp => inherits_self hp⟩
    · rw [List.count_cons_of_ne (fun h => hcd h), List.count_flatMap, sum_eq_one _ (bases_nodup hP c)]
      constructor
      · rintro ⟨b, hb, h1, h2⟩
        obtain ⟨p, hp, hu⟩ := (ih _ (hn ▸ bases_rank hb) rfl).1 h1
        refine ⟨b :: p, .step hb hp, fun q hq => ?_⟩
        cases hq with
        | here => exact absurd rfl hcd
        | step hb' hq' =>
          rename_i b' q'
          by_cases hbb : b' = b
          · subst hbb; rw [hu _ hq']
          · have := List.count_eq_zero.1 (h2 b' hb' hbb)
            exact absurd (mem_subobjects.2 ⟨_, hq'⟩) this
      · rintro ⟨p, hp, hu⟩
        cases hp with
        | here => exact absurd rfl hcd
        | step hb hp' =>
          rename_i b q
          refine ⟨b, hb, (ih _ (hn ▸ bases_rank hb) rfl).2 ⟨q, hp', fun q' hq' => ?_⟩, fun b' hb' hne => ?_⟩
          · have := hu _ (.step hb hq')
            simpa using this
          · refine List.count_eq_zero.2 fun hm => ?_
            obtain ⟨q', hq'⟩ := mem_subobjects.1 hm
            have := hu _ (.step hb' hq')
            exact hne (List.cons_eq_cons.1 this).1

/-- C82: a class counts as derived from a template exactly if one specialization of the template is inherited on one path only, and all the other ones that
are inherited are bases of it. -/
theorem C82_derived (hP : P.OK) (t : Tmpl) (c : LibClass) :
    c.derivedFromSpec P t = true ↔
      ∃ b, b.tmpl = some t ∧ (∃! p, Inherits P c b p) ∧ ∀ b' p, b'.tmpl = some t → Inherits P c b' p → ∃ q, Inherits P b b' q := by
  unfold derivedFromSpec
  split
  · rename_i h
    simp only [true_iff]
    exact ⟨c, h, ⟨[], .here c, fun p hp => inherits_self hp⟩, fun b' p _ hp => ⟨p, hp⟩⟩
  · simp only
    have hc : ∀ {b}, b ∈ ((c.subobjects P).filter fun b => b.tmpl = some t).dedup ↔ b.tmpl = some t ∧ ∃ p, Inherits P c b p := by
      intro b
      rw [List.mem_dedup, List.mem_filter, mem_subobjects]
      simp [and_comm]
    generalize hcs : ((c.subobjects P).filter fun b => b.tmpl = some t).dedup = cs at hc ⊢
    have hnd : cs.Nodup := hcs ▸ List.nodup_dedup _
    have hf : ∀ {b}, b ∈ (cs.filter fun b => cs.all fun b' => b' = b || !(b'.subobjects P).contains b) ↔
        b ∈ cs ∧ ∀ b' ∈ cs, b' ≠ b → ¬∃ p, Inherits P b' b p := by
      intro b
      rw [List.mem_filter]
      simp only [List.all_eq_true, Bool.or_eq_true, decide_eq_true_eq, Bool.not_eq_true', List.contains_eq_mem, decide_eq_false_iff_not, mem_subobjects]
      refine and_congr_right fun _ => forall₂_congr fun b' _ => ?_
      tauto
    generalize hfs : (cs.filter fun b => cs.all fun b' => b' = b || !(b'.subobjects P).contains b) = fs at hf ⊢
    have hfn : fs.Nodup := hfs ▸ hnd.filter _
    constructor
    · intro h
      split at h
      · rename_i b
        have hb1 := hf.1 (List.mem_singleton_self b)
        refine ⟨b, (hc.1 hb1.1).1, (count_one hP).1 (by simpa using h), fun b' p ht hp => ?_⟩
        have key : ∀ k b', c.rank P - b'.rank P = k → b' ∈ cs → ∃ q, Inherits P b b' q := by
          intro k
          induction k using Nat.strong_induction_on with
          | _ k ih =>
            intro b' hk hb'
            by_cases he : b' = b
            · exact ⟨[], he ▸ .here _⟩
            · have hn : b' ∉ [b] := by simpa using he
              have := mt hf.2 hn
              simp only [not_and, not_forall, not_not] at this
              obtain ⟨b'', h1, h2, q, hq⟩ := this hb'
              have hr := inherits_rank hq
              obtain ⟨p'', hp''⟩ := (hc.1 h1).2
              have hr' := inherits_rank hp''
              have hlt : b'.rank P < b''.rank P := by
                rcases Nat.lt_or_ge (b'.rank P) (b''.rank P) with hl | hl
                · exact hl
                · exact absurd (hr.2 (by omega)).2.symm h2
              obtain ⟨q', hq'⟩ := ih _ (by omega) b'' rfl h1
              exact ⟨_, inherits_trans hq' hq⟩
        exact key _ b' rfl (hc.2 ⟨ht, p, hp⟩)
      · cases h
    · rintro ⟨b, ht, hu, hall⟩
      obtain ⟨p, hp⟩ := hu.exists
      have hbcs := hc.2 ⟨ht, p, hp⟩
      have hb : b ∈ fs := hf.2 ⟨hbcs, fun b' hb' hne => by
        rintro ⟨q, hq⟩
        obtain ⟨h1, p', hp'⟩ := hc.1 hb'
        obtain ⟨q', hq'⟩ := hall b' p' h1 hp'
        have := inherits_rank hq
        have := inherits_rank hq'
        exact hne ((inherits_rank hq').2 (by omega)).2⟩
      have hone : fs = [b] := by
        have hall' : ∀ x ∈ fs, x = b := by
          intro x hx
          obtain ⟨h1, h2⟩ := hf.1 hx
          obtain ⟨h3, p', hp'⟩ := hc.1 h1
          by_contra hne
          exact h2 b hbcs (fun e => hne e.symm) (hall x p' h3 hp')
        cases fs with
        | nil => cases hb
        | cons x xs =>
          obtain rfl := hall' x List.mem_cons_self
          cases xs with
          | nil => rfl
          | cons y ys =>
            have := hall' y (by simp)
            subst this
            simp at hfn
      rw [hone]
      simpa using (count_one hP).2 hu

/-! ### Classes with one base -/

theorem inherits_single {c x b : LibClass} (hb : c.bases P = [x]) (hne : b ≠ c) {p : List LibClass} : Inherits P c b p ↔ ∃ q, p = x :: q ∧ Inherits P x b q := by
  constructor
  · intro h
    cases h with
    | here => exact absurd rfl hne
    | step h1 h2 =>
      rw [hb, List.mem_singleton] at h1
      subst h1
      exact ⟨_, rfl, h2⟩
  · rintro ⟨q, rfl, h⟩
    exact .step (by rw [hb]; simp) h

theorem derived_single (hP : P.OK) {c x : LibClass} {t : Tmpl} (hb : c.bases P = [x]) (ht : c.tmpl ≠ some t) :
    c.derivedFromSpec P t = x.derivedFromSpec P t := by
  rw [Bool.eq_iff_iff, C82_derived hP, C82_derived hP]
  refine exists_congr fun b => and_congr_right fun hbt => ?_
  have hne : b ≠ c := fun e => ht (e ▸ hbt)
  have h1 : (∃! p, Inherits P c b p) ↔ ∃! p, Inherits P x b p := by
    constructor
    · rintro ⟨p, hp, hu⟩
      obtain ⟨q, rfl, hq⟩ := (inherits_single hb hne).1 hp
      exact ⟨q, hq, fun q' hq' => (List.cons_eq_cons.1 (hu _ ((inherits_single hb hne).2 ⟨q', rfl, hq'⟩))).2⟩
    · rintro ⟨p, hp, hu⟩
      refine ⟨x :: p, (inherits_single hb hne).2 ⟨p, rfl, hp⟩, fun q hq => ?_⟩
      obtain ⟨q', rfl, hq'⟩ := (inherits_single hb hne).1 hq
      rw [hu q' hq']
  refine and_congr h1 ⟨fun h b' p hb' hp => ?_, fun h b' p hb' hp => ?_⟩
  · exact h b' _ hb' ((inherits_single hb fun e => ht (e ▸ hb')).2 ⟨p, rfl, hp⟩)
  · obtain ⟨q, -, hq⟩ := (inherits_single hb fun e => ht (e ▸ hb')).1 hp
    exact h b' q hb' hq

theorem derived_none {c : LibClass} {t : Tmpl} (hb : c.bases P = []) (ht : c.tmpl ≠ some t) : c.derivedFromSpec P t = false := by
  unfold derivedFromSpec
  rw [if_neg ht, subobjects_eq, hb]
  simp [ht]

theorem derived_self {c : LibClass} {t : Tmpl} (ht : c.tmpl = some t) : c.derivedFromSpec P t = true := by
  unfold derivedFromSpec
  rw [if_pos ht]

/-- Look-up of a member type in a class finds the declaration in `d`: on some path to `d`, no class before `d` declares it. -/
inductive Finds (P : Program) (m : Mem) : LibClass → LibClass → Prop
  | here {c : LibClass} (h : c.own P m ≠ none) : Finds P m c c
  | step {c b d : LibClass} (h : c.own P m = none) (hb : b ∈ c.bases P) (hd : Finds P m b d) : Finds P m c d

theorem mem_lookup {m : Mem} {c : LibClass} {y : LibClass × LibClass} : y ∈ c.lookup P m ↔ Finds P m c y.1 ∧ y.1.own P m = some y.2 := by
  obtain ⟨d, t⟩ := y
  generalize hk : c.rank P = k
  induction k using Nat.strong_induction_on generalizing c with
  | _ k ih =>
    rw [lookup_eq]
    cases ho : c.own P m with
    | some t' =>
      simp only [List.mem_singleton, Prod.mk.injEq]
      constructor
      · rintro ⟨rfl, rfl⟩
        exact ⟨.here (by simp [ho]), ho⟩
      · rintro ⟨hf, hd⟩
        cases hf with
        | here => rw [ho] at hd; exact ⟨rfl, (Option.some.inj hd).symm⟩
        | step h => rw [ho] at h; cases h
    | none =>
      simp only [List.mem_flatMap]
      constructor
      · rintro ⟨b, hb, hy⟩
        obtain ⟨h1, h2⟩ := (ih _ (by rw [← hk]; exact bases_rank hb) rfl).1 hy
        exact ⟨.step ho hb h1, h2⟩
      · rintro ⟨hf, hd⟩
        cases hf with
        | here h => exact absurd ho h
        | step h hb hf => exact ⟨_, hb, (ih _ (by rw [← hk]; exact bases_rank hb) rfl).2 ⟨hf, hd⟩⟩

/-- C82: a member type is found exactly if the declarations of one class only are visible; declarations in derived classes hide those in their bases, and two visible
ones make the name ambiguous. -/
theorem C82_member {m : Mem} {c x : LibClass} :
    c.member P m = some x ↔ ∃ d, Finds P m c d ∧ d.own P m = some x ∧ ∀ d', Finds P m c d' → d' = d := by
  have own_of : ∀ {d}, Finds P m c d → ∃ t, d.own P m = some t := by
    intro d h
    induction h with
    | here h => exact Option.ne_none_iff_exists'.1 h
    | step _ _ _ ih => exact ih
  unfold member
  constructor
  · intro h
    split at h
    · rename_i y hy
      have hm : ∀ z, z ∈ c.lookup P m ↔ z = y := fun z => by rw [← List.mem_dedup, hy, List.mem_singleton]
      obtain ⟨h1, h2⟩ := mem_lookup.1 ((hm y).2 rfl)
      refine ⟨y.1, h1, by rw [h2]; exact h, fun d' hd => ?_⟩
      obtain ⟨t, ht⟩ := own_of hd
      rw [← (hm (d', t)).1 (mem_lookup.2 ⟨hd, ht⟩)]
    · cases h
  · rintro ⟨d, h1, h2, h3⟩
    have : (c.lookup P m).dedup = [(d, x)] := by
      have hall : ∀ z ∈ (c.lookup P m).dedup, z = (d, x) := by
        intro z hz
        obtain ⟨k1, k2⟩ := mem_lookup.1 (List.mem_dedup.1 hz)
        have := h3 _ k1
        obtain ⟨z1, z2⟩ := z
        subst this
        rw [h2] at k2
        cases k2
        rfl
      have hin : (d, x) ∈ (c.lookup P m).dedup := List.mem_dedup.2 (mem_lookup.2 ⟨h1, h2⟩)
      have hn := List.nodup_dedup (c.lookup P m)
      match hl : (c.lookup P m).dedup with
      | [] => rw [hl] at hin; cases hin
      | [z] => rw [hl] at hall; rw [hall z (by simp)]
      | z :: w :: l =>
        rw [hl] at hall hn
        have e1 := hall z (by simp)
        have e2 := hall w (by simp)
        simp [e1, e2] at hn
    rw [this]

theorem member_own {c x : LibClass} {m : Mem} (ho : c.own P m = some x) : c.member P m = some x := by
  unfold member
  rw [lookup_eq, ho]
  simp

theorem member_single {c x : LibClass} {m : Mem} (hb : c.bases P = [x]) (ho : c.own P m = none) : c.member P m = x.member P m := by
  unfold member
  rw [lookup_eq m c, ho, hb]
  simp

theorem member_none {c : LibClass} {m : Mem} (hb : c.bases P = []) (ho : c.own P m = none) : c.member P m = none := by
  unfold member
  rw [lookup_eq m c, ho, hb]
  simp

theorem dcBase_derived (x : LibClass) (t : Tmpl) : (LibClass.dcBase x).derivedFromSpec P t = false := derived_none rfl (by simp [tmpl])

theorem dispatch_derived (hP : P.OK) (c x : LibClass) (t : Tmpl) : (LibClass.dcDispatch c x).derivedFromSpec P t = x.derivedFromSpec P t := by
  by_cases h1 : P.downcastOff = true
  · exact derived_single hP (by simp [bases, h1]) (by simp [tmpl])
  · by_cases h2 : P.poisoned x = true
    · rw [derived_single hP (x := .dcPoison x) (by simp [bases, h1, h2]) (by simp [tmpl])]
      exact derived_single hP rfl (by simp [tmpl])
    · rw [derived_single hP (x := .dcChild c x) (by simp [bases, h1, h2]) (by simp [tmpl])]
      exact derived_single hP rfl (by simp [tmpl])

theorem dispatch_member (c x : LibClass) (m : Mem) : (LibClass.dcDispatch c x).member P m = x.member P m := by
  by_cases h1 : P.downcastOff = true
  · exact member_single (by simp [bases, h1]) rfl
  · by_cases h2 : P.poisoned x = true
    · rw [member_single (x := .dcPoison x) (by simp [bases, h1, h2]) rfl]
      exact member_single rfl rfl
    · rw [member_single (x := .dcChild c x) (by simp [bases, h1, h2]) rfl]
      exact member_single rfl rfl

/-- A class of a program that is declared with one base and nothing in it: `struct name : base {};`. -/
structure Declared (P : Program) (name : String) (base : LibClass) : Prop where
  bases : P.bases name = [base]
  members : ∀ m, P.members name m = none
  rebind : P.rebind name = none

theorem Declared.derived {n : String} {b : LibClass} (h : Declared P n b) (hP : P.OK) (t : Tmpl) : (LibClass.user n).derivedFromSpec P t = b.derivedFromSpec P t :=
  derived_single hP h.bases (by simp [tmpl])

theorem Declared.member {n : String} {b : LibClass} (h : Declared P n b) (m : Mem) : (LibClass.user n).member P m = b.member P m :=
  member_single h.bases (h.members m)

theorem kindBase_derived (hP : P.OK) (k d : LibClass) (t : Tmpl) : (LibClass.kindBase k d).derivedFromSpec P t = decide (t = .kindBase) := by
  cases t <;> first | exact derived_self rfl | (rw [derived_single hP (x := .dcBase (.kindBase k d)) rfl (by simp [tmpl])]; exact dcBase_derived _ _)

theorem pointKindBase_derived (hP : P.OK) (k o d : LibClass) (t : Tmpl) : (LibClass.pointKindBase k o d).derivedFromSpec P t = decide (t = .pointKindBase) := by
  cases t <;> first | exact derived_self rfl | (rw [derived_single hP (x := .dcBase (.pointKindBase k o d)) rfl (by simp [tmpl])]; exact dcBase_derived _ _)

theorem scaledUnit_derived (hP : P.OK) (r : Ratio) (u : LibClass) (t : Tmpl) : (LibClass.scaledUnit r u).derivedFromSpec P t = decide (t = .scaledUnit) := by
  cases t <;> first | exact derived_self rfl | (rw [derived_single hP (x := .dcBase (.scaledUnit r u)) rfl (by simp [tmpl])]; exact dcBase_derived _ _)

theorem derivedDimensionBase_derived (hP : P.OK) (es : String) (t : Tmpl) :
    (LibClass.derivedDimensionBase es).derivedFromSpec P t = decide (t = .derivedDimensionBase) := by
  cases t <;> first
    | exact derived_self rfl | (rw [derived_single hP (x := .dcBase (.derivedDimensionBase es)) rfl (by simp [tmpl])]; exact dcBase_derived _ _)

theorem kind_derived (hP : P.OK) (k d : LibClass) (t : Tmpl) : (LibClass.kind k d).derivedFromSpec P t = decide (t = .kindBase) := by
  rw [derived_single hP (x := .dcDispatch k (.kindBase k d)) rfl (by simp [tmpl]), dispatch_derived hP, kindBase_derived hP]

theorem kind_member (k d : LibClass) (m : Mem) : (LibClass.kind k d).member P m = (LibClass.kindBase k d).member P m := by
  rw [member_single (x := .dcDispatch k (.kindBase k d)) rfl (by cases m <;> rfl), dispatch_member]

theorem derivedKind_derived (hP : P.OK) (dk d bk : LibClass) (t : Tmpl) : (LibClass.derivedKind dk d bk).derivedFromSpec P t = decide (t = .kindBase) := by
  rw [derived_single hP (x := .dcDispatch dk (.kindBase bk d)) rfl (by simp [tmpl]), dispatch_derived hP, kindBase_derived hP]

theorem derivedKind_member (dk d bk : LibClass) (m : Mem) : (LibClass.derivedKind dk d bk).member P m = (LibClass.kindBase bk d).member P m := by
  rw [member_single (x := .dcDispatch dk (.kindBase bk d)) rfl (by cases m <;> rfl), dispatch_member]

theorem pointKind_derived (hP : P.OK) (dpk bk o d : LibClass) (t : Tmpl) : (LibClass.pointKind dpk bk o d).derivedFromSpec P t = decide (t = .pointKindBase) := by
  rw [derived_single hP (x := .dcDispatch dpk (.pointKindBase bk o d)) rfl (by simp [tmpl]), dispatch_derived hP, pointKindBase_derived hP]

theorem pointKind_member (dpk bk o d : LibClass) (m : Mem) : (LibClass.pointKind dpk bk o d).member P m = (LibClass.pointKindBase bk o d).member P m := by
  rw [member_single (x := .dcDispatch dpk (.pointKindBase bk o d)) rfl (by cases m <;> rfl), dispatch_member]

theorem kindBase_kind (k d : LibClass) : (LibClass.kindBase k d).member P .baseKind = some k ∧ (LibClass.kindBase k d).member P .dimension = some d :=
  ⟨member_own rfl, member_own rfl⟩

theorem kindImpl_of {c d : LibClass} {t : Tmpl} {k : LibClass} (h1 : c.derivedFromSpec P t = true) (h2 : c.member P .baseKind = some k) (h3 : c.member P .dimension = some d) :
    c.kindImpl P t = d.isDimension P := by
  unfold kindImpl
  rw [h1, h2, h3]
  simp

theorem isKind_of {c d k : LibClass} (h1 : c.derivedFromSpec P .kindBase = true) (h2 : c.member P .baseKind = some k) (h3 : c.member P .dimension = some d) :
    c.isKind P = (d.isDimension P && (k.kindImpl P .kindBase && decide (k.member P .baseKind = some k))) := by
  unfold isKind
  rw [kindImpl_of h1 h2 h3, h2]

/-- C82: a class declared `struct K : kind<K, D> {};` is a kind if and only if `D` is a dimension; it is its own base kind, and its dimension is `D`. -/
theorem C82_kind (hP : P.OK) {n : String} {d : LibClass} (h : Declared P n (.kind (.user n) d)) :
    ((LibClass.user n).isKind P = true ↔ d.isDimension P = true) ∧ (LibClass.user n).member P .baseKind = some (.user n) ∧ (LibClass.user n).member P .dimension = some d := by
  have hb : (LibClass.user n).member P .baseKind = some (.user n) := by rw [h.member, kind_member]; exact member_own rfl
  have hd : (LibClass.user n).member P .dimension = some d := by rw [h.member, kind_member]; exact member_own rfl
  have hk : (LibClass.user n).derivedFromSpec P .kindBase = true := by rw [h.derived hP, kind_derived hP]; rfl
  refine ⟨?_, hb, hd⟩
  rw [isKind_of hk hb hd, kindImpl_of hk hb hd, hb]
  simp

/-- C82: a class declared `struct K : derived_kind<K, D, B> {};` of a base kind `B` is a kind of the same base if and only if `D` is a dimension. -/
theorem C82_derived_kind (hP : P.OK) {n : String} {d b : LibClass} (h : Declared P n (.derivedKind (.user n) d b)) (hk : b.isKind P = true)
    (hb : b.member P .baseKind = some b) :
    ((LibClass.user n).isKind P = true ↔ d.isDimension P = true) ∧ (LibClass.user n).member P .baseKind = some b ∧ (LibClass.user n).member P .dimension = some d := by
  have h1 : (LibClass.user n).member P .baseKind = some b := by rw [h.member, derivedKind_member]; exact member_own rfl
  have hd : (LibClass.user n).member P .dimension = some d := by rw [h.member, derivedKind_member]; exact member_own rfl
  have h2 : (LibClass.user n).derivedFromSpec P .kindBase = true := by rw [h.derived hP, derivedKind_derived hP]; rfl
  have h3 : b.kindImpl P .kindBase = true := by
    unfold isKind at hk
    simp only [Bool.and_eq_true] at hk
    exact hk.1
  refine ⟨?_, h1, hd⟩
  rw [isKind_of h2 h1 hd, h3, hb]
  simp

/-- C82: `kind<K, D>` and the kinds the library makes (`_kind_base<K, D>`) are kinds exactly if `D` is a dimension and `K` is a base kind.  So nothing requires
`K` to be the class that is declared: `struct A : kind<B, D> {};` makes `A` another kind of the base `B`. -/
theorem C82_kind_argument (hP : P.OK) (k d : LibClass) :
    ((LibClass.kind k d).isKind P = true ↔ d.isDimension P = true ∧ k.isKind P = true ∧ k.member P .baseKind = some k) ∧
    ((LibClass.kindBase k d).isKind P = true ↔ d.isDimension P = true ∧ k.isKind P = true ∧ k.member P .baseKind = some k) ∧
    (∀ n, Declared P n (.kind k d) → ((LibClass.user n).isKind P = true ↔ d.isDimension P = true ∧ k.isKind P = true ∧ k.member P .baseKind = some k) ∧
      (LibClass.user n).member P .baseKind = some k) := by
  have key : ∀ c : LibClass, c.derivedFromSpec P .kindBase = true → c.member P .baseKind = some k → c.member P .dimension = some d →
      (c.isKind P = true ↔ d.isDimension P = true ∧ k.isKind P = true ∧ k.member P .baseKind = some k) := by
    intro c h1 h2 h3
    rw [isKind_of h1 h2 h3]
    simp only [Bool.and_eq_true, decide_eq_true_eq]
    refine and_congr_right fun _ => ?_
    constructor
    · rintro ⟨h4, h5⟩
      refine ⟨?_, h5⟩
      unfold isKind
      rw [h4, h5]
      simp [h4, h5]
    · rintro ⟨h4, h5⟩
      refine ⟨?_, h5⟩
      unfold isKind at h4
      simp only [Bool.and_eq_true] at h4
      exact h4.1
  refine ⟨key _ (by rw [kind_derived hP]; rfl) (by rw [kind_member]; exact member_own rfl) (by rw [kind_member]; exact member_own rfl),
    key _ (by rw [kindBase_derived hP]; rfl) (member_own rfl) (member_own rfl), fun n h => ⟨key _ ?_ ?_ ?_, ?_⟩⟩
  · rw [h.derived hP, kind_derived hP]; rfl
  · rw [h.member, kind_member]; exact member_own rfl
  · rw [h.member, kind_member]; exact member_own rfl
  · rw [h.member, kind_member]; exact member_own rfl

/-- C82: every kind has a base kind, which is a kind, its own base kind, and has a dimension. -/
theorem C82_base_kind {c : LibClass} (h : c.isKind P = true) :
    ∃ k d e, c.member P .baseKind = some k ∧ k.isKind P = true ∧ k.member P .baseKind = some k ∧ c.member P .dimension = some d ∧ d.isDimension P = true ∧
      k.member P .dimension = some e ∧ e.isDimension P = true := by
  have hi : ∀ {c : LibClass}, c.kindImpl P .kindBase = true → ∃ d, c.member P .dimension = some d ∧ d.isDimension P = true := by
    intro c h
    unfold kindImpl at h
    rw [Bool.and_eq_true] at h
    replace h := h.2
    split at h
    · rename_i d hd; exact ⟨d, hd, h⟩
    · cases h
  unfold isKind at h
  rw [Bool.and_eq_true] at h
  obtain ⟨h1, h2⟩ := h
  split at h2
  · rename_i k hk
    simp only [Bool.and_eq_true, decide_eq_true_eq] at h2
    obtain ⟨d, hd, hd'⟩ := hi h1
    obtain ⟨e, he, he'⟩ := hi h2.1
    refine ⟨k, d, e, hk, ?_, h2.2, hd, hd', he, he'⟩
    unfold isKind
    rw [h2.1, h2.2]
    simp [h2.1, h2.2]
  · cases h2

/-- C82: a class declared `struct X : point_kind<X, K, O> {};` of a kind and an origin compiles whatever their dimensions are, and is a point kind exactly if the
dimensions of the kind and of the origin are the same. -/
theorem C82_point_kind (hP : P.OK) {n : String} {k o d : LibClass} (h : Declared P n (.pointKind (.user n) k o d)) (hk : k.isKind P = true)
    (hd : k.member P .dimension = some d) (ho : o.isPointOrigin P false = true) :
    ((LibClass.user n).isPointKind P = true ↔ o.member P .dimension = some d) ∧ (LibClass.user n).member P .baseKind = some k ∧
      (LibClass.user n).member P .origin = some o ∧ (LibClass.user n).member P .dimension = some d := by
  have h1 : (LibClass.user n).member P .baseKind = some k := by rw [h.member, pointKind_member]; exact member_own rfl
  have h2 : (LibClass.user n).member P .dimension = some d := by rw [h.member, pointKind_member]; exact member_own rfl
  have h3 : (LibClass.user n).member P .origin = some o := by rw [h.member, pointKind_member]; exact member_own rfl
  have h4 : (LibClass.user n).derivedFromSpec P .pointKindBase = true := by rw [h.derived hP, pointKind_derived hP]; rfl
  have h5 : d.isDimension P = true := by
    obtain ⟨k', d', e, -, -, -, a, b, -⟩ := C82_base_kind hk
    rw [hd] at a
    cases a
    exact b
  refine ⟨?_, h1, h3, h2⟩
  unfold isPointKind
  rw [kindImpl_of h4 h1 h2, h1, h2, h3]
  simp [h5, ho, hd]

/-- A class that derives from another one and declares one of the member types anew. -/
structure Redeclared (P : Program) (name : String) (base : LibClass) (m : Mem) (x : LibClass) : Prop where
  bases : P.bases name = [base]
  member : P.members name m = some x
  others : ∀ m', m' ≠ m → P.members name m' = none

/-- C82: a class that derives from a point kind and redeclares its origin, base kind or dimension is a point kind only if the new one is an origin of the same dimension, a
class with the same dimension, or the same dimension. -/
theorem C82_redeclared (hP : P.OK) {n : String} {c x d : LibClass} (hc : c.isPointKind P = true) (hd : c.member P .dimension = some d) :
    (Redeclared P n c .origin x → ((LibClass.user n).isPointKind P = true ↔ x.isPointOrigin P false = true ∧ x.member P .dimension = some d)) ∧
    (Redeclared P n c .baseKind x → ((LibClass.user n).isPointKind P = true ↔ x.member P .dimension = some d)) ∧
    (Redeclared P n c .dimension x → ((LibClass.user n).isPointKind P = true ↔ x = d)) := by
  have hb : ∀ {m y}, Redeclared P n c m y → (LibClass.user n).derivedFromSpec P .pointKindBase = c.derivedFromSpec P .pointKindBase ∧
      (LibClass.user n).member P m = some y ∧ ∀ m', m' ≠ m → (LibClass.user n).member P m' = c.member P m' := fun h =>
    ⟨derived_single hP h.bases (by simp [tmpl]), member_own h.member, fun m' hm => member_single h.bases (h.others m' hm)⟩
  unfold isPointKind at hc
  rw [Bool.and_eq_true] at hc
  obtain ⟨h1, h2⟩ := hc
  split at h2
  · rename_i o d' k ho hd' hk
    rw [hd] at hd'
    cases hd'
    simp only [Bool.and_eq_true, decide_eq_true_eq] at h2
    obtain ⟨⟨h3, h4⟩, h5⟩ := h2
    have h6 : c.derivedFromSpec P .pointKindBase = true ∧ d.isDimension P = true := by
      unfold kindImpl at h1
      rw [hd, hk] at h1
      simpa using h1
    refine ⟨fun h => ?_, fun h => ?_, fun h => ?_⟩ <;> obtain ⟨k1, k2, k3⟩ := hb h <;> unfold isPointKind kindImpl <;> rw [k1]
    · rw [k2, k3 .baseKind (by simp), k3 .dimension (by simp), hk, hd]
      simp [h6, h4]
    · rw [k2, k3 .origin (by simp), k3 .dimension (by simp), ho, hd]
      simp [h6, h3, h5]
    · rw [k2, k3 .origin (by simp), k3 .baseKind (by simp), ho, hk]
      simp only [h6.1, h3, h4, h5, Option.isSome_some, Bool.and_true, Bool.true_and, Option.some.injEq, Bool.and_eq_true, decide_eq_true_eq]
      constructor
      · rintro ⟨-, rfl, -⟩; rfl
      · rintro rfl; simp [h6.2]
  · cases h2

/-! ### Units, dimensions and origins -/

theorem derivedFrom_single {c x b : LibClass} (hb : c.bases P = [x]) (hne : c ≠ b) : c.derivedFrom P b = x.derivedFrom P b := by
  unfold derivedFrom
  rw [subobjects_eq c, hb, List.count_cons_of_ne hne]
  simp

theorem derivedFrom_dispatch (c x b : LibClass) (h : ∀ c' x', b ≠ .dcDispatch c' x' ∧ b ≠ .dcChild c' x' ∧ b ≠ .dcPoison x') :
    (LibClass.dcDispatch c x).derivedFrom P b = x.derivedFrom P b := by
  by_cases h1 : P.downcastOff = true
  · exact derivedFrom_single (by simp [bases, h1]) fun e => (h c x).1 e.symm
  · by_cases h2 : P.poisoned x = true
    · rw [derivedFrom_single (x := .dcPoison x) (by simp [bases, h1, h2]) fun e => (h c x).1 e.symm]
      exact derivedFrom_single rfl fun e => (h c x).2.2 e.symm
    · rw [derivedFrom_single (x := .dcChild c x) (by simp [bases, h1, h2]) fun e => (h c x).1 e.symm]
      exact derivedFrom_single rfl fun e => (h c x).2.1 e.symm

/-- The base of a unit that is declared with one of the templates of the library, the scaled unit it stands for, and its family of prefixes. -/
inductive UnitForm : LibClass → LibClass → Ratio → LibClass → LibClass → Prop
  | unit (c : LibClass) : UnitForm c (.unit c) Ratio.one c .noPrefix
  | named (c : LibClass) (s : String) (pf : LibClass) : UnitForm c (.namedUnit c s pf) Ratio.one c pf
  | scaled (c : LibClass) (s : String) (pf u : LibClass) (r : Ratio) (ref : LibClass) : UnitForm c (.namedScaledUnit c s pf u r ref) r ref pf
  | prefixed (c p u : LibClass) (r : Ratio) (ref : LibClass) : UnitForm c (.prefixedUnit c p u r ref) r ref .noPrefix
  | derived (c d : LibClass) (r : Ratio) (ref : LibClass) : UnitForm c (.derivedUnit c d r ref) r ref .noPrefix
  | namedDerived (c d : LibClass) (s : String) (pf : LibClass) (r : Ratio) (ref : LibClass) : UnitForm c (.namedDerivedUnit c d s pf r ref) r ref pf

theorem UnitForm.bases {c b ref pf : LibClass} {r : Ratio} (h : UnitForm c b r ref pf) : b.bases P = [.dcDispatch c (.scaledUnit r ref)] ∧ b.tmpl = none ∧
    b.own P .prefixFamily = some pf ∧ ∀ m, m ≠ .prefixFamily → b.own P m = none := by
  cases h <;> exact ⟨rfl, rfl, rfl, fun m hm => by cases m <;> first | rfl | exact absurd rfl hm⟩

/-- C82: whatever template declares it, a unit is a unit, of the reference and in the family of prefixes that were given, and is known to downcasting as the
scaled unit; and nothing else. -/
theorem C82_unit (hP : P.OK) {n : String} {b ref pf : LibClass} {r : Ratio} (hf : UnitForm (.user n) b r ref pf) (h : Declared P n b) :
    (∀ t, (LibClass.user n).derivedFromSpec P t = decide (t = .scaledUnit)) ∧ (LibClass.user n).member P .reference = some ref ∧
      (LibClass.user n).member P .prefixFamily = some pf ∧ (LibClass.user n).member P .downcastBase = some (.scaledUnit r ref) ∧ (LibClass.user n).isDowncastable P = true := by
  obtain ⟨h1, h2, h3, h4⟩ := hf.bases (P := P)
  have hm : ∀ m, m ≠ .prefixFamily → (LibClass.user n).member P m = (LibClass.scaledUnit r ref).member P m := fun m hm => by
    rw [h.member, member_single h1 (h4 m hm), dispatch_member]
  have hd : (LibClass.user n).member P .downcastBase = some (.scaledUnit r ref) := by
    rw [hm _ (by simp), member_single (x := .dcBase (.scaledUnit r ref)) rfl rfl]
    exact member_own rfl
  refine ⟨fun t => ?_, ?_, ?_, hd, ?_⟩
  · rw [h.derived hP, derived_single hP h1 (by simp [h2]), dispatch_derived hP, scaledUnit_derived hP]
  · rw [hm _ (by simp)]; exact member_own rfl
  · rw [h.member]; exact member_own h3
  · unfold isDowncastable
    rw [hd]
    simp only
    rw [derivedFrom_single (c := .user n) (x := b) h.bases (by simp), derivedFrom_single h1 (by cases hf <;> simp), derivedFrom_dispatch _ _ _ (by simp),
      derivedFrom_single (x := .dcBase (.scaledUnit r ref)) rfl (by simp), derivedFrom, subobjects_eq]
    simp [LibClass.bases]

/-- C82: an alias is a unit if what it names is one, with the same reference. -/
theorem C82_alias (hP : P.OK) {n : String} {u p au pf : LibClass} {s : String} :
    (Declared P n (.aliasUnit u s pf) → (LibClass.user n).isUnit P = u.isUnit P ∧ (LibClass.user n).member P .reference = u.member P .reference ∧
      (LibClass.user n).member P .prefixFamily = some pf) ∧
    (Declared P n (.prefixedAliasUnit u p au) → (LibClass.user n).isUnit P = u.isUnit P ∧ (LibClass.user n).member P .reference = u.member P .reference ∧
      (LibClass.user n).member P .prefixFamily = some .noPrefix) := by
  refine ⟨fun h => ⟨?_, ?_, ?_⟩, fun h => ⟨?_, ?_, ?_⟩⟩
  · rw [isUnit, isUnit, h.derived hP]; exact derived_single hP rfl (by simp [tmpl])
  · rw [h.member]; exact member_single rfl rfl
  · rw [h.member]; exact member_own rfl
  · rw [isUnit, isUnit, h.derived hP]; exact derived_single hP rfl (by simp [tmpl])
  · rw [h.member]; exact member_single rfl rfl
  · rw [h.member]; exact member_own rfl

theorem derivedDimension_derived (hP : P.OK) (c u : LibClass) (rs es : String) (t : Tmpl) :
    (LibClass.derivedDimension c u rs es).derivedFromSpec P t = decide (t = .derivedDimensionBase) := by
  rw [derived_single hP (x := .dcDispatch c (.derivedDimensionBase es)) rfl (by simp [tmpl]), dispatch_derived hP, derivedDimensionBase_derived hP]

theorem unitOf_of {u v d : LibClass} (hd : d.isDimension P = true) (hu : d.dimensionUnit P = some u) :
    v.isUnitOf P d = true ↔ v.isUnit P = true ∧ ∃ r, v.member P .reference = some r ∧ u.member P .reference = some r := by
  unfold isUnitOf
  rw [hd, hu]
  simp only [Bool.and_eq_true, Bool.and_true, Option.bind_some]
  refine and_congr_right fun _ => ?_
  cases h1 : v.member P .reference with
  | none => simp
  | some r =>
    cases h2 : u.member P .reference with
    | none => simp
    | some s => simp [eq_comm]

/-- C82: base and derived dimensions are told apart; the units of a dimension are those whose reference is the reference of its base unit or coherent unit. -/
theorem C82_dimension (hP : P.OK) {n : String} {u : LibClass} {s rs es : String} (v : LibClass) :
    (Declared P n (.baseDimension s u) → (LibClass.user n).isBaseDimension P = true ∧ (LibClass.user n).isDerivedDimension P = false ∧
      (LibClass.user n).dimensionUnit P = some u ∧
      (v.isUnitOf P (.user n) = true ↔ v.isUnit P = true ∧ ∃ r, v.member P .reference = some r ∧ u.member P .reference = some r)) ∧
    (Declared P n (.derivedDimension (.user n) u rs es) → (LibClass.user n).isBaseDimension P = false ∧ (LibClass.user n).isDerivedDimension P = true ∧
      (LibClass.user n).dimensionUnit P = some u ∧
      (v.isUnitOf P (.user n) = true ↔ v.isUnit P = true ∧ ∃ r, v.member P .reference = some r ∧ u.member P .reference = some r)) ∧
    (LibClass.unknownDimension rs es).isBaseDimension P = false ∧ (LibClass.unknownDimension rs es).isDerivedDimension P = true ∧
      (LibClass.unknownDimension rs es).dimensionUnit P = some .unknownCoherentUnit ∧
      (v.isUnitOf P (.unknownDimension rs es) = true ↔ v.isUnit P = true ∧ v.member P .reference = some .unknownCoherentUnit) := by
  refine ⟨fun h => ?_, fun h => ?_, ?_⟩
  · have h1 : (LibClass.user n).isBaseDimension P = true := by rw [isBaseDimension, h.derived hP]; exact derived_self rfl
    have h2 : (LibClass.user n).isDerivedDimension P = false := by rw [isDerivedDimension, h.derived hP]; exact derived_none rfl (by simp [tmpl])
    have h3 : (LibClass.user n).dimensionUnit P = some u := by rw [dimensionUnit, if_pos h1, h.member]; exact member_own rfl
    exact ⟨h1, h2, h3, unitOf_of (by simp [isDimension, h1]) h3⟩
  · have h1 : (LibClass.user n).isBaseDimension P = false := by rw [isBaseDimension, h.derived hP, derivedDimension_derived hP]; rfl
    have h2 : (LibClass.user n).isDerivedDimension P = true := by rw [isDerivedDimension, h.derived hP, derivedDimension_derived hP]; rfl
    have h3 : (LibClass.user n).dimensionUnit P = some u := by rw [dimensionUnit, if_neg (by simp [h1]), if_pos h2, h.member]; exact member_own rfl
    exact ⟨h1, h2, h3, unitOf_of (by simp [isDimension, h2]) h3⟩
  · have hd : ∀ t, (LibClass.unknownDimension rs es).derivedFromSpec P t = decide (t = .derivedDimensionBase) := fun t => by
      rw [derived_single hP (x := .derivedDimension (.unknownDimension rs es) .unknownCoherentUnit rs es) rfl (by simp [tmpl]), derivedDimension_derived hP]
    have h1 : (LibClass.unknownDimension rs es).isBaseDimension P = false := by rw [isBaseDimension, hd]; rfl
    have h2 : (LibClass.unknownDimension rs es).isDerivedDimension P = true := by rw [isDerivedDimension, hd]; rfl
    have h3 : (LibClass.unknownDimension rs es).dimensionUnit P = some .unknownCoherentUnit := by
      rw [dimensionUnit, if_neg (by simp [h1]), if_pos h2, member_single (x := .derivedDimension (.unknownDimension rs es) .unknownCoherentUnit rs es) rfl rfl]
      exact member_own rfl
    have h4 : LibClass.unknownCoherentUnit.member P .reference = some .unknownCoherentUnit := by
      rw [member_single (x := .unit .unknownCoherentUnit) rfl rfl,
        member_single (x := .dcDispatch .unknownCoherentUnit (.scaledUnit Ratio.one .unknownCoherentUnit)) rfl rfl, dispatch_member]
      exact member_own rfl
    refine ⟨h1, h2, h3, (unitOf_of (by simp [isDimension, h2]) h3).trans (and_congr_right fun _ => ?_)⟩
    rw [h4]
    simp [eq_comm]

theorem origin_of {c d : LibClass} (cv : Bool) (h1 : c.derivedFromSpec P .pointOrigin = true) (h2 : c.member P .dimension = some d)
    (h3 : c.member P .pointOrigin = some (.pointOrigin d)) :
    c.isPointOrigin P cv = (d.isDimension P && (cv || decide (c ≠ .pointOrigin d))) := by
  unfold isPointOrigin
  rw [h1, h2, h3]
  simp

/-- C82: an origin that a program declares, `dynamic_origin<D>` and the origin of a clock are origins exactly if the dimension is one.  `point_origin<D>` itself is
none. -/
theorem C82_origin_partial (hP : P.OK) {n : String} (d clock : LibClass) :
    (Declared P n (.pointOrigin d) → ((LibClass.user n).isPointOrigin P false = true ↔ d.isDimension P = true) ∧ (LibClass.user n).member P .dimension = some d) ∧
    ((LibClass.dynamicOrigin d).isPointOrigin P false = true ↔ d.isDimension P = true) ∧
    ((LibClass.clockOrigin clock d).isPointOrigin P false = true ↔ d.isDimension P = true) ∧ (LibClass.pointOrigin d).isPointOrigin P false = false := by
  have key : ∀ c : LibClass, c.bases P = [.pointOrigin d] → c.tmpl = none → (∀ m, c.own P m = none) →
      (c.isPointOrigin P false = true ↔ d.isDimension P = true) ∧ c.member P .dimension = some d := by
    intro c h1 h2 h3
    have h4 : c.member P .dimension = some d := by rw [member_single h1 (h3 _)]; exact member_own rfl
    refine ⟨?_, h4⟩
    rw [origin_of false (by rw [derived_single hP h1 (by simp [h2])]; exact derived_self rfl) h4 (by rw [member_single h1 (h3 _)]; exact member_own rfl)]
    have : c ≠ .pointOrigin d := by rintro rfl; simp [tmpl] at h2
    simp [this]
  refine ⟨fun h => key _ h.bases rfl h.members, (key _ rfl rfl fun m => by cases m <;> rfl).1, (key _ rfl rfl fun m => by cases m <;> rfl).1, ?_⟩
  rw [origin_of false (derived_self rfl) (member_own rfl) (member_own rfl)]
  simp

/-- C82, finding: `point_origin<D>` qualified with `const` satisfies the concept that excludes `point_origin<D>`. -/
theorem C82_const_origin (d : LibClass) (h : d.isDimension P = true) :
    (LibClass.pointOrigin d).isPointOrigin P true = true ∧ (LibClass.pointOrigin d).isPointOrigin P false = false := by
  rw [origin_of true (derived_self rfl) (member_own rfl) (member_own rfl), origin_of false (derived_self rfl) (member_own rfl) (member_own rfl)]
  simp [h]

theorem rebinds_user {n : String} {d : LibClass} (h : Declared P n (.pointOrigin d)) : (LibClass.user n).rebinds P = [] := by
  have h0 : (LibClass.pointOrigin d).rebinds P = [] := by rw [rebinds] <;> simp [bases]
  rw [rebinds, h.rebind]
  simp only [List.flatMap_subtype, List.unattach_attach]
  show (P.bases n).flatMap _ = []
  rw [h.bases]
  simp [h0]

/-- C82: a dynamic origin can be moved to every dimension; a static one without a `rebind` of its own to none but its own. -/
theorem C82_rebind (hP : P.OK) {n : String} (d e : LibClass) :
    ((LibClass.dynamicOrigin d).rebindable P e = true ↔ d.isDimension P = true ∧ e.isDimension P = true) ∧
    (d.isDimension P = true → e.isDimension P = true → (LibClass.dynamicOrigin d).rebindTo P e = some (.dynamicOrigin e)) ∧
    (Declared P n (.pointOrigin d) → ((LibClass.user n).rebindable P e = true ↔ d.isDimension P = true ∧ e = d) ∧
      ∀ o, (LibClass.user n).rebindTo P e = some o → o = .user n) := by
  have hdim : ∀ d : LibClass, (LibClass.dynamicOrigin d).member P .dimension = some d := fun d => by
    rw [member_single (x := .pointOrigin d) rfl rfl]; exact member_own rfl
  have hto : d.isDimension P = true → e.isDimension P = true → (LibClass.dynamicOrigin d).rebindTo P e = some (.dynamicOrigin e) := by
    intro h1 h2
    unfold rebindTo
    rw [if_pos (by simp [h2, (C82_origin_partial hP (n := n) d d).2.1.2 h1]), hdim]
    by_cases hde : d = e
    · subst hde; simp
    · rw [if_neg (by simpa using hde), rebinds]
  refine ⟨⟨fun h => ?_, fun ⟨h1, h2⟩ => ?_⟩, hto, fun h => ?_⟩
  · unfold rebindable at h
    split at h
    · rename_i o ho
      unfold rebindTo at ho
      split at ho
      · rename_i hc
        rw [Bool.and_eq_true] at hc
        exact ⟨(C82_origin_partial hP (n := n) d d).2.1.1 hc.1, hc.2⟩
      · cases ho
    · cases h
  · unfold rebindable
    rw [hto h1 h2]
    simp [hdim, (C82_origin_partial hP (n := n) e e).2.1.2 h2]
  · obtain ⟨⟨h1, h1'⟩, h2⟩ := (C82_origin_partial hP (n := n) d d).1 h
    have hr : ∀ o, (LibClass.user n).rebindTo P e = some o → o = .user n ∧ d.isDimension P = true ∧ e = d := by
      intro o ho
      unfold rebindTo at ho
      split at ho
      · rename_i hc
        rw [Bool.and_eq_true] at hc
        rw [h2, rebinds_user h] at ho
        split at ho
        · rename_i hde
          exact ⟨(Option.some.inj ho).symm, h1 hc.1, (Option.some.inj hde).symm⟩
        · cases ho
      · cases ho
    refine ⟨⟨fun hb => ?_, ?_⟩, fun o ho => (hr o ho).1⟩
    · unfold rebindable at hb
      split at hb
      · rename_i o ho
        exact (hr o ho).2
      · cases hb
    · rintro ⟨h3, rfl⟩
      unfold rebindable rebindTo
      rw [if_pos (by simp [h1' h3, h3]), if_pos h2]
      simp [h1' h3, h2]

/-- C82: an origin with a `rebind` of its own can be moved to another dimension exactly if this gives an origin of that dimension. -/
theorem C82_rebind_own (hP : P.OK) {n : String} {d : LibClass} {f : LibClass → Option LibClass} (hb : P.bases n = [.pointOrigin d]) (hm : ∀ m, P.members n m = none)
    (hf : P.rebind n = some f) (hd : d.isDimension P = true) (e : LibClass) (he : e.isDimension P = true) :
    (LibClass.user n).rebindable P e = true ↔ e = d ∨ ∃ o, f e = some o ∧ o.isPointOrigin P false = true ∧ o.member P .dimension = some e := by
  have h1 : (LibClass.user n).member P .dimension = some d := by rw [member_single (c := .user n) hb (hm _)]; exact member_own rfl
  have h2 : (LibClass.user n).isPointOrigin P false = true := by
    rw [origin_of false (by rw [derived_single hP (c := .user n) hb (by simp [tmpl])]; exact derived_self rfl) h1
      (by rw [member_single (c := .user n) hb (hm _)]; exact member_own rfl)]
    simp [hd]
  have h3 : (LibClass.user n).rebinds P = [(.user n, f)] := by rw [rebinds, hf]
  unfold rebindable rebindTo
  rw [if_pos (by simp [h2, he]), h1, h3]
  by_cases hde : e = d
  · subst hde
    simp [h2, h1]
  · rw [if_neg (by simpa using fun h => hde h.symm)]
    simp only [hde, false_or]
    cases f e <;> simp

/-- C82: families of prefixes and prefixes. -/
theorem C82_prefix (hP : P.OK) {n : String} {pf : LibClass} {s : String} {r : Ratio} :
    (Declared P n .prefixFamily → (LibClass.user n).isPrefixFamily P = true ∧ ∀ t, (LibClass.user n).derivedFromSpec P t = false) ∧
    (Declared P n (.prefix (.user n) pf s r) → (LibClass.user n).isPrefixFamily P = false ∧ (∀ t, (LibClass.user n).derivedFromSpec P t = decide (t = .prefixBase)) ∧
      (LibClass.user n).member P .prefixFamily = some pf) := by
  refine ⟨fun h => ⟨?_, fun t => ?_⟩, fun h => ⟨?_, fun t => ?_, ?_⟩⟩
  · rw [isPrefixFamily, derivedFrom_single (c := .user n) (x := .prefixFamily) h.bases (by simp), derivedFrom, subobjects_eq]
    simp [LibClass.bases]
  · rw [h.derived hP]; exact derived_none rfl (by simp [tmpl])
  · rw [isPrefixFamily, derivedFrom_single (c := .user n) (x := .prefix (.user n) pf s r) h.bases (by simp),
      derivedFrom_single (x := .dcDispatchOn (.user n) (.prefixBase pf r)) rfl (by simp),
      derivedFrom_single (x := .dcChild (.user n) (.prefixBase pf r)) rfl (by simp), derivedFrom_single (x := .prefixBase pf r) rfl (by simp),
      derivedFrom_single (x := .dcBase (.prefixBase pf r)) rfl (by simp), derivedFrom, subobjects_eq]
    simp [LibClass.bases]
  · rw [h.derived hP, derived_single hP (x := .dcDispatchOn (.user n) (.prefixBase pf r)) rfl (by simp [tmpl]),
      derived_single hP (x := .dcChild (.user n) (.prefixBase pf r)) rfl (by simp [tmpl]), derived_single hP (x := .prefixBase pf r) rfl (by simp [tmpl])]
    by_cases ht : t = .prefixBase
    · subst ht; exact derived_self rfl
    · rw [derived_single hP (x := .dcBase (.prefixBase pf r)) rfl (by simp [tmpl, Ne.symm ht]), derived_none rfl (by simp [tmpl])]
      simp [ht]
  · rw [h.member, member_single (x := .dcDispatchOn (.user n) (.prefixBase pf r)) rfl rfl,
      member_single (x := .dcChild (.user n) (.prefixBase pf r)) rfl rfl, member_single (x := .prefixBase pf r) rfl rfl]
    exact member_own rfl

/-! ### No class is two things -/

/-- No class of the hierarchy has two bases. -/
def Single (P : Program) (c : LibClass) : Prop := ∀ b ∈ c.subobjects P, (b.bases P).length ≤ 1

theorem inherits_total {c b b' : LibClass} {p q : List LibClass} (h : Inherits P c b p) (k : Inherits P c b' q) (hs : Single P c) :
    (∃ r, Inherits P b b' r) ∨ ∃ r, Inherits P b' b r := by
  induction h generalizing q with
  | here => exact .inl ⟨q, k⟩
  | step hb hp ih =>
    rename_i c x b p
    cases k with
    | here => exact .inr ⟨_, .step hb hp⟩
    | step hb' hq =>
      rename_i x' q'
      have hl := hs c (mem_subobjects.2 ⟨[], .here c⟩)
      have : x' = x := by
        match hc : c.bases P with
        | [] => rw [hc] at hb; cases hb
        | [y] =>
          rw [hc] at hb hb'
          rw [List.mem_singleton] at hb hb'
          rw [hb, hb']
        | y :: z :: l => rw [hc] at hl; simp at hl
      subst this
      refine ih hq fun y hy => hs y ?_
      obtain ⟨r, hr⟩ := mem_subobjects.1 hy
      exact mem_subobjects.2 ⟨_, .step hb hr⟩

theorem tmpl_bases {b : LibClass} {t : Tmpl} (h : b.tmpl = some t) : b.bases P = [] ∨ ∃ x, b.bases P = [.dcBase x] := by
  cases b <;> simp only [tmpl] at h <;> first | cases h; done | exact .inl rfl | exact .inr ⟨_, rfl⟩

theorem tmpl_inherits {b b' : LibClass} {t : Tmpl} {p : List LibClass} (h : b.tmpl = some t) (k : Inherits P b b' p) : b' = b ∨ ∃ x, b' = .dcBase x := by
  cases k with
  | here => exact .inl rfl
  | step hb hp =>
    rcases tmpl_bases (P := P) h with h0 | ⟨x, hx⟩
    · rw [h0] at hb; cases hb
    · rw [hx, List.mem_singleton] at hb
      subst hb
      cases hp with
      | here => exact .inr ⟨x, rfl⟩
      | step hb' _ => cases hb'

/-- C82: without multiple inheritance a class is at most one of prefix, unit, base dimension, derived dimension, origin, kind and point kind, and if it is one of
these it is no family of prefixes. -/
theorem C82_exclusive_partial (hP : P.OK) {c : LibClass} (hs : Single P c) {t : Tmpl} (h : c.derivedFromSpec P t = true) :
    (∀ t', c.derivedFromSpec P t' = true → t' = t) ∧ c.isPrefixFamily P = false := by
  obtain ⟨b, hb, ⟨p, hp, -⟩, -⟩ := (C82_derived hP t c).1 h
  refine ⟨fun t' h' => ?_, ?_⟩
  · obtain ⟨b', hb', ⟨q, hq, -⟩, -⟩ := (C82_derived hP t' c).1 h'
    rcases inherits_total hp hq hs with ⟨r, hr⟩ | ⟨r, hr⟩
    · rcases tmpl_inherits hb hr with rfl | ⟨x, rfl⟩
      · rw [hb] at hb'; exact (Option.some.inj hb').symm
      · cases hb'
    · rcases tmpl_inherits hb' hr with rfl | ⟨x, rfl⟩
      · rw [hb] at hb'; exact (Option.some.inj hb').symm
      · cases hb
  · cases hf : c.isPrefixFamily P
    · rfl
    · unfold isPrefixFamily derivedFrom at hf
      obtain ⟨q, hq, -⟩ := (count_one hP).1 (by simpa using hf)
      rcases inherits_total hp hq hs with ⟨r, hr⟩ | ⟨r, hr⟩
      · rcases tmpl_inherits hb hr with rfl | ⟨x, hx⟩
        · cases hb
        · cases hx
      · cases hr with
        | here => cases hb
        | step hb' _ => cases hb'

end

/-! ### Concrete programs -/

/-- A program with a family of prefixes, a prefix, two units and an alias, dimensions, kinds, a point kind, origins, and classes with two bases. -/
def exProgram : Program where
  bases
    | "si_prefix" => [.prefixFamily]
    | "kilo" => [.prefix (.user "kilo") (.user "si_prefix") "k" ⟨1, 1, 3⟩]
    | "metre" => [.namedUnit (.user "metre") "m" (.user "si_prefix")]
    | "second" => [.namedUnit (.user "second") "s" (.user "si_prefix")]
    | "kilometre" => [.prefixedUnit (.user "kilometre") (.user "kilo") (.user "metre") ⟨1, 1, 3⟩ (.user "metre")]
    | "meter" => [.aliasUnit (.user "metre") "m" (.user "si_prefix")]
    | "metre_per_second" => [.unit (.user "metre_per_second")]
    | "dim_length" => [.baseDimension "L" (.user "metre")]
    | "dim_speed" => [.derivedDimension (.user "dim_speed") (.user "metre_per_second") "length 1, time -1" "length 1, time -1"]
    | "width" => [.kind (.user "width") (.user "dim_length")]
    | "span" => [.kind (.user "width") (.user "dim_length")]
    | "rate" => [.derivedKind (.user "rate") (.user "dim_speed") (.user "width")]
    | "abscissa" => [.pointKind (.user "abscissa") (.user "width") (.dynamicOrigin (.user "dim_length")) (.user "dim_length")]
    | "mismatch" => [.pointKind (.user "mismatch") (.user "width") (.dynamicOrigin (.user "dim_speed")) (.user "dim_length")]
    | "sea_level" => [.pointOrigin (.user "dim_length")]
    | "shore" => [.pointOrigin (.user "dim_length")]
    | "ordinate" => [.user "abscissa"]
    | "unit_and_dimension" => [.user "metre", .user "dim_length"]
    | "two_units" => [.user "metre", .user "second"]
    | _ => []
  members
    | "ordinate", .origin => some (.user "shore")
    | _, _ => none
  rebind
    | "shore" => some fun _ => some (.user "sea_level")
    | _ => none
  downcastOff := false
  poisoned _ := false
  rank n := if n = "unit_and_dimension" ∨ n = "two_units" ∨ n = "meter" ∨ n = "ordinate" then 10 else 7
  later := by
    intro n b hb
    split at hb <;> simp only [List.mem_cons, List.not_mem_nil, or_false] at hb
    all_goals first | subst hb; simp [rankWith] | rcases hb with rfl | rfl <;> simp [rankWith]

theorem exProgram_ok : exProgram.OK := by
  intro n
  simp only [exProgram]
  split <;> simp

theorem exDeclared {n : String} {b : LibClass} (h : exProgram.bases n = [b]) (hn : n ≠ "ordinate" ∧ n ≠ "shore" := by decide) : Declared exProgram n b :=
  ⟨h, fun m => by simp only [exProgram]; split <;> simp_all, by simp only [exProgram]; split <;> simp_all⟩

example : Declared exProgram "width" (.kind (.user "width") (.user "dim_length")) ∧
    Declared exProgram "rate" (.derivedKind (.user "rate") (.user "dim_speed") (.user "width")) ∧
    UnitForm (.user "kilometre") (.prefixedUnit (.user "kilometre") (.user "kilo") (.user "metre") ⟨1, 1, 3⟩ (.user "metre")) ⟨1, 1, 3⟩ (.user "metre") .noPrefix :=
  ⟨exDeclared rfl, exDeclared rfl, .prefixed _ _ _ _ _⟩

example : (LibClass.user "dim_length").isDimension exProgram = true ∧ (LibClass.user "width").isKind exProgram = true ∧ (LibClass.user "rate").isKind exProgram = true ∧
    (LibClass.user "abscissa").isPointKind exProgram = true ∧ (LibClass.user "mismatch").isPointKind exProgram = false ∧
    (LibClass.user "sea_level").isPointOrigin exProgram false = true ∧ (LibClass.user "kilometre").isUnitOf exProgram (.user "dim_length") = true ∧
    (LibClass.user "second").isUnitOf exProgram (.user "dim_length") = false := by
  have hl : (LibClass.user "dim_length").isDimension exProgram = true := by
    rw [isDimension, ((C82_dimension exProgram_ok (rs := "") (es := "") (.other "int")).1 (exDeclared (n := "dim_length") rfl)).1]; rfl
  have hv : (LibClass.user "dim_speed").isDimension exProgram = true := by
    rw [isDimension, ((C82_dimension exProgram_ok (s := "") (.other "int")).2.1 (exDeclared (n := "dim_speed") rfl)).2.1]; simp
  have hw := C82_kind exProgram_ok (exDeclared (n := "width") rfl)
  have hu : ∀ {n : String} {b r ref pf}, exProgram.bases n = [b] → (n ≠ "ordinate" ∧ n ≠ "shore") → UnitForm (.user n) b r ref pf →
      (LibClass.user n).isUnit exProgram = true ∧ (LibClass.user n).member exProgram .reference = some ref := fun h hn hf => by
    obtain ⟨h1, h2, -⟩ := C82_unit exProgram_ok hf (exDeclared h hn)
    exact ⟨h1 .scaledUnit, h2⟩
  have hm := hu (n := "metre") rfl (by decide) (.named _ _ _)
  have hd := ((C82_dimension exProgram_ok (rs := "") (es := "") (.user "kilometre")).1 (exDeclared (n := "dim_length") rfl)).2.2.2
  have hd' := ((C82_dimension exProgram_ok (rs := "") (es := "") (.user "second")).1 (exDeclared (n := "dim_length") rfl)).2.2.2
  have ho := fun d => ((C82_origin_partial exProgram_ok (n := "sea_level") d (.other "clock")).2.1)
  have hod : ∀ d : LibClass, (LibClass.dynamicOrigin d).member exProgram .dimension = some d := fun d => by
    rw [member_single (x := .pointOrigin d) rfl rfl]; exact member_own rfl
  refine ⟨hl, hw.1.2 hl, (C82_derived_kind exProgram_ok (exDeclared (n := "rate") rfl) (hw.1.2 hl) hw.2.1).1.2 hv, ?_, ?_, ?_, ?_, ?_⟩
  · exact (C82_point_kind exProgram_ok (exDeclared (n := "abscissa") rfl) (hw.1.2 hl) hw.2.2 ((ho _).2 hl)).1.2 (hod _)
  · have := (C82_point_kind exProgram_ok (exDeclared (n := "mismatch") rfl) (hw.1.2 hl) hw.2.2 ((ho _).2 hv)).1
    rw [hod] at this
    simpa using this
  · exact ((C82_origin_partial exProgram_ok _ (.other "clock")).1 (exDeclared (n := "sea_level") rfl)).1.2 hl
  · have hk := hu (n := "kilometre") rfl (by decide) (.prefixed _ _ _ _ _)
    exact hd.2 ⟨hk.1, _, hk.2, hm.2⟩
  · have hk := hu (n := "second") rfl (by decide) (.named _ _ _)
    rw [hk.2, hm.2] at hd'
    simpa using hd'

theorem subobjects_named {n : String} {c : LibClass} {s : String} {pf : LibClass} (h : exProgram.bases n = [.namedUnit c s pf]) :
    (LibClass.user n).subobjects exProgram = [.user n, .namedUnit c s pf, .dcDispatch c (.scaledUnit Ratio.one c), .dcChild c (.scaledUnit Ratio.one c),
      .scaledUnit Ratio.one c, .dcBase (.scaledUnit Ratio.one c)] := by
  rw [subobjects_eq, show (LibClass.user n).bases exProgram = [.namedUnit c s pf] from h, List.flatMap_singleton]
  rw [subobjects_eq (.namedUnit c s pf), show (LibClass.namedUnit c s pf).bases exProgram = [_] from rfl, List.flatMap_singleton]
  rw [subobjects_eq (.dcDispatch _ _), show (LibClass.dcDispatch c (.scaledUnit Ratio.one c)).bases exProgram = [.dcChild c (.scaledUnit Ratio.one c)] from rfl, List.flatMap_singleton]
  rw [subobjects_eq (.dcChild _ _), show (LibClass.dcChild c (.scaledUnit Ratio.one c)).bases exProgram = [_] from rfl, List.flatMap_singleton]
  rw [subobjects_eq (.scaledUnit _ _), show (LibClass.scaledUnit Ratio.one c).bases exProgram = [_] from rfl, List.flatMap_singleton]
  rw [subobjects_eq (.dcBase _), show (LibClass.dcBase (.scaledUnit Ratio.one c)).bases exProgram = [] from rfl, List.flatMap_nil]

/-- C82, finding: with two bases a class can be a unit and a dimension; and a class that has two units as bases is no unit, although both bases are. -/
theorem C82_two_bases : ∃ P : Program, P.OK ∧
    (∃ c : LibClass, c.isUnit P = true ∧ c.isBaseDimension P = true) ∧
    ∃ c u v : LibClass, c.bases P = [u, v] ∧ u.isUnit P = true ∧ v.isUnit P = true ∧ c.isUnit P = false := by
  have hm := subobjects_named (n := "metre") rfl
  have hs := subobjects_named (n := "second") rfl
  have hd : (LibClass.user "dim_length").subobjects exProgram = [.user "dim_length", .baseDimension "L" (.user "metre")] := by
    rw [subobjects_eq, show (LibClass.user "dim_length").bases exProgram = [_] from rfl, List.flatMap_singleton, subobjects_eq]
    rfl
  have h1 := subobjects_eq (P := exProgram) (.user "unit_and_dimension")
  rw [show (LibClass.user "unit_and_dimension").bases exProgram = [.user "metre", .user "dim_length"] from rfl, List.flatMap_cons,
    List.flatMap_singleton, hm, hd] at h1
  have h2 := subobjects_eq (P := exProgram) (.user "two_units")
  rw [show (LibClass.user "two_units").bases exProgram = [.user "metre", .user "second"] from rfl, List.flatMap_cons,
    List.flatMap_singleton, hm, hs] at h2
  have hu : ∀ c : LibClass, (LibClass.scaledUnit Ratio.one c).subobjects exProgram = [.scaledUnit Ratio.one c, .dcBase (.scaledUnit Ratio.one c)] := fun c => by
    rw [subobjects_eq, show (LibClass.scaledUnit Ratio.one c).bases exProgram = [_] from rfl, List.flatMap_singleton, subobjects_eq]
    rfl
  refine ⟨exProgram, exProgram_ok, ⟨.user "unit_and_dimension", ?_, ?_⟩, .user "two_units", .user "metre", .user "second", rfl, ?_, ?_, ?_⟩
  · simp [isUnit, derivedFromSpec, h1, tmpl]
  · simp [isBaseDimension, derivedFromSpec, h1, tmpl]
  · exact (C82_unit exProgram_ok (.named _ _ _) (exDeclared (n := "metre") rfl)).1 .scaledUnit
  · exact (C82_unit exProgram_ok (.named _ _ _) (exDeclared (n := "second") rfl)).1 .scaledUnit
  · simp [isUnit, derivedFromSpec, h2, tmpl, hu]

example : Single exProgram (.user "metre") ∧ (LibClass.user "metre").derivedFromSpec exProgram .scaledUnit = true ∧ ¬ Single exProgram (.user "two_units") := by
  refine ⟨?_, (C82_unit exProgram_ok (.named _ _ _) (exDeclared (n := "metre") rfl)).1 .scaledUnit, fun h => ?_⟩
  · intro b hb
    rw [subobjects_named rfl] at hb
    simp only [List.mem_cons, List.not_mem_nil, or_false] at hb
    rcases hb with rfl | rfl | rfl | rfl | rfl | rfl <;> simp [bases, exProgram]
  · have := h (.user "two_units") (by rw [subobjects_eq]; simp)
    simp [bases, exProgram] at this

example : Declared exProgram "meter" (.aliasUnit (.user "metre") "m" (.user "si_prefix")) ∧ Declared exProgram "si_prefix" .prefixFamily ∧
    Declared exProgram "kilo" (.prefix (.user "kilo") (.user "si_prefix") "k" ⟨1, 1, 3⟩) ∧ Declared exProgram "sea_level" (.pointOrigin (.user "dim_length")) :=
  ⟨exDeclared rfl, exDeclared rfl, exDeclared rfl, exDeclared rfl⟩

example : Redeclared exProgram "ordinate" (.user "abscissa") .origin (.user "shore") ∧
    exProgram.bases "shore" = [.pointOrigin (.user "dim_length")] ∧ (∀ m, exProgram.members "shore" m = none) ∧ (exProgram.rebind "shore").isSome :=
  ⟨⟨rfl, rfl, fun m hm => by cases m <;> first | rfl | exact absurd rfl hm⟩, rfl, fun m => by cases m <;> rfl, rfl⟩

/-- The reference of a class with two units as bases is ambiguous. -/
example : (LibClass.user "two_units").member exProgram .reference = none := by
  have hf : ∀ u v : String, exProgram.members u .reference = none → ∀ s pf, exProgram.bases u = [.namedUnit (.user v) s pf] →
      Finds exProgram .reference (.user u) (.scaledUnit Ratio.one (.user v)) := fun u v hm s pf hb =>
    .step hm (show _ ∈ exProgram.bases u by rw [hb]; exact List.mem_singleton.2 rfl) (.step rfl (List.mem_singleton.2 rfl)
      (.step rfl (show LibClass.dcChild _ _ ∈ _ from List.mem_singleton.2 rfl) (.step rfl (List.mem_singleton.2 rfl) (.here (by simp [own])))))
  refine Option.eq_none_iff_forall_ne_some.2 fun x hx => ?_
  obtain ⟨d, -, -, hu⟩ := C82_member.1 hx
  have h1 := hu _ (.step rfl (List.mem_cons_self ..) (hf "metre" "metre" rfl _ _ rfl))
  have h2 := hu _ (.step rfl (List.mem_cons_of_mem _ (List.mem_singleton.2 rfl)) (hf "second" "second" rfl _ _ rfl))
  have h3 := h1.trans h2.symm
  simp at h3

end Verif
