import Verif.LinearAlgebra
import Verif.Props.RepOpsProps

/-!
# C87: a quantity of vectors behaves as a vector of quantities

The specification is a vector of quantities (`vecOfQty`): conversions, sums, products and comparisons of its elements, each as a quantity with an
arithmetic representation.  What is proved is that the operators of `quantity` for a vector as its representation give the same numbers in the same units.
-/

namespace Verif


theorem bind_congr_ok {α β : Type} {x : C α} {f g : α → C β} (h : ∀ a, x = .ok a → f a = g a) : (x >>= f) = (x >>= g) := by
  cases x with
  | error e => rfl
  | ok a => exact h a rfl

section
variable (fl : Rounding)

abbrev la : TypeSys := (laOps fl).toTypeSys
abbrev ve : TypeSys := vecs fl .promoting

theorem la_as (t : VTy Rep) (x : VTy Rep × VVal Num) : (la fl).as t x = (ve fl).as t x := rfl

theorem la_over (x y : VTy Rep × VVal Num) : (la fl).over x y = (ve fl).over x y := by
  obtain ⟨t, v⟩ := x
  obtain ⟨u, w⟩ := y
  cases t <;> cases u <;> cases v <;> cases w <;> rfl

theorem la_times (x y : VTy Rep × VVal Num) (r : Rep) (h : y.1 = .sc r) : (la fl).times x y = (ve fl).times x y := by
  obtain ⟨t, v⟩ := x
  obtain ⟨u, w⟩ := y
  cases h
  cases t with
  | sc a => cases v <;> cases w <;> rfl
  | vec a => 
    cases v <;> cases w
    any_goals rfl
    rename_i xs y
    show (do let z ← laMul fl (.vec a) (.sc r) (.vec xs) (.sc y); Except.ok (VTy.vec (a.arith r), z)) = _
    rw [show (ve fl).times (VTy.vec a, VVal.vec xs) (VTy.sc r, VVal.sc y) = _ from vec_times fl (Or.inl rfl) xs y]
    show ((do let zs ← xs.mapM fun x => numOp fl .mul a r x y; Except.ok (VVal.vec zs)) >>= fun z => Except.ok (VTy.vec (a.arith r), z)) = _
    cases xs.mapM fun x => numOp fl .mul a r x y <;> rfl

theorem as_ty {S : TypeSys} {t : S.Ty} {x y : S.Ty × S.Val} (h : S.as t x = .ok y) : y.1 = t := by
  unfold TypeSys.as at h
  obtain ⟨z, -, h⟩ := bind_ok.1 h
  cases h; rfl

theorem ratioNum_ty {S : TypeSys} {t : S.Ty} {n : Int} {y : S.Ty × S.Val} (h : S.ratioNum t n = .ok y) : y.1 = t := by
  unfold TypeSys.ratioNum at h
  exact as_ty h

theorem la_ratioNum (t : VTy Rep) (n : Int) : (la fl).ratioNum t n = (ve fl).ratioNum t n := rfl

theorem la_loop (r : Rep) : ∀ (k : Nat) (x : VTy Rep × VVal Num),
    (la fl).fpow10LoopG (la fl).times (.sc r) k x = (ve fl).fpow10LoopG (ve fl).times (.sc r) k x := by
  intro k
  induction k with
  | zero => intro x; rfl
  | succ k ih =>
    intro x
    unfold TypeSys.fpow10LoopG
    refine bind_congr_ok fun ten hten => ?_
    rw [la_times fl x ten r (as_ty hten)]
    refine bind_congr_ok fun p _ => ?_
    refine bind_congr_ok fun q _ => ?_
    exact ih q

theorem la_loop' (r : Rep) : ∀ (k : Nat) (x : VTy Rep × VVal Num),
    (la fl).fpow10LoopG (la fl).over (.sc r) k x = (ve fl).fpow10LoopG (ve fl).over (.sc r) k x := by
  intro k
  induction k with
  | zero => intro x; rfl
  | succ k ih =>
    intro x
    unfold TypeSys.fpow10LoopG
    refine bind_congr_ok fun ten hten => ?_
    rw [la_over]
    refine bind_congr_ok fun p _ => ?_
    refine bind_congr_ok fun q _ => ?_
    exact ih q

theorem loop_ty {S : TypeSys} {op : S.Ty × S.Val → S.Ty × S.Val → C (S.Ty × S.Val)} {t : S.Ty} : ∀ {k : Nat} {x y : S.Ty × S.Val},
    x.1 = t → S.fpow10LoopG op t k x = .ok y → y.1 = t := by
  intro k
  induction k with
  | zero => intro x y h e; cases e; exact h
  | succ k ih =>
    intro x y h e
    unfold TypeSys.fpow10LoopG at e
    obtain ⟨ten, -, e⟩ := bind_ok.1 e
    obtain ⟨p, -, e⟩ := bind_ok.1 e
    obtain ⟨q, hq, e⟩ := bind_ok.1 e
    exact ih (as_ty hq) e

theorem fpow10_ty {S : TypeSys} {t : S.Ty} {n : Int} {y : S.Ty × S.Val} (h : S.fpow10G t n = .ok y) : y.1 = t := by
  unfold TypeSys.fpow10G at h
  obtain ⟨one, h1, h⟩ := bind_ok.1 h
  split at h
  · cases h; exact as_ty h1
  · split at h
    · exact loop_ty (as_ty h1) h
    · exact loop_ty (as_ty h1) h

theorem la_fpow10 (r : Rep) (e : Int) : (la fl).fpow10G (.sc r) e = (ve fl).fpow10G (.sc r) e := by
  unfold TypeSys.fpow10G
  refine bind_congr_ok fun one _ => ?_
  rw [la_loop, la_loop']

theorem la_accepts (a b : Rep) : (la fl).castAccepts (.vec a) (.vec b) = true := by
  simp [TypeSys.castAccepts, TypeSys.scalableWith, TypeSys.commonWith, TypeSys.scalable, TypeSys.castableNumber, TypeSys.scalableNumber,
          la, laMulTy, builtin, common_comm, VecMode.elem]

theorem la_traits (a b : Rep) : (la fl).castTraits (.vec a) (.vec b) = some (.sc (castRep a b), .vec (a.common b)) := by
  simp [TypeSys.castTraits, TypeSys.commonWith, TypeSys.scalableNumber, la, laMulTy, builtin, common_comm, VecMode.elem, castRep]

theorem la_treat (t : VTy Rep) : (la fl).treatFloating t = (ve fl).treatFloating t := by
  cases t with
  | sc t => rw [TypeSys.treat_none (S := la fl) (t := .sc t) rfl, TypeSys.treat_none (S := ve fl) (t := .sc t) rfl]
  | vec t => rw [vec_treat, TypeSys.treat_some (S := la fl) (t := .vec t) (v := .sc t) rfl, TypeSys.treat_none rfl]

theorem ve_times_ty {x y z : VTy Rep × VVal Num} {r s : Rep} (hx : x.1 = .sc r) (hy : y.1 = .sc s) (h : (ve fl).times x y = .ok z) : z.1 = .sc (r.arith s) := by
  unfold TypeSys.times at h
  rw [hx, hy] at h
  obtain ⟨w, -, h⟩ := bind_ok.1 h
  cases h; rfl

theorem ve_over_ty {x y z : VTy Rep × VVal Num} {r s : Rep} (hx : x.1 = .sc r) (hy : y.1 = .sc s) (h : (ve fl).over x y = .ok z) : z.1 = .sc (r.arith s) := by
  unfold TypeSys.over at h
  rw [hx, hy] at h
  obtain ⟨w, -, h⟩ := bind_ok.1 h
  cases h; rfl

theorem la_castG (a b : Rep) (c : Ratio) (x : VVal Num) : (la fl).castG (.vec a) (.vec b) c x = (ve fl).castG (.vec a) (.vec b) c x := by
  unfold TypeSys.castG
  rw [la_accepts, vec_accepts fl (by decide), la_traits, vec_traits fl (by decide)]
  refine bind_congr_ok fun x hx => ?_
  rw [la_treat]
  have : ∀ {p q : C (VTy Rep × VVal Num)} (f : VTy Rep × VVal Num → C (VVal Num)), p = q → (p >>= f) = (q >>= f) := by
    rintro p q f rfl; rfl
  refine this _ ?_
  split
  · refine bind_congr_ok fun n hn => ?_
    rw [la_fpow10]
    refine bind_congr_ok fun p hp => ?_
    have hp' : p.1 = .sc (castRep a b) := fpow10_ty (S := ve fl) hp
    rw [la_times fl n p _ hp']
    refine bind_congr_ok fun q hq => ?_
    refine bind_congr_ok fun d hd => ?_
    rw [la_over]
    refine bind_congr_ok fun e he => ?_
    exact la_times fl x e _ (ve_over_ty fl (ve_times_ty fl (ratioNum_ty hn) hp' hq) (ratioNum_ty hd) he)
  · split
    · refine bind_congr_ok fun n hn => ?_
      refine bind_congr_ok fun e he => ?_
      refine bind_congr_ok fun p hp => ?_
      rw [la_times fl n p _ (ratioNum_ty hp)]
      refine bind_congr_ok fun q hq => ?_
      rw [la_times fl x q _ (ve_times_ty fl (ratioNum_ty hn) (ratioNum_ty hp) hq)]
      refine bind_congr_ok fun m hm => ?_
      refine bind_congr_ok fun d hd => ?_
      exact la_over fl m d
    · refine bind_congr_ok fun n hn => ?_
      rw [la_times fl x n _ (ratioNum_ty hn)]
      refine bind_congr_ok fun m hm => ?_
      refine bind_congr_ok fun d hd => ?_
      refine bind_congr_ok fun e he => ?_
      refine bind_congr_ok fun p hp => ?_
      refine bind_congr_ok fun q hq => ?_
      rw [la_times fl d q _ (ratioNum_ty hq)]
      refine bind_congr_ok fun w hw => ?_
      exact la_over fl m w

theorem la_rep (t : VTy Rep) : (la fl).representation t = true := by
  cases t with
  | sc a =>
    have h3 : (la fl).wrapped (.sc a) = false := TypeSys.wrapped_none rfl
    unfold TypeSys.representation
    rw [h3]
    simp [TypeSys.scalable, TypeSys.castableNumber, TypeSys.scalableNumber, TypeSys.commonWith, la, laMulTy, builtin, common_comm, VecMode.elem]
  | vec a =>
    have h3 : (la fl).wrapped (.vec a) = false := by
      rw [TypeSys.wrapped_some (S := la fl) (t := .vec a) (v := .sc a) rfl, TypeSys.wrapped_none rfl]; rfl
    unfold TypeSys.representation
    rw [h3]
    simp [TypeSys.scalable, TypeSys.castableNumber, TypeSys.scalableNumber, TypeSys.commonWith, la, laMulTy, builtin, common_comm, VecMode.elem]

theorem la_value {o : BinOp} {t u r : VTy Rep} (h : (laOps fl).opTy o t u = some r) : (laOps fl).valueFor o t u = some r := by
  unfold OpSys.valueFor
  rw [h]
  exact if_pos (la_rep fl r)

theorem la_treat_vec (a : Rep) : (la fl).treatFloating (.vec a) = a.floating := by rw [la_treat, vec_treat]

theorem la_safe (a b : Rep) : (laOps fl).safeConvertible (.vec a) (.vec b) = (b.floating || !a.floating) := by
  unfold OpSys.safeConvertible
  erw [la_treat_vec, la_treat_vec]
  rfl

theorem la_result {o : BinOp} {t a : Rep} {u v : VTy Rep} (h : (laOps fl).opTy o u v = some (.vec a)) (ht : a.floating = true ∨ t.floating = false) :
    (laOps fl).resultFrom (.vec t) o u v = some (.vec a) := by
  unfold OpSys.resultFrom
  rw [la_value fl h]
  refine if_pos ?_
  rw [la_rep, la_safe]
  rcases ht with h | h <;> simp [h]

theorem castG_vec {a b : Rep} {c : Ratio} {xs : List Num} {w : VVal Num} (h : (la fl).castG (.vec a) (.vec b) c (.vec xs) = .ok w) :
    ∃ ys, w = .vec ys := by
  unfold TypeSys.castG at h
  rw [la_accepts, la_traits] at h
  obtain ⟨x, -, h⟩ := bind_ok.1 h
  obtain ⟨y, -, h⟩ := bind_ok.1 h
  obtain ⟨z, hz, h⟩ := bind_ok.1 h
  cases h
  obtain ⟨v, hv, hz⟩ := bind_ok.1 hz
  cases hz
  obtain ⟨t, y⟩ := y
  cases t with
  | sc t => cases y <;> cases hv
  | vec t =>
    cases y with
    | sc y => cases hv
    | vec ys =>
      obtain ⟨zs, -, hv⟩ := bind_ok.1 hv
      cases hv
      exact ⟨zs, rfl⟩

end

/-- The elements fit into the common type of the two element types: no value is changed by the conversion to it. -/
def VecFits (a b : Rep) (xs : List Num) : Prop := (∀ v ∈ xs, v.Typed a) ∧ ∀ t, a.common b = .int t → ∀ x, Num.i x ∈ xs → t.In x

section
variable {E : Env}

theorem qtyOfVec_inj {fl : Rounding} {s t : QTy} {xs ys : List Num} : qtyOfVec fl s xs = qtyOfVec fl t ys ↔ s = t ∧ xs = ys := by
  obtain ⟨d, u, r⟩ := s
  obtain ⟨d', u', r'⟩ := t
  simp [qtyOfVec, QTy.vec]

theorem mapM_congr_ok {α β γ : Type} {f : α → C γ} {g : β → C γ} {k : α → β} (h : ∀ x, f x = g (k x)) (xs : List α) : xs.mapM f = (xs.map k).mapM g := by
  induction xs with
  | nil => rfl
  | cons x xs ih => rw [List.map_cons, List.mapM_cons, List.mapM_cons, ih, h]

/-- Results of one type, element by element. -/
theorem mapM_qty {f : Qty → C Qty} {g : Num → C Num} {s t : QTy} (h : ∀ x y, f ⟨s, x⟩ = .ok ⟨t, y⟩ ↔ g x = .ok y) (xs ys : List Num) :
    (vecOfQty s xs).mapM f = .ok (vecOfQty t ys) ↔ xs.mapM g = .ok ys := by
  rw [mapM_ok_iff, mapM_ok_iff]
  unfold vecOfQty
  rw [List.forall₂_map_left_iff, List.forall₂_map_right_iff]
  constructor <;> exact fun H => H.imp fun x y hxy => by first | exact (h x y).1 hxy | exact (h x y).2 hxy

theorem cast_vec (hfl : KeepsOneTen E.fl) (s t : QTy) (xs ys : List Num) (hne : xs ≠ []) (hf : VecFits s.rep t.rep xs) :
    quantityCastG E (t.vec E.fl) (qtyOfVec E.fl s xs) = .ok (qtyOfVec E.fl t ys) ↔
      (vecOfQty s xs).mapM (quantityCast E t) = .ok (vecOfQty t ys) := by
  have key : ∀ c, I64 c.num → I64 c.den → ((la E.fl).castG (.vec s.rep) (.vec t.rep) c (.vec xs) = .ok (.vec ys) ↔ xs.mapM (castNum E.fl s.rep t.rep c) = .ok ys) := by
    intro c hn hd
    rw [la_castG, mapM_ok_iff]
    exact C76_vector_partial E.fl hfl (by decide) s.rep t.rep c hn hd xs ys hne hf.1 (Or.inr ⟨rfl, hf.2⟩)
  unfold quantityCastG
  show (dimEquivalent t.dim s.dim >>= _) = _ ↔ _
  have hcons : ∀ {e : UB}, (∀ x, quantityCast E t ⟨s, x⟩ = .error e) → ¬ (vecOfQty s xs).mapM (quantityCast E t) = .ok (vecOfQty t ys) := by
    intro e he h
    obtain ⟨x, xs', rfl⟩ := List.exists_cons_of_ne_nil hne
    rw [show vecOfQty s (x :: xs') = ⟨s, x⟩ :: vecOfQty s xs' from rfl, List.mapM_cons, he] at h
    cases h
  cases he : dimEquivalent t.dim s.dim with
  | error e =>
    refine iff_of_false (fun h => by cases h) (hcons (e := e) fun x => ?_)
    unfold quantityCast
    rw [show dimEquivalent t.dim (Qty.mk s x).ty.dim = _ from he]; rfl
  | ok b =>
    cases b
    · refine iff_of_false (fun h => by cases h) (hcons (e := .rejected) fun x => ?_)
      unfold quantityCast
      rw [show dimEquivalent t.dim (Qty.mk s x).ty.dim = _ from he]; rfl
    · show (castRatio E.est s.dim s.unit t.dim t.unit >>= _) = _ ↔ _
      cases hc : castRatio E.est s.dim s.unit t.dim t.unit with
      | error e =>
        refine iff_of_false (fun h => by cases h) (hcons (e := e) fun x => ?_)
        unfold quantityCast
        rw [show dimEquivalent t.dim (Qty.mk s x).ty.dim = _ from he, ok_bind]
        show (castRatio E.est s.dim s.unit t.dim t.unit >>= _) = _
        rw [hc]; rfl
      | ok c =>
        have hq : ∀ x y, quantityCast E t ⟨s, x⟩ = .ok ⟨t, y⟩ ↔ castNum E.fl s.rep t.rep c x = .ok y := by
          intro x y
          unfold quantityCast
          rw [show dimEquivalent t.dim (Qty.mk s x).ty.dim = _ from he, ok_bind]
          show (castRatio E.est s.dim s.unit t.dim t.unit >>= _) = _ ↔ _
          rw [hc, ok_bind]
          show (castNum E.fl s.rep t.rep c x >>= _) = _ ↔ _
          cases castNum E.fl s.rep t.rep c x with
          | error e => exact iff_of_false (fun h => by cases h) (fun h => by cases h)
          | ok z =>
            show Except.ok _ = Except.ok _ ↔ Except.ok _ = Except.ok _
            simp
        have hw := castRatio_wf hc
        rw [mapM_qty hq, ← key c hw.num_range.1 ⟨(show intMin ≤ 0 by decide).trans hw.den_pos.le, hw.den_range⟩, ok_bind]
        show ((la E.fl).castG (.vec s.rep) (.vec t.rep) c (.vec xs) >>= _) = _ ↔ _
        cases hg : (la E.fl).castG (.vec s.rep) (.vec t.rep) c (.vec xs) with
        | error e => exact iff_of_false (fun h => by cases h) (fun h => by cases h)
        | ok w =>
          obtain ⟨zs, rfl⟩ := castG_vec E.fl hg
          show Except.ok (qtyOfVec E.fl t zs) = Except.ok _ ↔ Except.ok (VVal.vec zs) = Except.ok _
          rw [Except.ok.injEq, Except.ok.injEq, qtyOfVec_inj]
          simp

theorem safeCastable_vec (s t : QTy) : safeCastableG E (s.vec E.fl) (t.vec E.fl) = safeCastable E s t := by
  unfold safeCastableG safeCastable
  show (dimEquivalent t.dim s.dim >>= _) = (dimEquivalent t.dim s.dim >>= _)
  cases he : dimEquivalent t.dim s.dim with
  | error e => rfl
  | ok b =>
    cases b
    · rfl
    · have h1 : (la E.fl).scalableWith (.vec s.rep) (.vec t.rep) = true := by
        have := la_accepts E.fl s.rep t.rep
        unfold TypeSys.castAccepts at this
        rw [Bool.and_eq_true] at this
        exact this.1
      have h2 := la_treat_vec E.fl t.rep
      have h3 := la_treat_vec E.fl s.rep
      show (if (true && (la E.fl).scalableWith (.vec s.rep) (.vec t.rep)) = true then (if (la E.fl).treatFloating (.vec t.rep) = true then _ else
        if (la E.fl).treatFloating (.vec s.rep) = true then _ else harmonic E s t) else _) = _
      rw [h1, h2, h3]
      rfl

theorem same_vec (fl : Rounding) (s t : QTy) : (s.vec fl).same (t.vec fl) = decide (s = t) := by
  rw [Bool.eq_iff_iff, same_eq, decide_eq_true_iff]
  obtain ⟨d, u, r⟩ := s
  obtain ⟨d', u', r'⟩ := t
  simp [QTy.vec]

theorem mapM_error {α β : Type} {f : α → C β} {xs : List α} {ys : List β} (hne : xs ≠ []) (h : ∀ x ∈ xs, ∀ y, f x ≠ .ok y) : xs.mapM f ≠ .ok ys := by
  obtain ⟨x, xs', rfl⟩ := List.exists_cons_of_ne_nil hne
  rw [List.mapM_cons]
  intro H
  obtain ⟨y, hy, -⟩ := bind_ok.1 H
  exact h x (by simp) y hy

theorem vecOfQty_ne {s : QTy} {xs : List Num} (h : xs ≠ []) : vecOfQty s xs ≠ [] := by
  unfold vecOfQty; simpa using h

theorem mem_vecOfQty {s : QTy} {xs : List Num} {q : Qty} (h : q ∈ vecOfQty s xs) : q.ty = s := by
  unfold vecOfQty at h
  obtain ⟨x, -, rfl⟩ := List.mem_map.1 h
  rfl

theorem convert_vec (hfl : KeepsOneTen E.fl) (s t : QTy) (xs ys : List Num) (hne : xs ≠ []) (hf : VecFits s.rep t.rep xs) :
    convertG E (t.vec E.fl) (qtyOfVec E.fl s xs) = .ok (qtyOfVec E.fl t ys) ↔
      (vecOfQty s xs).mapM (convertQty E t) = .ok (vecOfQty t ys) := by
  unfold convertG
  rw [show (qtyOfVec E.fl s xs).ty.same (t.vec E.fl) = _ from same_vec E.fl s t,
    show safeCastableG E (qtyOfVec E.fl s xs).ty (t.vec E.fl) = _ from safeCastable_vec s t]
  by_cases h : s = t
  · subst h
    rw [if_pos (by simp), Except.ok.injEq, qtyOfVec_inj, mapM_qty (g := fun x => Except.ok x)]
    · rw [mapM_ok_iff]
      simp only [Except.ok.injEq, List.forall₂_eq_eq_eq, true_and]
    · intro x y
      rw [show convertQty E s ⟨s, x⟩ = .ok ⟨s, x⟩ from bo_convert_self rfl]
      simp
  · rw [if_neg (by simpa using h)]
    have hq : ∀ q ∈ vecOfQty s xs, convertQty E t q = (do let safe ← safeCastable E s t; if safe then quantityCast E t q else .error .rejected) := by
      intro q hq
      have := mem_vecOfQty hq
      subst this
      exact if_neg h
    cases hs : safeCastable E s t with
    | error e =>
      refine iff_of_false (fun h => by cases h) (mapM_error (vecOfQty_ne hne) fun q hm y hy => ?_)
      rw [hq q hm, hs] at hy
      cases hy
    | ok b =>
      cases b
      · refine iff_of_false (fun h => by cases h) (mapM_error (vecOfQty_ne hne) fun q hm y hy => ?_)
        rw [hq q hm, hs] at hy
        cases hy
      · refine (cast_vec hfl s t xs ys hne hf).trans ?_
        rw [mapM_ok_iff, mapM_ok_iff]
        refine forall₂_congr_mem _ _ fun q hm y => ?_
        rw [hq q hm, hs]
        rfl

theorem convertG_vec {s t : QTy} {xs : List Num} {q : QtyG (laOps E.fl)} (h : convertG E (t.vec E.fl) (qtyOfVec E.fl s xs) = .ok q) :
    ∃ ys, q = qtyOfVec E.fl t ys := by
  rcases convertG_eq_ok h with ⟨h1, rfl⟩ | ⟨-, -, h1, c, -, h2⟩
  · refine ⟨xs, ?_⟩
    unfold qtyOfVec at h1 ⊢
    rw [← h1]
  · obtain ⟨ys, hy⟩ := castG_vec E.fl h2
    refine ⟨ys, ?_⟩
    obtain ⟨ty, n⟩ := q
    cases h1; cases hy; rfl

theorem common_vec (s t : QTy) (r : Rep) : commonQtyG E (s.vec E.fl) (t.vec E.fl) (.vec r) = (commonQty E s t r).map (QTy.vec E.fl) := by
  unfold commonQtyG commonQty
  show (dimEquivalent t.dim s.dim >>= _) = _
  cases dimEquivalent t.dim s.dim with
  | error e => rfl
  | ok e =>
    cases e
    · rfl
    · show (if (true && (la E.fl).representation (.vec r)) = true then (commonUnit E.est E.units s.dim s.unit t.dim t.unit >>= _) else _) =
        Except.map _ (commonUnit E.est E.units s.dim s.unit t.dim t.unit >>= _)
      rw [la_rep]
      cases commonUnit E.est E.units s.dim s.unit t.dim t.unit <;> rfl

theorem zipC_cons {α β γ : Type} {f : α → β → C γ} {x : α} {y : β} {xs : List α} {ys : List β} {zs : List γ} :
    zipC f (x :: xs) (y :: ys) = .ok zs ↔ ∃ z zs', zs = z :: zs' ∧ f x y = .ok z ∧ zipC f xs ys = .ok zs' := by
  constructor
  · intro h
    obtain ⟨z, hz, h⟩ := bind_ok.1 h
    obtain ⟨zs', hz', h⟩ := bind_ok.1 h
    cases h
    exact ⟨z, zs', rfl, hz, hz'⟩
  · rintro ⟨z, zs', rfl, h1, h2⟩
    show (f x y >>= _) = _
    rw [h1, ok_bind, h2, ok_bind]

theorem zipC_congr {α β γ : Type} {f g : α → β → C γ} {R : α → Prop} {S : β → Prop} (h : ∀ x y z, R x → S y → (f x y = .ok z ↔ g x y = .ok z)) :
    ∀ (xs : List α) (ys : List β) (zs : List γ), (∀ x ∈ xs, R x) → (∀ y ∈ ys, S y) → (zipC f xs ys = .ok zs ↔ zipC g xs ys = .ok zs)
  | [], [], _, _, _ => Iff.rfl
  | [], _ :: _, _, _, _ => Iff.rfl
  | _ :: _, [], _, _, _ => Iff.rfl
  | x :: xs, y :: ys, zs, hx, hy => by
    rw [zipC_cons, zipC_cons]
    refine exists_congr fun z => exists_congr fun zs' => and_congr Iff.rfl (and_congr (h x y z (hx x (by simp)) (hy y (by simp))) ?_)
    exact zipC_congr h xs ys zs' (fun a ha => hx a (by simp [ha])) (fun a ha => hy a (by simp [ha]))

/-- Results of one type, element by element. -/
theorem zipC_qty {γ δ : Type} {F : Qty → Qty → C γ} {G : Num → Num → C δ} {k : δ → γ} (hk : Function.Injective k) {s t : QTy}
    (h : ∀ x y z, F ⟨s, x⟩ ⟨t, y⟩ = .ok (k z) ↔ G x y = .ok z) : ∀ (xs ys : List Num) (zs : List δ),
    zipC F (vecOfQty s xs) (vecOfQty t ys) = .ok (zs.map k) ↔ zipC G xs ys = .ok zs
  | [], [], zs => by
    cases zs with
    | nil => exact iff_of_true rfl rfl
    | cons z zs => exact iff_of_false (fun h => by cases h) (fun h => by cases h)
  | [], _ :: _, _ => iff_of_false (fun h => by cases h) (fun h => by cases h)
  | _ :: _, [], _ => iff_of_false (fun h => by cases h) (fun h => by cases h)
  | x :: xs, y :: ys, zs => by
    show zipC F (⟨s, x⟩ :: vecOfQty s xs) (⟨t, y⟩ :: vecOfQty t ys) = _ ↔ _
    rw [zipC_cons, zipC_cons]
    constructor
    · rintro ⟨z, zs', e, h1, h2⟩
      cases zs with
      | nil => cases e
      | cons w ws =>
        cases e
        exact ⟨w, ws, rfl, (h x y w).1 h1, (zipC_qty hk h xs ys ws).1 h2⟩
    · rintro ⟨w, ws, rfl, h1, h2⟩
      exact ⟨_, _, rfl, (h x y w).2 h1, (zipC_qty hk h xs ys ws).2 h2⟩

/-- Conversion of all elements, an operation on each pair, and conversion of all results: at once or pair by pair. -/
theorem zipC_chain {α β α' β' γ δ : Type} {f : α → C α'} {g : β → C β'} {h : α' → β' → C γ} {k : γ → C δ} :
    ∀ (xs : List α) (ys : List β) (zs : List δ),
    (∃ xs' ys' ws, xs.mapM f = .ok xs' ∧ ys.mapM g = .ok ys' ∧ zipC h xs' ys' = .ok ws ∧ ws.mapM k = .ok zs) ↔
      zipC (fun x y => do let a ← f x; let b ← g y; let c ← h a b; k c) xs ys = .ok zs := by
  intro xs
  induction xs with
  | nil =>
    intro ys zs
    cases ys with
    | nil =>
      constructor
      · rintro ⟨xs', ys', ws, h1, h2, h3, h4⟩
        cases h1; cases h2; cases h3; cases h4; rfl
      · intro h; cases h; exact ⟨[], [], [], rfl, rfl, rfl, rfl⟩
    | cons y ys =>
      refine iff_of_false ?_ (fun h => by cases h)
      rintro ⟨xs', ys', ws, h1, h2, h3, -⟩
      cases h1
      rw [mapM_ok_iff] at h2
      cases h2
      cases h3
  | cons x xs ih =>
    intro ys zs
    cases ys with
    | nil =>
      refine iff_of_false ?_ (fun h => by cases h)
      rintro ⟨xs', ys', ws, h1, h2, h3, -⟩
      cases h2
      rw [mapM_ok_iff] at h1
      cases h1
      cases h3
    | cons y ys =>
      rw [zipC_cons]
      constructor
      · rintro ⟨xs', ys', ws, h1, h2, h3, h4⟩
        rw [mapM_ok_iff] at h1 h2
        cases h1 with
        | cons hx hxs =>
        cases h2 with
        | cons hy hys =>
        obtain ⟨w, ws', rfl, hw, hws⟩ := zipC_cons.1 h3
        rw [mapM_ok_iff] at h4
        cases h4 with
        | cons hz hzs =>
        refine ⟨_, _, rfl, ?_, (ih ys _).1 ⟨_, _, _, (mapM_ok_iff _ _ _).2 hxs, (mapM_ok_iff _ _ _).2 hys, hws, (mapM_ok_iff _ _ _).2 hzs⟩⟩
        rw [hx, ok_bind, hy, ok_bind, hw, ok_bind]
        exact hz
      · rintro ⟨z, zs', rfl, h1, h2⟩
        obtain ⟨a, ha, h1⟩ := bind_ok.1 h1
        obtain ⟨b, hb, h1⟩ := bind_ok.1 h1
        obtain ⟨c, hc, h1⟩ := bind_ok.1 h1
        obtain ⟨as, bs, cs, i1, i2, i3, i4⟩ := (ih ys zs').2 h2
        rw [mapM_ok_iff] at i1 i2 i4
        refine ⟨a :: as, b :: bs, c :: cs, (mapM_ok_iff _ _ _).2 (.cons ha i1), (mapM_ok_iff _ _ _).2 (.cons hb i2), zipC_cons.2 ⟨c, cs, rfl, hc, i3⟩,
          (mapM_ok_iff _ _ _).2 (.cons h1 i4)⟩

theorem quantityCast_ty {t : QTy} {q r : Qty} (h : quantityCast E t q = .ok r) : r.ty = t := by
  unfold quantityCast at h
  obtain ⟨b, -, h⟩ := bind_ok.1 h
  split at h
  · obtain ⟨c, -, h⟩ := bind_ok.1 h
    obtain ⟨x, -, h⟩ := bind_ok.1 h
    cases h; rfl
  · cases h

theorem convertQty_ty {t : QTy} {q r : Qty} (h : convertQty E t q = .ok r) : r.ty = t := by
  unfold convertQty at h
  split at h
  · cases h; assumption
  · obtain ⟨b, -, h⟩ := bind_ok.1 h
    split at h
    · exact quantityCast_ty h
    · cases h

theorem convertQty_num (t s : QTy) (x y : Num) : convertQty E t ⟨s, x⟩ = .ok ⟨t, y⟩ ↔ (convertQty E t ⟨s, x⟩).map Qty.num = .ok y := by
  cases h : convertQty E t ⟨s, x⟩ with
  | error e => exact iff_of_false (fun h => by cases h) (fun h => by cases h)
  | ok q =>
    have := convertQty_ty h
    obtain ⟨ty, n⟩ := q
    cases this
    show Except.ok _ = Except.ok _ ↔ Except.ok _ = Except.ok _
    simp

theorem convert_vec' (hfl : KeepsOneTen E.fl) (s t : QTy) (xs ys : List Num) (hne : xs ≠ []) (hf : VecFits s.rep t.rep xs) :
    convertG E (t.vec E.fl) (qtyOfVec E.fl s xs) = .ok (qtyOfVec E.fl t ys) ↔
      xs.mapM (fun x => (convertQty E t ⟨s, x⟩).map Qty.num) = .ok ys := by
  rw [convert_vec hfl s t xs ys hne hf, mapM_qty (convertQty_num t s)]

theorem addSub_num {s t r : QTy} (o : BinOp) (h : commonQty E s t (s.rep.arith t.rep) = .ok r) (x y z : Num) :
    addSub E o ⟨s, x⟩ ⟨t, y⟩ = .ok ⟨r, z⟩ ↔ (do
      let a ← (convertQty E r ⟨s, x⟩).map Qty.num
      let b ← (convertQty E r ⟨t, y⟩).map Qty.num
      let c ← numOp E.fl o r.rep r.rep a b
      convNum E.fl (r.rep.arith r.rep) r.rep c) = .ok z := by
  have hr := commonQty_rep h
  unfold addSub
  show (commonQty E s t (s.rep.arith t.rep) >>= _) = _ ↔ _
  rw [h, ok_bind]
  show (convertQty E r ⟨s, x⟩ >>= _) = _ ↔ _
  cases convertQty E r ⟨s, x⟩ with
  | error e => exact iff_of_false (fun h => by cases h) (fun h => by cases h)
  | ok a =>
    rw [ok_bind]
    cases convertQty E r ⟨t, y⟩ with
    | error e => exact iff_of_false (fun h => by cases h) (fun h => by cases h)
    | ok b =>
      rw [ok_bind]
      show (numOp E.fl o (s.rep.arith t.rep) (s.rep.arith t.rep) a.num b.num >>= _) = _ ↔ (numOp E.fl o r.rep r.rep a.num b.num >>= _) = _
      rw [hr]
      cases numOp E.fl o (s.rep.arith t.rep) (s.rep.arith t.rep) a.num b.num with
      | error e => exact iff_of_false (fun h => by cases h) (fun h => by cases h)
      | ok c =>
        show mkQty E r ((s.rep.arith t.rep).arith (s.rep.arith t.rep)) c = _ ↔ convNum E.fl ((s.rep.arith t.rep).arith (s.rep.arith t.rep)) (s.rep.arith t.rep) c = _
        unfold mkQty
        rw [hr, Rep.arith_idem, convNum_self]
        rw [if_pos (by cases (s.rep.arith t.rep).floating <;> simp)]
        show Except.ok _ = Except.ok _ ↔ Except.ok _ = Except.ok _
        simp

theorem addSub_ty {s t r : QTy} {o : BinOp} {x y : Num} {q : Qty} (h : commonQty E s t (s.rep.arith t.rep) = .ok r)
    (hq : addSub E o ⟨s, x⟩ ⟨t, y⟩ = .ok q) : q.ty = r := by
  unfold addSub at hq
  obtain ⟨c, h', hq⟩ := bind_ok.1 hq
  rw [show commonQty E (Qty.mk s x).ty (Qty.mk t y).ty ((Qty.mk s x).ty.rep.arith (Qty.mk t y).ty.rep) = _ from h] at h'
  cases h'
  obtain ⟨a, -, hq⟩ := bind_ok.1 hq
  obtain ⟨b, -, hq⟩ := bind_ok.1 hq
  obtain ⟨c, -, hq⟩ := bind_ok.1 hq
  unfold mkQty at hq
  split at hq
  · obtain ⟨x, -, hq⟩ := bind_ok.1 hq
    cases hq; rfl
  · cases hq

theorem zipC_error {α β γ : Type} {f : α → β → C γ} {xs : List α} {ys : List β} {zs : List γ} (hne : xs ≠ []) (h : ∀ x ∈ xs, ∀ y ∈ ys, ∀ z ∈ zs, f x y ≠ .ok z) :
    zipC f xs ys ≠ .ok zs := by
  intro H
  obtain ⟨x, xs', rfl⟩ := List.exists_cons_of_ne_nil hne
  cases ys with
  | nil => cases H
  | cons y ys =>
    obtain ⟨z, zs', rfl, h1, -⟩ := zipC_cons.1 H
    exact h x (by simp) y (by simp) z (by simp) h1

theorem mk_vec (t : QTy) (r : Rep) (hr : t.rep.floating = true ∨ r.floating = false) (ws zs : List Num) :
    mkG (t.vec E.fl) (.vec r, .vec ws) = .ok (qtyOfVec E.fl t zs) ↔ ws.mapM (convNum E.fl r t.rep) = .ok zs := by
  unfold mkG
  rw [if_pos (by
    show (laOps E.fl).safeConvertible (.vec r) (.vec t.rep) = true
    rw [la_safe]; rcases hr with h | h <;> simp [h])]
  show ((do let ys ← ws.mapM (convNum E.fl r t.rep); Except.ok (VVal.vec ys)) >>= _) = _ ↔ _
  cases ws.mapM (convNum E.fl r t.rep) with
  | error e => exact iff_of_false (fun h => by cases h) (fun h => by cases h)
  | ok ys =>
    show Except.ok (qtyOfVec E.fl t ys) = Except.ok _ ↔ Except.ok ys = Except.ok zs
    rw [Except.ok.injEq, Except.ok.injEq, qtyOfVec_inj]
    simp

theorem mk_vec_ty {t : QTyG (laOps E.fl)} {x : VTy Rep × VVal Num} {q : QtyG (laOps E.fl)} (h : mkG t x = .ok q) : q.ty = t := by
  unfold mkG at h
  split at h
  · obtain ⟨y, -, h⟩ := bind_ok.1 h
    cases h; rfl
  · cases h

theorem vecTy_inj {fl : Rounding} {s t : QTy} : s.vec fl = t.vec fl ↔ s = t := by
  obtain ⟨d, u, r⟩ := s
  obtain ⟨d', u', r'⟩ := t
  simp [QTy.vec]

theorem laSum_vec {fl : Rounding} {o : BinOp} {a b : Rep} {xs ys : List Num} {v : VVal Num} :
    laSum fl o (.vec a) (.vec b) (.vec xs) (.vec ys) = .ok v ↔ ∃ zs, v = .vec zs ∧ zipC (numOp fl o a b) xs ys = .ok zs := by
  show (do let zs ← zipC (numOp fl o a b) xs ys; Except.ok (VVal.vec zs)) = _ ↔ _
  cases zipC (numOp fl o a b) xs ys with
  | error e => exact iff_of_false (fun h => by cases h) (fun ⟨_, _, h⟩ => by cases h)
  | ok zs =>
    constructor
    · intro h; cases h; exact ⟨zs, rfl, rfl⟩
    · rintro ⟨ws, rfl, h⟩; cases h; rfl

theorem add_vec (hfl : KeepsOneTen E.fl) {o : BinOp} (ho : o = .add ∨ o = .sub) (s t r : QTy) (xs ys zs : List Num) (hx : xs ≠ []) (hy : ys ≠ [])
    (fx : VecFits s.rep (s.rep.arith t.rep) xs) (fy : VecFits t.rep (s.rep.arith t.rep) ys) :
    addSubG E o (qtyOfVec E.fl s xs) (qtyOfVec E.fl t ys) = .ok (qtyOfVec E.fl r zs) ↔
      zipC (addSub E o) (vecOfQty s xs) (vecOfQty t ys) = .ok (vecOfQty r zs) := by
  have hv : (laOps E.fl).valueFor o (.vec s.rep) (.vec t.rep) = some (.vec (s.rep.arith t.rep)) :=
    la_value E.fl (by rcases ho with rfl | rfl <;> rfl)
  have hop : ∀ a b x y, (laOps E.fl).value o (.vec a, x) (.vec b, y) =
      (do let z ← laSum E.fl o (.vec a) (.vec b) x y; Except.ok (.vec (a.arith b), z)) := by
    intro a b x y; rcases ho with rfl | rfl <;> rfl
  unfold addSubG
  rw [show (laOps E.fl).valueFor o (qtyOfVec E.fl s xs).ty.rep (qtyOfVec E.fl t ys).ty.rep = _ from hv]
  show (commonQtyG E (s.vec E.fl) (t.vec E.fl) (.vec (s.rep.arith t.rep)) >>= _) = _ ↔ _
  rw [common_vec]
  cases hc : commonQty E s t (s.rep.arith t.rep) with
  | error e =>
    refine iff_of_false (fun h => by cases h) (zipC_error (vecOfQty_ne hx) ?_)
    intro p hp q hq z _ h
    have h1 := mem_vecOfQty hp
    have h2 := mem_vecOfQty hq
    subst h1 h2
    unfold addSub at h
    obtain ⟨c, h', -⟩ := bind_ok.1 h
    rw [hc] at h'
    cases h'
  | ok c =>
    have hr := commonQty_rep hc
    show (convertG E (c.vec E.fl) (qtyOfVec E.fl s xs) >>= _) = _ ↔ _
    by_cases hcr : c = r
    · subst hcr
      rw [show vecOfQty c zs = zs.map (fun z => Qty.mk c z) from rfl,
        zipC_qty (k := fun z => Qty.mk c z) (fun a b h => by simpa using h) (addSub_num o hc), ← zipC_chain]
      constructor
      · intro h
        obtain ⟨x, h1, h⟩ := bind_ok.1 h
        obtain ⟨y, h2, h⟩ := bind_ok.1 h
        obtain ⟨xs', rfl⟩ := convertG_vec h1
        obtain ⟨ys', rfl⟩ := convertG_vec h2
        obtain ⟨z, h3, h⟩ := bind_ok.1 h
        rw [show (laOps E.fl).value o ((c.vec E.fl).rep, (qtyOfVec E.fl c xs').num) ((c.vec E.fl).rep, (qtyOfVec E.fl c ys').num) = _ from
          hop c.rep c.rep (.vec xs') (.vec ys')] at h3
        obtain ⟨v, h4, h3⟩ := bind_ok.1 h3
        cases h3
        obtain ⟨ws, rfl, h5⟩ := laSum_vec.1 h4
        refine ⟨xs', ys', ws, (convert_vec' hfl s c xs xs' hx (hr ▸ fx)).1 h1, (convert_vec' hfl t c ys ys' hy (hr ▸ fy)).1 h2, h5, ?_⟩
        exact (mk_vec c _ (by rw [arith_floating]; cases c.rep.floating <;> simp) ws zs).1 h
      · rintro ⟨xs', ys', ws, h1, h2, h3, h4⟩
        rw [(convert_vec' hfl s c xs xs' hx (hr ▸ fx)).2 h1, ok_bind, (convert_vec' hfl t c ys ys' hy (hr ▸ fy)).2 h2, ok_bind]
        rw [show (laOps E.fl).value o ((c.vec E.fl).rep, (qtyOfVec E.fl c xs').num) ((c.vec E.fl).rep, (qtyOfVec E.fl c ys').num) = _ from
          hop c.rep c.rep (.vec xs') (.vec ys'), laSum_vec.2 ⟨ws, rfl, h3⟩, ok_bind, ok_bind]
        exact (mk_vec c _ (by rw [arith_floating]; cases c.rep.floating <;> simp) ws zs).2 h4
    · refine iff_of_false (fun h => ?_) (zipC_error (vecOfQty_ne hx) ?_)
      · obtain ⟨x, h1, h⟩ := bind_ok.1 h
        obtain ⟨y, h2, h⟩ := bind_ok.1 h
        obtain ⟨z, h3, h⟩ := bind_ok.1 h
        exact hcr (vecTy_inj.1 (mk_vec_ty h)).symm
      · intro p hp q hq z hz h
        have h1 := mem_vecOfQty hp
        have h2 := mem_vecOfQty hq
        have h3 := mem_vecOfQty hz
        subst h1 h2
        exact hcr ((addSub_ty hc h).symm.trans h3)

end

/-- C87: `quantity_cast` and the initialisation of a quantity of vectors from another one give the quantity of the vector of the numbers that come
out for the elements, each as a quantity of its own. -/
theorem C87_cast_partial {E : Env} (hfl : KeepsOneTen E.fl) (s t : QTy) (xs ys : List Num) (hne : xs ≠ []) (hf : VecFits s.rep t.rep xs) :
    (quantityCastG E (t.vec E.fl) (qtyOfVec E.fl s xs) = .ok (qtyOfVec E.fl t ys) ↔
      (vecOfQty s xs).mapM (quantityCast E t) = .ok (vecOfQty t ys)) ∧
    (convertG E (t.vec E.fl) (qtyOfVec E.fl s xs) = .ok (qtyOfVec E.fl t ys) ↔
      (vecOfQty s xs).mapM (convertQty E t) = .ok (vecOfQty t ys)) :=
  ⟨cast_vec hfl s t xs ys hne hf, convert_vec hfl s t xs ys hne hf⟩

/-- C87: sums and differences of quantities of vectors are those of the vectors of quantities. -/
theorem C87_sum_partial {E : Env} (hfl : KeepsOneTen E.fl) {o : BinOp} (ho : o = .add ∨ o = .sub) (s t r : QTy) (xs ys zs : List Num) (hx : xs ≠ [])
    (hy : ys ≠ []) (fx : VecFits s.rep (s.rep.arith t.rep) xs) (fy : VecFits t.rep (s.rep.arith t.rep) ys) :
    addSubG E o (qtyOfVec E.fl s xs) (qtyOfVec E.fl t ys) = .ok (qtyOfVec E.fl r zs) ↔
      zipC (addSub E o) (vecOfQty s xs) (vecOfQty t ys) = .ok (vecOfQty r zs) :=
  add_vec hfl ho s t r xs ys zs hx hy fx fy

section
variable {E : Env}

theorem vec_bind {s : QTy} {c : C (List Num)} {zs : List Num} :
    (do let v ← (do let z ← c; Except.ok (VVal.vec z)); Except.ok (⟨s.vec E.fl, v⟩ : QtyG (laOps E.fl))) = .ok (qtyOfVec E.fl s zs) ↔ c = .ok zs := by
  cases c with
  | error e => exact iff_of_false (fun h => by cases h) (fun h => by cases h)
  | ok ys =>
    show Except.ok (qtyOfVec E.fl s ys) = Except.ok _ ↔ Except.ok ys = Except.ok zs
    rw [Except.ok.injEq, Except.ok.injEq, qtyOfVec_inj]
    simp

theorem num_bind {r : QTy} {c : C Num} {z : Num} : (do let x ← c; Except.ok (⟨r, x⟩ : Qty)) = .ok ⟨r, z⟩ ↔ c = .ok z := by
  cases c with
  | error e => exact iff_of_false (fun h => by cases h) (fun h => by cases h)
  | ok y =>
    show Except.ok _ = Except.ok _ ↔ Except.ok _ = Except.ok _
    simp

end

theorem la_div (fl : Rounding) (a r : Rep) (xs : List Num) (v : Num) : (laOps fl).div (.vec a) (.sc r) (.vec xs) (.sc v) =
    (do let zs ← xs.mapM (fun x => numOp fl .div a r x v); Except.ok (VVal.vec zs)) := by
  have : (fun x => (do let z ← numOp fl .div a r x v; if VecMode.promoting = VecMode.promoting then Except.ok z else convNum fl (a.arith r) (a.arith r) z) :
      Num → C Num) = fun x => numOp fl .div a r x v := by
    funext x; cases numOp fl .div a r x v <;> simp
  show (do let zs ← xs.mapM (fun x => (do let z ← numOp fl .div a r x v; if VecMode.promoting = VecMode.promoting then Except.ok z else
    convNum fl (a.arith r) (a.arith r) z)); Except.ok (VVal.vec zs)) = _
  rw [this]

/-- C87: products with and quotients by a number, and the negative. -/
theorem C87_scale {E : Env} (s : QTy) (r : Rep) (v : Num) (xs zs : List Num) :
    (scaleG .mul (qtyOfVec E.fl s xs) (VTy.sc r, VVal.sc v) = .ok (qtyOfVec E.fl ⟨s.dim, s.unit, s.rep.arith r⟩ zs) ↔
      (vecOfQty s xs).mapM (fun q => scaleQty E .mul q r v) = .ok (vecOfQty ⟨s.dim, s.unit, s.rep.arith r⟩ zs)) ∧
    (scaleG .div (qtyOfVec E.fl s xs) (VTy.sc r, VVal.sc v) = .ok (qtyOfVec E.fl ⟨s.dim, s.unit, s.rep.arith r⟩ zs) ↔
      (vecOfQty s xs).mapM (fun q => scaleQty E .div q r v) = .ok (vecOfQty ⟨s.dim, s.unit, s.rep.arith r⟩ zs)) ∧
    (scaleLeftG (S := laOps E.fl) (VTy.sc r, VVal.sc v) (qtyOfVec E.fl s xs) = .ok (qtyOfVec E.fl ⟨s.dim, s.unit, r.arith s.rep⟩ zs) ↔
      (vecOfQty s xs).mapM (fun q => scaleQtyLeft E r v q) = .ok (vecOfQty ⟨s.dim, s.unit, r.arith s.rep⟩ zs)) ∧
    (negG (qtyOfVec E.fl s xs) = .ok (qtyOfVec E.fl ⟨s.dim, s.unit, s.rep.promote⟩ zs) ↔
      (vecOfQty s xs).mapM negQty = .ok (vecOfQty ⟨s.dim, s.unit, s.rep.promote⟩ zs)) := by
  have hf : (s.rep.arith r).floating = true ∨ s.rep.floating = false := by rw [arith_floating]; cases s.rep.floating <;> simp
  have hf' : (r.arith s.rep).floating = true ∨ s.rep.floating = false := by rw [arith_floating]; cases s.rep.floating <;> simp
  refine ⟨?_, ?_, ?_, ?_⟩
  · unfold scaleG
    rw [if_neg (by intro h; cases h), show (laOps E.fl).resultFrom (qtyOfVec E.fl s xs).ty.rep .mul (qtyOfVec E.fl s xs).ty.rep (VTy.sc r) = _ from
      la_result E.fl (a := s.rep.arith r) rfl hf, mapM_qty (fun x y => num_bind), ← vec_bind (E := E) (s := ⟨s.dim, s.unit, s.rep.arith r⟩)]
    exact Iff.rfl
  · unfold scaleG
    rw [if_neg (by intro h; cases h), show (laOps E.fl).resultFrom (qtyOfVec E.fl s xs).ty.rep .div (qtyOfVec E.fl s xs).ty.rep (VTy.sc r) = _ from
      la_result E.fl (a := s.rep.arith r) rfl hf, mapM_qty (fun x y => num_bind), ← vec_bind (E := E) (s := ⟨s.dim, s.unit, s.rep.arith r⟩)]
    show (do let v ← (laOps E.fl).div (.vec s.rep) (.sc r) (.vec xs) (.sc v); _) = _ ↔ _
    rw [la_div]
    exact Iff.rfl
  · unfold scaleLeftG
    rw [if_neg (by intro h; cases h), show (laOps E.fl).resultFrom (qtyOfVec E.fl s xs).ty.rep .mul (VTy.sc r) (qtyOfVec E.fl s xs).ty.rep = _ from
      la_result E.fl (a := r.arith s.rep) rfl hf', mapM_qty (fun x y => num_bind), ← vec_bind (E := E) (s := ⟨s.dim, s.unit, r.arith s.rep⟩)]
    exact Iff.rfl
  · unfold negG
    rw [mapM_qty (fun x y => num_bind), ← vec_bind (E := E) (s := ⟨s.dim, s.unit, s.rep.promote⟩)]
    show (if (la E.fl).representation (.vec s.rep.promote) = true then _ else _) = _ ↔ _
    rw [if_pos (la_rep _ _)]
    exact Iff.rfl

section
variable {E : Env}

theorem mulQty_num {s t : QTy} {d : Dim} {u : MUnit} (h : refMultiply E s.dim s.unit t.dim t.unit = .ok (d, u)) (x y : Num) :
    mulQty E ⟨s, x⟩ ⟨t, y⟩ = (numOp E.fl .mul s.rep t.rep x y).map fun z => ⟨⟨d, u, s.rep.arith t.rep⟩, z⟩ := by
  unfold mulQty
  show (refMultiply E s.dim s.unit t.dim t.unit >>= _) = _
  rw [h, ok_bind]
  show (numOp E.fl .mul s.rep t.rep x y >>= _) = _
  cases numOp E.fl .mul s.rep t.rep x y <;> rfl

theorem divQty_num {s t : QTy} {d : Dim} {u : MUnit} (h : refDivide E s.dim s.unit t.dim t.unit = .ok (d, u)) (x y : Num) :
    divQty E ⟨s, x⟩ ⟨t, y⟩ = (numOp E.fl .div s.rep t.rep x y).map fun z => ⟨⟨d, u, s.rep.arith t.rep⟩, z⟩ := by
  unfold divQty
  show (refDivide E s.dim s.unit t.dim t.unit >>= _) = _
  rw [h, ok_bind]
  show (numOp E.fl .div s.rep t.rep x y >>= _) = _
  cases numOp E.fl .div s.rep t.rep x y <;> rfl

theorem map_ok {α β : Type} {f : α → β} (hf : Function.Injective f) {c : C α} {z : α} : c.map f = .ok (f z) ↔ c = .ok z := by
  cases c with
  | error e => exact iff_of_false (fun h => by cases h) (fun h => by cases h)
  | ok y =>
    show Except.ok _ = Except.ok _ ↔ Except.ok _ = Except.ok _
    rw [Except.ok.injEq, Except.ok.injEq]
    exact hf.eq_iff

theorem mk_injective (t : QTy) : Function.Injective (Qty.mk t) := fun a b h => by simpa using h

/-- The operation on each element, of which the type of the result is `c`. -/
theorem typed_mapM {f : Qty → C Qty} {g : Num → C Num} {s : QTy} {xs : List Num} (hne : xs ≠ []) {T : C (Dim × MUnit)} {k : Dim × MUnit → QTy}
    (h : ∀ x, f ⟨s, x⟩ = (do let t ← T; (g x).map (Qty.mk (k t)))) (r : QTy) (zs : List Num) :
    (do let t ← T; let v ← (do let z ← xs.mapM g; Except.ok (VVal.vec z)); Except.ok (⟨(k t).vec E.fl, v⟩ : QtyG (laOps E.fl))) = .ok (qtyOfVec E.fl r zs) ↔
      (vecOfQty s xs).mapM f = .ok (vecOfQty r zs) := by
  cases T with
  | error e =>
    refine iff_of_false (fun h => by cases h) (mapM_error (vecOfQty_ne hne) fun q hq y hy => ?_)
    have := mem_vecOfQty hq
    obtain ⟨ty, x⟩ := q
    cases this
    rw [h] at hy
    cases hy
  | ok t =>
    rw [ok_bind]
    by_cases hr : k t = r
    · subst hr
      rw [vec_bind, mapM_qty]
      intro x y
      rw [h, ok_bind]
      exact map_ok (mk_injective _)
    · refine iff_of_false (fun h => ?_) fun h' => ?_
      · obtain ⟨v, -, h⟩ := bind_ok.1 h
        rw [Except.ok.injEq] at h
        exact hr (vecTy_inj.1 (congrArg QtyG.ty h))
      · rw [mapM_ok_iff] at h'
        obtain ⟨x, xs', rfl⟩ := List.exists_cons_of_ne_nil hne
        cases zs with
        | nil => cases h'
        | cons z zs =>
          have h1 := (List.forall₂_cons.1 h').1
          rw [h, ok_bind] at h1
          cases hg : g x with
          | error e => rw [hg] at h1; cases h1
          | ok w =>
            rw [hg] at h1
            have h2 : Except.ok (ε := UB) (Qty.mk (k t) w) = Except.ok (Qty.mk r z) := h1
            rw [Except.ok.injEq] at h2
            exact hr (congrArg Qty.ty h2)

end

/-- C87: the product of a quantity with a quantity of vectors, on either side, and the quotient of a quantity of vectors by a quantity. -/
theorem C87_product {E : Env} (s t r : QTy) (x : Num) (ys zs : List Num) (hne : ys ≠ []) :
    (mulG E (qtyOfNum E.fl s x) (qtyOfVec E.fl t ys) = .ok (qtyOfVec E.fl r zs) ↔ (vecOfQty t ys).mapM (mulQty E ⟨s, x⟩) = .ok (vecOfQty r zs)) ∧
    (mulG E (qtyOfVec E.fl t ys) (qtyOfNum E.fl s x) = .ok (qtyOfVec E.fl r zs) ↔
      (vecOfQty t ys).mapM (fun q => mulQty E q ⟨s, x⟩) = .ok (vecOfQty r zs)) ∧
    (divG E (qtyOfVec E.fl t ys) (qtyOfNum E.fl s x) = .ok (qtyOfVec E.fl r zs) ↔
      (vecOfQty t ys).mapM (fun q => divQty E q ⟨s, x⟩) = .ok (vecOfQty r zs)) := by
  refine ⟨?_, ?_, ?_⟩
  · unfold mulG
    rw [show (laOps E.fl).valueFor .mul (qtyOfNum E.fl s x).ty.rep (qtyOfVec E.fl t ys).ty.rep = some (.vec (s.rep.arith t.rep)) from la_value E.fl rfl]
    refine Iff.trans ?_ (typed_mapM (E := E) (g := fun y => numOp E.fl .mul s.rep t.rep x y) hne (T := refMultiply E s.dim s.unit t.dim t.unit)
      (k := fun p => ⟨p.1, p.2, s.rep.arith t.rep⟩) ?_ r zs)
    · exact Iff.rfl
    · intro y
      cases h : refMultiply E s.dim s.unit t.dim t.unit with
      | error e => unfold mulQty; rw [show refMultiply E (Qty.mk s x).ty.dim (Qty.mk s x).ty.unit (Qty.mk t y).ty.dim (Qty.mk t y).ty.unit = _ from h]; rfl
      | ok p => exact mulQty_num h x y
  · unfold mulG
    rw [show (laOps E.fl).valueFor .mul (qtyOfVec E.fl t ys).ty.rep (qtyOfNum E.fl s x).ty.rep = some (.vec (t.rep.arith s.rep)) from la_value E.fl rfl]
    refine Iff.trans ?_ (typed_mapM (E := E) (g := fun y => numOp E.fl .mul t.rep s.rep y x) hne (T := refMultiply E t.dim t.unit s.dim s.unit)
      (k := fun p => ⟨p.1, p.2, t.rep.arith s.rep⟩) ?_ r zs)
    · exact Iff.rfl
    · intro y
      cases h : refMultiply E t.dim t.unit s.dim s.unit with
      | error e => unfold mulQty; rw [show refMultiply E (Qty.mk t y).ty.dim (Qty.mk t y).ty.unit (Qty.mk s x).ty.dim (Qty.mk s x).ty.unit = _ from h]; rfl
      | ok p => exact mulQty_num h y x
  · unfold divG
    rw [show (laOps E.fl).valueFor .div (qtyOfVec E.fl t ys).ty.rep (qtyOfNum E.fl s x).ty.rep = some (.vec (t.rep.arith s.rep)) from la_value E.fl rfl]
    refine Iff.trans ?_ (typed_mapM (E := E) (g := fun y => numOp E.fl .div t.rep s.rep y x) hne (T := refDivide E t.dim t.unit s.dim s.unit)
      (k := fun p => ⟨p.1, p.2, t.rep.arith s.rep⟩) ?_ r zs)
    · rw [← la_div]; exact Iff.rfl
    · intro y
      cases h : refDivide E t.dim t.unit s.dim s.unit with
      | error e => unfold divQty; rw [show refDivide E (Qty.mk t y).ty.dim (Qty.mk t y).ty.unit (Qty.mk s x).ty.dim (Qty.mk s x).ty.unit = _ from h]; rfl
      | ok p => exact divQty_num h y x

section
variable {E : Env}

theorem addSub_self {o : BinOp} {r : QTy} (h : r.rep.arith r.rep = r.rep) (x y : Num) :
    addSub E o ⟨r, x⟩ ⟨r, y⟩ = (numOp E.fl o r.rep r.rep x y).map (Qty.mk r) := by
  unfold addSub
  show (commonQty E r r (r.rep.arith r.rep) >>= _) = _
  rw [h, bo_common_self, ok_bind, show convertQty E r ⟨r, x⟩ = .ok ⟨r, x⟩ from bo_convert_self rfl, ok_bind,
    show convertQty E r ⟨r, y⟩ = .ok ⟨r, y⟩ from bo_convert_self rfl, ok_bind]
  show (numOp E.fl o r.rep r.rep x y >>= fun z => mkQty E r (r.rep.arith r.rep) z) = _
  rw [h]
  cases numOp E.fl o r.rep r.rep x y with
  | error e => rfl
  | ok z =>
    show mkQty E r r.rep z = _
    unfold mkQty
    rw [convNum_self, if_pos (by cases r.rep.floating <;> simp)]
    rfl

theorem dotFrom_qty {s t : QTy} {d : Dim} {u : MUnit} (h : refMultiply E s.dim s.unit t.dim t.unit = .ok (d, u)) :
    ∀ (xs ys : List Num) (acc : Num), dotFrom (mulQty E) (addSub E .add) ⟨⟨d, u, s.rep.arith t.rep⟩, acc⟩ (vecOfQty s xs) (vecOfQty t ys) =
      (dotFrom (numOp E.fl .mul s.rep t.rep) (numOp E.fl .add (s.rep.arith t.rep) (s.rep.arith t.rep)) acc xs ys).map (Qty.mk ⟨d, u, s.rep.arith t.rep⟩)
  | [], [], _ => rfl
  | [], _ :: _, _ => rfl
  | _ :: _, [], _ => rfl
  | x :: xs, y :: ys, acc => by
    show (mulQty E ⟨s, x⟩ ⟨t, y⟩ >>= _) = Except.map _ (numOp E.fl .mul s.rep t.rep x y >>= _)
    rw [mulQty_num h]
    cases numOp E.fl .mul s.rep t.rep x y with
    | error e => rfl
    | ok p =>
      show (addSub E .add ⟨⟨d, u, s.rep.arith t.rep⟩, acc⟩ ⟨⟨d, u, s.rep.arith t.rep⟩, p⟩ >>= _) =
        Except.map _ (numOp E.fl .add (s.rep.arith t.rep) (s.rep.arith t.rep) acc p >>= _)
      rw [addSub_self (r := ⟨d, u, s.rep.arith t.rep⟩) (Rep.arith_idem _ _)]
      cases numOp E.fl .add (s.rep.arith t.rep) (s.rep.arith t.rep) acc p with
      | error e => rfl
      | ok q => exact dotFrom_qty h xs ys q

end

/-- C87: the product of two quantities of vectors is the sum, as quantities, of the products of the elements: outcomes with undefined behaviour agree, too. -/
theorem C87_dot {E : Env} (s t : QTy) (xs ys : List Num) (hx : xs ≠ []) (hy : ys ≠ []) :
    mulG E (qtyOfVec E.fl s xs) (qtyOfVec E.fl t ys) =
      (dotC (mulQty E) (addSub E .add) (vecOfQty s xs) (vecOfQty t ys)).map fun q => qtyOfNum E.fl q.ty q.num := by
  obtain ⟨x, xs, rfl⟩ := List.exists_cons_of_ne_nil hx
  obtain ⟨y, ys, rfl⟩ := List.exists_cons_of_ne_nil hy
  unfold mulG
  rw [show (laOps E.fl).valueFor .mul (qtyOfVec E.fl s (x :: xs)).ty.rep (qtyOfVec E.fl t (y :: ys)).ty.rep = some (.sc (s.rep.arith t.rep)) from
    la_value E.fl rfl]
  show (refMultiply E s.dim s.unit t.dim t.unit >>= _) = Except.map _ (mulQty E ⟨s, x⟩ ⟨t, y⟩ >>= _)
  cases h : refMultiply E s.dim s.unit t.dim t.unit with
  | error e =>
    unfold mulQty
    rw [show refMultiply E (Qty.mk s x).ty.dim (Qty.mk s x).ty.unit (Qty.mk t y).ty.dim (Qty.mk t y).ty.unit = _ from h]
    rfl
  | ok p =>
    obtain ⟨d, u⟩ := p
    rw [mulQty_num h, ok_bind]
    show ((do let z ← (do let p ← numOp E.fl .mul s.rep t.rep x y;
                          dotFrom (numOp E.fl .mul s.rep t.rep) (numOp E.fl .add (s.rep.arith t.rep) (s.rep.arith t.rep)) p xs ys); Except.ok (VVal.sc z)) >>= _) = _
    cases numOp E.fl .mul s.rep t.rep x y with
    | error e => rfl
    | ok p =>
      show ((do let z ← dotFrom (numOp E.fl .mul s.rep t.rep) (numOp E.fl .add (s.rep.arith t.rep) (s.rep.arith t.rep)) p xs ys; Except.ok (VVal.sc z)) >>= _) =
        Except.map _ (dotFrom (mulQty E) (addSub E .add) ⟨⟨d, u, s.rep.arith t.rep⟩, p⟩ (vecOfQty s xs) (vecOfQty t ys))
      rw [dotFrom_qty h]
      cases dotFrom (numOp E.fl .mul s.rep t.rep) (numOp E.fl .add (s.rep.arith t.rep) (s.rep.arith t.rep)) p xs ys <;> rfl

section
variable {E : Env}

theorem eqQty_self (r : QTy) (x y : Num) : eqQty E ⟨r, x⟩ ⟨r, y⟩ = .ok (decide (x.q = y.q)) := by
  unfold eqQty
  show (commonQty E r r (r.rep.common r.rep) >>= _) = _
  rw [rep_common_self, bo_common_self, ok_bind, show convertQty E r ⟨r, x⟩ = .ok ⟨r, x⟩ from bo_convert_self rfl, ok_bind,
    show convertQty E r ⟨r, y⟩ = .ok ⟨r, y⟩ from bo_convert_self rfl, ok_bind]

theorem eqQty_num {s t r : QTy} (h : commonQty E s t (s.rep.common t.rep) = .ok r) (x y : Num) (e : Bool) :
    eqQty E ⟨s, x⟩ ⟨t, y⟩ = .ok (id e) ↔ (do
      let a ← (convertQty E r ⟨s, x⟩).map Qty.num
      let b ← (convertQty E r ⟨t, y⟩).map Qty.num
      let c ← (Except.ok (decide (a.q = b.q)) : C Bool)
      Except.ok c) = .ok e := by
  unfold eqQty
  show (commonQty E s t (s.rep.common t.rep) >>= _) = _ ↔ _
  rw [h, ok_bind]
  cases convertQty E r ⟨s, x⟩ with
  | error e => exact iff_of_false (fun h => by cases h) (fun h => by cases h)
  | ok a =>
    cases convertQty E r ⟨t, y⟩ with
    | error e => exact iff_of_false (fun h => by cases h) (fun h => by cases h)
    | ok b => exact Iff.rfl

theorem eqv_vec {fl : Rounding} {r : Rep} {xs ys : List Num} {e : Bool} : (laOps fl).eqv (.vec r) (.vec xs) (.vec ys) = .ok e ↔
    ∃ bs, zipC (fun x y : Num => (Except.ok (decide (x.q = y.q)) : C Bool)) xs ys = .ok bs ∧ bs.all id = e := by
  show (do let bs ← zipC (fun x y : Num => (Except.ok (decide (x.q = y.q)) : C Bool)) xs ys; Except.ok (bs.all id)) = _ ↔ _
  cases zipC (fun x y : Num => (Except.ok (decide (x.q = y.q)) : C Bool)) xs ys with
  | error e => exact iff_of_false (fun h => by cases h) (fun ⟨_, h, _⟩ => by cases h)
  | ok bs =>
    constructor
    · intro h; cases h; exact ⟨bs, rfl, rfl⟩
    · rintro ⟨_, h, rfl⟩; cases h; rfl

theorem mapM_pure {α : Type} (xs ys : List α) : xs.mapM (fun x => (Except.ok x : C α)) = .ok ys ↔ xs = ys := by
  rw [mapM_ok_iff]
  simp only [Except.ok.injEq, List.forall₂_eq_eq_eq]

end

/-- C87: two quantities of vectors are equal exactly if all their elements are, each as a quantity of its own. -/
theorem C87_equal_partial {E : Env} (hfl : KeepsOneTen E.fl) (s t : QTy) (xs ys : List Num) (e : Bool) (hx : xs ≠ []) (hy : ys ≠ [])
    (fx : VecFits s.rep (s.rep.common t.rep) xs) (fy : VecFits t.rep (s.rep.common t.rep) ys) :
    eqG E (qtyOfVec E.fl s xs) (qtyOfVec E.fl t ys) = .ok e ↔
      ∃ bs, zipC (eqQty E) (vecOfQty s xs) (vecOfQty t ys) = .ok bs ∧ bs.all id = e := by
  unfold eqG
  rw [show (qtyOfVec E.fl s xs).ty.same (qtyOfVec E.fl t ys).ty = _ from same_vec E.fl s t]
  by_cases h : s = t
  · subst h
    rw [if_pos (by simp)]
    refine eqv_vec.trans (exists_congr fun bs => and_congr ?_ Iff.rfl)
    have := zipC_qty (F := eqQty E) (G := fun x y : Num => (Except.ok (decide (x.q = y.q)) : C Bool)) (k := id) Function.injective_id (s := s) (t := s)
      (fun x y z => by rw [eqQty_self]; rfl) xs ys bs
    rw [List.map_id] at this
    exact this.symm
  · rw [if_neg (by simpa using h)]
    show (commonQtyG E (s.vec E.fl) (t.vec E.fl) (.vec (s.rep.common t.rep)) >>= _) = _ ↔ _
    rw [common_vec]
    cases hc : commonQty E s t (s.rep.common t.rep) with
    | error e' =>
      refine iff_of_false (fun h => by cases h) ?_
      rintro ⟨bs, hb, -⟩
      refine zipC_error (vecOfQty_ne hx) ?_ hb
      intro p hp q hq z _ hz
      have h1 := mem_vecOfQty hp
      have h2 := mem_vecOfQty hq
      subst h1 h2
      unfold eqQty at hz
      obtain ⟨c, h', -⟩ := bind_ok.1 hz
      rw [hc] at h'
      cases h'
    | ok c =>
      have hr := commonQty_rep hc
      show (convertG E (c.vec E.fl) (qtyOfVec E.fl s xs) >>= _) = _ ↔ _
      have key : ∀ bs, zipC (eqQty E) (vecOfQty s xs) (vecOfQty t ys) = .ok bs ↔ ∃ xs' ys', convertG E (c.vec E.fl) (qtyOfVec E.fl s xs) = .ok (qtyOfVec E.fl c xs') ∧
          convertG E (c.vec E.fl) (qtyOfVec E.fl t ys) = .ok (qtyOfVec E.fl c ys') ∧
          zipC (fun x y : Num => (Except.ok (decide (x.q = y.q)) : C Bool)) xs' ys' = .ok bs := by
        intro bs
        have := zipC_qty (k := id) Function.injective_id (eqQty_num hc) xs ys bs
        rw [List.map_id] at this
        rw [this, ← zipC_chain]
        simp only [mapM_pure]
        constructor
        · rintro ⟨xs', ys', ws, h1, h2, h3, rfl⟩
          exact ⟨xs', ys', (convert_vec' hfl s c xs xs' hx (hr ▸ fx)).2 h1, (convert_vec' hfl t c ys ys' hy (hr ▸ fy)).2 h2, h3⟩
        · rintro ⟨xs', ys', h1, h2, h3⟩
          exact ⟨xs', ys', bs, (convert_vec' hfl s c xs xs' hx (hr ▸ fx)).1 h1, (convert_vec' hfl t c ys ys' hy (hr ▸ fy)).1 h2, h3, rfl⟩
      constructor
      · intro h
        obtain ⟨x, h1, h⟩ := bind_ok.1 h
        obtain ⟨y, h2, h⟩ := bind_ok.1 h
        obtain ⟨xs', rfl⟩ := convertG_vec h1
        obtain ⟨ys', rfl⟩ := convertG_vec h2
        obtain ⟨bs, h3, rfl⟩ := eqv_vec.1 h
        exact ⟨bs, (key bs).2 ⟨xs', ys', h1, h2, h3⟩, rfl⟩
      · rintro ⟨bs, hb, rfl⟩
        obtain ⟨xs', ys', h1, h2, h3⟩ := (key bs).1 hb
        rw [h1, ok_bind, h2, ok_bind]
        exact eqv_vec.2 ⟨bs, h3, rfl⟩

section
variable {E : Env}

theorem assign_num {s t : QTy} {o : BinOp} (ho : o = .add ∨ o = .sub) (x y z : Num) : assignQty E o ⟨s, x⟩ ⟨t, y⟩ = .ok ⟨s, z⟩ ↔ (do
    let a ← (Except.ok x : C Num)
    let b ← (convertQty E s ⟨t, y⟩).map Qty.num
    let c ← compound E.fl o s.rep s.rep a b
    Except.ok c) = .ok z := by
  unfold assignQty
  show (convertQty E s ⟨t, y⟩ >>= _) = _ ↔ _
  cases convertQty E s ⟨t, y⟩ with
  | error e => exact iff_of_false (fun h => by cases h) (fun h => by cases h)
  | ok b =>
    rw [ok_bind, if_neg (by rcases ho with rfl | rfl <;> rintro ⟨h, -⟩ <;> cases h)]
    show (compound E.fl o s.rep s.rep x b.num >>= _) = _ ↔ (compound E.fl o s.rep s.rep x b.num >>= _) = _
    cases compound E.fl o s.rep s.rep x b.num with
    | error e => exact iff_of_false (fun h => by cases h) (fun h => by cases h)
    | ok c =>
      show Except.ok _ = Except.ok _ ↔ Except.ok _ = Except.ok _
      simp

end

/-- C87: the compound assignments of quantities of vectors change every element as the assignment of the quantities would. -/
theorem C87_assign_partial {E : Env} (hfl : KeepsOneTen E.fl) (s t : QTy) (xs ys zs : List Num) (hy : ys ≠ []) (fy : VecFits t.rep s.rep ys) (r : Rep) (v : Num) :
    (∀ o, o = .add ∨ o = .sub → (assignG E o (qtyOfVec E.fl s xs) (qtyOfVec E.fl t ys) = .ok (qtyOfVec E.fl s zs) ↔
      zipC (assignQty E o) (vecOfQty s xs) (vecOfQty t ys) = .ok (vecOfQty s zs))) ∧
    (∀ o, o = .mul ∨ o = .div → (assignNumG o (qtyOfVec E.fl s xs) (VTy.sc r, VVal.sc v) = .ok (qtyOfVec E.fl s zs) ↔
      (vecOfQty s xs).mapM (fun q => assignNum E o q r v) = .ok (vecOfQty s zs))) := by
  constructor
  · intro o ho
    have hasg : ((decide (o = .mod) && (laOps E.fl).treatFloating (s.vec E.fl).rep) || !(laOps E.fl).assignable o (s.vec E.fl).rep (s.vec E.fl).rep) = false := by
      rcases ho with rfl | rfl <;> rfl
    have hz : ∀ b, (laOps E.fl).assign o (s.vec E.fl).rep (s.vec E.fl).rep (VVal.vec xs) (VVal.vec b) =
        (do let z ← zipC (compound E.fl o s.rep s.rep) xs b; Except.ok (VVal.vec z)) := by
      intro b; rcases ho with rfl | rfl <;> rfl
    rw [show vecOfQty s zs = zs.map (Qty.mk s) from rfl, zipC_qty (k := Qty.mk s) (mk_injective s) (assign_num ho), ← zipC_chain]
    simp only [mapM_pure]
    unfold assignG
    show (convertG E (s.vec E.fl) (qtyOfVec E.fl t ys) >>= _) = _ ↔ _
    constructor
    · intro h
      obtain ⟨y, h1, h⟩ := bind_ok.1 h
      obtain ⟨ys', rfl⟩ := convertG_vec h1
      rw [show (qtyOfVec E.fl s xs).ty = s.vec E.fl from rfl, hasg] at h
      obtain ⟨w, h2, h⟩ := bind_ok.1 h
      rw [show (laOps E.fl).assign o (s.vec E.fl).rep (s.vec E.fl).rep (qtyOfVec E.fl s xs).num (qtyOfVec E.fl s ys').num = _ from hz ys'] at h2
      obtain ⟨ws, h3, h2⟩ := bind_ok.1 h2
      cases h2
      rw [Except.ok.injEq] at h
      cases (qtyOfVec_inj.1 h).2
      exact ⟨xs, ys', zs, rfl, (convert_vec' hfl t s ys ys' hy fy).1 h1, h3, rfl⟩
    · rintro ⟨xs', ys', ws, rfl, h1, h2, rfl⟩
      rw [(convert_vec' hfl t s ys ys' hy fy).2 h1, ok_bind, show (qtyOfVec E.fl s xs).ty = s.vec E.fl from rfl, hasg]
      show ((laOps E.fl).assign o (s.vec E.fl).rep (s.vec E.fl).rep (VVal.vec xs) (VVal.vec ys') >>= _) = _
      rw [hz, h2]
      rfl
  · intro o ho
    have hz : ∀ x z, assignNum E o ⟨s, x⟩ r v = .ok ⟨s, z⟩ ↔ compound E.fl o s.rep r x v = .ok z := by
      intro x z
      unfold assignNum
      rw [if_neg (by rcases ho with rfl | rfl <;> rintro ⟨h, -⟩ <;> cases h)]
      exact num_bind
    rw [mapM_qty hz, ← vec_bind (E := E) (s := s)]
    unfold assignNumG
    rcases ho with rfl | rfl
    · rw [if_neg (by intro h; cases h)]; exact Iff.rfl
    · rw [if_neg (by intro h; cases h)]; exact Iff.rfl

/-! ### The vectors of the example -/

theorem exEnv_keeps : KeepsOneTen exEnv.fl := fun _ => ⟨rfl, rfl⟩

/-- The numbers of an outcome. -/
def exVecOf {fl : Rounding} (x : C (QtyG (laOps fl))) : Except UB (VVal Num) := x.map QtyG.num

theorem exFits (b : FltTy) {xs : List Num} (h : ∀ v ∈ xs, v.Typed (.flt .f64)) : VecFits (.flt .f64) (.flt b) xs :=
  ⟨h, fun t ht => by cases b <;> cases ht⟩

example : exVecOf (quantityCastG exEnv ((exMetres (.flt .f64)).vec exEnv.fl) (qtyOfVec exEnv.fl (exKms (.flt .f64)) [.f 3, .f 2, .f 1])) =
      .ok (.vec [.f 3000, .f 2000, .f 1000]) ∧
    exVecOf (addSubG exEnv .add (qtyOfVec exEnv.fl (exMetres (.flt .f64)) [.f 1, .f 2, .f 3]) (qtyOfVec exEnv.fl (exKms (.flt .f64)) [.f 3, .f 2, .f 1])) =
      .ok (.vec [.f 3001, .f 2002, .f 1003]) ∧
    exVecOf (mulG exEnv (qtyOfVec exEnv.fl (exMetres (.flt .f64)) [.f 1, .f 2, .f 3]) (qtyOfVec exEnv.fl (exKms (.flt .f64)) [.f 3, .f 2, .f 1])) =
      .ok (.sc (.f 10)) ∧
    eqG exEnv (qtyOfVec exEnv.fl (exMetres (.flt .f64)) [.f 3000, .f 2000]) (qtyOfVec exEnv.fl (exKms (.flt .f64)) [.f 3, .f 2]) = .ok true ∧
    eqG exEnv (qtyOfVec exEnv.fl (exMetres (.flt .f64)) [.f 3000, .f 2001]) (qtyOfVec exEnv.fl (exKms (.flt .f64)) [.f 3, .f 2]) = .ok false := by
  refine ⟨?_, ?_, ?_, ?_, ?_⟩ <;> decide +kernel

example : exVecOf (scaleLeftG (S := laOps exEnv.fl) (VTy.sc (.int .i32), VVal.sc (.i 2)) (qtyOfVec exEnv.fl (exMetres (.flt .f64)) [.f 3, .f 2, .f 1])) =
      .ok (.vec [.f 6, .f 4, .f 2]) ∧
    exVecOf (mulG exEnv (qtyOfNum exEnv.fl (exMetres (.flt .f64)) (.f 2)) (qtyOfVec exEnv.fl (exKms (.flt .f64)) [.f 3, .f 2, .f 1])) =
      .ok (.vec [.f 6, .f 4, .f 2]) ∧
    exVecOf (divG exEnv (qtyOfVec exEnv.fl (exKms (.flt .f64)) [.f 4, .f 8, .f 4]) (qtyOfNum exEnv.fl (exMetres (.flt .f64)) (.f 2))) =
      .ok (.vec [.f 2, .f 4, .f 2]) ∧
    exVecOf (assignG exEnv .sub (qtyOfVec exEnv.fl (exMetres (.flt .f64)) [.f 1, .f 2]) (qtyOfVec exEnv.fl (exKms (.flt .f64)) [.f 3, .f 2])) =
      .ok (.vec [.f (-2999), .f (-1998)]) ∧
    exVecOf (addSubG exEnv .add (qtyOfVec exEnv.fl (exMetres (.flt .f64)) [.f 1, .f 2]) (qtyOfVec exEnv.fl (exKms (.flt .f64)) [.f 3])) =
      .error .rejected := by
  refine ⟨?_, ?_, ?_, ?_, ?_⟩ <;> decide +kernel

example : VecFits (.flt .f64) (.flt .f64) [.f 3, .f 2, .f 1] ∧ VecFits (.int .i32) (.int .i64) [.i (-3), .i 2] :=
  ⟨exFits _ (by simp [Num.Typed]), by simp [Num.Typed, IntTy.In]; decide, fun t ht x hx => by
    cases ht
    simp only [List.mem_cons, Num.i.injEq, List.not_mem_nil, or_false] at hx
    rcases hx with rfl | rfl <;> decide⟩

/-- C87 needs elements that the common type holds: minus one hundred centimetres are minus one metre, but the vector is converted to the common type of its elements
before it is divided, which gives another number of metres. -/
theorem C87_fits : exVecOf (quantityCastG exEnv ((exMetres (.int .u32)).vec exEnv.fl) (qtyOfVec exEnv.fl (exCms (.int .i32)) [.i (-100)])) =
      .ok (.vec [.i 42949671]) ∧
    (quantityCast exEnv (exMetres (.int .u32)) ⟨exCms (.int .i32), .i (-100)⟩).map Qty.num = .ok (.i 4294967295) := by
  decide +kernel

end Verif
