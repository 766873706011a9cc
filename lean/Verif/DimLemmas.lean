import Verif.Dim
import Verif.Downcast
import Mathlib.Data.Rat.Lemmas

/-! # Helper lemmas about dimensions: exponents of a dimension, canonical lists, scaling of exponents -/

namespace Verif

/-- Specification: the exponent of the base dimension `b` in the dimension `d`. -/
def Dim.exp : Dim → BaseDim → ℚ
  | .base b', b => if b' = b then 1 else 0
  | .named n, b => expOf n.exps b
  | .unknown es, b => expOf es b

theorem Dim.exps_exp {d : Dim} {es : List Exp} (h : d.exps = .ok es) (b : BaseDim) :
    expOf es b = d.exp b := by
  cases d with
  | base b' =>
    simp only [Dim.exps, Except.ok.injEq] at h
    rw [← h, expOf_cons, expOf_nil]; simp [Dim.exp, Exp.q]
  | named n =>
    simp only [Dim.exps, Except.ok.injEq] at h
    rw [← h]; rfl
  | unknown es' => exact normalizeExps_expOf h b

theorem downcastDim_exp {Γ : DimReg} (hΓ : Γ.OK) (es : List Exp) (b : BaseDim) :
    (downcastDim Γ es).exp b = expOf es b := by
  unfold downcastDim
  split
  · rename_i n hn
    simp only [Dim.exp, hΓ es n hn]
  · rfl

theorem toDimension_exp {Γ : DimReg} (hΓ : Γ.OK) (es : List Exp) (b : BaseDim) :
    (toDimension Γ es).exp b = expOf es b := by
  rcases toDimension_cases Γ es with ⟨c, rfl, hc⟩ | ⟨-, hc⟩
  · rw [hc, expOf_cons, expOf_nil]; simp [Dim.exp, Exp.q]
  · rw [hc, downcastDim_exp hΓ]

theorem dimMultiply_exp {Γ : DimReg} (hΓ : Γ.OK) {d1 d2 d : Dim} (h : dimMultiply Γ d1 d2 = .ok d)
    (b : BaseDim) : d.exp b = d1.exp b + d2.exp b := by
  obtain ⟨es1, es2, h1, h2, hm⟩ := dimMultiply_eq_ok h
  rw [← Dim.exps_exp h1, ← Dim.exps_exp h2]
  have key : ∀ l r, mergeDim Γ l r = .ok d → d.exp b = expOf l b + expOf r b := by
    intro l r hlr
    obtain ⟨m, hc, hd⟩ := mergeDim_eq_ok.mp hlr
    rw [← hd, toDimension_exp hΓ, consolidate_expOf hc, ← expOf_append]
    exact expOf_perm (TypeList.mergeSorted_perm ..) b
  rcases hm with hm | hm
  · exact key _ _ hm
  · rw [key _ _ hm, add_comm]

theorem dimInvert_exp {Γ : DimReg} (hΓ : Γ.OK) {d d' : Dim} (h : dimInvert Γ d = .ok d') (b : BaseDim) :
    d'.exp b = - d.exp b := by
  obtain ⟨es, inv, h1, hinv, hc⟩ := dimInvert_eq_ok h
  rw [← Dim.exps_exp h1, ← invert_expOf hinv b]
  rcases hc with ⟨c, rfl, rfl⟩ | ⟨-, rfl⟩
  · have : inv = [⟨c, 1, 1⟩] := by
      simp only [mapC, expInvert, neg64] at hinv
      have h3 : chk (- -1) = .ok 1 := by decide
      rw [h3] at hinv
      simpa [ok_bind] using hinv.symm
    rw [this, expOf_cons, expOf_nil]; simp [Dim.exp, Exp.q]
  · exact downcastDim_exp hΓ _ b

theorem dimDivide_exp {Γ : DimReg} (hΓ : Γ.OK) {d1 d2 d : Dim} (h : dimDivide Γ d1 d2 = .ok d)
    (b : BaseDim) : d.exp b = d1.exp b - d2.exp b := by
  unfold dimDivide at h
  simp only [bind_ok] at h
  obtain ⟨i, hi, hm⟩ := h
  rw [dimMultiply_exp hΓ hm, dimInvert_exp hΓ hi]; ring

/-! ### Scaling an exponent -/

theorem strip10_id {d n e : Int} (hn : ¬ (10 : Int) ∣ n) : strip10 d n e = .ok (n, e) := by
  rw [strip10]
  have h0 : n ≠ 0 := fun h => hn (h ▸ dvd_zero _)
  rw [dif_neg h0, if_neg (fun h => hn (Int.dvd_of_tmod_eq_zero h))]

/-- Construction of a ratio whose reduced parts are not multiples of ten finds no power of ten. -/
theorem make_noTen {n d : Int} {r : Ratio} (hn : I64 n) (hd : I64 d)
    (h : Ratio.make n d 0 = .ok r) (ht : NoTen ((n : ℚ) / d)) :
    r = ⟨((n : ℚ) / d).num, ((n : ℚ) / d).den, 0⟩ := by
  obtain ⟨hw, hv⟩ := make_sound hn hd (by decide) h
  rw [make_eq_ok] at h
  obtain ⟨hd0, h⟩ := h
  have dq : (d : ℚ) ≠ 0 := by exact_mod_cast hd0
  have hn0 : n ≠ 0 := by
    intro h0
    apply ht.1
    rw [h0]; simp
  -- it is enough that the exponent is zero
  suffices he : r.exp = 0 by
    have hq : (r.num : ℚ) / r.den = (n : ℚ) / d := by
      have := hv
      unfold Ratio.val at this
      rw [he] at this
      simpa using this
    have hc : Nat.Coprime r.num.natAbs r.den.natAbs := hw.coprime
    have k1 := Rat.num_div_eq_of_coprime hw.den_pos hc
    have k2 := Rat.den_div_eq_of_coprime hw.den_pos hc
    rw [hq] at k1 k2
    cases r
    simp only [Ratio.mk.injEq]
    exact ⟨k1.symm, k2.symm, he⟩
  unfold normalize at h
  rw [if_neg hn0] at h
  simp only [bind_ok, sgcd_eq_ok, div64_eq_ok] at h
  obtain ⟨g, ⟨-, -, rfl⟩, s, hs, num', ⟨hg0, -, rfl⟩, a, ha, den', ⟨-, -, rfl⟩, h⟩ := h
  rw [mul64_eq_ok] at hs
  obtain ⟨-, rfl⟩ := hs
  rw [abs64_eq_ok hd] at ha
  obtain ⟨-, rfl⟩ := ha
  set g : Int := (Int.gcd n d : Int) with hg
  have gpos : 0 < g := gcd_pos_right hd0
  have gn : g ∣ n := Int.gcd_dvd_left ..
  have gd : g ∣ d := Int.gcd_dvd_right ..
  set sg : Int := if d < 0 then -1 else 1 with hsg
  have gs : g ∣ n * sg := Dvd.dvd.mul_right gn _
  have ga : g ∣ |d| := (dvd_abs g d).mpr gd
  have c1 : (n * sg).tdiv g * g = n * sg := Int.tdiv_mul_cancel gs
  have c2 : (|d|).tdiv g * g = |d| := Int.tdiv_mul_cancel ga
  have hdpos : 0 < (|d|).tdiv g := by
    have : 0 < |d| := abs_pos.mpr hd0
    rw [← c2] at this
    exact (mul_pos_iff_of_pos_right gpos).mp this
  have hsgd : |d| = d * sg := by
    rw [hsg]; split
    · rename_i h1; rw [abs_of_neg h1]; ring
    · rename_i h1; rw [abs_of_nonneg (by omega)]; ring
  have hsg0 : sg ≠ 0 := by rw [hsg]; split <;> norm_num
  have hval : (((n * sg).tdiv g : ℤ) : ℚ) / (((|d|).tdiv g : ℤ) : ℚ) = (n : ℚ) / d := by
    have gq : (g : ℚ) ≠ 0 := by exact_mod_cast gpos.ne'
    have sq : (sg : ℚ) ≠ 0 := by exact_mod_cast hsg0
    have e1 : (((n * sg).tdiv g : ℤ) : ℚ) * g = (n : ℚ) * sg := by exact_mod_cast c1
    have e2 : (((|d|).tdiv g : ℤ) : ℚ) * g = (d : ℚ) * sg := by
      have c3 : (|d|).tdiv g * g = d * sg := c2.trans hsgd
      exact_mod_cast c3
    rw [← mul_div_mul_right _ _ gq, e1, e2, mul_div_mul_right _ _ sq]
  have hcop : Int.gcd ((n * sg).tdiv g) ((|d|).tdiv g) = 1 := by
    have hgc : Int.gcd (n * sg) |d| = Int.gcd n d := by
      rw [hsg]; split <;> simp [Int.gcd, Int.natAbs_abs]
    rw [Int.tdiv_eq_ediv_of_dvd gs, Int.tdiv_eq_ediv_of_dvd ga]
    have hgn : 0 < Int.gcd (n * sg) |d| := by rw [hgc]; have := gpos; rw [hg] at this; omega
    have := Int.gcd_ediv_gcd_ediv_gcd hgn
    rw [hgc] at this
    exact this
  have k1 := Rat.num_div_eq_of_coprime hdpos (a := (n * sg).tdiv g) hcop
  have k2 := Rat.den_div_eq_of_coprime hdpos (a := (n * sg).tdiv g) hcop
  rw [hval] at k1 k2
  have t1 : ¬ (10 : Int) ∣ (n * sg).tdiv g := by rw [← k1]; exact ht.1
  have t2 : ¬ (10 : Int) ∣ (|d|).tdiv g := by rw [← k2]; exact ht.2
  rw [strip10_id t1] at h
  simp only [Except.ok.injEq] at h
  obtain ⟨_, rfl, h⟩ := h
  dsimp only at h
  rw [strip10_id t2] at h
  simp only [Except.ok.injEq] at h
  obtain ⟨_, rfl, h⟩ := h
  simp only [Prod.mk.injEq] at h
  exact h.2.2.symm

/-- `exponent_multiply` is exact when no power of ten appears in it. -/
theorem expMultiply_noTen {e e' : Exp} {num den : Int} (hn : I64 e.num) (hd : I64 e.den) (hnum : I64 num)
    (hden : I64 den) (h : expMultiply e num den = .ok e') (t1 : NoTen e.q)
    (t2 : NoTen ((num : ℚ) / den)) (t3 : NoTen (e.q * ((num : ℚ) / den))) :
    e'.dim = e.dim ∧ e'.q = (num : ℚ) / den * e.q ∧ e'.Reduced := by
  unfold expMultiply at h
  simp only [bind_ok, Except.ok.injEq] at h
  obtain ⟨r1, h1, r2, h2, r, hr, rfl⟩ := h
  have w1 := (make_sound hn hd (by decide) h1)
  have w2 := (make_sound hnum hden (by decide) h2)
  obtain ⟨wr, vr⟩ := mul_sound w1.1 w2.1 hr
  have e1 := make_noTen hn hd h1 t1
  have e2 := make_noTen hnum hden h2 t2
  have hv : r.val = e.q * ((num : ℚ) / den) := by
    rw [vr, w1.2, w2.2]; simp [Exp.q]
  -- the final construction in the product
  rw [mul_eq_ok w1.1 w2.1] at hr
  obtain ⟨hb1, hb2, -, hmk⟩ := hr
  have hexp : r1.exp + r2.exp = 0 := by rw [e1, e2]; rfl
  rw [hexp] at hmk
  have ib : ∀ x : Int, |x| ≤ intMax → I64 x := by
    intro x hx
    rw [abs_le] at hx
    unfold I64 intMin intMax at *; omega
  have hv2 := (make_sound (ib _ hb1) (ib _ hb2) (by decide) hmk).2
  have t3' := t3
  rw [← hv, hv2] at t3'
  simp only [zpow_zero, mul_one] at t3'
  have e3 := make_noTen (ib _ hb1) (ib _ hb2) hmk t3'
  have hre : r.exp = 0 := by rw [e3]
  refine ⟨rfl, ?_, wr.den_pos, wr.coprime, ?_⟩
  · have : r.val = (r.num : ℚ) / r.den := by unfold Ratio.val; rw [hre]; simp
    simp only [Exp.q] at hv ⊢
    rw [← this, hv]; ring
  · intro h0
    apply t3.1
    have : r.val = 0 := by
      unfold Ratio.val
      have : r.num = 0 := h0
      rw [this]; simp
    rw [← hv, this]; simp

/-! ### Canonical lists -/

theorem expLess_iff (a b : Exp) : expLess a b = true ↔ a.dim.symbol < b.dim.symbol := by
  unfold expLess baseDimLess
  simp

theorem expLess_false (a b : Exp) : expLess a b = false ↔ b.dim.symbol ≤ a.dim.symbol := by
  rw [← Bool.not_eq_true, expLess_iff, not_lt]

theorem expLess_weak : TypeList.WeakOrder expLess where
  asymm a b h := by
    rw [expLess_iff] at h
    rw [expLess_false]; exact h.le
  trans a b c h1 h2 := by
    rw [expLess_false] at *
    exact h1.trans h2

/-- Canonical: in lowest terms, no zero, strictly increasing symbols. -/
structure Canon (es : List Exp) : Prop where
  reduced : ∀ e ∈ es, e.Reduced
  strict : es.Pairwise fun a b => a.dim.symbol < b.dim.symbol

theorem Canon.nil : Canon [] := ⟨by simp, List.Pairwise.nil⟩

theorem Canon.tail {e : Exp} {es : List Exp} (h : Canon (e :: es)) : Canon es :=
  ⟨fun x hx => h.reduced x (by simp [hx]), (List.pairwise_cons.mp h.strict).2⟩

theorem Canon.singleton {e : Exp} (h : e.Reduced) : Canon [e] :=
  ⟨by simpa using h, List.pairwise_singleton _ _⟩

theorem Exp.Reduced.q_ne {e : Exp} (h : e.Reduced) : e.q ≠ 0 := by
  unfold Exp.q
  have : (e.num : ℚ) ≠ 0 := by exact_mod_cast h.num_ne
  have : (e.den : ℚ) ≠ 0 := by exact_mod_cast h.den_pos.ne'
  positivity

theorem Exp.Reduced.ext {a b : Exp} (ha : a.Reduced) (hb : b.Reduced) (hd : a.dim = b.dim)
    (hq : a.q = b.q) : a = b := by
  have key : ∀ e : Exp, e.Reduced → e.q.num = e.num ∧ ((e.q.den : ℕ) : Int) = e.den := fun e he =>
    ⟨Rat.num_div_eq_of_coprime he.den_pos he.coprime, Rat.den_div_eq_of_coprime he.den_pos he.coprime⟩
  have k1 := key a ha
  have k2 := key b hb
  rw [hq] at k1
  cases a; cases b
  simp only [Exp.mk.injEq]
  exact ⟨hd, k1.1.symm.trans k2.1, k1.2.symm.trans k2.2⟩

theorem expOf_eq_zero {es : List Exp} {b : BaseDim} (h : ∀ e ∈ es, e.dim ≠ b) : expOf es b = 0 := by
  unfold expOf
  have : es.filter (fun e => e.dim = b) = [] := by
    rw [List.filter_eq_nil_iff]; intro e he; simpa using h e he
  rw [this]; simp

theorem Canon.expOf_mem {es : List Exp} (h : Canon es) {e : Exp} (he : e ∈ es) :
    expOf es e.dim = e.q := by
  induction es with
  | nil => cases he
  | cons a es ih =>
    have hs := List.pairwise_cons.mp h.strict
    rw [expOf_cons]
    rcases List.mem_cons.mp he with rfl | he
    · rw [if_pos rfl, expOf_eq_zero, add_zero]
      intro x hx hd
      have := hs.1 x hx
      rw [hd] at this; exact lt_irrefl _ this
    · have : a.dim ≠ e.dim := by
        intro hd
        have := hs.1 e he
        rw [hd] at this; exact lt_irrefl _ this
      rw [if_neg this, zero_add, ih h.tail he]

/-- Canonical lists are determined by the exponents they denote. -/
theorem Canon.ext {l r : List Exp} (hl : Canon l) (hr : Canon r) (h : ∀ b, expOf l b = expOf r b) :
    l = r := by
  have sub : ∀ {l r : List Exp}, Canon l → Canon r → (∀ b, expOf l b = expOf r b) → ∀ e ∈ l, e ∈ r := by
    intro l r hl hr h e he
    have h1 := hl.expOf_mem he
    rw [h] at h1
    have hne : expOf r e.dim ≠ 0 := by rw [h1]; exact (hl.reduced e he).q_ne
    have : ∃ e' ∈ r, e'.dim = e.dim := by
      by_contra hcon
      push Not at hcon
      exact hne (expOf_eq_zero hcon)
    obtain ⟨e', he', hd⟩ := this
    have h2 := hr.expOf_mem he'
    rw [hd, h1] at h2
    have := Exp.Reduced.ext (hl.reduced e he) (hr.reduced e' he') hd.symm h2
    rw [this]; exact he'
  have nd : ∀ {l : List Exp}, Canon l → l.Nodup := by
    intro l hl
    refine hl.strict.imp ?_
    intro a b hab heq
    rw [heq] at hab; exact lt_irrefl _ hab
  have hp : l.Perm r :=
    (List.perm_ext_iff_of_nodup (nd hl) (nd hr)).mpr
      fun e => ⟨sub hl hr h e, sub hr hl (fun b => (h b).symm) e⟩
  exact hp.eq_of_pairwise
    (fun a b _ _ h1 h2 => absurd (lt_trans h1 h2) (lt_irrefl _)) hl.strict hr.strict

theorem consolidate_strict {es : List Exp} (h : es.Pairwise fun a b => a.dim.symbol < b.dim.symbol) :
    consolidate es = .ok es := by
  induction es with
  | nil => rw [consolidate]
  | cons a es ih =>
    cases es with
    | nil => rw [consolidate]
    | cons b es =>
      have hs := List.pairwise_cons.mp h
      rw [consolidate, if_neg, ih hs.2, ok_bind]
      · rfl
      · intro hd
        have := hs.1 b (by simp)
        rw [hd] at this; exact lt_irrefl _ this

theorem consolidate_cons_lt {e : Exp} {es : List Exp} (h : ∀ x ∈ es, e.dim.symbol < x.dim.symbol) :
    consolidate (e :: es) = (consolidate es >>= fun tl => .ok (e :: tl)) := by
  cases es with
  | nil => rw [consolidate, consolidate, ok_bind]
  | cons b es =>
    rw [consolidate, if_neg]
    · rfl
    · intro hd
      have := h b (by simp)
      rw [hd] at this; exact lt_irrefl _ this

theorem sort_canon {es : List Exp} (h : Canon es) : TypeList.sort expLess es = es := by
  have o1 := TypeList.sort_ordered expLess_weak es
  have o2 : TypeList.Ordered expLess es := h.strict.imp fun hab => by
    rw [expLess_false]; exact hab.le
  refine (TypeList.sort_perm expLess es).eq_of_pairwise ?_ o1 o2
  intro a b ha hb h1 h2
  rw [expLess_false] at h1 h2
  have ha := (TypeList.sort_perm expLess es).mem_iff.mp ha
  have hsym := le_antisymm h1 h2
  by_contra hne
  have hp : es.Pairwise fun a b => a.dim.symbol ≠ b.dim.symbol := h.strict.imp fun h => h.ne
  have : Std.Symm (fun a b : Exp => a.dim.symbol ≠ b.dim.symbol) := ⟨fun _ _ h => Ne.symm h⟩
  exact hp.forall ha hb hne hsym

theorem normalizeExps_canon {es : List Exp} (h : Canon es) : normalizeExps es = .ok es := by
  unfold normalizeExps
  rw [sort_canon h, consolidate_strict h.strict]

/-- The base dimensions satisfying `P` are told apart by their symbols (true within one system). -/
def Separated (P : BaseDim → Prop) : Prop := ∀ a b, P a → P b → a.symbol = b.symbol → a = b

/-- Consolidating an ordered list over separated base dimensions gives a canonical list. -/
theorem consolidate_canon {P : BaseDim → Prop} (hP : Separated P) {es es' : List Exp}
    (h : consolidate es = .ok es') (ho : TypeList.Ordered expLess es) (hp : ∀ e ∈ es, P e.dim)
    (hr : ∀ e ∈ es, e.Reduced) : Canon es' ∧ ∀ e ∈ es', ∃ e0 ∈ es, e0.dim = e.dim := by
  induction hn : es.length using Nat.strong_induction_on generalizing es es' with
  | _ n ih =>
    match es, hn with
    | [], _ =>
      rw [consolidate] at h; simp only [Except.ok.injEq] at h; rw [← h]
      exact ⟨Canon.nil, by simp⟩
    | [e], _ =>
      rw [consolidate] at h; simp only [Except.ok.injEq] at h; rw [← h]
      exact ⟨Canon.singleton (hr e (by simp)), fun x hx => ⟨x, hx, rfl⟩⟩
    | e1 :: e2 :: rest, hn =>
      rw [consolidate] at h
      simp only [List.length_cons] at hn
      have ho1 := List.pairwise_cons.mp ho
      have ho2 := List.pairwise_cons.mp ho1.2
      split at h
      · rename_i hd
        simp only [bind_ok] at h
        obtain ⟨⟨n', d'⟩, hs, h⟩ := h
        obtain ⟨dpos, cop, -, -⟩ := stdRatioAdd_eq_ok hs
        dsimp only at h
        split at h
        · obtain ⟨c, m⟩ := ih rest.length (by omega) h ho2.2 (fun e he => hp e (by simp [he]))
            (fun e he => hr e (by simp [he])) rfl
          exact ⟨c, fun e he => by
            obtain ⟨e0, h0, h1⟩ := m e he
            exact ⟨e0, by simp [h0], h1⟩⟩
        · rename_i h0
          obtain ⟨c, m⟩ := ih (rest.length + 1) (by omega) h
            (List.pairwise_cons.mpr ⟨fun x hx => by
              have := ho1.1 x (by simp [hx])
              rw [expLess_false] at this ⊢
              exact this, ho2.2⟩)
            (fun e he => by
              rcases List.mem_cons.mp he with rfl | he
              · exact hp e1 (by simp)
              · exact hp e (by simp [he]))
            (fun e he => by
              rcases List.mem_cons.mp he with rfl | he
              · exact ⟨dpos, cop, h0⟩
              · exact hr e (by simp [he])) rfl
          exact ⟨c, fun e he => by
            obtain ⟨e0, h0, h1⟩ := m e he
            rcases List.mem_cons.mp h0 with rfl | h0
            · exact ⟨e1, by simp, h1⟩
            · exact ⟨e0, by simp [h0], h1⟩⟩
      · rename_i hd
        simp only [bind_ok, Except.ok.injEq] at h
        obtain ⟨tl, htl, rfl⟩ := h
        obtain ⟨c, m⟩ := ih (rest.length + 1) (by omega) htl ho1.2 (fun e he => hp e (by simp [he]))
            (fun e he => hr e (by simp [he])) rfl
        simp only [TypeList.pushFront, List.singleton_append]
        have lt12 : e1.dim.symbol < e2.dim.symbol := by
          have h1 := ho1.1 e2 (by simp)
          rw [expLess_false] at h1
          refine lt_of_le_of_ne h1 fun heq => hd (hP _ _ (hp e1 (by simp)) (hp e2 (by simp)) heq)
        have ltall : ∀ x ∈ e2 :: rest, e1.dim.symbol < x.dim.symbol := by
          intro x hx
          rcases List.mem_cons.mp hx with rfl | hx
          · exact lt12
          · have := ho2.1 x hx
            rw [expLess_false] at this
            exact lt12.trans_le this
        refine ⟨⟨?_, List.pairwise_cons.mpr ⟨?_, c.strict⟩⟩, ?_⟩
        · intro e he
          rcases List.mem_cons.mp he with rfl | he
          · exact hr _ (by simp)
          · exact c.reduced e he
        · intro x hx
          obtain ⟨e0, h0, h1⟩ := m x hx
          rw [← h1]; exact ltall e0 h0
        · intro e he
          rcases List.mem_cons.mp he with rfl | he
          · exact ⟨_, by simp, rfl⟩
          · obtain ⟨e0, h0, h1⟩ := m e he
            exact ⟨e0, List.mem_cons_of_mem _ h0, h1⟩

/-- A dimension in normal form over the base dimensions `P`: what operations produce. -/
def Dim.Normal (Γ : DimReg) (P : BaseDim → Prop) (d : Dim) : Prop :=
  ∃ es, Canon es ∧ (∀ e ∈ es, P e.dim) ∧ d = toDimension Γ es

theorem toDimension_exps {Γ : DimReg} (hΓ : Γ.OK) {es : List Exp} (h : Canon es) :
    (toDimension Γ es).exps = .ok es := by
  rcases toDimension_cases Γ es with ⟨c, rfl, hc⟩ | ⟨-, hc⟩
  · rw [hc]; rfl
  · rw [hc]; unfold downcastDim
    split
    · rename_i n hn
      simp only [Dim.exps, hΓ es n hn]
    · exact normalizeExps_canon h

/-- Dimensions in normal form are determined by their exponents. -/
theorem Dim.Normal.ext {Γ : DimReg} (hΓ : Γ.OK) {P Q : BaseDim → Prop} {d1 d2 : Dim}
    (h1 : d1.Normal Γ P) (h2 : d2.Normal Γ Q) (h : ∀ b, d1.exp b = d2.exp b) : d1 = d2 := by
  obtain ⟨l, cl, -, rfl⟩ := h1
  obtain ⟨r, cr, -, rfl⟩ := h2
  have : l = r := cl.ext cr fun b => by
    have := h b
    rwa [toDimension_exp hΓ, toDimension_exp hΓ] at this
  rw [this]

theorem canon_ordered {es : List Exp} (h : Canon es) : TypeList.Ordered expLess es :=
  h.strict.imp fun hab => by rw [expLess_false]; exact hab.le

theorem mergeDim_normal {Γ : DimReg} {P : BaseDim → Prop} (hP : Separated P) {l r : List Exp} {d : Dim}
    (hl : Canon l) (hr : Canon r) (pl : ∀ e ∈ l, P e.dim) (pr : ∀ e ∈ r, P e.dim)
    (h : mergeDim Γ l r = .ok d) : d.Normal Γ P := by
  obtain ⟨m, hm, rfl⟩ := mergeDim_eq_ok.mp h
  have mem : ∀ {x}, x ∈ TypeList.mergeSorted expLess l r → x ∈ l ∨ x ∈ r := fun hx =>
    List.mem_append.mp ((TypeList.mergeSorted_perm ..).mem_iff.mp hx)
  have pp : ∀ e ∈ TypeList.mergeSorted expLess l r, P e.dim := fun e he =>
    (mem he).elim (pl e) (pr e)
  obtain ⟨c, k⟩ := consolidate_canon hP hm
    (TypeList.mergeSorted_ordered expLess_weak l r (canon_ordered hl) (canon_ordered hr)) pp
    (fun e he => (mem he).elim (hl.reduced e) (hr.reduced e))
  refine ⟨m, c, ?_, rfl⟩
  intro e he
  obtain ⟨e0, h0, h1⟩ := k e he
  rw [← h1]; exact pp e0 h0

theorem dimMultiply_normal {Γ : DimReg} (hΓ : Γ.OK) {P : BaseDim → Prop} (hP : Separated P)
    {d1 d2 d : Dim} (h1 : d1.Normal Γ P) (h2 : d2.Normal Γ P) (h : dimMultiply Γ d1 d2 = .ok d) :
    d.Normal Γ P := by
  obtain ⟨l, cl, pl, rfl⟩ := h1
  obtain ⟨r, cr, pr, rfl⟩ := h2
  obtain ⟨es1, es2, e1, e2, hm⟩ := dimMultiply_eq_ok h
  rw [toDimension_exps hΓ cl] at e1
  rw [toDimension_exps hΓ cr] at e2
  simp only [Except.ok.injEq] at e1 e2
  subst e1; subst e2
  rcases hm with hm | hm
  · exact mergeDim_normal hP cl cr pl pr hm
  · exact mergeDim_normal hP cr cl pr pl hm

theorem invert_canon {es inv : List Exp} (h : mapC expInvert es = .ok inv) (hc : Canon es) :
    Canon inv ∧ inv.map Exp.dim = es.map Exp.dim := by
  rw [mapC_eq_ok] at h
  have hmap : inv = es.map fun e => ⟨e.dim, -e.num, e.den⟩ := by
    clear hc
    induction h with
    | nil => rfl
    | cons h1 _ ih =>
      obtain ⟨-, rfl⟩ := expInvert_eq_ok.mp h1
      rw [ih]; rfl
  subst hmap
  refine ⟨⟨?_, ?_⟩, ?_⟩
  · intro e he
    obtain ⟨e0, h0, rfl⟩ := List.mem_map.mp he
    have := hc.reduced e0 h0
    exact ⟨this.den_pos, by simpa using this.coprime, by simpa using this.num_ne⟩
  · rw [List.pairwise_map]; exact hc.strict
  · simp [Function.comp_def]

/-- Where inversion gives the reciprocal of a base dimension to the power minus one it gives the base
dimension, otherwise what is registered for the inverted list; both are the normal form. -/
theorem dimInvert_normal {Γ : DimReg} (hΓ : Γ.OK) {P : BaseDim → Prop} {d d' : Dim}
    (h1 : d.Normal Γ P) (h : dimInvert Γ d = .ok d') : d'.Normal Γ P := by
  obtain ⟨l, cl, pl, rfl⟩ := h1
  obtain ⟨es, inv, e1, hinv, hc⟩ := dimInvert_eq_ok h
  rw [toDimension_exps hΓ cl] at e1
  simp only [Except.ok.injEq] at e1
  subst e1
  obtain ⟨ci, hd⟩ := invert_canon hinv cl
  have pi : ∀ e ∈ inv, P e.dim := by
    intro e he
    have : e.dim ∈ inv.map Exp.dim := List.mem_map_of_mem he
    rw [hd] at this
    obtain ⟨e0, h0, h1⟩ := List.mem_map.mp this
    rw [← h1]; exact pl e0 h0
  rcases hc with ⟨b, rfl, rfl⟩ | ⟨hne, hc⟩
  · refine ⟨[⟨b, 1, 1⟩], Canon.singleton ⟨by simp, by simp, by simp⟩, ?_, rfl⟩
    intro e he
    simp only [List.mem_singleton] at he
    subst he
    exact pl ⟨b, -1, 1⟩ (by simp)
  · refine ⟨inv, ci, pi, ?_⟩
    rcases toDimension_cases Γ inv with ⟨c, rfl, -⟩ | ⟨-, ht⟩
    · -- the inverted list is [c^1], so the original one was [c^-1]
      rw [mapC_eq_ok] at hinv
      cases hinv with
      | cons k1 k2 =>
        cases k2
        rename_i a
        obtain ⟨-, hk⟩ := expInvert_eq_ok.mp k1
        simp only [Exp.mk.injEq] at hk
        obtain ⟨q1, q2, q3⟩ := hk
        refine absurd ?_ (hne c)
        cases a
        simp only [List.cons.injEq, Exp.mk.injEq, and_true] at *
        exact ⟨q1.symm, by omega, q3.symm⟩
    · rw [ht]; exact hc

theorem stdRatioAdd_comm (n1 d1 n2 d2 : Int) : stdRatioAdd n1 d1 n2 d2 = stdRatioAdd n2 d2 n1 d1 := by
  unfold stdRatioAdd
  have e1 : n1 * d2 + n2 * d1 = n2 * d1 + n1 * d2 := by ring
  have e2 : d1 * d2 = d2 * d1 := by ring
  rw [e1, e2]
  by_cases h1 : d1 = 0 <;> by_cases h2 : d2 = 0 <;> simp [h1, h2]

theorem lt_mergeSorted {x : Exp} {l r : List Exp} (h1 : ∀ y ∈ l, x.dim.symbol < y.dim.symbol)
    (h2 : ∀ y ∈ r, x.dim.symbol < y.dim.symbol) :
    ∀ y ∈ TypeList.mergeSorted expLess l r, x.dim.symbol < y.dim.symbol := fun y hy =>
  (List.mem_append.mp ((TypeList.mergeSorted_perm ..).mem_iff.mp hy)).elim (h1 y) (h2 y)

theorem mergeSorted_lt {x : Exp} {l r : List Exp} (h : ∀ y ∈ r, x.dim.symbol < y.dim.symbol) :
    TypeList.mergeSorted expLess (x :: l) r = x :: TypeList.mergeSorted expLess l r := by
  cases r with
  | nil => rw [TypeList.mergeSorted_nil_right, TypeList.mergeSorted_nil_right]
  | cons y r => rw [TypeList.mergeSorted_cons, if_pos ((expLess_iff _ _).mpr (h y (by simp)))]

theorem mergeSorted_ge {x y : Exp} {l r : List Exp} (h : y.dim.symbol ≤ x.dim.symbol) :
    TypeList.mergeSorted expLess (x :: l) (y :: r) = y :: TypeList.mergeSorted expLess (x :: l) r := by
  rw [TypeList.mergeSorted_cons, if_neg]
  rw [Bool.not_eq_true, expLess_false]; exact h

/-- Merging canonical lists over separated base dimensions and consolidating does not depend on the
order of the operands, including whether it is accepted. -/
theorem consolidate_merge_comm {P : BaseDim → Prop} (hP : Separated P) (l r : List Exp)
    (hl : Canon l) (hr : Canon r) (pl : ∀ e ∈ l, P e.dim) (pr : ∀ e ∈ r, P e.dim) :
    consolidate (TypeList.mergeSorted expLess l r) = consolidate (TypeList.mergeSorted expLess r l) := by
  induction l generalizing r with
  | nil => rw [TypeList.mergeSorted_nil_left, TypeList.mergeSorted_nil_right]
  | cons a l ih =>
    induction r with
    | nil => rw [TypeList.mergeSorted_nil_left, TypeList.mergeSorted_nil_right]
    | cons b r ihr =>
      have al := (List.pairwise_cons.mp hl.strict).1
      have br := (List.pairwise_cons.mp hr.strict).1
      have pl' : ∀ e ∈ l, P e.dim := fun e he => pl e (by simp [he])
      have pr' : ∀ e ∈ r, P e.dim := fun e he => pr e (by simp [he])
      rcases lt_trichotomy a.dim.symbol b.dim.symbol with hab | hab | hab
      · have abr : ∀ y ∈ b :: r, a.dim.symbol < y.dim.symbol := by
          intro y hy
          rcases List.mem_cons.mp hy with rfl | hy
          · exact hab
          · exact hab.trans (br y hy)
        rw [mergeSorted_lt abr, mergeSorted_ge hab.le, consolidate_cons_lt (lt_mergeSorted al abr),
          consolidate_cons_lt (lt_mergeSorted abr al), ih (b :: r) hl.tail hr pl' pr]
      · have hd : a.dim = b.dim := hP _ _ (pl a (by simp)) (pr b (by simp)) hab
        have ar : ∀ y ∈ r, a.dim.symbol < y.dim.symbol := fun y hy => hab ▸ br y hy
        have bl : ∀ y ∈ l, b.dim.symbol < y.dim.symbol := fun y hy => hab ▸ al y hy
        rw [mergeSorted_ge hab.ge, mergeSorted_lt ar, mergeSorted_ge hab.le, mergeSorted_lt bl]
        rw [consolidate, consolidate, if_pos hd.symm, if_pos hd, stdRatioAdd_comm]
        congr 1
        funext p
        have c1 := ih r hl.tail hr.tail pl' pr'
        rw [c1]
        have k1 : consolidate (⟨b.dim, p.1, p.2⟩ :: TypeList.mergeSorted expLess l r)
            = (consolidate (TypeList.mergeSorted expLess l r) >>= fun tl => .ok (⟨b.dim, p.1, p.2⟩ :: tl)) :=
          consolidate_cons_lt (lt_mergeSorted bl br)
        have k2 : consolidate (⟨a.dim, p.1, p.2⟩ :: TypeList.mergeSorted expLess r l)
            = (consolidate (TypeList.mergeSorted expLess r l) >>= fun tl => .ok (⟨a.dim, p.1, p.2⟩ :: tl)) :=
          consolidate_cons_lt (lt_mergeSorted ar al)
        obtain ⟨p1, p2⟩ := p
        dsimp only at k1 k2 ⊢
        rw [k1, k2, c1, hd]
      · have bal : ∀ y ∈ a :: l, b.dim.symbol < y.dim.symbol := by
          intro y hy
          rcases List.mem_cons.mp hy with rfl | hy
          · exact hab
          · exact hab.trans (al y hy)
        rw [mergeSorted_ge hab.le, mergeSorted_lt bal, consolidate_cons_lt (lt_mergeSorted bal br),
          consolidate_cons_lt (lt_mergeSorted br bal), ihr hr.tail pr']

theorem mergeDim_comm {Γ : DimReg} {P : BaseDim → Prop} (hP : Separated P) {l r : List Exp}
    (hl : Canon l) (hr : Canon r) (pl : ∀ e ∈ l, P e.dim) (pr : ∀ e ∈ r, P e.dim) :
    mergeDim Γ l r = mergeDim Γ r l := by
  unfold mergeDim
  rw [consolidate_merge_comm hP l r hl hr pl pr]

/-- For operands in normal form, multiplication is the merge of the lists in either order. -/
theorem dimMultiply_eq_merge {Γ : DimReg} (hΓ : Γ.OK) {P : BaseDim → Prop} (hP : Separated P)
    {l r : List Exp} (hl : Canon l) (hr : Canon r) (pl : ∀ e ∈ l, P e.dim) (pr : ∀ e ∈ r, P e.dim) :
    dimMultiply Γ (toDimension Γ l) (toDimension Γ r) = mergeDim Γ l r := by
  have e1 := toDimension_exps hΓ hl
  have e2 := toDimension_exps hΓ hr
  have hc := mergeDim_comm (Γ := Γ) hP hl hr pl pr
  generalize toDimension Γ l = d1 at e1
  generalize toDimension Γ r = d2 at e2
  have b1 : ∀ b, d1 = .base b → l = [⟨b, 1, 1⟩] := by
    rintro b rfl; simpa [Dim.exps] using e1.symm
  have b2 : ∀ b, d2 = .base b → r = [⟨b, 1, 1⟩] := by
    rintro b rfl; simpa [Dim.exps] using e2.symm
  unfold dimMultiply
  split
  · rename_i x y
    rw [b1 x rfl, b2 y rfl]
  · rename_i x _
    rw [e2, b1 x rfl]; rfl
  · rename_i _ y _
    rw [e1, ok_bind, hc, b2 y rfl]
  · rw [e1, e2]; rfl

/-! ### Recipes -/

/-- Every exponent produced while unpacking is exact and in lowest terms when this holds. -/
structure RecipeItem.Exact (i : RecipeItem) : Prop where
  base : ∀ b, i.dim = .base b → (Exp.mk b i.num i.den).Reduced
  i64 : I64 i.num ∧ I64 i.den
  derived : (∀ b, i.dim ≠ .base b) → ∀ es, i.dim.exps = .ok es → NoTen ((i.num : ℚ) / i.den) ∧
    ∀ e ∈ es, I64 e.num ∧ I64 e.den ∧ NoTen e.q ∧ NoTen (e.q * ((i.num : ℚ) / i.den))

/-- The specification of a recipe: the sum of the exponents contributed by its items. -/
def recipeExp (r : List RecipeItem) (b : BaseDim) : ℚ :=
  (r.map fun i => ((i.num : ℚ) / i.den) * i.dim.exp b).sum

theorem dimUnpack_derived {d : Dim} {n m : Int} {rest : List RecipeItem} (h : ∀ b, d ≠ .base b) :
    dimUnpack (⟨d, n, m⟩ :: rest) = (do
      let es ← d.exps
      let ms ← mapC (fun e => expMultiply e n m) es
      let tl ← dimUnpack rest
      .ok (TypeList.pushFront tl ms)) := by
  cases d with
  | base b => exact absurd rfl (h b)
  | named _ => rfl
  | unknown _ => rfl

theorem dimUnpack_spec {recipe : List RecipeItem} {es : List Exp} (h : dimUnpack recipe = .ok es)
    (hx : ∀ i ∈ recipe, i.Exact) :
    (∀ b, expOf es b = recipeExp recipe b) ∧ (∀ e ∈ es, e.Reduced) ∧
      (∀ e ∈ es, ∃ i ∈ recipe, ∃ es0, i.dim.exps = .ok es0 ∧ ∃ e0 ∈ es0, e0.dim = e.dim) := by
  induction recipe generalizing es with
  | nil =>
    simp only [dimUnpack, Except.ok.injEq] at h
    rw [← h]
    exact ⟨fun b => by simp [expOf, recipeExp], by simp, by simp⟩
  | cons i rest ih =>
    obtain ⟨d, n, m⟩ := i
    have hi := hx ⟨d, n, m⟩ (by simp)
    by_cases hb : ∃ b, d = .base b
    · obtain ⟨b0, rfl⟩ := hb
      simp only [dimUnpack, bind_ok, Except.ok.injEq] at h
      obtain ⟨tl, htl, rfl⟩ := h
      obtain ⟨i1, i2, i3⟩ := ih htl (fun i hi => hx i (by simp [hi]))
      simp only [TypeList.pushFront, List.singleton_append]
      refine ⟨?_, ?_, ?_⟩
      · intro b
        rw [expOf_cons, i1]
        simp only [recipeExp, List.map_cons, List.sum_cons, Dim.exp, Exp.q]
        split <;> simp
      · intro e he
        rcases List.mem_cons.mp he with rfl | he
        · exact hi.base b0 rfl
        · exact i2 e he
      · intro e he
        rcases List.mem_cons.mp he with rfl | he
        · exact ⟨⟨.base b0, n, m⟩, by simp, [⟨b0, 1, 1⟩], rfl, ⟨b0, 1, 1⟩, by simp, rfl⟩
        · obtain ⟨i, hi, k⟩ := i3 e he
          exact ⟨i, by simp [hi], k⟩
    · push Not at hb
      rw [dimUnpack_derived hb] at h
      simp only [bind_ok, Except.ok.injEq] at h
      obtain ⟨es0, h0, ms, hms, tl, htl, rfl⟩ := h
      obtain ⟨i1, i2, i3⟩ := ih htl (fun i hi => hx i (by simp [hi]))
      obtain ⟨t2, hd⟩ := hi.derived hb es0 h0
      dsimp only at t2 hd
      have key : ∀ e ∈ es0, ∀ e', expMultiply e n m = .ok e' →
          e'.dim = e.dim ∧ e'.q = ((n : ℚ) / m) * e.q ∧ e'.Reduced := by
        intro e he e' he'
        obtain ⟨a1, a2, a3, a4⟩ := hd e he
        exact expMultiply_noTen a1 a2 hi.i64.1 hi.i64.2 he' a3 t2 a4
      have mem : ∀ e' ∈ ms, ∃ e ∈ es0, expMultiply e n m = .ok e' := by
        rw [mapC_eq_ok] at hms
        clear key hd h0
        induction hms with
        | nil => simp
        | cons h1 _ ih =>
          intro e' he'
          rcases List.mem_cons.mp he' with rfl | he'
          · exact ⟨_, by simp, h1⟩
          · obtain ⟨e, he, k⟩ := ih e' he'
            exact ⟨e, by simp [he], k⟩
      simp only [TypeList.pushFront]
      refine ⟨?_, ?_, ?_⟩
      · intro b
        rw [expOf_append, i1, mapC_expOf_smul hms (fun e he e' he' =>
          ⟨(key e he e' he').1, (key e he e' he').2.1⟩) b, Dim.exps_exp h0]
        simp [recipeExp]
      · intro e he
        rcases List.mem_append.mp he with he | he
        · obtain ⟨e0, k0, k1⟩ := mem e he
          exact (key e0 k0 e k1).2.2
        · exact i2 e he
      · intro e he
        rcases List.mem_append.mp he with he | he
        · obtain ⟨e0, k0, k1⟩ := mem e he
          exact ⟨⟨d, n, m⟩, by simp, es0, h0, e0, k0, (key e0 k0 e k1).1.symm⟩
        · obtain ⟨i, hi, k⟩ := i3 e he
          exact ⟨i, by simp [hi], k⟩

/-! ### Powers -/

theorem dimPow_eq_ok {Γ : DimReg} {d d' : Dim} {num den : Int} (h : dimPow Γ d num den = .ok d') :
    (∃ b, d = .base b ∧ num = 1 ∧ den = 1 ∧ d' = .base b) ∨
    (∃ b, d = .base b ∧ ¬ (num = 1 ∧ den = 1) ∧ d' = downcastDim Γ [⟨b, num, den⟩]) ∨
    ((∀ b, d ≠ .base b) ∧ ∃ b, d.exps = .ok [⟨b, den, num⟩] ∧ d' = .base b) ∨
    ((∀ b, d ≠ .base b) ∧ ∃ es es', d.exps = .ok es ∧ (∀ b, es ≠ [⟨b, den, num⟩]) ∧
      mapC (fun e => expMultiply e num den) es = .ok es' ∧ d' = downcastDim Γ es') := by
  unfold dimPow at h
  split at h
  · rename_i b
    split at h
    · rename_i hc
      simp only [Except.ok.injEq] at h
      exact Or.inl ⟨b, rfl, hc.1, hc.2, h.symm⟩
    · rename_i hc
      simp only [Except.ok.injEq] at h
      exact Or.inr (Or.inl ⟨b, rfl, hc, h.symm⟩)
  · rename_i hb
    have hb' : ∀ b, d ≠ .base b := fun b e => hb b e
    refine Or.inr (Or.inr ?_)
    simp only [bind_ok] at h
    obtain ⟨es, hes, h⟩ := h
    split at h
    · rename_i b n m
      split at h
      · rename_i hc
        simp only [Except.ok.injEq] at h
        obtain ⟨rfl, rfl⟩ := hc
        exact Or.inl ⟨hb', b, hes, h.symm⟩
      · rename_i hc
        simp only [bind_ok, Except.ok.injEq] at h
        obtain ⟨es', h1, h2⟩ := h
        refine Or.inr ⟨hb', _, es', hes, ?_, h1, h2.symm⟩
        intro c hcc
        simp only [List.cons.injEq, Exp.mk.injEq, and_true] at hcc
        exact hc ⟨hcc.2.1, hcc.2.2⟩
    · rename_i hne
      simp only [bind_ok, Except.ok.injEq] at h
      obtain ⟨es', h1, h2⟩ := h
      exact Or.inr ⟨hb', _, es', hes, fun b hb => hne b den num hb, h1, h2.symm⟩

/-- No power of ten appears when the exponents of `d` are multiplied by `num/den`. -/
structure PowExact (d : Dim) (num den : Int) : Prop where
  i64 : I64 num ∧ I64 den
  ten : NoTen ((num : ℚ) / den)
  exps : ∀ es, d.exps = .ok es → ∀ e ∈ es, I64 e.num ∧ I64 e.den ∧ NoTen e.q ∧
    NoTen (e.q * ((num : ℚ) / den))

theorem PowExact.mul {d : Dim} {num den : Int} (hx : PowExact d num den) {es : List Exp}
    (hes : d.exps = .ok es) : ∀ e ∈ es, ∀ e', expMultiply e num den = .ok e' →
      e'.dim = e.dim ∧ e'.q = ((num : ℚ) / den) * e.q ∧ e'.Reduced := by
  intro e he e' he'
  obtain ⟨a1, a2, a3, a4⟩ := hx.exps es hes e he
  exact expMultiply_noTen a1 a2 hx.i64.1 hx.i64.2 he' a3 hx.ten a4

theorem NoTen.parts {num den : Int} (h : NoTen ((num : ℚ) / den)) : num ≠ 0 ∧ den ≠ 0 := by
  constructor <;> rintro rfl <;> exact h.1 (by simp)

theorem dimPow_exp {Γ : DimReg} (hΓ : Γ.OK) {d d' : Dim} {num den : Int}
    (h : dimPow Γ d num den = .ok d') (hx : (∀ b, d ≠ .base b) → PowExact d num den) (b : BaseDim) :
    d'.exp b = ((num : ℚ) / den) * d.exp b := by
  rcases dimPow_eq_ok h with ⟨c, rfl, rfl, rfl, rfl⟩ | ⟨c, rfl, -, rfl⟩ | ⟨hb, c, hes, rfl⟩ |
      ⟨hb, es, es', hes, -, hm, rfl⟩
  · simp [Dim.exp]
  · rw [downcastDim_exp hΓ, expOf_cons, expOf_nil]
    simp only [Dim.exp, Exp.q]
    split <;> simp
  · rw [← Dim.exps_exp hes, expOf_cons, expOf_nil]
    obtain ⟨n0, d0⟩ := (hx hb).ten.parts
    have n0 : (num : ℚ) ≠ 0 := by exact_mod_cast n0
    have d0 : (den : ℚ) ≠ 0 := by exact_mod_cast d0
    simp only [Dim.exp, Exp.q]
    split
    · field_simp; ring
    · simp
  · rw [downcastDim_exp hΓ, ← Dim.exps_exp hes]
    exact mapC_expOf_smul hm (fun e he e' he' =>
      ⟨((hx hb).mul hes e he e' he').1, ((hx hb).mul hes e he e' he').2.1⟩) b

theorem forall₂_dims {f : Exp → C Exp} {es es' : List Exp} (h : mapC f es = .ok es')
    (hf : ∀ e ∈ es, ∀ e', f e = .ok e' → e'.dim = e.dim) : es'.map Exp.dim = es.map Exp.dim := by
  rw [mapC_eq_ok] at h
  induction h with
  | nil => rfl
  | cons h1 _ ih =>
    rw [List.map_cons, List.map_cons, hf _ (by simp) _ h1, ih fun e he => hf e (by simp [he])]

/-- Powers with a positive numerator, in lowest terms, keep dimensions in normal form. -/
theorem dimPow_normal {Γ : DimReg} (hΓ : Γ.OK) {P : BaseDim → Prop} {d d' : Dim} {num den : Int}
    (hd : d.Normal Γ P) (h : dimPow Γ d num den = .ok d')
    (hx : (∀ b, d ≠ .base b) → PowExact d num den) (hpos : 0 < num) (hden : 0 < den)
    (hcop : Int.gcd num den = 1) : d'.Normal Γ P := by
  obtain ⟨l, cl, pl, rfl⟩ := hd
  have hl := toDimension_exps hΓ cl
  rcases dimPow_eq_ok h with ⟨c, hc, rfl, rfl, rfl⟩ | ⟨c, hc, hne, rfl⟩ | ⟨hb, c, hes, rfl⟩ |
      ⟨hb, es, es', hes, hne, hm, rfl⟩
  · rw [hc] at hl
    simp only [Dim.exps, Except.ok.injEq] at hl
    exact ⟨l, cl, pl, by rw [hc]⟩
  · rw [hc] at hl
    simp only [Dim.exps, Except.ok.injEq] at hl
    subst hl
    refine ⟨[⟨c, num, den⟩], Canon.singleton ⟨hden, hcop, hpos.ne'⟩, ?_, ?_⟩
    · intro e he
      simp only [List.mem_singleton] at he
      subst he
      exact pl ⟨c, 1, 1⟩ (by simp)
    · rcases toDimension_cases Γ [⟨c, num, den⟩] with ⟨b, hb, -⟩ | ⟨-, ht⟩
      · simp only [List.cons.injEq, Exp.mk.injEq, and_true] at hb
        exact absurd ⟨hb.2.1, hb.2.2⟩ hne
      · rw [ht]
  · rw [hl] at hes
    simp only [Except.ok.injEq] at hes
    subst hes
    refine ⟨[⟨c, 1, 1⟩], Canon.singleton ⟨by simp, by simp, by simp⟩, ?_, rfl⟩
    intro e he
    simp only [List.mem_singleton] at he
    subst he
    exact pl ⟨c, den, num⟩ (by simp)
  · have k := (hx hb).mul hes
    rw [hl] at hes
    simp only [Except.ok.injEq] at hes
    subst hes
    have hdm := forall₂_dims hm (fun e he e' he' => (k e he e' he').1)
    have mem : ∀ e' ∈ es', ∃ e ∈ l, expMultiply e num den = .ok e' := by
      have hm := mapC_eq_ok.mp hm
      clear * - hm
      induction hm with
      | nil => simp
      | cons h1 _ ih =>
        intro e' he'
        rcases List.mem_cons.mp he' with rfl | he'
        · exact ⟨_, by simp, h1⟩
        · obtain ⟨e, he, k⟩ := ih e' he'
          exact ⟨e, by simp [he], k⟩
    have ce : Canon es' := by
      refine ⟨fun e' he' => ?_, ?_⟩
      · obtain ⟨e, he, q⟩ := mem e' he'
        exact (k e he e' q).2.2
      · have h1 : (l.map Exp.dim).Pairwise fun a b => a.symbol < b.symbol :=
          List.pairwise_map.mpr cl.strict
        rw [← hdm] at h1
        exact (List.pairwise_map (f := Exp.dim) (R := fun a b : BaseDim => a.symbol < b.symbol)).mp h1
    refine ⟨es', ce, ?_, ?_⟩
    · intro e' he'
      obtain ⟨e, he, q⟩ := mem e' he'
      rw [(k e he e' q).1]; exact pl e he
    · rcases toDimension_cases Γ es' with ⟨c, rfl, -⟩ | ⟨-, ht⟩
      · exfalso
        rw [mapC_eq_ok] at hm
        cases hm with
        | cons k1 k2 =>
          cases k2
          rename_i a
          obtain ⟨q1, q2, -⟩ := k a (by simp) _ k1
          have ra := cl.reduced a (by simp)
          -- a.q * (num/den) = 1, so a = den/num
          have nq : (num : ℚ) ≠ 0 := by exact_mod_cast hpos.ne'
          have dq : (den : ℚ) ≠ 0 := by exact_mod_cast hden.ne'
          have hq : a.q = (Exp.mk a.dim den num).q := by
            simp only [Exp.q, Int.cast_one, div_one] at q2 ⊢
            field_simp at q2 ⊢
            linarith
          have := Exp.Reduced.ext ra (b := ⟨a.dim, den, num⟩)
            ⟨hpos, by rw [Int.gcd_comm]; exact hcop, hden.ne'⟩ rfl hq
          exact hne a.dim (by rw [← this])
      · rw [ht]

/-! ### The registry built by the definitions -/

/-- The registry after the dimension definitions `defs` have been seen, each registering itself as the
child of its exponent list, src/core/include/units/derived_dimension.h:83 and
src/core/include/units/bits/external/downcasting.h:87-104. -/
def regOf (s : Downcast.State (List Exp) NamedDim) : DimReg := fun es => Downcast.downcast s es

theorem regOf_ok {mode : Downcast.Mode} {defs : List NamedDim} {s : Downcast.State (List Exp) NamedDim}
    (h : Downcast.defineAll mode .empty (defs.map fun n => (n, n.exps)) = .ok s) : (regOf s).OK := by
  intro es n hn
  unfold regOf at hn
  rw [Downcast.downcast_defineAll h] at hn
  have hmem : n ∈ Downcast.childrenOf (defs.map fun n => (n, n.exps)) es := by
    revert hn
    generalize Downcast.childrenOf (defs.map fun n => (n, n.exps)) es = cs
    intro hn
    cases mode <;> match cs, hn with
      | [c], hn => simp [Downcast.outcome] at hn <;> simp [hn]
      | [], hn => simp [Downcast.outcome] at hn
      | _ :: _ :: _, hn => simp [Downcast.outcome] at hn
  unfold Downcast.childrenOf at hmem
  simp only [List.mem_map, List.mem_filter] at hmem
  obtain ⟨⟨a, b⟩, ⟨⟨n', -, h1⟩, h2⟩, h3⟩ := hmem
  simp only [Prod.mk.injEq] at h1
  simp only [decide_eq_true_eq] at h2
  rw [← h3, ← h1.1, h1.2, h2]

end Verif
