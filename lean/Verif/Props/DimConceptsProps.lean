import Verif.DimConcepts
import Verif.DimLemmas
import Verif.Standards

/-! # C72: what the concepts of the dimension class templates mean -/

set_option Elab.async false

namespace Verif

open Systems Standards

/-! ### Specification -/

/-- The symbols of the base quantities of the ISQ (ISO 80000-1, table 1) in the order of the powers in `isqDimensions`, and the library's angle. -/
def isqSymbols : List String := ["L", "M", "T", "I", "Θ", "N", "J", "A"]

/-- The power of the base quantity with symbol `s` in a dimension of the ISQ. -/
def power (v : List Int) (s : String) : Int :=
  match isqSymbols.idxOf? s with
  | some i => v.getD i 0
  | none => 0

/-- The dimension of the quantity a class template is named after. -/
def isqDimension (c : Nat) : Option (List Int) := dimensionOf 0 (if c = n!"dim_angle".code then n!"dim_angle<>".code else c)

/-- The sum of the exponents of the base dimensions with symbol `s`. -/
def isqExp (es : List Exp) (s : String) : ℚ := (es.map fun e => if e.dim.symbol = s then e.q else 0).sum

/-! ### Helper lemmas: integral exponents by symbol -/

private def isum (es : List Exp) (s : String) : Int := (es.map fun e => if e.dim.symbol = s then e.num else 0).sum
private def iabs (es : List Exp) (s : String) : Nat := (es.map fun e => if e.dim.symbol = s then e.num.natAbs else 0).sum

private def isqOf (c : Nat) : List Int := (isqDimension c).getD []

private structure Inv (es : List Exp) (m : String → Int) (B : String → Nat) : Prop where
  den : ∀ e ∈ es, e.den = 1
  nz : ∀ e ∈ es, e.num ≠ 0
  sum : ∀ s, isum es s = m s
  abs : ∀ s, iabs es s ≤ B s

private theorem isum_cons (e : Exp) (es : List Exp) (s : String) : isum (e :: es) s = (if e.dim.symbol = s then e.num else 0) + isum es s := by
  simp [isum]

private theorem iabs_cons (e : Exp) (es : List Exp) (s : String) : iabs (e :: es) s = (if e.dim.symbol = s then e.num.natAbs else 0) + iabs es s := by
  simp [iabs]

private theorem isum_append (l r : List Exp) (s : String) : isum (l ++ r) s = isum l s + isum r s := by simp [isum]
private theorem iabs_append (l r : List Exp) (s : String) : iabs (l ++ r) s = iabs l s + iabs r s := by simp [iabs]

private theorem Inv.isqExp {es : List Exp} {m : String → Int} {B : String → Nat} (h : Inv es m B) (s : String) : isqExp es s = m s := by
  rw [← h.sum s]
  have hd := h.den
  clear h
  unfold Verif.isqExp isum
  induction es with
  | nil => simp
  | cons e es ih =>
    have he := hd e (by simp)
    have := ih fun x hx => hd x (by simp [hx])
    simp only [List.map_cons, List.sum_cons, this]
    unfold Exp.q
    rw [he]
    push_cast
    split <;> simp

private theorem stdRatioAdd_int {a b n d : Int} (h : stdRatioAdd a 1 b 1 = .ok (n, d)) : n = a + b ∧ d = 1 := by
  unfold stdRatioAdd at h
  simp at h
  split at h
  · cases h; exact ⟨rfl, rfl⟩
  · cases h

private theorem consolidate_inv {es es' : List Exp} (h : consolidate es = .ok es') (hd : ∀ e ∈ es, e.den = 1) (hn : ∀ e ∈ es, e.num ≠ 0) :
    (∀ e ∈ es', e.den = 1) ∧ (∀ e ∈ es', e.num ≠ 0) ∧ ∀ s, isum es' s = isum es s ∧ iabs es' s ≤ iabs es s := by
  induction hl : es.length using Nat.strong_induction_on generalizing es es' with
  | _ n ih =>
    match es, hl with
    | [], _ =>
      rw [consolidate] at h; cases h
      simp
    | [e], _ =>
      rw [consolidate] at h; cases h
      exact ⟨hd, hn, fun s => ⟨rfl, le_refl _⟩⟩
    | e1 :: e2 :: rest, hl =>
      rw [consolidate] at h
      simp only [List.length_cons] at hl
      split at h
      · rename_i hdim
        simp only [bind_ok] at h
        obtain ⟨⟨k, d⟩, hs, h⟩ := h
        rw [hd e1 (by simp), hd e2 (by simp)] at hs
        obtain ⟨rfl, rfl⟩ := stdRatioAdd_int hs
        dsimp only at h
        split at h
        · rename_i h0
          obtain ⟨a, b, c⟩ := ih rest.length (by omega) h (fun e he => hd e (by simp [he])) (fun e he => hn e (by simp [he])) rfl
          refine ⟨a, b, fun s => ?_⟩
          obtain ⟨c1, c2⟩ := c s
          rw [isum_cons, isum_cons, iabs_cons, iabs_cons, hdim]
          constructor
          · split <;> omega
          · omega
        · rename_i h0
          obtain ⟨a, b, c⟩ := ih (rest.length + 1) (by omega) h
            (fun e he => by
              rcases List.mem_cons.mp he with rfl | he
              · rfl
              · exact hd e (by simp [he]))
            (fun e he => by
              rcases List.mem_cons.mp he with rfl | he
              · exact h0
              · exact hn e (by simp [he])) rfl
          refine ⟨a, b, fun s => ?_⟩
          obtain ⟨c1, c2⟩ := c s
          rw [isum_cons] at c1
          rw [iabs_cons] at c2
          dsimp only at c1 c2
          rw [isum_cons, isum_cons, iabs_cons, iabs_cons, ← hdim]
          split at c1
          · rename_i hs
            rw [if_pos hs] at c2
            simp only [hs, if_true]
            have := Int.natAbs_add_le e1.num e2.num
            constructor <;> omega
          · rename_i hs
            rw [if_neg hs] at c2
            simp only [hs, if_false]
            constructor <;> omega
      · simp only [bind_ok, Except.ok.injEq] at h
        obtain ⟨tl, htl, rfl⟩ := h
        obtain ⟨a, b, c⟩ := ih (rest.length + 1) (by omega) htl (fun e he => hd e (by simp [he])) (fun e he => hn e (by simp [he])) rfl
        simp only [TypeList.pushFront, List.singleton_append]
        refine ⟨?_, ?_, fun s => ?_⟩
        · intro e he
          rcases List.mem_cons.mp he with rfl | he
          · exact hd _ (by simp)
          · exact a e he
        · intro e he
          rcases List.mem_cons.mp he with rfl | he
          · exact hn _ (by simp)
          · exact b e he
        · obtain ⟨c1, c2⟩ := c s
          rw [isum_cons, iabs_cons, isum_cons e1, iabs_cons e1, c1]
          exact ⟨rfl, by omega⟩

private theorem normalize_inv {es es' : List Exp} {m : String → Int} {B : String → Nat} (h : normalizeExps es = .ok es') (hi : Inv es m B) :
    Inv es' m B := by
  have hp := TypeList.sort_perm expLess es
  obtain ⟨a, b, c⟩ := consolidate_inv h (fun e he => hi.den e (hp.mem_iff.mp he)) (fun e he => hi.nz e (hp.mem_iff.mp he))
  refine ⟨a, b, fun s => ?_, fun s => ?_⟩
  · rw [(c s).1, ← hi.sum s]
    exact (hp.map _).sum_eq
  · refine (c s).2.trans (le_trans (le_of_eq ?_) (hi.abs s))
    exact (hp.map _).sum_eq

private theorem noTen_int {k : Int} (h0 : k ≠ 0) (h : k.natAbs ≤ 9) : NoTen (k : ℚ) := by
  constructor
  · rw [Rat.num_intCast]; omega
  · rw [Rat.den_intCast]; decide

private theorem expMultiply_int {e e' : Exp} {k : Int} (hd : e.den = 1) (h0 : e.num ≠ 0) (hk : k ≠ 0) (hb : (k * e.num).natAbs ≤ 9)
    (h : expMultiply e k 1 = .ok e') : e' = ⟨e.dim, k * e.num, 1⟩ := by
  have k1 : 1 ≤ k.natAbs := by omega
  have n1 : 1 ≤ e.num.natAbs := by omega
  rw [Int.natAbs_mul] at hb
  have hk9 : k.natAbs ≤ 9 := le_trans (by nlinarith) hb
  have hn9 : e.num.natAbs ≤ 9 := le_trans (by nlinarith) hb
  have i64 : ∀ x : Int, x.natAbs ≤ 9 → I64 x := fun x hx => by unfold I64 intMin intMax; omega
  have q1 : e.q = e.num := by unfold Exp.q; rw [hd]; simp
  obtain ⟨h1, h2, h3⟩ := expMultiply_noTen (i64 _ hn9) (by rw [hd]; decide) (i64 _ hk9) (by decide) h (by rw [q1]; exact noTen_int h0 hn9)
    (by simpa using noTen_int hk hk9) (by
      rw [q1, Int.cast_one, div_one, mul_comm, ← Int.cast_mul]
      exact noTen_int (mul_ne_zero hk h0) (by rw [Int.natAbs_mul]; exact hb))
  refine Exp.Reduced.ext h3 ⟨Int.one_pos, by simp, mul_ne_zero hk h0⟩ h1 ?_
  rw [h2, q1]
  simp [Exp.q]

private theorem mapC_expMultiply {es es' : List Exp} {k : Int} {m : String → Int} {B : String → Nat} (hi : Inv es m B) (hk : k ≠ 0)
    (hb : ∀ s, k.natAbs * B s ≤ 9) (h : mapC (fun e => expMultiply e k 1) es = .ok es') :
    Inv es' (fun s => k * m s) (fun s => k.natAbs * B s) := by
  have key : ∀ {es es' : List Exp}, (∀ e ∈ es, e.den = 1) → (∀ e ∈ es, e.num ≠ 0) → (∀ e ∈ es, (k * e.num).natAbs ≤ 9) →
      mapC (fun e => expMultiply e k 1) es = .ok es' → es' = es.map fun e => ⟨e.dim, k * e.num, 1⟩ := by
    intro es
    induction es with
    | nil => intro es' _ _ _ h; cases h; rfl
    | cons e es ih =>
      intro es' h1 h2 h3 h
      simp only [mapC, bind_ok, Except.ok.injEq] at h
      obtain ⟨b, hb, bs, hbs, rfl⟩ := h
      rw [expMultiply_int (h1 e (by simp)) (h2 e (by simp)) hk (h3 e (by simp)) hb,
        ih (fun x hx => h1 x (by simp [hx])) (fun x hx => h2 x (by simp [hx])) (fun x hx => h3 x (by simp [hx])) hbs]
      rfl
  have hle : ∀ {es : List Exp} {e : Exp}, e ∈ es → e.num.natAbs ≤ iabs es e.dim.symbol := by
    intro es
    induction es with
    | nil => intro e he; cases he
    | cons a es ih =>
      intro e he
      rw [iabs_cons]
      rcases List.mem_cons.mp he with rfl | he
      · simp
      · exact (ih he).trans (by omega)
  have he := key hi.den hi.nz (fun e he => by
    rw [Int.natAbs_mul]
    exact le_trans (Nat.mul_le_mul_left _ ((hle he).trans (hi.abs _))) (hb e.dim.symbol)) h
  subst he
  refine ⟨?_, ?_, fun s => ?_, fun s => ?_⟩
  · intro e he
    obtain ⟨x, _, rfl⟩ := List.mem_map.mp he
    rfl
  · intro e he
    obtain ⟨x, hx, rfl⟩ := List.mem_map.mp he
    exact mul_ne_zero hk (hi.nz x hx)
  · rw [← hi.sum s]
    unfold isum
    rw [List.map_map, ← List.sum_map_mul_left]
    congr 2
    funext e
    simp
  · refine le_trans (le_of_eq ?_) (Nat.mul_le_mul_left _ (hi.abs s))
    unfold iabs
    rw [List.map_map, ← List.sum_map_mul_left]
    congr 2
    funext e
    simp [Int.natAbs_mul]

private theorem inv_base (b : BaseDim) : Inv [⟨b, 1, 1⟩] (fun s => if b.symbol = s then 1 else 0) (fun s => if b.symbol = s then 1 else 0) := by
  refine ⟨by simp, by simp, fun s => ?_, fun s => ?_⟩ <;> simp [isum, iabs]

/-- An item of a recipe with the exponents by symbol and bounds of its dimension. -/
private structure ItemOK (p : RecipeItem × (String → Int) × (String → Nat)) : Prop where
  den : p.1.den = 1
  nz : p.1.num ≠ 0
  bound : ∀ s, p.1.num.natAbs * p.2.2 s ≤ 9
  inv : ∀ es, p.1.dim.exps = .ok es → Inv es p.2.1 p.2.2

private theorem inv_append {l r : List Exp} {m m' : String → Int} {B B' : String → Nat} (hl : Inv l m B) (hr : Inv r m' B') :
    Inv (l ++ r) (fun s => m s + m' s) (fun s => B s + B' s) := by
  refine ⟨?_, ?_, fun s => ?_, fun s => ?_⟩
  · intro e he
    rcases List.mem_append.mp he with he | he
    · exact hl.den e he
    · exact hr.den e he
  · intro e he
    rcases List.mem_append.mp he with he | he
    · exact hl.nz e he
    · exact hr.nz e he
  · rw [isum_append, hl.sum, hr.sum]
  · rw [iabs_append]; exact Nat.add_le_add (hl.abs s) (hr.abs s)

private theorem dimUnpack_inv {ps : List (RecipeItem × (String → Int) × (String → Nat))} {es : List Exp} (h : dimUnpack (ps.map (·.1)) = .ok es)
    (hp : ∀ p ∈ ps, ItemOK p) :
    Inv es (fun s => (ps.map fun p => p.1.num * p.2.1 s).sum) (fun s => (ps.map fun p => p.1.num.natAbs * p.2.2 s).sum) := by
  induction ps generalizing es with
  | nil =>
    cases h
    exact ⟨by simp, by simp, fun s => rfl, fun s => le_refl _⟩
  | cons p ps ih =>
    obtain ⟨⟨d, n, k⟩, m, B⟩ := p
    have ok := hp _ (List.mem_cons_self ..)
    have hden : k = 1 := ok.den
    subst hden
    simp only [List.map_cons] at h
    have key : ∀ ms : List Exp, (∃ xs, d.exps = .ok xs ∧ mapC (fun e => expMultiply e n 1) xs = .ok ms) →
        Inv ms (fun s => n * m s) (fun s => n.natAbs * B s) := by
      rintro ms ⟨xs, h1, h2⟩
      exact mapC_expMultiply (ok.inv xs h1) ok.nz ok.bound h2
    cases d with
    | base b =>
      simp only [dimUnpack, bind_ok, Except.ok.injEq] at h
      obtain ⟨tl, htl, rfl⟩ := h
      refine inv_append ?_ (ih htl fun p hp' => hp p (List.mem_cons_of_mem _ hp'))
      have hb := ok.inv _ rfl
      refine ⟨by simp, by simpa using ok.nz, fun s => ?_, fun s => ?_⟩
      · have := hb.sum s
        simp only [isum_cons] at this ⊢
        simp only [isum, List.map_nil, List.sum_nil, add_zero] at this ⊢
        rw [← this]; split <;> simp
      · have := hb.abs s
        simp only [iabs_cons] at this ⊢
        simp only [iabs, List.map_nil, List.sum_nil, add_zero] at this ⊢
        refine le_trans (le_of_eq ?_) (Nat.mul_le_mul_left _ this)
        split <;> simp
    | named nd =>
      simp only [dimUnpack, bind_ok, Except.ok.injEq] at h
      obtain ⟨xs, h1, ms, h2, tl, htl, rfl⟩ := h
      exact inv_append (key ms ⟨xs, h1, h2⟩) (ih htl fun p hp' => hp p (List.mem_cons_of_mem _ hp'))
    | unknown us =>
      simp only [dimUnpack, bind_ok, Except.ok.injEq] at h
      obtain ⟨xs, h1, ms, h2, tl, htl, rfl⟩ := h
      exact inv_append (key ms ⟨xs, h1, h2⟩) (ih htl fun p hp' => hp p (List.mem_cons_of_mem _ hp'))

/-! ### Helper lemmas: the table of templates -/

/-- Bounds of the absolute exponents, per template and base quantity, computed in the order of the declarations. -/
private def boundTable : List (Nat × List Nat) :=
  dimTemplates.foldl (fun t d =>
    match d with
    | .baseTemplate n sym => (n.code, isqSymbols.map fun s => if s = sym then 1 else 0) :: t
    | .derivedTemplate n ps r => (n.code, (List.range 8).map fun j => (r.map fun x => x.2.1.natAbs *
        (((t.find? fun e => e.1 == (ps.getD x.1 ⟨"", 0⟩).code).map (·.2)).getD []).getD j 0).sum) :: t
    | _ => t) []

private def boundOf (c : Nat) : List Nat := ((boundTable.find? fun e => e.1 == c).map (·.2)).getD []

private def checkTemplate : Decl → Bool
  | .baseTemplate n sym => (List.range 8).all fun j =>
      (isqOf n.code).getD j 0 == (if isqSymbols[j]? = some sym then 1 else 0) && (boundOf n.code).getD j 0 == (if isqSymbols[j]? = some sym then 1 else 0)
  | .derivedTemplate n ps r =>
    (r.all fun x => x.2.2 == 1 && x.2.1 != 0 && decide (x.1 < ps.length) &&
      (List.range 8).all fun j => decide (x.2.1.natAbs * (boundOf (ps.getD x.1 ⟨"", 0⟩).code).getD j 0 ≤ 9)) &&
    (List.range 8).all fun j => (r.map fun x => x.2.1 * (isqOf (ps.getD x.1 ⟨"", 0⟩).code).getD j 0).sum == (isqOf n.code).getD j 0 &&
      decide ((r.map fun x => x.2.1.natAbs * (boundOf (ps.getD x.1 ⟨"", 0⟩).code).getD j 0).sum ≤ (boundOf n.code).getD j 0)
  | _ => true

private theorem templates_checked : dimTemplates.all checkTemplate = true := by decide +kernel

private theorem power_some {v : List Int} {s : String} {i : Nat} (h : isqSymbols.idxOf? s = some i) : power v s = v.getD i 0 := by
  unfold power; rw [h]

private theorem power_none {v : List Int} {s : String} (h : isqSymbols.idxOf? s = none) : power v s = 0 := by
  unfold power; rw [h]

private def bnd (c : Nat) (s : String) : Nat :=
  match isqSymbols.idxOf? s with
  | some i => (boundOf c).getD i 0
  | none => 0

private theorem idxOf_lt {s : String} {i : Nat} (h : isqSymbols.idxOf? s = some i) : i < 8 ∧ isqSymbols[i]? = some s := by
  unfold List.idxOf? at h
  rw [List.findIdx?_eq_some_iff_getElem] at h
  obtain ⟨hi, h1, -⟩ := h
  exact ⟨hi, by rw [List.getElem?_eq_getElem hi, beq_iff_eq.mp h1]⟩

private theorem base_spec {n : Nm} {sym : String} (h : Decl.baseTemplate n sym ∈ dimTemplates) (s : String) :
    power (isqOf n.code) s = (if sym = s then 1 else 0) ∧ bnd n.code s = if sym = s then 1 else 0 := by
  have hc := List.all_eq_true.mp templates_checked _ h
  have hm : sym ∈ isqSymbols := by
    have : dimTemplates.all (fun d => match d with | .baseTemplate _ s => isqSymbols.contains s | _ => true) = true := by decide +kernel
    simpa using List.all_eq_true.mp this _ h
  simp only [checkTemplate, List.all_eq_true, List.mem_range, Bool.and_eq_true, beq_iff_eq] at hc
  unfold bnd
  cases hi : isqSymbols.idxOf? s with
  | none =>
    rw [power_none hi]
    have : sym ≠ s := by
      rintro rfl
      rw [List.idxOf?_eq_none_iff] at hi
      exact hi hm
    simp [this]
  | some i =>
    obtain ⟨h8, hs⟩ := idxOf_lt hi
    obtain ⟨h1, h2⟩ := hc i h8
    dsimp only
    rw [power_some hi, h1, h2, hs]
    simp only [Option.some.injEq, eq_comm (a := s), and_self]

private structure RecipeOK (n : Nm) (ps : List Nm) (r : List (Nat × Int × Int)) : Prop where
  item : ∀ x ∈ r, x.2.2 = 1 ∧ x.2.1 ≠ 0 ∧ x.1 < ps.length
  bound : ∀ x ∈ r, ∀ s, x.2.1.natAbs * bnd (ps.getD x.1 ⟨"", 0⟩).code s ≤ 9
  sum : ∀ s, (r.map fun x => x.2.1 * power (isqOf (ps.getD x.1 ⟨"", 0⟩).code) s).sum = power (isqOf n.code) s
  abs : ∀ s, (r.map fun x => x.2.1.natAbs * bnd (ps.getD x.1 ⟨"", 0⟩).code s).sum ≤ bnd n.code s

private theorem recipe_ok {n : Nm} {ps : List Nm} {r : List (Nat × Int × Int)} (h : Decl.derivedTemplate n ps r ∈ dimTemplates) : RecipeOK n ps r := by
  have hc := List.all_eq_true.mp templates_checked _ h
  simp only [checkTemplate, List.all_eq_true, List.mem_range, Bool.and_eq_true, beq_iff_eq, bne_iff_ne, decide_eq_true_eq] at hc
  obtain ⟨h1, h2⟩ := hc
  refine ⟨fun x hx => ⟨(h1 x hx).1.1.1, (h1 x hx).1.1.2, (h1 x hx).1.2⟩, fun x hx s => ?_, fun s => ?_, fun s => ?_⟩
  · unfold bnd
    cases hi : isqSymbols.idxOf? s with
    | none => simp
    | some i => exact (h1 x hx).2 i (idxOf_lt hi).1
  · cases hi : isqSymbols.idxOf? s with
    | none => simp [power_none hi]
    | some i => simp only [power_some hi]; exact (h2 i (idxOf_lt hi).1).1
  · unfold bnd
    cases hi : isqSymbols.idxOf? s with
    | none => simp
    | some i => exact (h2 i (idxOf_lt hi).1).2

/-- The exponents of an instantiation of a template whose arguments have the right exponents. -/
private theorem inst_inv {n : Nm} {ps : List Nm} {r : List (Nat × Int × Int)} (hr : RecipeOK n ps r) {args : List Dim} (hl : args.length = ps.length)
    (ha : ∀ (i : Nat) (p : Nm) (a : Dim), ps[i]? = some p → args[i]? = some a → ∀ es, a.exps = .ok es → Inv es (power (isqOf p.code)) (bnd p.code))
    {es : List Exp} (h : dimUnpack (instRecipe r args) = .ok es) : Inv es (power (isqOf n.code)) (bnd n.code) := by
  set qs : List (RecipeItem × (String → Int) × (String → Nat)) := r.map fun x =>
    (⟨args.getD x.1 (.unknown []), x.2.1, x.2.2⟩, power (isqOf (ps.getD x.1 ⟨"", 0⟩).code), bnd (ps.getD x.1 ⟨"", 0⟩).code) with hqs
  have e1 : instRecipe r args = qs.map (·.1) := by
    have hi : ∀ x ∈ r, x.1 < args.length := fun x hx => by rw [hl]; exact (hr.item x hx).2.2
    rw [hqs, List.map_map]
    unfold instRecipe
    clear_value qs
    clear hqs h hr
    induction r with
    | nil => rfl
    | cons x r ih =>
      have hx := hi x (by simp)
      rw [List.filterMap_cons, List.getElem?_eq_getElem hx, Option.map_some, List.map_cons, ih fun y hy => hi y (by simp [hy])]
      simp [List.getD_eq_getElem?_getD, List.getElem?_eq_getElem hx]
  rw [e1] at h
  have hinv := dimUnpack_inv h (by
    intro q hq
    rw [hqs] at hq
    obtain ⟨x, hx, rfl⟩ := List.mem_map.mp hq
    obtain ⟨i1, i2, i3⟩ := hr.item x hx
    refine ⟨i1, i2, hr.bound x hx, fun es hes => ?_⟩
    have i4 : x.1 < args.length := by omega
    refine ha x.1 _ _ ?_ ?_ es hes
    · rw [List.getD_eq_getElem?_getD, List.getElem?_eq_getElem i3]; rfl
    · rw [List.getD_eq_getElem?_getD, List.getElem?_eq_getElem i4]; rfl)
  refine ⟨hinv.den, hinv.nz, fun s => ?_, fun s => ?_⟩
  · rw [hinv.sum s, ← hr.sum s, hqs, List.map_map]; rfl
  · refine (hinv.abs s).trans (le_trans (le_of_eq ?_) (hr.abs s))
    rw [hqs, List.map_map]; rfl

private theorem ofT_inv {off : Bool} {origin : String → Nat} {c : Nat} {d : Dim} (h : OfT off origin c d) : ∀ es, d.exps = .ok es → Inv es (power (isqOf c)) (bnd c) := by
  induction h with
  | @base n sym h child u ho =>
    intro es hes
    cases hes
    have := inv_base ⟨child, sym, u⟩
    refine ⟨this.den, this.nz, fun s => ?_, fun s => ?_⟩
    · rw [this.sum s, (base_spec h s).1]
    · rw [(base_spec h s).2]; exact this.abs s
  | @derived n params recipe h args hl ha child u nd hd ho ih =>
    intro es hes
    cases hes
    simp only [defineDim, makeDimension, bind_ok, Except.ok.injEq] at hd
    obtain ⟨es, ⟨us, hu, hn⟩, rfl⟩ := hd
    exact normalize_inv hn (inst_inv (recipe_ok h) hl ih hu)
  | @unknown n params recipe hoff h es hl ha hr ih =>
    intro es' hes
    refine normalize_inv hes (inst_inv (recipe_ok h) (args := es.map fun e => .base e.dim) (by simpa using hl) ?_ (es := es) ?_)
    · intro i p a hp hia
      rw [List.getElem?_map] at hia
      cases he : es[i]? with
      | none => rw [he] at hia; cases hia
      | some e =>
        rw [he] at hia
        cases hia
        exact ih i p e hp he
    · rw [hr]
      clear hes ha hr ih hl
      induction es with
      | nil => rfl
      | cons e es ih => simp only [List.map_cons, dimUnpack, ih, ok_bind]; rfl

/-- The base rule is the only one for a base dimension. -/
private theorem ofT_base {off : Bool} {origin : String → Nat} {c : Nat} {b : BaseDim} (h : OfT off origin c (.base b)) : ∃ n, n.code = c ∧ origin b.name = c ∧ Decl.baseTemplate n b.symbol ∈ dimTemplates := by
  cases h with
  | base h child u ho => exact ⟨_, rfl, ho, h⟩

private theorem stdRatioAdd_ok {a b : Int} (h : a.natAbs + b.natAbs ≤ 9) : stdRatioAdd a 1 b 1 = .ok (a + b, 1) := by
  unfold stdRatioAdd
  simp
  unfold intMax
  constructor
  · rw [abs_le]; omega
  · decide

private theorem consolidate_total {es : List Exp} (hd : ∀ e ∈ es, e.den = 1) (hb : ∀ s, iabs es s ≤ 9) : ∃ es', consolidate es = .ok es' := by
  induction hl : es.length using Nat.strong_induction_on generalizing es with
  | _ n ih =>
    match es, hl with
    | [], _ => exact ⟨[], by rw [consolidate]⟩
    | [e], _ => exact ⟨[e], by rw [consolidate]⟩
    | e1 :: e2 :: rest, hl =>
      simp only [List.length_cons] at hl
      rw [consolidate]
      split
      · rename_i hdim
        have h9 := hb e1.dim.symbol
        rw [iabs_cons, iabs_cons, ← hdim, if_pos rfl, if_pos rfl] at h9
        rw [hd e1 (by simp), hd e2 (by simp), stdRatioAdd_ok (by omega), ok_bind]
        dsimp only
        split
        · refine ih rest.length (by omega) (fun e he => hd e (by simp [he])) (fun s => ?_) rfl
          have := hb s
          rw [iabs_cons, iabs_cons] at this
          omega
        · refine ih (rest.length + 1) (by omega) (fun e he => ?_) (fun s => ?_) rfl
          · rcases List.mem_cons.mp he with rfl | he
            · rfl
            · exact hd e (by simp [he])
          · have := hb s
            rw [iabs_cons, iabs_cons, ← hdim] at this
            rw [iabs_cons]
            dsimp only
            have := Int.natAbs_add_le e1.num e2.num
            split <;> simp_all
            omega
      · obtain ⟨tl, htl⟩ := ih (rest.length + 1) (by omega) (es := e2 :: rest) (fun e he => hd e (by simp [he])) (fun s => by
          have := hb s
          rw [iabs_cons] at this
          omega) rfl
        rw [htl, ok_bind]
        exact ⟨_, rfl⟩

private theorem bounds_checked : dimTemplates.all (fun d => match d with
    | .baseTemplate n _ => (boundOf n.code).all (· ≤ 9)
    | .derivedTemplate n _ _ => (boundOf n.code).all (· ≤ 9)
    | _ => true) = true := by decide +kernel

private theorem ofT_decl {off : Bool} {origin : String → Nat} {c : Nat} {d : Dim} (h : OfT off origin c d) :
    ∃ n : Nm, n.code = c ∧ ((∃ s, .baseTemplate n s ∈ dimTemplates) ∨ ∃ ps r, .derivedTemplate n ps r ∈ dimTemplates) := by
  cases h with
  | base h child u ho => exact ⟨_, rfl, .inl ⟨_, h⟩⟩
  | derived h => exact ⟨_, rfl, .inr ⟨_, _, h⟩⟩
  | unknown _ h => exact ⟨_, rfl, .inr ⟨_, _, h⟩⟩

private theorem bnd_le {off : Bool} {origin : String → Nat} {c : Nat} {d : Dim} (h : OfT off origin c d) (s : String) : bnd c s ≤ 9 := by
  have key : (boundOf c).all (· ≤ 9) = true := by
    obtain ⟨n, rfl, ⟨s, h⟩ | ⟨ps, r, h⟩⟩ := ofT_decl h
    · exact List.all_eq_true.mp bounds_checked _ h
    · exact List.all_eq_true.mp bounds_checked _ h
  unfold bnd
  split
  · rename_i i _
    rw [List.getD_eq_getElem?_getD]
    cases hi : (boundOf c)[i]? with
    | none => simp
    | some x =>
      have := List.all_eq_true.mp key x (List.mem_of_getElem? hi)
      simpa using this
  · omega

/-- The list of exponents of a dimension that satisfies a concept exists (consolidation does not overflow). -/
private theorem ofT_exps {off : Bool} {origin : String → Nat} {c : Nat} {d : Dim} (h : OfT off origin c d) : ∃ es, d.exps = .ok es := by
  cases d with
  | base b => exact ⟨_, rfl⟩
  | named nd => exact ⟨_, rfl⟩
  | unknown es =>
    have h' := h
    cases h with
    | @unknown n params recipe hoff ht _ hl ha hr =>
      have hi : Inv es (power (isqOf n.code)) (bnd n.code) := by
        refine inst_inv (recipe_ok ht) (args := es.map fun e => .base e.dim) (by simpa using hl) ?_ (es := es) ?_
        · intro i p a hp hia
          rw [List.getElem?_map] at hia
          cases he : es[i]? with
          | none => rw [he] at hia; cases hia
          | some e =>
            rw [he] at hia
            cases hia
            exact ofT_inv (ha i p e hp he)
        · rw [hr]
          clear ha hr hl h'
          induction es with
          | nil => rfl
          | cons e es ih => simp only [List.map_cons, dimUnpack, ih, ok_bind]; rfl
      have hp := TypeList.sort_perm expLess es
      refine consolidate_total (fun e he => hi.den e (hp.mem_iff.mp he)) (fun s => ?_)
      have e1 : iabs (TypeList.sort expLess es) s = iabs es s := (hp.map _).sum_eq
      rw [e1]
      exact (hi.abs s).trans (bnd_le h' s)

private theorem vectors_checked : dimTemplates.all (fun d => match d with
    | .baseTemplate n _ => isqDimension n.code == some (isqOf n.code) && (isqOf n.code).length == 11 && (isqOf n.code).drop 8 == [0, 0, 0]
    | .derivedTemplate n _ _ => isqDimension n.code == some (isqOf n.code) && (isqOf n.code).length == 11 && (isqOf n.code).drop 8 == [0, 0, 0]
    | _ => true) = true := by decide +kernel

private theorem ofT_vector {off : Bool} {origin : String → Nat} {c : Nat} {d : Dim} (h : OfT off origin c d) :
    isqDimension c = some (isqOf c) ∧ (isqOf c).length = 11 ∧ (isqOf c).drop 8 = [0, 0, 0] := by
  obtain ⟨n, rfl, ⟨s, h⟩ | ⟨ps, r, h⟩⟩ := ofT_decl h
  · simpa [and_assoc] using List.all_eq_true.mp vectors_checked _ h
  · simpa [and_assoc] using List.all_eq_true.mp vectors_checked _ h

/-! ### Theorems -/

/-- A dimension that satisfies the concept of a class template, in whatever system it was defined (even from dimensions of several systems, with
whatever units, with or without downcasting), has the exponents of the quantity the template is named after. -/
theorem C72_concept_means_isq {off : Bool} {origin : String → Nat} {c : Nat} {d : Dim} (h : OfT off origin c d) :
    ∃ es v, d.exps = .ok es ∧ isqDimension c = some v ∧ ∀ s, isqExp es s = power v s := by
  obtain ⟨es, hes⟩ := ofT_exps h
  exact ⟨es, _, hes, (ofT_vector h).1, fun s => (ofT_inv h es hes).isqExp s⟩

/-- If a dimension satisfies two concepts, they are named after quantities of the same dimension. -/
theorem C72_one_quantity {off off' : Bool} {origin origin' : String → Nat} {c c' : Nat} {d : Dim} (h : OfT off origin c d) (h' : OfT off' origin' c' d) :
    isqDimension c = isqDimension c' := by
  obtain ⟨es, hes⟩ := ofT_exps h
  obtain ⟨a1, a2, a3⟩ := ofT_vector h
  obtain ⟨b1, b2, b3⟩ := ofT_vector h'
  rw [a1, b1]
  congr 1
  have hp : ∀ s, power (isqOf c) s = power (isqOf c') s := fun s => (ofT_inv h es hes).sum s ▸ (ofT_inv h' es hes).sum s
  have hd : (isqOf c).take 8 = (isqOf c').take 8 := by
    apply List.ext_getElem?
    intro i
    by_cases hi : i < 8
    · have e : ∀ i < 8, isqSymbols.idxOf? (isqSymbols.getD i "") = some i := by decide
      have := hp (isqSymbols.getD i "")
      rw [power_some (e i hi), power_some (e i hi)] at this
      rw [List.getElem?_take_of_lt hi, List.getElem?_take_of_lt hi]
      rw [List.getD_eq_getElem?_getD, List.getD_eq_getElem?_getD, List.getElem?_eq_getElem (by omega), List.getElem?_eq_getElem (by omega)] at this
      rw [List.getElem?_eq_getElem (by omega), List.getElem?_eq_getElem (by omega)]
      simpa using this
    · rw [List.getElem?_eq_none (by simp; omega), List.getElem?_eq_none (by simp; omega)]
  rw [← List.take_append_drop 8 (isqOf c), ← List.take_append_drop 8 (isqOf c'), hd, a3, b3]

/-- The concepts that an unnamed dimension over the ISQ base dimensions can satisfy without downcasting: those whose template takes base
dimensions only, in the order of their symbols. -/
def unnamedConcepts : List Nm := [n!"dim_acceleration", n!"dim_angular_velocity", n!"dim_area", n!"dim_current_density", n!"dim_frequency",
  n!"dim_luminance", n!"dim_speed", n!"dim_volume", n!"dim_radioactivity"]

/-- The symbol of the base dimension template with code `c`. -/
private def symOf (c : Nat) : Option String :=
  dimTemplates.findSome? fun d => match d with
    | .baseTemplate n s => if n.code = c then some s else none
    | _ => none

private theorem symOf_checked : dimTemplates.all (fun d => match d with
    | .baseTemplate n s => symOf n.code == some s && dimTemplates.all (fun d' => match d' with
      | .baseTemplate n' s' => s != s' || n.code == n'.code
      | _ => true)
    | _ => true) = true := by decide +kernel

private theorem symOf_eq {n : Nm} {s : String} (h : Decl.baseTemplate n s ∈ dimTemplates) : symOf n.code = some s := by
  have := List.all_eq_true.mp symOf_checked _ h
  simp only [Bool.and_eq_true, beq_iff_eq] at this
  exact this.1

private theorem symOf_inj {n n' : Nm} {s : String} (h : Decl.baseTemplate n s ∈ dimTemplates) (h' : Decl.baseTemplate n' s ∈ dimTemplates) :
    n.code = n'.code := by
  have := List.all_eq_true.mp symOf_checked _ h
  simp only [Bool.and_eq_true] at this
  simpa using List.all_eq_true.mp this.2 _ h'

/-- The parameters of a template are base dimensions in the order of their symbols. -/
private def simple (ps : List Nm) : Bool :=
  (ps.all fun p => (symOf p.code).isSome) && decide ((ps.map fun p => (symOf p.code).getD "").Pairwise (· < ·))

private theorem simple_checked : dimTemplates.all (fun d => match d with
    | .derivedTemplate n ps _ => !simple ps || unnamedConcepts.any (·.code == n.code)
    | _ => true) = true := by decide +kernel

private theorem unnamed_checked : unnamedConcepts.all (fun n => dimTemplates.any fun d => match d with
    | .derivedTemplate m ps r => m.code == n.code && simple ps && r.map (·.1) == List.range ps.length && r.all (fun x => x.2.1 != 0 && x.2.2 == 1)
    | _ => false) = true := by decide +kernel

private theorem instRecipe_eq {r : List (Nat × Int × Int)} {args : List Dim} (hi : ∀ x ∈ r, x.1 < args.length) :
    instRecipe r args = r.map fun x => ⟨args.getD x.1 (.unknown []), x.2.1, x.2.2⟩ := by
  unfold instRecipe
  induction r with
  | nil => rfl
  | cons x r ih =>
    have hx := hi x (by simp)
    rw [List.filterMap_cons, List.getElem?_eq_getElem hx, Option.map_some, List.map_cons, ih fun y hy => hi y (by simp [hy])]
    simp [List.getD_eq_getElem?_getD, List.getElem?_eq_getElem hx]

/-- An exponent without the identity and the unit of its base dimension. -/
private def anon (e : Exp) : Exp := ⟨⟨"", e.dim.symbol, unknownCoherentUnit⟩, e.num, e.den⟩

private theorem anon_canon {es : List Exp} (h : Canon es) : Canon (es.map anon) := by
  refine ⟨?_, ?_⟩
  · intro e he
    obtain ⟨x, hx, rfl⟩ := List.mem_map.mp he
    have := h.reduced x hx
    exact ⟨this.den_pos, this.coprime, this.num_ne⟩
  · rw [List.pairwise_map]; exact h.strict

private theorem anon_expOf (es : List Exp) (b : BaseDim) :
    expOf (es.map anon) b = if b.name = "" ∧ b.unit = unknownCoherentUnit then isqExp es b.symbol else 0 := by
  induction es with
  | nil => simp [expOf_nil, isqExp]
  | cons e es ih =>
    rw [List.map_cons, expOf_cons, ih]
    have e1 : isqExp (e :: es) b.symbol = (if e.dim.symbol = b.symbol then e.q else 0) + isqExp es b.symbol := by simp [isqExp]
    rw [e1]
    have e2 : (anon e).dim = b ↔ (b.name = "" ∧ b.unit = unknownCoherentUnit) ∧ e.dim.symbol = b.symbol := by
      cases b
      simp only [anon, BaseDim.mk.injEq]
      constructor
      · rintro ⟨rfl, rfl, rfl⟩; exact ⟨⟨rfl, rfl⟩, rfl⟩
      · rintro ⟨⟨rfl, rfl⟩, rfl⟩; exact ⟨rfl, rfl, rfl⟩
    have e3 : (anon e).q = e.q := rfl
    rw [e3]
    by_cases h1 : b.name = "" ∧ b.unit = unknownCoherentUnit <;> by_cases h2 : e.dim.symbol = b.symbol <;> simp [e2, h1, h2]

/-- Without downcasting the result of a product or quotient has an unnamed dimension.  Over base dimensions made from the ISQ templates it satisfies the concept of a
derived quantity exactly if it has the exponents of the quantity and the concept is one of the nine in `unnamedConcepts`. -/
theorem C72_unnamed_exactly {origin : String → Nat} {c : Nat} {es : List Exp} (hc : Canon es)
    (ho : ∀ e ∈ es, OfT true origin (origin e.dim.name) (.base e.dim)) :
    OfT true origin c (.unknown es) ↔ (∃ n ∈ unnamedConcepts, n.code = c) ∧ ∃ v, isqDimension c = some v ∧ ∀ s, isqExp es s = power v s := by
  constructor
  · intro h
    refine ⟨?_, ?_⟩
    · cases h with
      | @unknown n ps r hoff ht _ hl ha hr =>
        have hps : ps.map (fun p => symOf p.code) = es.map fun e => some e.dim.symbol := by
          apply List.ext_getElem (by simp [hl])
          intro i h1 h2
          simp only [List.length_map] at h1 h2
          simp only [List.getElem_map]
          obtain ⟨m, hm, -, hb⟩ := ofT_base (ha i _ _ (List.getElem?_eq_getElem h1) (List.getElem?_eq_getElem h2))
          rw [← hm, symOf_eq hb]
        have hsimple : simple ps = true := by
          unfold simple
          rw [Bool.and_eq_true, List.all_eq_true, decide_eq_true_eq]
          constructor
          · intro p hp
            have : symOf p.code ∈ es.map fun e => some e.dim.symbol := by rw [← hps]; exact List.mem_map_of_mem hp
            obtain ⟨e, -, he⟩ := List.mem_map.mp this
            rw [← he]; rfl
          · have : (ps.map fun p => (symOf p.code).getD "") = es.map fun e => e.dim.symbol := by
              have := congrArg (List.map fun o : Option String => o.getD "") hps
              simpa [List.map_map, Function.comp_def] using this
            rw [this, List.pairwise_map]
            exact hc.strict
        have := List.all_eq_true.mp simple_checked _ ht
        simp only [hsimple, Bool.not_true, Bool.false_or, List.any_eq_true, beq_iff_eq] at this
        exact this
    · obtain ⟨es', v, h1, h2, h3⟩ := C72_concept_means_isq h
      have : es' = es := by
        simp only [Dim.exps, normalizeExps_canon hc, Except.ok.injEq] at h1
        exact h1.symm
      subst this
      exact ⟨v, h2, h3⟩
  · rintro ⟨⟨n, hn, rfl⟩, v, hv, hs⟩
    have hck := List.all_eq_true.mp unnamed_checked _ hn
    rw [List.any_eq_true] at hck
    obtain ⟨d, hd, hck⟩ := hck
    cases d with
    | derivedTemplate m ps r =>
      simp only [Bool.and_eq_true, beq_iff_eq, List.all_eq_true, bne_iff_ne, simple, decide_eq_true_eq] at hck
      obtain ⟨⟨⟨hm, hsome, hstrict⟩, hidx⟩, hr1⟩ := hck
      have hlen : r.length = ps.length := by simpa using congrArg List.length hidx
      have hri : ∀ i (h : i < r.length), r[i].1 = i := by
        intro i h
        have : (r.map (·.1))[i]? = (List.range ps.length)[i]? := by rw [hidx]
        rw [List.getElem?_map, List.getElem?_eq_getElem h, List.getElem?_eq_getElem (by simpa using hlen ▸ h)] at this
        simpa using this
      have hbase : ∀ p ∈ ps, ∃ m, m.code = p.code ∧ Decl.baseTemplate m ((symOf p.code).getD "") ∈ dimTemplates := by
        intro p hp
        have := hsome p hp
        cases hso : symOf p.code with
        | none => rw [hso] at this; cases this
        | some s =>
          unfold symOf at hso
          obtain ⟨d, hd, hdd⟩ := List.exists_of_findSome?_eq_some hso
          cases d <;> simp at hdd
          obtain ⟨h1, rfl⟩ := hdd
          exact ⟨_, h1, hd⟩
      -- the reference list
      set ref : List Exp := r.map fun x => ⟨⟨"", (symOf (ps.getD x.1 ⟨"", 0⟩).code).getD "", unknownCoherentUnit⟩, x.2.1, x.2.2⟩ with href
      have hrc : Canon ref := by
        refine ⟨?_, ?_⟩
        · intro e he
          obtain ⟨x, hx, rfl⟩ := List.mem_map.mp he
          obtain ⟨k1, k2⟩ := hr1 x hx
          refine ⟨?_, ?_, k1⟩
          · dsimp only; omega
          · dsimp only; rw [k2]; simp
        · have : ref.map (fun e => e.dim.symbol) = ps.map fun p => (symOf p.code).getD "" := by
            rw [href, List.map_map]
            apply List.ext_getElem (by simpa using hlen)
            intro i h1 h2
            simp only [List.length_map] at h1 h2
            simp only [List.getElem_map, Function.comp, hri i h1, List.getD_eq_getElem?_getD, List.getElem?_eq_getElem h2, Option.getD_some]
          rw [← this, List.pairwise_map] at hstrict
          exact hstrict
      have hrs : ∀ s, isqExp ref s = power (isqOf n.code) s := by
        intro s
        rw [← hm, ← (recipe_ok hd).sum s]
        unfold isqExp
        rw [href, List.map_map]
        push_cast
        rw [List.map_map]
        congr 1
        apply List.map_congr_left
        intro x hx
        obtain ⟨-, k2⟩ := hr1 x hx
        have hxl := ((recipe_ok hd).item x hx).2.2
        have hmem : ps.getD x.1 ⟨"", 0⟩ ∈ ps := by
          rw [List.getD_eq_getElem?_getD, List.getElem?_eq_getElem hxl]; exact List.getElem_mem hxl
        obtain ⟨b, hb, hbt⟩ := hbase _ hmem
        have hpw := (base_spec hbt s).1
        rw [hb] at hpw
        simp only [Function.comp, Exp.q, k2]
        rw [hpw]
        split <;> simp
      have hve : v = isqOf n.code := by unfold isqOf; rw [hv]; rfl
      have hmain : es.map anon = ref.map anon := by
        refine (anon_canon hc).ext (anon_canon hrc) fun b => ?_
        rw [anon_expOf, anon_expOf, hs, hrs, hve]
      have hidn : ∀ x ∈ r, x.1 < (es.map fun e => Dim.base e.dim).length := by
        intro x hx
        have e1 : es.length = r.length := by simpa [href] using congrArg List.length hmain
        have := ((recipe_ok hd).item x hx).2.2
        simp only [List.length_map]; omega
      have helen : es.length = ps.length := by
        have e1 : es.length = r.length := by simpa [href] using congrArg List.length hmain
        omega
      have hat : ∀ i (h : i < es.length) (h' : i < r.length) (h'' : i < ps.length), es[i].dim.symbol = (symOf ps[i].code).getD "" ∧ es[i].num = r[i].2.1 ∧ es[i].den = r[i].2.2 := by
        intro i h h' h''
        have : (es.map anon)[i]? = (ref.map anon)[i]? := by rw [hmain]
        rw [List.getElem?_map, List.getElem?_map, List.getElem?_eq_getElem h, href, List.getElem?_map, List.getElem?_eq_getElem h'] at this
        simp only [Option.map_some, Option.some.injEq, anon, Exp.mk.injEq, BaseDim.mk.injEq, true_and, and_true] at this
        rw [hri i h', List.getD_eq_getElem?_getD, List.getElem?_eq_getElem h'', Option.getD_some] at this
        exact this
      rw [← hm]
      refine .unknown rfl hd es helen ?_ ?_
      · intro i p e hp he
        obtain ⟨h1, rfl⟩ := List.getElem?_eq_some_iff.mp hp
        obtain ⟨h2, rfl⟩ := List.getElem?_eq_some_iff.mp he
        obtain ⟨q1, -, -⟩ := hat i h2 (by omega) h1
        obtain ⟨b, hb, hbt⟩ := hbase _ (List.getElem_mem h1)
        have hoe := ho _ (List.getElem_mem h2)
        obtain ⟨b', hb', -, hbt'⟩ := ofT_base hoe
        rw [q1] at hbt'
        rw [← hb, symOf_inj hbt hbt', hb']
        exact hoe
      · rw [instRecipe_eq hidn]
        apply List.ext_getElem (by simp; omega)
        intro i h1 h2
        simp only [List.length_map] at h1 h2
        obtain ⟨-, q2, q3⟩ := hat i h2 h1 (by omega)
        simp only [List.getElem_map, hri i h1, List.getD_eq_getElem?_getD, List.getElem?_map, List.getElem?_eq_getElem h2, Option.map_some, Option.getD_some, q2, q3]
    | _ => cases hck

/-- Whether the parameters of a template are base dimension templates. -/
private theorem unnamed_params {origin : String → Nat} {c : Nat} {es : List Exp} (h : OfT true origin c (.unknown es)) :
    ∃ n ps r, n.code = c ∧ Decl.derivedTemplate n ps r ∈ dimTemplates ∧ ∀ p ∈ ps, (symOf p.code).isSome = true := by
  cases h with
  | @unknown n ps r hoff ht _ hl ha hr =>
    refine ⟨n, ps, r, rfl, ht, fun p hp => ?_⟩
    obtain ⟨i, hi, rfl⟩ := List.mem_iff_getElem.mp hp
    obtain ⟨m, hm, -, hb⟩ := ofT_base (ha i _ _ (List.getElem?_eq_getElem hi) (List.getElem?_eq_getElem (by omega)))
    rw [← hm, symOf_eq hb]; rfl

/-- No unnamed dimension, with exponents in whatever order, satisfies `Force`: its template asks for an acceleration. -/
theorem C72_unnamed_force_never {origin : String → Nat} {es : List Exp} : ¬ OfT true origin n!"dim_force".code (.unknown es) := by
  intro h
  obtain ⟨n, ps, r, hn, ht, hp⟩ := unnamed_params h
  have : dimTemplates.all (fun d => match d with
    | .derivedTemplate n ps _ => n.code != n!"dim_force".code || ps.any fun p => (symOf p.code).isNone
    | _ => true) = true := by decide +kernel
  have := List.all_eq_true.mp this _ ht
  simp only [hn, bne_self_eq_false, Bool.false_or, List.any_eq_true] at this
  obtain ⟨p, h1, h2⟩ := this
  have := hp p h1
  cases hs : symOf p.code <;> simp [hs] at this h2

/-! ### A concrete system -/

private def exOrigin : String → Nat
  | "si::dim_length" => n!"dim_length".code
  | "si::dim_mass" => n!"dim_mass".code
  | "si::dim_time" => n!"dim_time".code
  | "cgs::dim_length" => n!"dim_length".code
  | "si::dim_speed" => n!"dim_speed".code
  | "my::dim_acceleration" => n!"dim_acceleration".code
  | "my::dim_force" => n!"dim_force".code
  | _ => 0

private def exUnit (s : String) : MUnit := ⟨.named s, Ratio.one, s, [.scaled Ratio.one s], true, "", none⟩
private def exL : BaseDim := ⟨"si::dim_length", "L", exUnit "metre"⟩
private def exLc : BaseDim := ⟨"cgs::dim_length", "L", exUnit "centimetre"⟩
private def exM : BaseDim := ⟨"si::dim_mass", "M", exUnit "kilogram"⟩
private def exT : BaseDim := ⟨"si::dim_time", "T", exUnit "second"⟩

private theorem mem_base {n : Nm} {s : String} (h : (dimTemplates.any fun d => match d with
    | .baseTemplate m t => decide (m = n ∧ t = s)
    | _ => false) = true) : Decl.baseTemplate n s ∈ dimTemplates := by
  obtain ⟨d, hd, h⟩ := List.any_eq_true.mp h
  cases d <;> simp at h
  obtain ⟨rfl, rfl⟩ := h
  exact hd

private theorem mem_derived {n : Nm} {ps : List Nm} {r : List (Nat × Int × Int)} (h : (dimTemplates.any fun d => match d with
    | .derivedTemplate m qs t => decide (m = n ∧ qs = ps ∧ t = r)
    | _ => false) = true) : Decl.derivedTemplate n ps r ∈ dimTemplates := by
  obtain ⟨d, hd, h⟩ := List.any_eq_true.mp h
  cases d <;> simp at h
  obtain ⟨rfl, rfl, rfl⟩ := h
  exact hd

private theorem ex_length (off : Bool) : OfT off exOrigin n!"dim_length".code (.base exL) :=
  .base (n := n!"dim_length") (sym := "L") (mem_base (by decide +kernel)) _ _ rfl
private theorem ex_lengthc (off : Bool) : OfT off exOrigin n!"dim_length".code (.base exLc) :=
  .base (n := n!"dim_length") (sym := "L") (mem_base (by decide +kernel)) _ _ rfl
private theorem ex_mass (off : Bool) : OfT off exOrigin n!"dim_mass".code (.base exM) :=
  .base (n := n!"dim_mass") (sym := "M") (mem_base (by decide +kernel)) _ _ rfl
private theorem ex_time (off : Bool) : OfT off exOrigin n!"dim_time".code (.base exT) :=
  .base (n := n!"dim_time") (sym := "T") (mem_base (by decide +kernel)) _ _ rfl

private theorem args2 {off : Bool} {origin : String → Nat} {p q : Nm} {a b : Dim} (h1 : OfT off origin p.code a) (h2 : OfT off origin q.code b) :
    ∀ (i : Nat) (x : Nm) (y : Dim), [p, q][i]? = some x → [a, b][i]? = some y → OfT off origin x.code y := by
  intro i x y hx hy
  match i with
  | 0 => cases hx; cases hy; exact h1
  | 1 => cases hx; cases hy; exact h2
  | (_ + 2) => simp at hx

private def exAcc : NamedDim := ⟨"my::dim_acceleration", [⟨exL, 1, 1⟩, ⟨exT, -2, 1⟩], exUnit "a"⟩
private def exForce : NamedDim := ⟨"my::dim_force", [⟨exL, 1, 1⟩, ⟨exM, 1, 1⟩, ⟨exT, -2, 1⟩], exUnit "f"⟩

private theorem ex_acc (off : Bool) : OfT off exOrigin n!"dim_acceleration".code (.named exAcc) :=
  .derived (n := n!"dim_acceleration") (params := [n!"dim_length", n!"dim_time"]) (recipe := [(0, 1, 1), (1, -2, 1)]) (mem_derived (by decide +kernel))
    [.base exL, .base exT] rfl (args2 (ex_length off) (ex_time off)) "my::dim_acceleration" (exUnit "a") exAcc (by decide +kernel) rfl

/-- A user's own force, defined from the user's own acceleration, is a `Force` and not, say, a `Momentum`. -/
example (off : Bool) : OfT off exOrigin n!"dim_force".code (.named exForce) ∧ ¬ OfT off exOrigin n!"dim_momentum".code (.named exForce) := by
  have h : OfT off exOrigin n!"dim_force".code (.named exForce) :=
    .derived (n := n!"dim_force") (params := [n!"dim_mass", n!"dim_acceleration"]) (recipe := [(0, 1, 1), (1, 1, 1)]) (mem_derived (by decide +kernel))
      [.base exM, .named exAcc] rfl (args2 (ex_mass off) (ex_acc off)) "my::dim_force" (exUnit "f") exForce (by decide +kernel) rfl
  refine ⟨h, fun h' => ?_⟩
  exact absurd (C72_one_quantity h h') (by decide +kernel)

/-- Without downcasting: metres per second squared with no name is an `Acceleration`; kilogram metres per second squared is not a `Force`, although
it has the exponents of a force; and kilograms per cubic metre are not a `Density`, because the template takes the mass first. -/
example : OfT true exOrigin n!"dim_acceleration".code (.unknown [⟨exL, 1, 1⟩, ⟨exT, -2, 1⟩]) ∧
    (∃ v, isqDimension n!"dim_force".code = some v ∧ ∀ s, isqExp [⟨exL, 1, 1⟩, ⟨exM, 1, 1⟩, ⟨exT, -2, 1⟩] s = power v s) ∧
    ¬ OfT true exOrigin n!"dim_force".code (.unknown [⟨exL, 1, 1⟩, ⟨exM, 1, 1⟩, ⟨exT, -2, 1⟩]) ∧
    ¬ OfT true exOrigin n!"dim_density".code (.unknown [⟨exL, -3, 1⟩, ⟨exM, 1, 1⟩]) := by
  have red : ∀ (b : BaseDim) (k : Int), k ≠ 0 → (⟨b, k, 1⟩ : Exp).Reduced := fun b k hk => ⟨Int.one_pos, by simp, hk⟩
  have lm : exL.symbol < exM.symbol := by decide
  have lt : exL.symbol < exT.symbol := by decide
  refine ⟨?_, ?_, C72_unnamed_force_never, ?_⟩
  · have hc : Canon [⟨exL, 1, 1⟩, ⟨exT, -2, 1⟩] := ⟨by simp [red], List.pairwise_pair.mpr lt⟩
    refine (C72_unnamed_exactly hc ?_).mpr ⟨⟨n!"dim_acceleration", by decide, rfl⟩, ?_⟩
    · simp only [List.mem_cons, List.not_mem_nil, or_false, forall_eq_or_imp, forall_eq]
      exact ⟨ex_length true, ex_time true⟩
    · obtain ⟨es, v, h1, h2, h3⟩ := C72_concept_means_isq (ex_acc true)
      cases h1
      exact ⟨v, h2, h3⟩
  · have h : OfT true exOrigin n!"dim_force".code (.named exForce) :=
      .derived (n := n!"dim_force") (params := [n!"dim_mass", n!"dim_acceleration"]) (recipe := [(0, 1, 1), (1, 1, 1)]) (mem_derived (by decide +kernel))
        [.base exM, .named exAcc] rfl (args2 (ex_mass true) (ex_acc true)) "my::dim_force" (exUnit "f") exForce (by decide +kernel) rfl
    obtain ⟨es, v, h1, h2, h3⟩ := C72_concept_means_isq h
    cases h1
    exact ⟨v, h2, h3⟩
  · intro h
    have hc : Canon [⟨exL, -3, 1⟩, ⟨exM, 1, 1⟩] := ⟨by simp [red], List.pairwise_pair.mpr lm⟩
    obtain ⟨⟨n, h1, h2⟩, -⟩ := (C72_unnamed_exactly hc (by
      simp only [List.mem_cons, List.not_mem_nil, or_false, forall_eq_or_imp, forall_eq]
      exact ⟨ex_length true, ex_mass true⟩)).mp h
    exact absurd h2 ((by decide : ∀ n ∈ unnamedConcepts, n.code ≠ n!"dim_density".code) n h1)

/-- A speed made from a length of one system and a time of another has the exponents of a speed. -/
example : ∃ nd, OfT false exOrigin n!"dim_speed".code (.named nd) ∧ isqExp nd.exps "L" = 1 ∧ isqExp nd.exps "T" = -1 := by
  refine ⟨⟨"si::dim_speed", [⟨exLc, 1, 1⟩, ⟨exT, -1, 1⟩], exUnit "v"⟩, .derived (n := n!"dim_speed") (params := [n!"dim_length", n!"dim_time"]) (recipe := [(0, 1, 1), (1, -1, 1)])
    (mem_derived (by decide +kernel)) [.base exLc, .base exT] rfl (args2 (ex_lengthc false) (ex_time false)) "si::dim_speed" (exUnit "v") _ (by decide +kernel) rfl, ?_, ?_⟩ <;>
  · simp [isqExp, exLc, exT, Exp.q]

end Verif
