import Verif.Symbols
import Verif.Props.UnitTextProps

/-!
# Reading printed units (C74): products of powers and numbers in front of a unit

What `Verif/Symbols.lean` reads in the texts of `Verif/Text.lean`, for all exponents and all ratios.
-/

namespace Verif

open Standards

theorem readDigits_eq (tbl l : List Char) : readDigits tbl l = readNat tbl l := by
  unfold readDigits readNat
  cases l with
  | nil => rfl
  | cons c l => rw [if_neg (by simp)]

theorem readSigned_eq (tbl : List Char) (m : Char) (l : List Char) : readSigned tbl m l = readInt tbl m l := by
  unfold readSigned readInt
  cases l with
  | nil => rfl
  | cons c l => simp only [readDigits_eq]

theorem readPower_supText (v : Int) (ver : Bool) : readPower ((supText v).get ver) = some v := by
  have hn := decs_ne_nil v.natAbs
  have hd := decs_all v.natAbs
  have sup : ∀ d, d < 10 → superDigit d ≠ '^' := by decide
  unfold supText
  by_cases h : v < 0
  · rw [if_pos h]
    cases ver with
    | false =>
      simp only [SText.get, readPower, readSigned_eq]
      rw [readInt_neg ascii_idx]; congr 1; omega
    | true =>
      simp only [SText.get]
      have : readPower ('⁻' :: (decs v.natAbs).map superDigit) = readSigned superDigits '⁻' ('⁻' :: (decs v.natAbs).map superDigit) := rfl
      rw [this, readSigned_eq, readInt_neg super_idx]; congr 1; omega
  · rw [if_neg h]
    cases ver with
    | false =>
      simp only [SText.get, readPower, readSigned_eq]
      rw [readInt_nonneg ascii_idx (by decide)]; congr 1; omega
    | true =>
      simp only [SText.get]
      have : readPower ((decs v.natAbs).map superDigit) = readSigned superDigits '⁻' ((decs v.natAbs).map superDigit) := by
        cases hl : decs v.natAbs with
        | nil => exact absurd hl hn
        | cons d l =>
          rw [hl] at hd
          have hne := sup d (hd d (by simp))
          simp only [List.map_cons]
          unfold readPower
          split
          · rename_i heq; cases heq
          · rename_i heq; injection heq with h1 h2; exact absurd h1 hne
          · rfl
      rw [this, readSigned_eq, readInt_nonneg super_idx (by decide)]; congr 1; omega

theorem isPower_supText (v : Int) (ver : Bool) : ∀ c ∈ ((supText v).get ver).head?, isPower c = true := by
  have hn := decs_ne_nil v.natAbs
  have hd := decs_all v.natAbs
  have sup : ∀ d, d < 10 → isPower (superDigit d) = true := by decide
  intro c hc
  unfold supText at hc
  split at hc <;> cases ver <;> simp only [SText.get, List.head?_cons, Option.mem_def, Option.some.injEq] at hc
  · subst hc; decide
  · subst hc; decide
  · subst hc; decide
  · cases hl : decs v.natAbs with
    | nil => exact absurd hl hn
    | cons d l =>
      rw [hl] at hc hd
      simp at hc
      subst hc
      exact sup d (hd d (by simp))

theorem not_isBreak_supText (v : Int) (ver : Bool) : ∀ c ∈ (supText v).get ver, isBreak c = false ∧ c ≠ ']' := by
  have hd := decs_all v.natAbs
  have sup : ∀ d, d < 10 → isBreak (superDigit d) = false ∧ superDigit d ≠ ']' := by decide
  have asc : ∀ d, d < 10 → isBreak (asciiDigit d) = false ∧ asciiDigit d ≠ ']' := by decide
  intro c hc
  unfold supText at hc
  split at hc <;> cases ver <;> simp only [SText.get, List.mem_cons, List.mem_map] at hc
  · rcases hc with rfl | rfl | ⟨d, h, rfl⟩
    · decide
    · decide
    · exact asc d (hd d h)
  · rcases hc with rfl | ⟨d, h, rfl⟩
    · decide
    · exact sup d (hd d h)
  · rcases hc with rfl | ⟨d, h, rfl⟩
    · decide
    · exact asc d (hd d h)
  · rcases hc with ⟨d, h, rfl⟩
    exact sup d (hd d h)

theorem takeWhile_split {P : Char → Bool} {a b : List Char} (ha : ∀ c ∈ a, P c = true) (hb : ∀ c ∈ b.head?, P c = false) :
    (a ++ b).takeWhile P = a ∧ (a ++ b).dropWhile P = b := by
  induction a with
  | nil =>
    cases b with
    | nil => simp
    | cons c b =>
      have : P c = false := hb c (by simp)
      simp [this]
  | cons c a ih =>
    obtain ⟨h1, h2⟩ := ih (fun x hx => ha x (List.mem_cons_of_mem _ hx))
    have : P c = true := ha c (by simp)
    simp [this, h1, h2]

/-- A symbol that can be a factor: not empty, without powers and separators. -/
def CleanSymbol (l : List Char) : Prop := l ≠ [] ∧ ∀ c ∈ l, isPower c = false ∧ isBreak c = false ∧ c ≠ '⋅'

instance (l : List Char) : Decidable (CleanSymbol l) := by unfold CleanSymbol; infer_instance

theorem Amount.pow_one (a : Amount) : a.pow 1 = a := by
  cases a with
  | mk f e =>
    unfold Amount.pow
    simp only [zpow_one, Amount.mk.injEq, true_and]
    conv_rhs => rw [← List.map_id e]
    apply List.map_congr_left
    intro x _
    show 1 * x = x
    omega

theorem Amount.pow_neg (a : Amount) (n : Int) : (a.pow n).pow (-1) = a.pow (-n) := by
  unfold Amount.pow
  simp only [List.map_map, Amount.mk.injEq]
  refine ⟨by rw [zpow_neg, zpow_neg, zpow_one], ?_⟩
  apply List.map_congr_left
  intro x _
  show -1 * (n * x) = -n * x
  rw [Int.neg_one_mul, Int.neg_mul]

/-- The power a shape stands for. -/
def Shape.power : Shape → Int
  | .sup v => v
  | _ => 1

theorem readFactor_shape {look : List Char → Option Amount} {l : List Char} (hl : CleanSymbol l) {a : Amount} (ha : look l = some a) (s : Shape)
    (hs : ∀ n d, s ≠ .root n d) (ver : Bool) : readFactor look (l ++ s.text.get ver) = some (a.pow s.power) := by
  unfold readFactor
  cases s with
  | root n d => exact absurd rfl (hs n d)
  | none =>
    obtain ⟨h1, h2⟩ := takeWhile_split (P := fun c => !isPower c) (a := l) (b := [])
      (fun c hc => by simp [(hl.2 c hc).1]) (by simp)
    simp only [Shape.text, SText.get_both, h1, h2, ha, readPower, Shape.power]
  | sup v =>
    obtain ⟨h1, h2⟩ := takeWhile_split (P := fun c => !isPower c) (a := l) (b := (supText v).get ver)
      (fun c hc => by simp [(hl.2 c hc).1]) (fun c hc => by simp [isPower_supText v ver c hc])
    simp only [Shape.text, h1, h2, ha, readPower_supText, Shape.power]

theorem shape_not_break (s : Shape) (hs : ∀ n d, s ≠ .root n d) (ver : Bool) : ∀ c ∈ s.text.get ver, isBreak c = false := by
  cases s with
  | root n d => exact absurd rfl (hs n d)
  | none => simp [Shape.text, SText.get_both]
  | sup v => exact fun c hc => (not_isBreak_supText v ver c hc).1

theorem shapeOf_not_root {num : Int} {k : Nat} : ∀ n d, shapeOf num 1 k ≠ .root n d := by
  intro n d h
  unfold shapeOf at h
  rw [if_neg (by simp)] at h
  repeat' split at h
  all_goals cases h

/-- The power printed is the exponent, or minus the exponent after a slash. -/
theorem shapeOf_power {num : Int} {k : Nat} (hk : num < 0 → 1 ≤ k) :
    (shapeOf num 1 k).power = if num < 0 ∧ k = 1 then -num else num := by
  unfold shapeOf
  rw [if_neg (by simp)]
  by_cases h1 : num = 1
  · rw [if_pos h1, if_neg (by omega)]; exact h1.symm
  · rw [if_neg h1]
    by_cases h2 : k > 1
    · rw [if_pos h2, if_neg (by omega)]; rfl
    · rw [if_neg h2]
      by_cases h3 : num = -1
      · have : k = 1 := by have := hk (by omega); omega
        simp [h3, this, Shape.power]
      · rw [if_neg h3]
        simp only [Shape.power]
        by_cases h4 : num < 0
        · rw [if_pos ⟨h4, by have := hk h4; omega⟩]; omega
        · rw [if_neg (by omega)]; omega

/-- The product of powers of amounts. -/
def powers : List (Amount × Int) → Amount
  | [] => unity
  | (a, n) :: l => (a.pow n).mul (powers l)

theorem mul_unity {a : Amount} (h : a.exps.length = 11) : a.mul unity = a := by
  obtain ⟨f, e⟩ := a
  simp only at h
  match e, h with
  | [a0, a1, a2, a3, a4, a5, a6, a7, a8, a9, a10], _ =>
    simp only [Amount.mul, unity, mul_one, List.zipWith_cons_cons, List.zipWith_nil_left, Amount.mk.injEq, true_and]
    simp only [show ∀ x : Int, x.add 0 = x from fun x => Int.add_zero x]

theorem pow_length (a : Amount) (n : Int) : (a.pow n).exps.length = a.exps.length := by simp [Amount.pow]

theorem unity_mul {a : Amount} (h : a.exps.length = 11) : unity.mul a = a := by
  obtain ⟨f, e⟩ := a
  simp only at h
  match e, h with
  | [a0, a1, a2, a3, a4, a5, a6, a7, a8, a9, a10], _ =>
    simp only [Amount.mul, unity, one_mul, List.zipWith_cons_cons, List.zipWith_nil_left, Amount.mk.injEq, true_and]
    simp only [show ∀ x : Int, Int.add 0 x = x from fun x => Int.zero_add x]

theorem powers_length {l : List (Amount × Int)} (h : ∀ p ∈ l, p.1.exps.length = 11) : (powers l).exps.length = 11 := by
  induction l with
  | nil => rfl
  | cons p l ih =>
    have := ih fun q hq => h q (List.mem_cons_of_mem _ hq)
    have hp := h p (by simp)
    simp [powers, Amount.mul, Amount.pow, hp, this]

/-- The symbols of factors have a meaning. -/
def Meant (look : List Char → Option Amount) (ver : Bool) (f : Factor) (a : Amount) : Prop :=
  CleanSymbol (f.sym.get ver) ∧ look (f.sym.get ver) = some a ∧ a.exps.length = 11 ∧ f.den = 1 ∧ Printable f.num

theorem forall₂_zip {look : List Char → Option Amount} {ver : Bool} {fs : List Factor} {as : List Amount}
    (h : List.Forall₂ (Meant look ver) fs as) : ∀ p ∈ fs.zip as, p.2.exps.length = 11 := by
  induction h with
  | nil => simp
  | cons h _ ih =>
    intro p hp
    rcases List.mem_cons.mp hp with rfl | hp
    · exact h.2.2.1
    · exact ih p hp

/-- The text of the first factor without its operator, and of the others. -/
theorem factorsText_cons {k idx : Nat} {f : Factor} {fs : List Factor} (hf : Printable f.num) (hd : f.den = 1) {t : SText}
    (h : factorsText k idx (f :: fs) = .ok t) : ∃ u, factorsText k (idx + 1) fs = .ok u ∧
      ∀ ver, t.get ver = (operatorText (decide (f.num < 0)) k idx).get ver ++ (f.sym.get ver ++ (shapeOf f.num 1 k).text.get ver ++ u.get ver) := by
  unfold factorsText at h
  rw [hd, expText_eq hf (by omega), ok_bind] at h
  obtain ⟨u, hu, h⟩ := bind_ok.mp h
  simp only [Except.ok.injEq] at h
  refine ⟨u, hu, fun ver => ?_⟩
  rw [← h]
  simp only [SText.get_append, List.append_assoc]

theorem nextFactor_space {X : List Char} (h : ∀ r, X ≠ '⋅' :: ' ' :: r) : nextFactor (' ' :: X) = some (false, X) := by
  unfold nextFactor
  split
  · rename_i heq; cases heq
  · rename_i r heq; injection heq with _ heq; exact absurd heq (h r)
  · rename_i r _ heq; injection heq with _ heq; rw [heq]
  · rename_i c r _ hne heq; injection heq with h3 h4; exact absurd h3.symm hne

/-- Reading a product whose first operator has been read. -/
theorem readProduct_factors {look : List Char → Option Amount} {ver : Bool} {k : Nat} :
    ∀ (fs : List Factor) (as : List Amount) (f : Factor) (a : Amount) (idx : Nat) (u : SText) (n : Nat),
      Meant look ver f a → List.Forall₂ (Meant look ver) fs as → (∀ g ∈ f :: fs, g.num < 0 → 1 ≤ k) →
      factorsText k (idx + 1) fs = .ok u → fs.length < n →
      readProduct look n (f.num < 0 && k == 1) (f.sym.get ver ++ (shapeOf f.num 1 k).text.get ver ++ u.get ver) =
        some (powers ((a, f.num) :: (fs.zip as).map fun p => (p.2, p.1.num))) := by
  intro fs
  induction fs with
  | nil =>
    intro as f a idx u n hf hfs hk hu hn
    cases hfs
    cases n with
    | zero => simp at hn
    | succ n =>
      simp only [factorsText, Except.ok.injEq] at hu
      rw [← hu, SText.get_both, List.append_nil]
      obtain ⟨hc, hl, h11, -, -⟩ := hf
      obtain ⟨h1, h2⟩ := takeWhile_split (P := fun c => !isBreak c) (a := f.sym.get ver ++ (shapeOf f.num 1 k).text.get ver) (b := [])
        (fun c hx => by
          rcases List.mem_append.mp hx with hx | hx
          · simp [(hc.2 c hx).2.1]
          · simp [shape_not_break _ shapeOf_not_root ver c hx]) (by simp)
      rw [List.append_nil] at h1 h2
      unfold readProduct
      rw [h1, h2, readFactor_shape hc hl _ shapeOf_not_root]
      simp only [nextFactor, List.zip_nil_left, List.map_nil, powers]
      rw [mul_unity (by rw [pow_length]; exact h11), shapeOf_power (hk f (by simp))]
      by_cases hi : f.num < 0 ∧ k = 1
      · rw [if_pos hi]
        simp only [hi.1, hi.2, decide_true, beq_self_eq_true, Bool.and_self, cond_true]
        rw [Amount.pow_neg, Int.neg_neg]
      · rw [if_neg hi]
        have : (decide (f.num < 0) && k == 1) = false := by
          by_contra hh
          simp only [Bool.not_eq_false, Bool.and_eq_true, decide_eq_true_eq, beq_iff_eq] at hh
          exact hi hh
        rw [this]; rfl
  | cons g gs ih =>
    intro as f a idx u n hf hfs hk hu hn
    cases hfs with
    | @cons _ b _ bs hg hgs =>
    cases n with
    | zero => simp at hn
    | succ n =>
      obtain ⟨u', hu', hut⟩ := factorsText_cons hg.2.2.2.2 hg.2.2.2.1 hu
      have hrec := ih bs g b (idx + 1) u' n hg hgs (fun x hx => hk x (List.mem_cons_of_mem _ hx)) hu' (by simp at hn; omega)
      rw [hut ver]
      generalize hX : g.sym.get ver ++ (shapeOf g.num 1 k).text.get ver ++ u'.get ver = X at hrec ⊢
      obtain ⟨hc, hl, h11, -, -⟩ := hf
      have hop : (operatorText (decide (g.num < 0)) k (idx + 1)).get ver =
          if g.num < 0 ∧ k = 1 then ['/'] else bif ver then [' ', '⋅', ' '] else [' '] := by
        unfold operatorText
        rw [if_neg (by omega)]
        by_cases hi : g.num < 0 ∧ k = 1
        · simp [hi, SText.get_both]
        · rw [if_neg hi, if_neg (by simpa using hi)]
          cases ver <;> rfl
      have hbr : ∀ c ∈ ((operatorText (decide (g.num < 0)) k (idx + 1)).get ver ++ X).head?, (!isBreak c) = false := by
        intro c hc
        rw [hop] at hc
        split at hc
        · simp at hc; subst hc; decide
        · cases ver <;> · simp at hc; subst hc; decide
      obtain ⟨h1, h2⟩ := takeWhile_split (P := fun c => !isBreak c) (a := f.sym.get ver ++ (shapeOf f.num 1 k).text.get ver)
        (b := (operatorText (decide (g.num < 0)) k (idx + 1)).get ver ++ X)
        (fun c hx => by
          rcases List.mem_append.mp hx with hx | hx
          · simp [(hc.2 c hx).2.1]
          · simp [shape_not_break _ shapeOf_not_root ver c hx]) hbr
      unfold readProduct
      rw [h1, h2, readFactor_shape hc hl _ shapeOf_not_root, hop]
      have hamt : (bif (decide (f.num < 0) && k == 1) then (a.pow (shapeOf f.num 1 k).power).pow (-1) else a.pow (shapeOf f.num 1 k).power) = a.pow f.num := by
        rw [shapeOf_power (hk f (by simp))]
        by_cases hi : f.num < 0 ∧ k = 1
        · rw [if_pos hi]
          simp only [hi.1, hi.2, decide_true, beq_self_eq_true, Bool.and_self, cond_true]
          rw [Amount.pow_neg, Int.neg_neg]
        · rw [if_neg hi]
          have : (decide (f.num < 0) && k == 1) = false := by
            by_contra hh
            simp only [Bool.not_eq_false, Bool.and_eq_true, decide_eq_true_eq, beq_iff_eq] at hh
            exact hi hh
          rw [this]; rfl
      simp only [hamt]
      have hXne : ∀ r, X ≠ '⋅' :: ' ' :: r := by
        intro r hh
        obtain ⟨hgne, hgc⟩ := hg.1
        rw [← hX] at hh
        cases hs : g.sym.get ver with
        | nil => exact hgne hs
        | cons c l =>
          rw [hs] at hh hgc
          simp only [List.cons_append] at hh
          injection hh with hh _
          exact (hgc c (by simp)).2.2 hh
      have hnext : nextFactor ((if g.num < 0 ∧ k = 1 then ['/'] else bif ver then [' ', '⋅', ' '] else [' ']) ++ X) =
          some (decide (g.num < 0) && k == 1, X) := by
        by_cases hi : g.num < 0 ∧ k = 1
        · rw [if_pos hi]; simp [hi, nextFactor]
        · rw [if_neg hi]
          have hinv : (decide (g.num < 0) && k == 1) = false := by
            by_contra hh
            simp only [Bool.not_eq_false, Bool.and_eq_true, decide_eq_true_eq, beq_iff_eq] at hh
            exact hi hh
          rw [hinv]
          cases ver with
          | true => rfl
          | false => exact nextFactor_space hXne
      rw [hnext]
      simp only [hrec]
      simp [powers]

/-- C74: the printed product of integral powers of units reads as the product of the powers of what their symbols stand for. -/
theorem C74_product {look : List Char → Option Amount} (h1 : look ['1'] = some unity) {ver : Bool} {fs : List Factor} {as : List Amount}
    (hfs : List.Forall₂ (Meant look ver) fs as) {t : SText} (ht : factorsText (negExpCount fs) 0 fs = .ok t) :
    readUnits look (t.get ver) = some (powers ((fs.zip as).map fun p => (p.2, p.1.num))) := by
  cases hfs with
  | nil =>
    simp only [factorsText, Except.ok.injEq] at ht
    rw [← ht, SText.get_both]
    rfl
  | @cons f a fs as hf hfs =>
    obtain ⟨u, hu, htu⟩ := factorsText_cons hf.2.2.2.2 hf.2.2.2.1 ht
    have hk : ∀ g ∈ f :: fs, g.num < 0 → 1 ≤ negExpCount (f :: fs) := fun g hg hn => negExpCount_pos hg hn
    generalize hkk : negExpCount (f :: fs) = k at *
    have hr := fun n => readProduct_factors fs as f a 0 u n hf hfs hk hu
    have hlen : ∀ {fs : List Factor} {as : List Amount} {idx : Nat} {u : SText}, List.Forall₂ (Meant look ver) fs as →
        factorsText k (idx + 1) fs = .ok u → fs.length ≤ (u.get ver).length := by
      intro fs as idx u h
      induction h generalizing idx u with
      | nil => simp
      | @cons g b gs bs hg _ ih =>
        intro hu
        obtain ⟨v, hv, hvu⟩ := factorsText_cons hg.2.2.2.2 hg.2.2.2.1 hu
        have := ih hv
        rw [hvu]
        have hne : 0 < (g.sym.get ver).length := List.length_pos_of_ne_nil hg.1.1
        simp only [List.length_append, List.length_cons]
        omega
    have hul := hlen hfs hu
    have hne : t.get ver ≠ [] := by
      rw [htu]
      intro h
      have := (List.append_eq_nil_iff.mp h).2
      rw [List.append_assoc] at this
      exact hf.1.1 (List.append_eq_nil_iff.mp this).1
    have hread : readProduct look ((t.get ver).length + 1) false (t.get ver) =
        some (powers (((f :: fs).zip (a :: as)).map fun p => (p.2, p.1.num))) := by
      rw [htu]
      by_cases hi : f.num < 0 ∧ k = 1
      · have hop : (operatorText (decide (f.num < 0)) k 0).get ver = ['1', '/'] := by
          simp [operatorText, hi, SText.get_both]
        rw [hop]
        generalize hX : f.sym.get ver ++ (shapeOf f.num 1 k).text.get ver ++ u.get ver = X at hr ⊢
        have hXl : fs.length ≤ X.length := by rw [← hX]; simp only [List.length_append]; omega
        have hr := hr (X.length + 2) (by omega)
        have hinv : (decide (f.num < 0) && k == 1) = true := by simp [hi]
        rw [hinv] at hr
        show readProduct look (X.length + 2 + 1) false ('1' :: '/' :: X) = _
        unfold readProduct
        have e1 : ('1' :: '/' :: X).takeWhile (fun c => !isBreak c) = ['1'] := by
          simp [List.takeWhile, isBreak]
        have e2 : ('1' :: '/' :: X).dropWhile (fun c => !isBreak c) = '/' :: X := by
          simp [List.dropWhile, isBreak]
        have e3 : readFactor look ['1'] = some (unity.pow 1) := by
          have := readFactor_shape (look := look) (l := ['1']) (by decide) h1 .none (by intros; simp) ver
          rwa [Shape.text, SText.get_both, List.append_nil] at this
        have e4 : nextFactor ('/' :: X) = some (true, X) := rfl
        rw [e1, e2, e3, Amount.pow_one, e4]
        simp only [cond_false]
        rw [hr, Option.map_some, unity_mul (powers_length (by
          intro p hp
          rcases List.mem_cons.mp hp with rfl | hp
          · exact hf.2.2.1
          · obtain ⟨⟨g, b⟩, hgb, rfl⟩ := List.mem_map.mp hp
            exact forall₂_zip hfs _ hgb))]
        rfl
      · have hop : (operatorText (decide (f.num < 0)) k 0).get ver = [] := by
          have : (decide (f.num < 0) && k == 1) = false := by
            by_contra hh
            simp only [Bool.not_eq_false, Bool.and_eq_true, decide_eq_true_eq, beq_iff_eq] at hh
            exact hi hh
          simp [operatorText, this, SText.get_both]
        rw [hop, List.nil_append]
        have hinv : (decide (f.num < 0) && k == 1) = false := by
          by_contra hh
          simp only [Bool.not_eq_false, Bool.and_eq_true, decide_eq_true_eq, beq_iff_eq] at hh
          exact hi hh
        rw [hinv] at hr
        rw [hr _ (by simp only [List.length_append]; omega)]
        rfl
    unfold readUnits
    split
    · exact absurd ‹_› hne
    · rw [hread]

/-- A case: `kg ⋅ m/s²` in the symbols of the SI. -/
example : List.Forall₂ (Meant (readSymbol siSymbols) true) [⟨.both ['k', 'g'], 1, 1⟩, ⟨.both ['m'], 1, 1⟩, ⟨.both ['s'], -2, 1⟩]
      [gram.times 1000, metre, second] ∧
    readSymbol (symbolsOf n!"units::isq::si".code) ['1'] = some unity ∧
    factorsText (negExpCount [⟨.both ['k', 'g'], 1, 1⟩, ⟨.both ['m'], 1, 1⟩, ⟨.both ['s'], -2, 1⟩]) 0
      [⟨.both ['k', 'g'], 1, 1⟩, ⟨.both ['m'], 1, 1⟩, ⟨.both ['s'], -2, 1⟩] = .ok ⟨"kg ⋅ m/s²".toList, "kg m/s^2".toList⟩ := by
  refine ⟨.cons ?_ (.cons ?_ (.cons ?_ .nil)), by decide +kernel, by decide +kernel⟩ <;>
    exact ⟨by decide, by decide +kernel, rfl, rfl, by decide, by decide⟩

/-- A text without factors, and one with a single factor below the line. -/
example : readUnits (readSymbol (symbolsOf n!"units::isq::si".code)) [] = some unity ∧
    readUnits (readSymbol (symbolsOf n!"units::isq::si".code)) "1/s".toList = some (second.pow (-1)) := by decide +kernel

/-! ### The number in front of a unit -/

theorem readTen_supText {v : Int} {ver : Bool} {r : List Char} (hr : ∀ c ∈ r.head?, c = ' ' ∨ c = ']') :
    readTen ((supText v).get ver ++ r) = some (v, r) := by
  obtain ⟨h1, h2⟩ := takeWhile_split (P := fun c => !(c == ' ' || c == ']')) (a := (supText v).get ver) (b := r)
    (fun c hc => by
      obtain ⟨h1, h2⟩ := not_isBreak_supText v ver c hc
      simp only [isBreak, Bool.or_eq_false_iff, beq_eq_false_iff_ne] at h1
      simp [h1.1, h2])
    (fun c hc => by rcases hr c hc with rfl | rfl <;> decide)
  unfold readTen
  rw [h1, h2, readPower_supText]

theorem readTimesTen_bm {v : Int} {ver : Bool} {r : List Char} (hr : ∀ c ∈ r.head?, c = ' ' ∨ c = ']') :
    readTimesTen (baseMultiplier.get ver ++ ((supText v).get ver ++ r)) = some (v, r) := by
  have := readTen_supText (v := v) (ver := ver) hr
  cases ver with
  | true => exact this
  | false => exact this

theorem readNumber_decs {n : Nat} {r : List Char} (hr : ∀ c ∈ r.head?, c ∉ asciiDigits) :
    readNumber ((decs n).map asciiDigit ++ r) = some (n, r) := by
  obtain ⟨h1, h2⟩ := takeWhile_split (P := asciiDigits.contains) (a := (decs n).map asciiDigit) (b := r)
    (fun c hc => by simpa using map_decs_mem (tbl := asciiDigits) ascii_mem c hc)
    (fun c hc => by simpa using hr c hc)
  unfold readNumber
  rw [h1, h2, readDigits_eq, readNat_decs ascii_idx]

theorem readBracketEnd_tail2 (q : ℚ) (ver : Bool) (e : Int) (s : List Char) :
    readBracketEnd q (tail2 ver e ++ s) = some (q * 10 ^ e, dropSpace s) := by
  unfold tail2
  split
  · rename_i h
    rw [h, zpow_zero, mul_one]; rfl
  · have := readTimesTen_bm (v := e) (ver := ver) (r := ']' :: s) (by simp)
    simp only [List.cons_append, List.append_assoc, List.nil_append]
    show (match readTimesTen (baseMultiplier.get ver ++ ((supText e).get ver ++ ']' :: s)) with
      | some (e, ']' :: l) => some (q * 10 ^ e, dropSpace l)
      | _ => none) = _
    rw [this]
    rfl

/-- The number in front of a unit. -/
theorem readScale_ratioChars {r : Ratio} (hr : r.Prints) (h1 : r ≠ Ratio.one) (ver : Bool) {s : List Char}
    (hs : ∀ c ∈ s.head?, c = ' ') : readScale (ratioChars ver r ++ s) = some (r.val, dropSpace s) := by
  have hne : ¬ (r.num = 1 ∧ r.den = 1 ∧ r.exp = 0) := fun h => h1 (by cases r; simp only at h; obtain ⟨rfl, rfl, rfl⟩ := h; rfl)
  unfold ratioChars
  rw [if_neg hne]
  by_cases h2 : r.num = 1 ∧ r.den = 1
  · rw [if_pos h2, List.append_assoc]
    have := readTimesTen_bm (v := r.exp) (ver := ver) (r := s) (fun c hc => Or.inl (hs c hc))
    unfold readScale
    split
    · rename_i heq
      exact absurd heq (bm_head ver _ _)
    · rw [this]
      simp [Ratio.val, h2.1, h2.2]
  · rw [if_neg h2]
    simp only [List.cons_append, List.append_assoc]
    unfold readScale
    simp only
    have hd := hr.den
    have hn := hr.num
    rw [readNumber_decs (by
      intro c hc
      have : (tail1 ver r.den r.exp ++ s).head? = (tail1 ver r.den r.exp).head? := by
        unfold tail1 tail2; split <;> simp
        split <;> simp
      rw [this] at hc
      exact tail1_head c hc)]
    have e1 : ((r.num.natAbs : ℕ) : ℚ) = r.num := by
      rw [show r.num = ((r.num.natAbs : ℕ) : Int) by omega]; simp
    have e2 : ((r.den.natAbs : ℕ) : ℚ) = r.den := by
      rw [show r.den = ((r.den.natAbs : ℕ) : Int) by omega]; simp
    unfold tail1
    by_cases h3 : r.den = 1
    · rw [if_pos h3]
      have : ∀ l, tail2 ver r.exp ++ s ≠ '/' :: l := by
        intro l hh
        unfold tail2 at hh
        split at hh <;> simp at hh
      split
      · rename_i heq; injection heq with heq; injection heq with _ heq; exact absurd heq (this _)
      · rename_i heq; injection heq with heq; injection heq with h5 h6
        subst h5 h6
        rw [readBracketEnd_tail2]
        simp [Ratio.val, h3, e1]
      · rename_i heq; cases heq
    · rw [if_neg h3]
      simp only [List.cons_append, List.append_assoc]
      rw [readNumber_decs (by
        intro c hc
        have : (tail2 ver r.exp ++ s).head? = (tail2 ver r.exp).head? := by
          unfold tail2; split <;> simp
        rw [this] at hc
        rcases tail2_head c hc with rfl | rfl <;> decide)]
      simp only
      rw [readBracketEnd_tail2, e1, e2]
      rfl

/-- C74: a unit printed with a number in front (positive, not one) reads as that multiple of the unit. -/
theorem C74_number {look : List Char → Option Amount} {r : Ratio} (hr : r.Prints) (h1 : r ≠ Ratio.one) (ver : Bool) (s : List Char) :
    readText look (ratioChars ver r ++ ((if s.length > 0 then [' '] else []) ++ s)) = (readUnits look s).map (Amount.times r.val) := by
  unfold readText
  have hd : dropSpace ((if s.length > 0 then [' '] else []) ++ s) = s := by
    cases s with
    | nil => rfl
    | cons c s => simp [dropSpace]
  rw [readScale_ratioChars hr h1 ver (by
    intro c hc
    cases s with
    | nil => simp at hc
    | cons x s => simp at hc; exact hc.symm), hd]

/-- A case: `[5/18 × 10³] m/s` and `× 10⁻³ m/s`. -/
example : (⟨5, 18, 3⟩ : Ratio).Prints ∧ (⟨5, 18, 3⟩ : Ratio) ≠ Ratio.one ∧
    ratioChars true ⟨5, 18, 3⟩ ++ ((if "m/s".toList.length > 0 then [' '] else []) ++ "m/s".toList) = "[5/18 × 10³] m/s".toList ∧
    ratioChars false ⟨1, 1, -3⟩ ++ ((if "m/s".toList.length > 0 then [' '] else []) ++ "m/s".toList) = "x 10^-3 m/s".toList := by
  refine ⟨⟨by decide, by decide, by decide, by decide⟩, by decide, by decide +kernel, by decide +kernel⟩

end Verif
