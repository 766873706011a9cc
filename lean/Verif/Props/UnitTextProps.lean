import Verif.Props.TextProps

/-!
# Properties of printed units: ratios, prefixes and unnamed coherent units (C46, C47, C56)
-/

namespace Verif

/-! ## C46: the text of a ratio -/

/-- The text after the fraction. -/
def tail2 (ver : Bool) (e : Int) : List Char :=
  if e = 0 then [']'] else ' ' :: (baseMultiplier.get ver ++ ((supText e).get ver ++ [']']))

/-- The text after the numerator. -/
def tail1 (ver : Bool) (d e : Int) : List Char :=
  if d = 1 then tail2 ver e else '/' :: ((decs d.natAbs).map asciiDigit ++ tail2 ver e)

/-- The characters of a ratio text. -/
def ratioChars (ver : Bool) (r : Ratio) : List Char :=
  if r.num = 1 ∧ r.den = 1 ∧ r.exp = 0 then []
  else if r.num = 1 ∧ r.den = 1 then baseMultiplier.get ver ++ (supText r.exp).get ver
  else '[' :: ((decs r.num.natAbs).map asciiDigit ++ tail1 ver r.den r.exp)

theorem ratioText_eq {r : Ratio} (hn : 0 < r.num) (hd : 0 < r.den) (he : Printable r.exp) :
    ∃ t, ratioText r = .ok t ∧ ∀ ver, t.get ver = ratioChars ver r := by
  unfold ratioText ratioChars
  by_cases h1 : r.num = 1 ∧ r.den = 1
  · by_cases h2 : r.exp = 0
    · rw [if_neg (by simp [h2]), if_neg (by omega)]
      refine ⟨_, rfl, fun ver => ?_⟩
      rw [if_pos ⟨h1.1, h1.2, h2⟩, SText.get_both]
    · rw [if_pos ⟨h1.1, h1.2, h2⟩, supText_eq he, ok_bind]
      refine ⟨_, rfl, fun ver => ?_⟩
      rw [if_neg (by simp [h2]), if_pos h1, SText.get_append]
  · rw [if_neg (fun h => h1 ⟨h.1, h.2.1⟩), if_pos (by omega), regular_nonneg (by omega), ok_bind]
    simp only [if_neg h1, if_neg (fun h => h1 ⟨h.1, h.2.1⟩ : ¬ (r.num = 1 ∧ r.den = 1 ∧ r.exp = 0))]
    unfold tail1 tail2
    by_cases h2 : r.den = 1
    · simp only [if_pos h2]
      by_cases h3 : r.exp = 0
      · simp only [if_pos h3]
        refine ⟨_, rfl, fun ver => ?_⟩
        simp only [SText.get_append, SText.get_both, List.cons_append, List.nil_append]
      · simp only [if_neg h3]
        rw [supText_eq he, ok_bind]
        refine ⟨_, rfl, fun ver => ?_⟩
        simp only [SText.get_append, SText.get_both, List.append_assoc, List.cons_append, List.nil_append]
    · simp only [if_neg h2]
      rw [regular_nonneg (by omega), ok_bind]
      by_cases h3 : r.exp = 0
      · simp only [if_pos h3]
        refine ⟨_, rfl, fun ver => ?_⟩
        simp only [SText.get_append, SText.get_both, List.append_assoc, List.cons_append, List.nil_append]
      · simp only [if_neg h3]
        rw [supText_eq he, ok_bind]
        refine ⟨_, rfl, fun ver => ?_⟩
        simp only [SText.get_append, SText.get_both, List.append_assoc, List.cons_append, List.nil_append]

theorem supText_inj {v w : Int} (hv : Printable v) (hw : Printable w) {ver : Bool} {r1 r2 : List Char}
    (h : (supText v).get ver ++ r1 = (supText w).get ver ++ r2) (h1 : ∀ c ∈ r1.head?, c = ']') (h2 : ∀ c ∈ r2.head?, c = ']') :
    v = w ∧ r1 = r2 := by
  cases ver with
  | true =>
    exact superscript_std_inj hv.1 hv.2 hw.1 hw.2 (supText_eq hv) (supText_eq hw) h
      (fun c hc => by rw [h1 c hc]; decide) (fun c hc => by rw [h2 c hc]; decide)
  | false =>
    exact superscript_ascii_inj hv.1 hv.2 hw.1 hw.2 (supText_eq hv) (supText_eq hw) h
      (fun c hc => by rw [h1 c hc]; decide) (fun c hc => by rw [h2 c hc]; decide)

theorem tail2_inj {ver : Bool} {e f : Int} (he : Printable e) (hf : Printable f) (h : tail2 ver e = tail2 ver f) : e = f := by
  unfold tail2 at h
  split at h <;> split at h
  · omega
  · simp at h
  · simp at h
  · simp only [List.cons.injEq, true_and] at h
    exact (supText_inj he hf (List.append_cancel_left h) (by simp) (by simp)).1

theorem tail2_head {ver : Bool} {e : Int} : ∀ c ∈ (tail2 ver e).head?, c = ']' ∨ c = ' ' := by
  intro c hc
  unfold tail2 at hc
  split at hc <;> simp at hc
  · exact Or.inl hc.symm
  · exact Or.inr hc.symm

theorem tail1_inj {ver : Bool} {d1 d2 e f : Int} (h1 : 0 < d1) (h2 : 0 < d2) (he : Printable e) (hf : Printable f)
    (h : tail1 ver d1 e = tail1 ver d2 f) : d1 = d2 ∧ e = f := by
  have hne : ∀ {l : List Char} {e : Int}, '/' :: l ≠ tail2 ver e := by
    intro l e hh
    have := tail2_head (ver := ver) (e := e) '/' (by rw [← hh]; simp)
    revert this; decide
  unfold tail1 at h
  split at h <;> split at h
  · exact ⟨by omega, tail2_inj he hf h⟩
  · exact absurd h.symm hne
  · exact absurd h hne
  · simp only [List.cons.injEq, true_and] at h
    obtain ⟨a, b⟩ := digits_inj h
      (fun c hc => by rcases tail2_head c hc with rfl | rfl <;> decide)
      (fun c hc => by rcases tail2_head c hc with rfl | rfl <;> decide)
    exact ⟨by omega, tail2_inj he hf b⟩

theorem tail1_head {ver : Bool} {d e : Int} : ∀ c ∈ (tail1 ver d e).head?, c ∉ asciiDigits := by
  intro c hc
  unfold tail1 at hc
  split at hc
  · rcases tail2_head c hc with rfl | rfl <;> decide
  · simp at hc; subst hc; decide

/-- A ratio that a unit can have and whose exponent can be printed. -/
structure Ratio.Prints (r : Ratio) : Prop where
  num : 0 < r.num
  den : 0 < r.den
  exp : Printable r.exp

theorem bm_head (ver : Bool) (l m : List Char) : baseMultiplier.get ver ++ l ≠ '[' :: m := by
  cases ver <;> simp [baseMultiplier, SText.get]

theorem bm_ne_nil (ver : Bool) (l : List Char) : baseMultiplier.get ver ++ l ≠ [] := by
  cases ver <;> simp [baseMultiplier, SText.get]

theorem ratioChars_inj {ver : Bool} {r s : Ratio} (hr : r.Prints) (hs : s.Prints) (h : ratioChars ver r = ratioChars ver s) : r = s := by
  have ext : r.num = s.num → r.den = s.den → r.exp = s.exp → r = s := by
    cases r; cases s; simp only; rintro rfl rfl rfl; rfl
  unfold ratioChars at h
  by_cases a1 : r.num = 1 ∧ r.den = 1 ∧ r.exp = 0 <;> by_cases b1 : s.num = 1 ∧ s.den = 1 ∧ s.exp = 0
  · exact ext (by omega) (by omega) (by omega)
  · rw [if_pos a1, if_neg b1] at h
    split at h
    · exact absurd h.symm (bm_ne_nil _ _)
    · simp at h
  · rw [if_neg a1, if_pos b1] at h
    split at h
    · exact absurd h (bm_ne_nil _ _)
    · simp at h
  · rw [if_neg a1, if_neg b1] at h
    by_cases a2 : r.num = 1 ∧ r.den = 1 <;> by_cases b2 : s.num = 1 ∧ s.den = 1
    · rw [if_pos a2, if_pos b2] at h
      have := supText_inj hr.exp hs.exp (r1 := []) (r2 := [])
        (by rw [List.append_nil, List.append_nil]; exact List.append_cancel_left h) (by simp) (by simp)
      exact ext (by omega) (by omega) this.1
    · rw [if_pos a2, if_neg b2] at h
      exact absurd h (bm_head _ _ _)
    · rw [if_neg a2, if_pos b2] at h
      exact absurd h.symm (bm_head _ _ _)
    · rw [if_neg a2, if_neg b2] at h
      simp only [List.cons.injEq, true_and] at h
      obtain ⟨e1, e2⟩ := digits_inj h tail1_head tail1_head
      obtain ⟨e3, e4⟩ := tail1_inj hr.den hs.den hr.exp hs.exp e2
      have := hr.num
      have := hs.num
      exact ext (by omega) e3 e4

/-- C46: every positive ratio has a text, and its text (standard or ASCII) determines the ratio. -/
theorem C46_ratio_text {r s : Ratio} (hr : r.Prints) (hs : s.Prints) (ver : Bool) :
    ∃ t u, ratioText r = .ok t ∧ ratioText s = .ok u ∧ (t.get ver = u.get ver ↔ r = s) := by
  obtain ⟨t, ht, ht'⟩ := ratioText_eq hr.num hr.den hr.exp
  obtain ⟨u, hu, hu'⟩ := ratioText_eq hs.num hs.den hs.exp
  refine ⟨t, u, ht, hu, ?_, ?_⟩
  · intro h
    rw [ht', hu'] at h
    exact ratioChars_inj hr hs h
  · rintro rfl
    rw [ht', hu']

theorem printable_small {v : Int} (h : |v| ≤ 1000) : Printable v := by
  rw [abs_le] at h
  unfold Printable I64 intMin intMax
  omega

/-- The six forms. -/
example : ratioText ⟨1, 1, 3⟩ = .ok ⟨"× 10³".toList, "x 10^3".toList⟩ ∧
    ratioText ⟨6, 1, 1⟩ = .ok ⟨"[6 × 10¹]".toList, "[6 x 10^1]".toList⟩ ∧
    ratioText ⟨5, 18, 0⟩ = .ok ⟨"[5/18]".toList, "[5/18]".toList⟩ ∧
    ratioText ⟨1, 6, -1⟩ = .ok ⟨"[1/6 × 10⁻¹]".toList, "[1/6 x 10^-1]".toList⟩ ∧
    ratioText ⟨12, 1, 0⟩ = .ok ⟨"[12]".toList, "[12]".toList⟩ ∧ ratioText ⟨1, 1, 0⟩ = .ok (.both []) ∧
    (⟨1, 6, -1⟩ : Ratio).Prints ∧ (⟨5, 18, 0⟩ : Ratio).Prints := by
  refine ⟨by decide +kernel, by decide +kernel, by decide +kernel, by decide +kernel, by decide +kernel, by decide +kernel,
    ⟨by decide, by decide, printable_small (by decide)⟩, ⟨by decide, by decide, printable_small (by decide)⟩⟩

/-! ## C47: prefixes -/

theorem prefixReg_spec {ps : List TPrefix} {Γ : PrefixReg} (h : prefixRegOf ps = .ok Γ) (f : String) (r : Ratio) (p : TPrefix) :
    Γ f r = some p ↔ p ∈ ps ∧ p.family = f ∧ p.ratio = r := by
  unfold prefixRegOf at h
  obtain ⟨s, hs, h⟩ := bind_ok.mp h
  simp only [Except.ok.injEq] at h
  subst h
  have hd := (Downcast.defineAll_on_distinct hs).1
  rw [List.map_map] at hd
  simp only
  rw [Downcast.downcast_defineAll hs]
  have hc : Downcast.childrenOf (ps.map fun p => (p, (p.family, p.ratio))) (f, r) = ps.filter fun p => (p.family, p.ratio) = (f, r) := by
    unfold Downcast.childrenOf
    rw [List.filter_map, List.map_map]
    have : (Prod.fst ∘ fun p : TPrefix => (p, (p.family, p.ratio))) = id := rfl
    rw [this, List.map_id]
    rfl
  rw [hc]
  have hlen : (ps.filter fun p => (p.family, p.ratio) = (f, r)).length ≤ 1 := by
    clear hs hc h
    induction ps with
    | nil => simp
    | cons q ps ih =>
      simp only [List.map_cons, List.nodup_cons] at hd
      by_cases hq : (q.family, q.ratio) = (f, r)
      · rw [List.filter_cons_of_pos (by simpa using hq)]
        have : (ps.filter fun p => (p.family, p.ratio) = (f, r)) = [] := by
          rw [List.filter_eq_nil_iff]
          intro x hx hxe
          simp only [decide_eq_true_eq] at hxe
          exact hd.1 (List.mem_map.mpr ⟨x, hx, by simp only [Function.comp]; rw [hxe, hq]⟩)
        rw [this]; simp
      · rw [List.filter_cons_of_neg (by simpa using hq)]
        exact ih hd.2
  have hmem : p ∈ (ps.filter fun p => (p.family, p.ratio) = (f, r)) ↔ p ∈ ps ∧ p.family = f ∧ p.ratio = r := by
    simp [List.mem_filter]
  rw [← hmem]
  revert hlen
  generalize (ps.filter fun p => (p.family, p.ratio) = (f, r)) = l
  intro hlen
  match l, hlen with
  | [], _ => simp [Downcast.outcome]
  | [c], _ => simp [Downcast.outcome, eq_comm]

/-- Prefix symbols that cannot be mistaken for the text of a ratio, and that are different for different
ratios of the same family. -/
structure PrefixesOK (ps : List TPrefix) (ver : Bool) : Prop where
  nonempty : ∀ p ∈ ps, p.symbol.get ver ≠ []
  bracket : ∀ p ∈ ps, (p.symbol.get ver).head? ≠ some '['
  power : ∀ p ∈ ps, ¬ baseMultiplier.get ver <+: p.symbol.get ver
  distinct : ∀ p ∈ ps, ∀ q ∈ ps, p.family = q.family → p.symbol.get ver = q.symbol.get ver → p.ratio = q.ratio
  notOne : ∀ p ∈ ps, p.ratio ≠ Ratio.one

theorem spaced_eq {r : Ratio} (hr : r.Prints) (hne : r ≠ Ratio.one) (n : Nat) :
    ∃ t, spacedRatioText r n = .ok t ∧ ∀ ver, t.get ver = ratioChars ver r ++ (if n > 0 then [' '] else []) := by
  obtain ⟨t, ht, ht'⟩ := ratioText_eq hr.num hr.den hr.exp
  have hnn : t.std.length > 0 := by
    have : t.std = ratioChars true r := ht' true
    rw [this]
    unfold ratioChars
    rw [if_neg (fun h => hne (by cases r; simp only at h; obtain ⟨rfl, rfl, rfl⟩ := h; rfl))]
    split
    · exact List.length_pos_of_ne_nil (bm_ne_nil _ _)
    · simp
  unfold spacedRatioText
  rw [ht, ok_bind]
  by_cases hn : n > 0
  · rw [if_pos ⟨hn, hnn⟩]
    refine ⟨_, rfl, fun ver => ?_⟩
    rw [SText.get_append, SText.get_both, ht', if_pos hn]
  · rw [if_neg (fun h => hn h.1)]
    refine ⟨_, rfl, fun ver => ?_⟩
    rw [ht', if_neg hn, List.append_nil]

/-- The text in front of a symbol in all three cases. -/
theorem prefixOrRatio_cases {ps : List TPrefix} {Γ : PrefixReg} (hΓ : prefixRegOf ps = .ok Γ) {r : Ratio} (hr : r.Prints)
    (f : Option String) (n : Nat) :
    (r = Ratio.one ∧ prefixOrRatioText Γ r f n = .ok (.both [])) ∨
    (r ≠ Ratio.one ∧ ∃ p ∈ ps, some p.family = f ∧ p.ratio = r ∧ prefixOrRatioText Γ r f n = .ok p.symbol) ∨
    (r ≠ Ratio.one ∧ (∀ p ∈ ps, ¬ (some p.family = f ∧ p.ratio = r)) ∧ ∃ t, prefixOrRatioText Γ r f n = .ok t ∧
      ∀ ver, t.get ver = ratioChars ver r ++ (if n > 0 then [' '] else [])) := by
  by_cases h1 : r = Ratio.one
  · left
    refine ⟨h1, ?_⟩
    unfold prefixOrRatioText
    rw [if_pos (by rw [h1]; decide)]
  · right
    have hcond : ¬ (r.num = 1 ∧ r.den = 1 ∧ r.exp = 0) := fun h => h1 (by cases r; simp only at h; obtain ⟨rfl, rfl, rfl⟩ := h; rfl)
    cases f with
    | none =>
      right
      refine ⟨h1, fun p _ h => (by cases h.1), ?_⟩
      unfold prefixOrRatioText
      rw [if_neg hcond]
      exact spaced_eq hr h1 n
    | some f =>
      cases hp : Γ f r with
      | some p =>
        left
        obtain ⟨h2, h3, h4⟩ := (prefixReg_spec hΓ f r p).mp hp
        refine ⟨h1, p, h2, by rw [h3], h4, ?_⟩
        unfold prefixOrRatioText
        rw [if_neg hcond]
        simp only [hp]
      | none =>
        right
        refine ⟨h1, fun p hpm h => ?_, ?_⟩
        · have := (prefixReg_spec hΓ f r p).mpr ⟨hpm, Option.some.inj h.1, h.2⟩
          rw [hp] at this; cases this
        · unfold prefixOrRatioText
          rw [if_neg hcond]
          simp only [hp]
          exact spaced_eq hr h1 n

/-- The text of a ratio is never a prefix symbol. -/
theorem ratioChars_ne_prefix {ps : List TPrefix} {ver : Bool} (hps : PrefixesOK ps ver) {p : TPrefix} (hp : p ∈ ps) {r : Ratio}
    (hne : r ≠ Ratio.one) (l : List Char) : ratioChars ver r ++ l ≠ p.symbol.get ver := by
  intro h
  unfold ratioChars at h
  rw [if_neg (fun h => hne (by cases r; simp only at h; obtain ⟨rfl, rfl, rfl⟩ := h; rfl))] at h
  split at h
  · rw [List.append_assoc] at h
    exact hps.power p hp ⟨_, h⟩
  · exact hps.bracket p hp (by rw [← h]; simp)

/-- C47: for every set of prefix definitions that the compiler accepts, a ratio is printed as the symbol of
a prefix exactly when this prefix belongs to the asked family and has exactly this ratio. -/
theorem C47_prefix {ps : List TPrefix} {Γ : PrefixReg} (hΓ : prefixRegOf ps = .ok Γ) {ver : Bool} (hps : PrefixesOK ps ver) {r : Ratio}
    (hr : r.Prints) (f : Option String) (n : Nat) :
    ∃ t, prefixOrRatioText Γ r f n = .ok t ∧
      ∀ p ∈ ps, some p.family = f → (t.get ver = p.symbol.get ver ↔ p.ratio = r) := by
  rcases prefixOrRatio_cases hΓ hr f n with ⟨h1, h2⟩ | ⟨h1, q, hq, hqf, hqr, h2⟩ | ⟨h1, hno, t, h2, h3⟩
  · refine ⟨_, h2, fun p hp hf => ⟨fun h => ?_, fun h => ?_⟩⟩
    · rw [SText.get_both] at h
      exact absurd h.symm (hps.nonempty p hp)
    · rw [h1] at h
      exact absurd h (hps.notOne p hp)
  · refine ⟨_, h2, fun p hp hf => ⟨fun h => ?_, fun h => ?_⟩⟩
    · rw [← hqr]
      exact (hps.distinct q hq p hp (Option.some.inj (hqf.trans hf.symm)) h).symm
    · have h3 := (prefixReg_spec hΓ p.family r p).mpr ⟨hp, rfl, h⟩
      have h4 := (prefixReg_spec hΓ p.family r q).mpr ⟨hq, Option.some.inj (hqf.trans hf.symm), hqr⟩
      rw [h3] at h4
      rw [Option.some.inj h4]
  · refine ⟨t, h2, fun p hp hf => ⟨fun h => ?_, fun h => absurd ⟨hf, h⟩ (hno p hp)⟩⟩
    rw [h3 ver] at h
    exact absurd h (ratioChars_ne_prefix hps hp h1 _)

/-- The text in front of a symbol determines the ratio. -/
theorem prefixOrRatio_inj {ps : List TPrefix} {Γ : PrefixReg} (hΓ : prefixRegOf ps = .ok Γ) {ver : Bool} (hps : PrefixesOK ps ver)
    {r s : Ratio} (hr : r.Prints) (hs : s.Prints) {f : Option String} {n : Nat} {t u : SText}
    (ht : prefixOrRatioText Γ r f n = .ok t) (hu : prefixOrRatioText Γ s f n = .ok u) (h : t.get ver = u.get ver) : r = s := by
  have hnil : ∀ {x : Ratio} (_ : x ≠ Ratio.one) (l : List Char), ratioChars ver x ++ l ≠ [] := by
    intro x hx l hh
    unfold ratioChars at hh
    rw [if_neg (fun h => hx (by cases x; simp only at h; obtain ⟨rfl, rfl, rfl⟩ := h; rfl))] at hh
    split at hh
    · exact absurd (List.append_eq_nil_iff.mp hh).1 (bm_ne_nil _ _)
    · simp at hh
  rcases prefixOrRatio_cases hΓ hr f n with ⟨h1, h2⟩ | ⟨h1, q, hq, hqf, hqr, h2⟩ | ⟨h1, hno, t', h2, h3⟩ <;>
    rw [ht, Except.ok.injEq] at h2 <;>
    rcases prefixOrRatio_cases hΓ hs f n with ⟨g1, g2⟩ | ⟨g1, p, hp, hpf, hpr, g2⟩ | ⟨g1, gno, u', g2, g3⟩ <;>
    rw [hu, Except.ok.injEq] at g2 <;> rw [h2, g2] at h
  · rw [h1, g1]
  · rw [SText.get_both] at h; exact absurd h.symm (hps.nonempty p hp)
  · rw [SText.get_both, g3] at h; exact absurd h.symm (hnil g1 _)
  · rw [SText.get_both] at h; exact absurd h (hps.nonempty q hq)
  · rw [← hqr, ← hpr]; exact hps.distinct q hq p hp (Option.some.inj (hqf.trans hpf.symm)) h
  · rw [g3] at h; exact absurd h.symm (ratioChars_ne_prefix hps hq g1 _)
  · rw [h3, SText.get_both] at h; exact absurd h (hnil h1 _)
  · rw [h3] at h; exact absurd h (ratioChars_ne_prefix hps hp h1 _)
  · rw [h3, g3] at h; exact ratioChars_inj hr hs (List.append_cancel_right h)

/-- The decimal prefixes, src/systems/si/include/units/isq/si/prefixes.h:32-51. -/
def siPrefixes : List TPrefix :=
  [("y", "y", -24), ("z", "z", -21), ("a", "a", -18), ("f", "f", -15), ("p", "p", -12), ("n", "n", -9), ("µ", "u", -6), ("m", "m", -3),
   ("c", "c", -2), ("d", "d", -1), ("da", "da", 1), ("h", "h", 2), ("k", "k", 3), ("M", "M", 6), ("G", "G", 9), ("T", "T", 12),
   ("P", "P", 15), ("E", "E", 18), ("Z", "Z", 21), ("Y", "Y", 24)].map
    fun (s, a, e) => ⟨"si::prefix", ⟨s.toList, a.toList⟩, ⟨1, 1, e⟩⟩

/-- The binary prefixes, src/systems/isq-iec80000/include/units/isq/iec80000/binary_prefixes.h:31-36 (with the
ratios as normalised by the constructor). -/
def binaryPrefixes : List TPrefix :=
  [("Ki", 1024), ("Mi", 1048576), ("Gi", 1073741824), ("Ti", 1099511627776), ("Pi", 1125899906842624), ("Ei", 1152921504606846976)].map
    fun (s, n) => ⟨"iec80000::binary_prefix", .both s.toList, ⟨n, 1, 0⟩⟩

/-- C47: the prefix definitions shipped with the library are accepted and can be told apart, from each other
and from ratios, in both versions. -/
theorem C47_shipped_prefixes :
    (∃ Γ, prefixRegOf (siPrefixes ++ binaryPrefixes) = .ok Γ) ∧ ∀ ver, PrefixesOK (siPrefixes ++ binaryPrefixes) ver := by
  constructor
  · unfold prefixRegOf
    obtain ⟨s, hs⟩ := Downcast.defineAll_on_accepts (κ := String × Ratio) (ν := TPrefix) (s := .empty)
      ((siPrefixes ++ binaryPrefixes).map fun p => (p, (p.family, p.ratio))) (fun _ _ => rfl) (by decide +kernel)
    exact ⟨_, by rw [hs, ok_bind]⟩
  · intro ver
    cases ver <;> exact ⟨by decide +kernel, by decide +kernel, by decide +kernel, by decide +kernel, by decide +kernel⟩

/-- A normalised ratio with the value of a power of ten is written as a power of ten. -/
theorem power_of_ten_unique {r : Ratio} (hr : r.WF) {k : Int} (h : r.val = (10 : ℚ) ^ k) : r = ⟨1, 1, k⟩ := by
  have hd := hr.den_pos
  have hdq : (r.den : ℚ) ≠ 0 := hr.denq
  have h0 : r.num ≠ 0 := by
    intro e
    have := hr.val_eq_zero.mpr e
    rw [h] at this
    exact absurd this (by positivity)
  have h10 : (10 : ℚ) ≠ 0 := by norm_num
  have key : (r.num : ℚ) * 10 ^ (r.exp - k) = r.den := by
    unfold Ratio.val at h
    rw [zpow_sub₀ h10]
    field_simp at h ⊢
    linarith
  have hexp : r.exp = k := by
    rcases lt_trichotomy r.exp k with hlt | heq | hgt
    · exfalso
      obtain ⟨m, hm⟩ : ∃ m : ℕ, k - r.exp = (m : Int) + 1 := ⟨(k - r.exp - 1).toNat, by omega⟩
      have e1 : (r.num : ℚ) = r.den * 10 ^ (m + 1) := by
        have : r.exp - k = -((m : Int) + 1) := by omega
        rw [this, zpow_neg] at key
        have e3 : ((10 : ℚ) ^ ((m : Int) + 1)) = 10 ^ (m + 1) := by exact_mod_cast zpow_natCast (10 : ℚ) (m + 1)
        rw [e3] at key
        field_simp at key
        linarith
      have e2 : r.num = r.den * 10 ^ (m + 1) := by exact_mod_cast e1
      exact hr.num10 h0 ⟨r.den * 10 ^ m, by rw [e2, pow_succ]; ring⟩
    · exact heq
    · exfalso
      obtain ⟨m, hm⟩ : ∃ m : ℕ, r.exp - k = (m : Int) + 1 := ⟨(r.exp - k - 1).toNat, by omega⟩
      rw [hm] at key
      have e3 : ((10 : ℚ) ^ ((m : Int) + 1)) = 10 ^ (m + 1) := by exact_mod_cast zpow_natCast (10 : ℚ) (m + 1)
      rw [e3] at key
      have e2 : r.num * 10 ^ (m + 1) = r.den := by exact_mod_cast key
      exact hr.den10 ⟨r.num * 10 ^ m, by rw [← e2, pow_succ]; ring⟩
  rw [hexp, sub_self, zpow_zero, mul_one] at key
  have e1 : r.num = r.den := by exact_mod_cast key
  have hc := hr.coprime
  rw [e1, Int.gcd_self] at hc
  have e2 : r.den = 1 := by omega
  cases r
  simp only at e1 e2 hexp
  rw [e1, e2, hexp]

/-- C47: decimal prefixes are recognised by value: every unit whose ratio to the named one is the power of
ten of a prefix prints with this prefix, however the ratio was computed. -/
theorem C47_decimal_prefix {ps : List TPrefix} {Γ : PrefixReg} (hΓ : prefixRegOf ps = .ok Γ) {p : TPrefix} (hp : p ∈ ps) {k : Int}
    (hk : p.ratio = ⟨1, 1, k⟩) (h0 : k ≠ 0) {r : Ratio} (hr : r.WF) (hv : r.val = p.ratio.val) (n : Nat) :
    prefixOrRatioText Γ r (some p.family) n = .ok p.symbol := by
  have hr' : r = ⟨1, 1, k⟩ := power_of_ten_unique hr (by rw [hv, hk]; simp [Ratio.val])
  have hpr : p.ratio = r := by rw [hk, hr']
  have hcond : ¬ (r.num = 1 ∧ r.den = 1 ∧ r.exp = 0) := by
    rw [hr']; rintro ⟨-, -, h⟩; exact h0 h
  unfold prefixOrRatioText
  rw [if_neg hcond]
  simp only [(prefixReg_spec hΓ p.family r p).mpr ⟨hp, rfl, hpr⟩]

/-- C47 fails for binary prefixes by value: 64/5 times 80 is 1024 but is not printed as Ki, because the
normal form of ratios is not unique. -/
theorem C47_binary_prefix_missed {Γ : PrefixReg} (hΓ : prefixRegOf binaryPrefixes = .ok Γ) :
    ∃ a b r, Ratio.make 64 5 0 = .ok a ∧ Ratio.make 80 1 0 = .ok b ∧ Ratio.mul a b = .ok r ∧ r.WF ∧ r.val = (⟨1024, 1, 0⟩ : Ratio).val ∧
      prefixOrRatioText Γ r (some "iec80000::binary_prefix") 1 = .ok ⟨"[512/5 × 10¹] ".toList, "[512/5 x 10^1] ".toList⟩ := by
  refine ⟨⟨64, 5, 0⟩, ⟨8, 1, 1⟩, ⟨512, 5, 1⟩, by decide +kernel, by decide +kernel, by decide +kernel,
    ⟨by decide, by decide, fun _ => by decide, by decide, by decide, by decide, by decide, by decide⟩,
    by simp [Ratio.val]; norm_num, ?_⟩
  have hnone : Γ "iec80000::binary_prefix" ⟨512, 5, 1⟩ = none := by
    cases hp : Γ "iec80000::binary_prefix" ⟨512, 5, 1⟩ with
    | none => rfl
    | some p =>
      obtain ⟨h1, -, h3⟩ := (prefixReg_spec hΓ _ _ _).mp hp
      have hall : ∀ p ∈ binaryPrefixes, p.ratio ≠ ⟨512, 5, 1⟩ := by decide +kernel
      exact absurd h3 (hall p h1)
  unfold prefixOrRatioText
  rw [if_neg (by decide)]
  simp only [hnone]
  decide +kernel

/-! ### Units -/

/-- What an accepted unit without a symbol is printed from. -/
theorem unitText_eq {Γ : PrefixReg} {d : TDim} {u : TUnit} {t : SText} (hu : u.symbol = none) (h : unitText Γ d u = .ok t) :
    ∃ s r p, Ratio.div u.ratio d.unit.ratio = .ok r ∧ prefixOrRatioText Γ r u.refFamily s.std.length = .ok p ∧ t = p ++ s ∧
      (∀ u' : TUnit, u'.symbol = none → u'.refFamily = u.refFamily → ∀ t', unitText Γ d u' = .ok t' →
        ∃ r' p', Ratio.div u'.ratio d.unit.ratio = .ok r' ∧ prefixOrRatioText Γ r' u.refFamily s.std.length = .ok p' ∧ t' = p' ++ s) := by
  unfold unitText at h
  rw [hu] at h
  simp only at h
  cases hs : d.unit.symbol with
  | some s =>
    rw [hs] at h
    simp only [bind_ok, Except.ok.injEq] at h
    obtain ⟨r, hr, p, hp, rfl⟩ := h
    refine ⟨s, r, p, hr, hp, rfl, ?_⟩
    intro u' hu' hf t' ht'
    unfold unitText at ht'
    rw [hu'] at ht'
    simp only [hs, bind_ok, Except.ok.injEq] at ht'
    obtain ⟨r', hr', p', hp', rfl⟩ := ht'
    exact ⟨r', p', hr', by rw [← hf]; exact hp', rfl⟩
  | none =>
    rw [hs] at h
    cases d with
    | base n un => simp at h
    | derived n un recipe =>
      simp only [bind_ok, Except.ok.injEq] at h
      obtain ⟨s, hs', r, hr, p, hp, rfl⟩ := h
      refine ⟨s, r, p, hr, hp, rfl, ?_⟩
      intro u' hu' hf t' ht'
      unfold unitText at ht'
      rw [hu'] at ht'
      simp only [hs, bind_ok, Except.ok.injEq] at ht'
      obtain ⟨s', hs'', r', hr', p', hp', rfl⟩ := ht'
      rw [hs', Except.ok.injEq] at hs''
      subst hs''
      exact ⟨r', p', hr', by rw [← hf]; exact hp', rfl⟩

/-- A unit whose ratio to the coherent unit can be printed. -/
structure TUnit.Good (u : TUnit) : Prop where
  wf : u.ratio.WF
  pos : 0 < u.ratio.num

theorem div_prints {l r x : Ratio} (hl : l.WF) (hlp : 0 < l.num) (hr : r.WF) (hrp : 0 < r.num) (h : Ratio.div l r = .ok x)
    (he : x.exp ≠ intMin) : x.Prints := by
  obtain ⟨h1, h2, -⟩ := div_sound hl hr h
  refine ⟨?_, h1.den_pos, h1.exp_range, he⟩
  rw [← h1.val_pos, h2]
  exact div_pos (hl.val_pos.mpr hlp) (hr.val_pos.mpr hrp)

/-- C46 for units: two units without own symbols of one dimension (and of the same reference family) that
print the same text, standard or ASCII, have the same size. -/
theorem C46_unit_text {ps : List TPrefix} {Γ : PrefixReg} (hΓ : prefixRegOf ps = .ok Γ) {ver : Bool} (hps : PrefixesOK ps ver) {d : TDim}
    (hd : d.unit.Good) {u v : TUnit} (hu : u.Good) (hv : v.Good) (hus : u.symbol = none) (hvs : v.symbol = none)
    (hf : v.refFamily = u.refFamily) (he : ∀ w ∈ [u, v], ∀ r, Ratio.div w.ratio d.unit.ratio = .ok r → r.exp ≠ intMin)
    {t s : SText} (ht : unitText Γ d u = .ok t) (hs : unitText Γ d v = .ok s) (h : t.get ver = s.get ver) :
    u.ratio.val = v.ratio.val := by
  obtain ⟨sym, r, p, h1, h2, rfl, h3⟩ := unitText_eq hus ht
  obtain ⟨r', p', h4, h5, rfl⟩ := h3 v hvs hf s hs
  rw [SText.get_append, SText.get_append] at h
  have hpr := div_prints hu.wf hu.pos hd.wf hd.pos h1 (he u (by simp) r h1)
  have hpr' := div_prints hv.wf hv.pos hd.wf hd.pos h4 (he v (by simp) r' h4)
  have := prefixOrRatio_inj hΓ hps hpr hpr' h2 h5 (List.append_cancel_right h)
  subst this
  have e1 := (div_sound hu.wf hd.wf h1).2.1
  have e2 := (div_sound hv.wf hd.wf h4).2.1
  have hd0 : d.unit.ratio.val ≠ 0 := (hd.wf.val_pos.mpr hd.pos).ne'
  rw [e1] at e2
  exact (div_left_inj' hd0).mp e2

/-- C47 for units: a unit without an own symbol whose size is a power of ten with a prefix of its family times the named coherent
unit is printed as the prefix symbol followed by the symbol of the coherent unit. -/
theorem C47_unit {ps : List TPrefix} {Γ : PrefixReg} (hΓ : prefixRegOf ps = .ok Γ) {p : TPrefix} (hp : p ∈ ps) {k : Int}
    (hk : p.ratio = ⟨1, 1, k⟩) (h0 : k ≠ 0) {d : TDim} (hd : d.unit.Good) {s : SText} (hs : d.unit.symbol = some s)
    {u : TUnit} (hu : u.Good) (hus : u.symbol = none) (hf : u.refFamily = some p.family)
    (hval : u.ratio.val = p.ratio.val * d.unit.ratio.val) {t : SText} (ht : unitText Γ d u = .ok t) : t = p.symbol ++ s := by
  unfold unitText at ht
  rw [hus] at ht
  simp only [hs, bind_ok, Except.ok.injEq] at ht
  obtain ⟨r, hr, q, hq, rfl⟩ := ht
  obtain ⟨h1, h2, -⟩ := div_sound hu.wf hd.wf hr
  have hd0 : d.unit.ratio.val ≠ 0 := (hd.wf.val_pos.mpr hd.pos).ne'
  rw [hval, mul_div_cancel_right₀ _ hd0] at h2
  rw [hf, C47_decimal_prefix hΓ hp hk h0 h1 h2, Except.ok.injEq] at hq
  rw [← hq]

/-- The SI metre and length for printing. -/
def exMetreT : TUnit := ⟨Ratio.one, some (.both ['m']), true, some "si::prefix"⟩
/-- A kilometre that nobody named, `scaled_unit<ratio(1, 1, 3), metre>`. -/
def exKiloT : TUnit := ⟨⟨1, 1, 3⟩, none, false, some "si::prefix"⟩
/-- A unit of 5/18 metres. -/
def exOddT : TUnit := ⟨⟨5, 18, 0⟩, none, false, some "si::prefix"⟩

theorem exGood : exMetreT.Good ∧ exKiloT.Good ∧ exOddT.Good :=
  ⟨⟨⟨by decide, by decide, fun _ => by decide, by decide, by decide, by decide, by decide, by decide⟩, by decide⟩,
    ⟨⟨by decide, by decide, fun _ => by decide, by decide, by decide, by decide, by decide, by decide⟩, by decide⟩,
    ⟨⟨by decide, by decide, fun _ => by decide, by decide, by decide, by decide, by decide, by decide⟩, by decide⟩⟩

/-- With the shipped prefixes the unnamed kilometre prints as km and the odd unit as [5/18] m. -/
example : (do let Γ ← prefixRegOf (siPrefixes ++ binaryPrefixes); unitText Γ (.base "length" exMetreT) exKiloT) = .ok (.both "km".toList) ∧
    (do let Γ ← prefixRegOf (siPrefixes ++ binaryPrefixes); unitText Γ (.base "length" exMetreT) exOddT) = .ok (.both "[5/18] m".toList) := by
  decide +kernel

/-! ## C56: unnamed coherent units -/

mutual
/-- The exponent of the base dimension `b` in a dimension (specification). -/
def TDim.expOf (b : String) : TDim → ℚ
  | .base n _ => if n = b then 1 else 0
  | .derived _ _ r => r.expOf b
/-- The exponent of the base dimension `b` in a recipe (specification). -/
def TRecipe.expOf (b : String) : TRecipe → ℚ
  | .nil => 0
  | .cons d n m rest => (n : ℚ) / m * d.expOf b + rest.expOf b
end

/-- The exponent of `b` in a printed product of coherent units (specification). -/
def printedExp (b : String) (is : List TItem) : ℚ := (is.map fun i => (i.num : ℚ) / i.den * i.dim.expOf b).sum

mutual
/-- Every dimension with an unnamed unit that occurs inside occurs with exponent one. -/
def TDim.Flat : TDim → Prop
  | .base _ _ => True
  | .derived _ _ r => r.Flat
/-- Every dimension with an unnamed unit that occurs in the recipe occurs with exponent one. -/
def TRecipe.Flat : TRecipe → Prop
  | .nil => True
  | .cons d n m rest => (d.unit.named = false → (n : ℚ) / m = 1 ∧ d.Flat) ∧ rest.Flat
end

mutual
theorem itemNamed_exp (b : String) : ∀ (d : TDim) (n m : Int) (is : List TItem),
    (d.unit.named = false → (n : ℚ) / m = 1 ∧ d.Flat) → itemNamed d n m = .ok is → printedExp b is = (n : ℚ) / m * d.expOf b
  | .base name u, n, m, is, _, h => by
    unfold itemNamed at h
    split at h
    · simp only [Except.ok.injEq] at h; subst h; simp [printedExp]
    · simp at h
  | .derived name u r, n, m, is, hf, h => by
    unfold itemNamed at h
    split at h
    · simp only [Except.ok.injEq] at h; subst h; simp [printedExp]
    · rename_i hn
      obtain ⟨h1, h2⟩ := hf (by simpa using hn)
      simp only at h
      simp only [TDim.Flat] at h2
      rw [recipeNamed_exp b r is h2 h, h1, one_mul, TDim.expOf]
theorem recipeNamed_exp (b : String) : ∀ (r : TRecipe) (is : List TItem), r.Flat → recipeNamed r = .ok is →
    printedExp b is = r.expOf b
  | .nil, is, _, h => by
    simp only [recipeNamed, Except.ok.injEq] at h; subst h; simp [printedExp, TRecipe.expOf]
  | .cons d n m rest, is, hf, h => by
    simp only [recipeNamed, bind_ok, Except.ok.injEq] at h
    obtain ⟨l, hl, ls, hls, rfl⟩ := h
    simp only [TRecipe.Flat] at hf
    have e1 := itemNamed_exp b d n m l hf.1 hl
    have e2 := recipeNamed_exp b rest ls hf.2 hls
    simp only [printedExp, List.map_append, List.sum_append, TRecipe.expOf] at e1 e2 ⊢
    rw [e1, e2]
end

/-- Every printed unit is named. -/
theorem factorsOf_spec : ∀ {is : List TItem} {fs : List Factor}, factorsOf is = .ok fs →
    List.Forall₂ (fun i f => i.dim.unit.symbol = some f.sym ∧ f.num = i.num ∧ f.den = i.den) is fs
  | [], fs, h => by simp only [factorsOf, Except.ok.injEq] at h; subst h; exact .nil
  | i :: is, fs, h => by
    simp only [factorsOf, bind_ok, Except.ok.injEq] at h
    obtain ⟨f, hf, fs', hfs, rfl⟩ := h
    refine .cons ?_ (factorsOf_spec hfs)
    unfold itemFactor at hf
    split at hf
    · rename_i s hs
      simp only [Except.ok.injEq] at hf
      subst hf
      exact ⟨hs, rfl, rfl⟩
    · cases hf

/-- C56: the symbol printed for the coherent unit of a dimension without a named unit is the product of the
symbols of named coherent units whose dimensions multiply to the dimension.
Partial: only if dimensions with unnamed units occur in the recipe with exponent one, see
`C56_energy_density_wrong`. -/
theorem C56_unnamed_unit_text_partial {r : TRecipe} (hr : r.Flat) {t : SText} (h : derivedDimensionUnitText r = .ok t) :
    ∃ (is : List TItem) (fs : List Factor), (∀ b, printedExp b is = r.expOf b) ∧
      List.Forall₂ (fun i f => i.dim.unit.symbol = some f.sym ∧ f.num = i.num ∧ f.den = i.den) is fs ∧
      factorsText (negExpCount fs) 0 fs = .ok t := by
  unfold derivedDimensionUnitText at h
  simp only [bind_ok] at h
  obtain ⟨is, his, fs, hfs, h⟩ := h
  exact ⟨is, fs, fun b => recipeNamed_exp b r is hr his, factorsOf_spec hfs, h⟩

/-- SI length, mass and time, speed (m/s without a name), momentum, volume, energy and energy density,
src/systems/si/include/units/isq/si/{length,mass,time,speed,momentum,volume,energy,energy_density}.h with the
recipes of src/systems/isq/include/units/isq/dimensions. -/
def exLengthT : TDim := .base "length" exMetreT
/-- See `exLengthT`. -/
def exMassT : TDim := .base "mass" ⟨⟨1, 1, 3⟩, some (.both "kg".toList), true, some "si::prefix"⟩
/-- See `exLengthT`. -/
def exTimeT : TDim := .base "time" ⟨Ratio.one, some (.both ['s']), true, some "si::prefix"⟩
/-- A coherent unit without a name, `struct u : unit<u>`. -/
def exUnnamedT : TUnit := ⟨Ratio.one, none, false, none⟩
/-- See `exLengthT`. -/
def exSpeedT : TDim := .derived "speed" exUnnamedT (.cons exLengthT 1 1 (.cons exTimeT (-1) 1 .nil))
/-- See `exLengthT`. -/
def exMomentumT : TRecipe := .cons exMassT 1 1 (.cons exSpeedT 1 1 .nil)
/-- See `exLengthT`. -/
def exVolumeT : TDim := .derived "volume" exUnnamedT (.cons exLengthT 3 1 .nil)
/-- See `exLengthT`. -/
def exEnergyT : TDim := .derived "energy" ⟨Ratio.one, some (.both ['J']), true, some "si::prefix"⟩
  (.cons exMassT 1 1 (.cons exLengthT 2 1 (.cons exTimeT (-2) 1 .nil)))
/-- See `exLengthT`. -/
def exEnergyDensityT : TRecipe := .cons exEnergyT 1 1 (.cons exVolumeT (-1) 1 .nil)

/-- Momentum has a nested unnamed unit with exponent one. -/
example : exMomentumT.Flat ∧ derivedDimensionUnitText exMomentumT = .ok ⟨"kg ⋅ m/s".toList, "kg m/s".toList⟩ := by
  constructor
  · simp [exMomentumT, TRecipe.Flat, TDim.Flat, exSpeedT, exMassT, exLengthT, exTimeT, TDim.unit, exMetreT]
  · decide +kernel

/-- C56 fails for the energy density of the SI: the exponent of the unnamed unit of volume is dropped, so
that the symbol is J ⋅ m³ (of dimension L⁵ M T⁻²) and not J/m³ (L⁻¹ M T⁻²). -/
theorem C56_energy_density_wrong :
    derivedDimensionUnitText exEnergyDensityT = .ok ⟨"J ⋅ m³".toList, "J m^3".toList⟩ ∧
    exEnergyDensityT.expOf "length" = -1 ∧
    ∃ is, recipeNamed exEnergyDensityT = .ok is ∧ printedExp "length" is = 5 := by
  refine ⟨by decide +kernel, ?_, [⟨exEnergyT, 1, 1⟩, ⟨exLengthT, 3, 1⟩], ?_, ?_⟩
  · simp [exEnergyDensityT, TRecipe.expOf, TDim.expOf, exEnergyT, exVolumeT, exMassT, exLengthT, exTimeT]; norm_num
  · simp [recipeNamed, exEnergyDensityT, itemNamed, exEnergyT, exVolumeT, TDim.unit, exUnnamedT, exLengthT, exMetreT]
  · simp [printedExp, TRecipe.expOf, TDim.expOf, exEnergyT, exMassT, exLengthT, exTimeT]; norm_num

end Verif
