import Verif.Props.SymbolReading
import Verif.Props.SystemsProps
import Verif.SymbolChecked

/-!
# Properties of printed units (C74): what is printed for a shipped unit means that unit
-/

namespace Verif

open Systems Standards

set_option Elab.async false

namespace Systems

theorem unitNamed_rows (l : List Entry) (n : String) :
    (l.findSome? fun e =>
      match e.ent with
      | .unit u => if u.name = n then some u else none
      | _ => none) = ((unitRows l).map URow.ent).find? fun u => decide (u.name = n) := by
  induction l with
  | nil => rfl
  | cons e l ih =>
    rw [List.findSome?_cons]
    unfold unitRows
    cases h : e.ent <;> simp only [ih]
    rename_i u
    by_cases hn : u.name = n
    · simp [hn]
    · simp [hn]

theorem dimNamed_rows (l : List Entry) (n : String) :
    (l.findSome? fun e =>
      match e.ent with
      | .dim d => if d.name = n then some d else none
      | _ => none) = (dentRows l).find? fun d => decide (d.name = n) := by
  induction l with
  | nil => rfl
  | cons e l ih =>
    rw [List.findSome?_cons]
    unfold dentRows
    cases h : e.ent <;> simp only [ih]
    rename_i u
    by_cases hn : u.name = n
    · simp [hn]
    · simp [hn]

theorem unitNamed_table {S : Sys} (hS : everything = .ok S) : S.unitNamed = tableUnit := by
  have h := checkIndexed_ok
  unfold checkIndexed at h
  rw [Bool.and_eq_true] at h
  funext n
  refine (unitNamed_rows S.log n).trans ?_
  unfold tableUnit unitIndex
  rw [(tables hS).units, findNamed_eq UEnt.name _ h.1]

theorem dimNamed_table {S : Sys} (hS : everything = .ok S) : S.dimNamed = tableDim := by
  have h := checkIndexed_ok
  unfold checkIndexed at h
  rw [Bool.and_eq_true] at h
  funext n
  refine (dimNamed_rows S.log n).trans ?_
  unfold tableDim dimIndex
  rw [(tables hS).dents, findNamed_eq DEnt.name _ h.2]

/-- A prefix that is found is one that is declared. -/
theorem prefixes_table {S : Sys} (hS : everything = .ok S) {f : String} {r : Ratio} {p : TPrefix} (h : S.prefixes f r = some p) :
    ∃ q ∈ prefixTable, q.pre.family = f ∧ q.pre.ratio = r ∧ p.symbol = ⟨q.pre.symbol.toList, q.ascii.toList⟩ := by
  unfold Sys.prefixes at h
  obtain ⟨e, he, h⟩ := List.exists_of_findSome?_eq_some h
  split at h
  · rename_i q a hq
    split at h
    · rename_i hc
      simp only [Option.some.injEq] at h
      exact ⟨_, prefix_row hS he hq, hc.1, hc.2, by rw [← h]⟩
    · cases h
  · cases h

theorem tDimOf_unit {U : String → Option UEnt} {D : String → Option DEnt} {k : Nat} {d : Dim} {t : TDim} (h : tDimOf U D k d = .ok t) :
    t.unit = tUnitOf U d.unit := by
  cases k with
  | zero => simp [tDimOf] at h
  | succ k =>
    cases d with
    | base b => simp only [tDimOf, Except.ok.injEq] at h; rw [← h]; rfl
    | unknown es =>
      simp only [tDimOf] at h
      obtain ⟨r, -, h⟩ := bind_ok.mp h
      simp only [Except.ok.injEq] at h; rw [← h]; rfl
    | named n =>
      simp only [tDimOf] at h
      split at h
      · obtain ⟨r, -, h⟩ := bind_ok.mp h
        simp only [Except.ok.injEq] at h; rw [← h]; rfl
      · cases h

/-- A unit without a symbol is printed as a number or prefix in front of the text of the coherent unit. -/
theorem unitText_unnamed {Γ : PrefixReg} {d : TDim} {u : TUnit} (hu : u.symbol = none) :
    unitText Γ d u = (do
      let s ← coherentText d
      let r ← Ratio.div u.ratio d.unit.ratio
      let p ← prefixOrRatioText Γ r u.refFamily s.std.length
      .ok (p ++ s)) := by
  unfold unitText coherentText
  rw [hu]
  cases h : d.unit.symbol with
  | some s => rfl
  | none => cases d <;> rfl

theorem superscript_printable {v : Int} {t : SText} (hv : I64 v) (h : superscript v = .ok t) : Printable v := by
  refine ⟨hv, fun hm => ?_⟩
  rw [hm, C45_least_rejected.1] at h
  cases h

/-- If the text exists, so does the superscript of the exponent. -/
theorem ratioText_printable {r : Ratio} (hw : r.WF) {t : SText} (h : ratioText r = .ok t) : Printable r.exp := by
  have hi : I64 r.exp := hw.exp_range
  unfold ratioText at h
  split at h
  · obtain ⟨s, hs, -⟩ := bind_ok.mp h; exact superscript_printable hi hs
  split at h
  · obtain ⟨n, -, h⟩ := bind_ok.mp h
    simp only at h
    split at h <;> [skip; obtain ⟨x, -, h⟩ := bind_ok.mp h]
    all_goals
      split at h
      · rename_i he; exact ⟨hi, by rw [he]; decide⟩
      · obtain ⟨s, hs, -⟩ := bind_ok.mp h; exact superscript_printable hi hs
  · rename_i h1 h2
    have : r.exp = 0 := by by_contra hh; exact h2 (Or.inr (Or.inr hh))
    exact ⟨hi, by rw [this]; decide⟩

theorem prefixOrRatio_text {Γ : PrefixReg} {r : Ratio} (hw : r.WF) (hn : 0 < r.num) {f : Option String} {n : Nat} {t : SText}
    (h : prefixOrRatioText Γ r f n = .ok t) :
    (r = Ratio.one ∧ t = .both []) ∨ (∃ g p, f = some g ∧ Γ g r = some p ∧ t = p.symbol) ∨
    (r ≠ Ratio.one ∧ r.Prints ∧ ∀ ver, t.get ver = ratioChars ver r ++ (if n > 0 then [' '] else [])) := by
  unfold prefixOrRatioText at h
  split at h
  · rename_i h1
    left
    simp only [Except.ok.injEq] at h
    refine ⟨by cases r; simp only at h1; obtain ⟨rfl, rfl, rfl⟩ := h1; rfl, h.symm⟩
  rename_i h1
  have hne : r ≠ Ratio.one := fun hh => h1 (by rw [hh]; decide)
  have spaced : spacedRatioText r n = .ok t →
      r.Prints ∧ ∀ ver, t.get ver = ratioChars ver r ++ (if n > 0 then [' '] else []) := by
    intro h
    unfold spacedRatioText at h
    obtain ⟨x, hx, h⟩ := bind_ok.mp h
    have hp : r.Prints := ⟨hn, hw.den_pos, ratioText_printable hw hx⟩
    refine ⟨hp, fun ver => ?_⟩
    obtain ⟨y, hy, hc⟩ := ratioText_eq hp.num hp.den hp.exp
    rw [hx, Except.ok.injEq] at hy
    subst hy
    have hlen : x.std.length > 0 := by
      have := hc true
      simp only [SText.get] at this
      rw [this]
      apply List.length_pos_of_ne_nil
      unfold ratioChars
      rw [if_neg h1]
      split
      · exact bm_ne_nil _ _
      · simp
    split at h
    · rename_i hl
      simp only [Except.ok.injEq] at h
      rw [← h, SText.get_append, hc, SText.get_both, if_pos hl.1]
    · rename_i hl
      simp only [Except.ok.injEq] at h
      rw [← h, hc, if_neg (fun h => hl ⟨h, hlen⟩), List.append_nil]
  split at h
  · rename_i g
    split at h
    · rename_i p hp
      right; left
      simp only [Except.ok.injEq] at h
      exact ⟨g, p, rfl, hp, h.symm⟩
    · right; right; exact ⟨hne, spaced h⟩
  · right; right; exact ⟨hne, spaced h⟩

theorem ten_not_dvd_pow {x : Int} {j : Nat} (h : ¬ (10 : Int) ∣ x) (he : x = 10 ^ j) : x = 1 := by
  cases j with
  | zero => simpa using he
  | succ j => exact absurd ⟨10 ^ j, by rw [he, pow_succ]; ring⟩ h

/-- A power of ten has only one representation. -/
theorem wf_pow_ten {r : Ratio} (hw : r.WF) {k : Int} (h : r.val = 10 ^ k) : r = ⟨1, 1, k⟩ := by
  have hd := hw.den_pos
  have hn : 0 < r.num := hw.val_pos.mp (by rw [h]; positivity)
  have hd' : (r.den : ℚ) ≠ 0 := by exact_mod_cast hd.ne'
  unfold Ratio.val at h
  have h2 : (r.num : ℚ) = r.den * 10 ^ (k - r.exp) := by
    rw [zpow_sub₀ (by norm_num), ← h]; field_simp
  have key : r.num = 1 ∧ r.den = 1 := by
    by_cases hke : 0 ≤ k - r.exp
    · obtain ⟨j, hj⟩ := Int.eq_ofNat_of_zero_le hke
      rw [hj, zpow_natCast] at h2
      have h3 : r.num = r.den * 10 ^ j := by exact_mod_cast h2
      have hden : r.den = 1 := by
        have : r.den ∣ r.num := ⟨_, h3⟩
        have hg : Int.gcd r.num r.den = r.den.natAbs := Int.gcd_eq_right_iff_dvd (by omega) |>.mpr this |> fun h => by omega
        have := hw.coprime
        omega
      rw [hden, one_mul] at h3
      exact ⟨ten_not_dvd_pow (hw.num10 (by omega)) h3, hden⟩
    · obtain ⟨j, hj⟩ := Int.eq_ofNat_of_zero_le (show 0 ≤ r.exp - k by omega)
      have h3 : (r.den : ℚ) = r.num * 10 ^ j := by
        rw [h2, mul_assoc, ← zpow_natCast, ← hj, ← zpow_add₀ (by norm_num)]; simp
      have h3 : r.den = r.num * 10 ^ j := by exact_mod_cast h3
      have hnum : r.num = 1 := by
        have : r.num ∣ r.den := ⟨_, h3⟩
        have hg : Int.gcd r.num r.den = r.num.natAbs := Int.gcd_eq_left_iff_dvd (by omega) |>.mpr this |> fun h => by omega
        have := hw.coprime
        omega
      rw [hnum, one_mul] at h3
      exact ⟨hnum, ten_not_dvd_pow hw.den10 h3⟩
  obtain ⟨h3, h4⟩ := key
  rw [h3, h4] at h
  have : r.exp = k := by
    have h5 : (10 : ℚ) ^ r.exp = 10 ^ k := by simpa using h
    exact zpow_right_injective₀ (by norm_num) (by norm_num) h5
  cases r
  simp only at h3 h4 this
  rw [h3, h4, this]

/-- The units that are a prefix away from the kilogram are declared. -/
theorem mass_declared {S : Sys} (hS : everything = .ok S) {r : DRow} (hr : r ∈ dimTable) (hn : r.full = massName) {u : MUnit} (hu : u.WF)
    (href : u.ref = r.dim.unit.ref) {td : TDim} (htu : td.unit = tUnitOf tableUnit r.dim.unit) {g : String} (hfam : td.unit.refFamily = some g)
    {p : PRow} (hp : p ∈ prefixTable) (hg : p.pre.family = g) (hv : p.pre.ratio.val = u.ratio.val / r.dim.unit.ratio.val)
    (hd : ∀ x ∈ S.unitDefs, ¬ (x.2.1 = u.ratio ∧ x.2.2 = u.ref)) : False := by
  have hc := checkMass_ok
  unfold checkMass at hc
  rw [Bool.and_eq_true] at hc
  have h1 := List.all_eq_true.mp hc.1 r hr
  have h2 := List.all_eq_true.mp hc.2 p hp
  simp only [hn, decide_true, cond_true, Bool.and_eq_true, decide_eq_true_eq] at h1
  obtain ⟨⟨h1a, h1b⟩, h1c⟩ := h1
  rw [htu, h1c] at hfam
  simp only [Option.some.injEq] at hfam
  rw [← hfam] at hg
  simp only [hg, decide_true, cond_true, Bool.and_eq_true, decide_eq_true_eq] at h2
  obtain ⟨⟨h2a, h2b⟩, h2c⟩ := h2
  obtain ⟨x, hx, hxe⟩ := List.any_eq_true.mp h2c
  simp only [Bool.and_eq_true, decide_eq_true_eq] at hxe
  have huv : u.ratio.val = 10 ^ (p.pre.ratio.exp + 3) := by
    rw [h1a] at hv
    simp only [Ratio.val, h2a, h2b] at hv ⊢
    rw [zpow_add₀ (by norm_num)]
    norm_num at hv ⊢
    rw [hv]; ring
  have hux := wf_pow_ten hu.ratio huv
  rw [← (tables hS).unitDefs] at hx
  obtain ⟨y, hy, rfl⟩ := List.mem_map.mp hx
  exact hd y hy ⟨by rw [hux]; exact hxe.1, by rw [href, h1b]; exact hxe.2⟩

end Systems

/-- A unit that has no symbol of its own: a scaled unit, or one declared as `unit`. -/
def Unsymbolised (u : MUnit) : Prop := ∀ n, u.id = .named n → u.named = false ∧ u.symbol = ""

theorem Unsymbolised.symbol {u : MUnit} (h : Unsymbolised u) (U : String → Option UEnt) : (tUnitOf U u).symbol = none := by
  unfold tUnitOf
  simp only
  split
  · rfl
  · rename_i n hn
    obtain ⟨h1, h2⟩ := h n hn
    rw [if_neg (by simp [h1, h2])]

theorem Amount.times_one (a : Amount) : a.times 1 = a := by cases a; simp [Amount.times]

theorem Amount.times_times (p q : ℚ) (a : Amount) : (a.times p).times q = a.times (q * p) := by
  cases a; simp [Amount.times, mul_assoc]

theorem get_length {t : SText} : t.get true = t.std := rfl

/-- C74: what is printed for a unit without a symbol of its own in a shipped dimension, in the standard and in the ASCII version, reads as the size of the unit.
Partial: three dimensions are printed wrongly (`wrongTexts`, see `C74_wrong_texts`), and in five others (`prefixedCoherent`) a unit whose size in coherent units is that
of a prefix gets a second prefix (`C74_double_prefix`); for masses no such unit is left over by downcasting (last hypothesis). -/
theorem C74_unit_partial (S : Sys) (hS : everything = .ok S) (e : Entry) (he : e ∈ S.log) (d : DEnt) (hd : e.ent = .dim d)
    (hw : d.name ∉ wrongTexts) (u : MUnit) (hu : u.WF) (hs : Unsymbolised u) (hr : unitOf u d.dim = true)
    (hp : d.name ∈ prefixedCoherent → ∀ p ∈ symbolPrefixes, p.2 ≠ u.ratio.val / d.dim.unit.ratio.val)
    (hm : d.name = massName → ∀ x ∈ S.unitDefs, ¬ (x.2.1 = u.ratio ∧ x.2.2 = u.ref)) (t : SText)
    (ht : S.printed d.dim u = .ok t) (ver : Bool) :
    printedMeaning e.scope.code (t.get ver) = denote d.dim u ∧ (denote d.dim u).isSome := by
  have hrow := dim_row hS he hd
  have hc := List.all_eq_true.mp checkDimTexts_ok _ hrow
  unfold checkDimText at hc
  simp only [hw, decide_false, Bool.false_or] at hc
  unfold Sys.printed Sys.tDim Sys.tUnit at ht
  rw [unitNamed_table hS, dimNamed_table hS] at ht
  obtain ⟨td, htd, ht⟩ := bind_ok.mp ht
  rw [htd] at hc
  dsimp only at hc
  rw [unitText_unnamed (hs.symbol _)] at ht
  obtain ⟨s, hsx, ht⟩ := bind_ok.mp ht
  obtain ⟨r, hdiv, ht⟩ := bind_ok.mp ht
  obtain ⟨p, hpx, ht⟩ := bind_ok.mp ht
  simp only [Except.ok.injEq] at ht
  rw [hsx] at hc
  cases hden : denote d.dim d.dim.unit with
  | none => rw [hden] at hc; simp at hc
  | some a =>
    rw [hden] at hc
    simp only [Bool.and_eq_true] at hc
    obtain ⟨⟨hc0, hc1⟩, hc2⟩ := hc
    have htu : td.unit = tUnitOf tableUnit d.dim.unit := tDimOf_unit htd
    have hdw : d.dim.unit.WF := (checkDims_sound hrow).1.unit
    have hdiv' : Ratio.div u.ratio d.dim.unit.ratio = .ok r := by rw [htu] at hdiv; exact hdiv
    obtain ⟨hrw, hval, hv0⟩ := div_sound hu.ratio hdw.ratio hdiv'
    have hv0 : d.dim.unit.ratio.val ≠ 0 := hdw.val_pos.ne'
    have hrpos : 0 < r.num := by
      rw [← hrw.val_pos, hval]
      exact div_pos hu.val_pos hdw.val_pos
    have hdu : denote d.dim u = some (a.times r.val) := by
      unfold denote at hden ⊢
      cases hex : d.dim.exps with
      | error => rw [hex] at hden; simp at hden
      | ok es =>
        rw [hex] at hden
        simp only at hden ⊢
        cases hda : dimAmount es with
        | none => rw [hda] at hden; simp at hden
        | some b =>
          rw [hda] at hden
          simp only [Option.some.injEq] at hden ⊢
          rw [← hden, Amount.times_times, hval, div_self hv0, mul_one]
    refine ⟨?_, by rw [hdu]; rfl⟩
    rw [hdu]
    have hboth : ∀ ver, printedMeaning e.scope.code (s.get ver) = some a ∧ readUnits (readSymbol (symbolsOf e.scope.code)) (s.get ver) = some a := by
      intro ver
      simp only [SText.both', List.all_cons, List.all_nil, Bool.and_true, Bool.and_eq_true, decide_eq_true_eq] at hc1
      cases ver
      · exact hc1.2
      · exact hc1.1
    rw [← ht, SText.get_append]
    rcases prefixOrRatio_text hrw hrpos hpx with ⟨h1, h2⟩ | ⟨g, q, h1, h2, h3⟩ | ⟨h1, h2, h3⟩
    · rw [h2, SText.get_both, List.nil_append, (hboth ver).1, h1]
      rw [show Ratio.one.val = 1 by simp [Ratio.val, Ratio.one], Amount.times_one]
    · obtain ⟨row, hrowp, hf, hrat, hsym⟩ := prefixes_table hS h2
      have hval' : row.pre.ratio.val = u.ratio.val / d.dim.unit.ratio.val := by rw [hrat, hval]
      by_cases hpc : d.name ∈ prefixedCoherent
      · have hpv := List.all_eq_true.mp checkPrefixValues_ok _ hrowp
        obtain ⟨x, hx, hxe⟩ := List.any_eq_true.mp hpv
        simp only [decide_eq_true_eq] at hxe
        exact absurd (hxe.trans hval') (hp hpc x hx)
      · have hfam : td.unit.refFamily = some g := by
          rw [htu, ← h1]
          unfold tUnitOf
          simp only [unitOf, beq_iff_eq] at hr
          rw [hr]
        by_cases hmn : d.name = massName
        · exact (mass_declared hS hrow hmn hu (by simpa [unitOf] using hr) htu hfam hrowp hf hval' (hm hmn)).elim
        simp only [hpc, hmn, decide_false, Bool.false_or] at hc2
        rw [hfam] at hc2
        simp only at hc2
        have := List.all_eq_true.mp hc2 _ hrowp
        simp only [hf, decide_true, cond_true, Bool.and_eq_true, decide_eq_true_eq] at this
        rw [h3, hsym, ← hrat]
        cases ver
        · exact this.2
        · exact this.1
    · rw [h3, List.append_assoc]
      have hlen : (if s.std.length > 0 then [' '] else ([] : List Char)) = if (s.get ver).length > 0 then [' '] else [] := by
        have h0 : s.std.length > 0 ↔ (s.get ver).length > 0 := by
          simp only [beq_iff_eq] at hc0
          cases ver with
          | true => rfl
          | false =>
            simp only [SText.get, List.length_pos_iff_ne_nil, ne_eq, ← List.isEmpty_iff, hc0]
        simp only [h0]
      rw [hlen]
      unfold printedMeaning
      rw [C74_number h2 h1 ver, (hboth ver).2]
      rfl


/-- Units of these dimensions are printed: if the ratio to the coherent unit is accepted and its exponent is not the least number. -/
theorem C74_unit_accepts (S : Sys) (hS : everything = .ok S) (e : Entry) (he : e ∈ S.log) (d : DEnt) (hd : e.ent = .dim d)
    (hw : d.name ∉ wrongTexts) (u : MUnit) (hu : u.WF) (r : Ratio) (hdiv : Ratio.div u.ratio d.dim.unit.ratio = .ok r) (hx : r.exp ≠ intMin) :
    ∃ t, S.printed d.dim u = .ok t := by
  have hrow := dim_row hS he hd
  have hc := List.all_eq_true.mp checkDimTexts_ok _ hrow
  unfold checkDimText at hc
  simp only [hw, decide_false, Bool.false_or] at hc
  unfold Sys.printed Sys.tDim Sys.tUnit
  rw [unitNamed_table hS, dimNamed_table hS]
  split at hc
  · cases hc
  rename_i td htd
  rw [htd, ok_bind]
  have htu : td.unit = tUnitOf tableUnit d.dim.unit := tDimOf_unit htd
  cases hsym : (tUnitOf tableUnit u).symbol with
  | some s => exact ⟨s, by unfold unitText; rw [hsym]⟩
  | none =>
    rw [unitText_unnamed hsym]
    split at hc
    swap
    · cases hc
    rename_i s a hs ha
    have hdiv' : Ratio.div (tUnitOf tableUnit u).ratio td.unit.ratio = .ok r := by rw [htu]; exact hdiv
    rw [hs, ok_bind, hdiv', ok_bind]
    have hdw : d.dim.unit.WF := (checkDims_sound hrow).1.unit
    obtain ⟨hrw, hval, -⟩ := div_sound hu.ratio hdw.ratio hdiv
    have hrpos : 0 < r.num := by
      rw [← hrw.val_pos, hval]
      exact div_pos hu.val_pos hdw.val_pos
    have hsp : ∀ n, ∃ t, spacedRatioText r n = .ok t := by
      intro n
      obtain ⟨y, hy, -⟩ := ratioText_eq hrpos hrw.den_pos ⟨hrw.exp_range, hx⟩
      unfold spacedRatioText
      rw [hy, ok_bind]
      split
      · exact ⟨_, rfl⟩
      · exact ⟨_, rfl⟩
    have : ∃ p, prefixOrRatioText S.prefixes r (tUnitOf tableUnit u).refFamily s.std.length = .ok p := by
      unfold prefixOrRatioText
      split
      · exact ⟨_, rfl⟩
      · split
        · split
          · exact ⟨_, rfl⟩
          · exact hsp _
        · exact hsp _
    obtain ⟨p, hp⟩ := this
    rw [hp, ok_bind]
    exact ⟨_, rfl⟩

/-! ### Units that have a symbol -/

namespace Systems

theorem tableUnit_self {r : URow} (hr : r ∈ unitTable) : tableUnit r.ent.name = some r.ent := by
  have h := checkIndexed_ok
  unfold checkIndexed at h
  rw [Bool.and_eq_true] at h
  have hf := functional_sound h.1
  have hm : r.ent ∈ unitTable.map URow.ent := List.mem_map_of_mem hr
  unfold tableUnit unitIndex
  rw [findNamed_eq UEnt.name _ h.1]
  cases hx : (unitTable.map URow.ent).find? (fun u => decide (u.name = r.ent.name)) with
  | none =>
    rw [List.find?_eq_none] at hx
    exact absurd (decide_eq_true rfl) (hx r.ent hm)
  | some x =>
    have h1 := List.mem_of_find?_eq_some hx
    have h2 : x.name = r.ent.name := by simpa using List.find?_some hx
    rw [show x = r.ent from hf x h1 r.ent hm (by rw [h2])]

theorem printed_tables {S : Sys} (hS : everything = .ok S) (d : Dim) (u : MUnit) :
    S.printed d u = (do
      let d ← tDimOf tableUnit tableDim 40 d
      unitText S.prefixes d (tUnitOf tableUnit u)) := by
  unfold Sys.printed Sys.tDim Sys.tUnit
  rw [unitNamed_table hS, dimNamed_table hS]

end Systems

/-- C74: what is printed for a shipped unit that has a symbol, in the standard and in the ASCII version, means what its name means.
Partial: the symbols of two units have no meaning (`wrongSymbols`, see `C74_wrong_symbols`). -/
theorem C74_symbol_partial (S : Sys) (hS : everything = .ok S) (e : Entry) (he : e ∈ S.log) (u : UEnt) (hu : e.ent = .unit u)
    (hsym : u.unit.named = true ∨ u.unit.symbol ≠ "") (hw : u.name ∉ wrongSymbols) (d : Dim) (t : SText)
    (ht : S.printed d u.unit = .ok t) (ver : Bool) :
    printedMeaning e.scope.code (t.get ver) = meaning e.scope.code e.name.code ∧ (meaning e.scope.code e.name.code).isSome := by
  have hrow := unit_row hS he hu
  have hc := List.all_eq_true.mp checkSymbols_ok _ hrow
  unfold checkSymbol at hc
  have hb : (u.unit.named || decide (u.unit.symbol ≠ "")) = true := by simpa using hsym
  simp only [hb, cond_true, Bool.and_eq_true, decide_eq_true_eq, hw, decide_false, Bool.false_or] at hc
  obtain ⟨hid, hc⟩ := hc
  rw [printed_tables hS] at ht
  obtain ⟨td, -, ht⟩ := bind_ok.mp ht
  have hs : (tUnitOf tableUnit u.unit).symbol = some ⟨u.unit.symbol.toList, u.ascii.toList⟩ := by
    unfold tUnitOf
    simp only
    rw [hid]
    simp only
    rw [if_pos hsym, tableUnit_self hrow]
  unfold unitText at ht
  rw [hs] at ht
  simp only [Except.ok.injEq] at ht
  cases hm : meaning e.scope.code e.name.code with
  | none => rw [hm] at hc; simp at hc
  | some a =>
    rw [hm] at hc
    simp only [Bool.and_eq_true, decide_eq_true_eq] at hc
    refine ⟨?_, rfl⟩
    rw [← ht]
    cases ver
    · exact hc.2
    · exact hc.1

/-- C74: what is printed for a shipped unit that has a symbol means the size of this unit in each shipped dimension it can be used with, unless its definition
or its symbol is wrong. -/
theorem C74_symbol_size_partial (S : Sys) (hS : everything = .ok S) (e : Entry) (he : e ∈ S.log) (u : UEnt) (hu : e.ent = .unit u)
    (hsym : u.unit.named = true ∨ u.unit.symbol ≠ "") (hw : u.name ∉ wrongSymbols) (hm : e.full ∉ misdefined.map (·.1)) (hr : e.full ∉ rounded)
    (e' : Entry) (he' : e' ∈ S.log) (d : DEnt) (hd : e'.ent = .dim d) (hud : unitOf u.unit d.dim = true) (t : SText)
    (ht : S.printed d.dim u.unit = .ok t) (ver : Bool) :
    printedMeaning e.scope.code (t.get ver) = denote d.dim u.unit ∧ (denote d.dim u.unit).isSome := by
  obtain ⟨h1, h2⟩ := C57_exact_units S hS e he u hu hm hr e' he' d hd hud
  exact ⟨(C74_symbol_partial S hS e he u hu hsym hw d.dim t ht ver).1.trans h1, h2⟩

/-! ### Dimensions that no header declares -/

namespace Systems

theorem tRecipe_bases {U : String → Option UEnt} {D : String → Option DEnt} {es : List Exp} (hn : ∀ x ∈ es, x.dim.unit.named = true) {k : Nat} {r : TRecipe}
    (h : tRecipeOf U D k (es.map fun e => ⟨.base e.dim, e.num, e.den⟩) = .ok r) :
    recipeNamed r = .ok (es.map fun e => ⟨.base e.dim.name (tUnitOf U e.dim.unit), e.num, e.den⟩) := by
  induction es generalizing k r with
  | nil =>
    cases k with
    | zero => simp [tRecipeOf] at h
    | succ k =>
      simp only [List.map_nil, tRecipeOf, Except.ok.injEq] at h
      rw [← h]; rfl
  | cons x es ih =>
    cases k with
    | zero => simp [tRecipeOf] at h
    | succ k =>
      simp only [List.map_cons, tRecipeOf] at h
      obtain ⟨d, hd, h⟩ := bind_ok.mp h
      obtain ⟨r', hr', h⟩ := bind_ok.mp h
      simp only [Except.ok.injEq] at h
      have hd : d = .base x.dim.name (tUnitOf U x.dim.unit) := by
        cases k with
        | zero => simp [tDimOf] at hd
        | succ k => simp only [tDimOf, Except.ok.injEq] at hd; exact hd.symm
      have ih := ih (fun y hy => hn y (List.mem_cons_of_mem _ hy)) hr'
      rw [← h, recipeNamed, ih, hd]
      have : (tUnitOf U x.dim.unit).named = true := hn x (by simp)
      simp only [itemNamed, TDim.unit, this, if_true, ok_bind, List.map_cons, List.singleton_append]

theorem readScale_none {l : List Char} (h : ∀ c ∈ l.head?, beginsScale c = false) : readScale l = none := by
  cases l with
  | nil => rfl
  | cons c l =>
    have h := h c (by simp)
    simp only [beginsScale, Bool.or_eq_false_iff, beq_eq_false_iff_ne] at h
    unfold readScale
    split
    · rename_i heq; injection heq with h1 _; exact absurd h1 h.1.1
    · have : readTimesTen (c :: l) = none := by
        unfold readTimesTen
        split
        · rename_i heq; injection heq with h1 _; exact absurd h1 h.1.2
        · rename_i heq; injection heq with h1 _; exact absurd h1 h.2
        · rfl
      rw [this]

/-- What the text of a product begins with. -/
theorem factorsText_head {look : List Char → Option Amount} {fs : List Factor} {as : List Amount} {k : Nat} {t : SText}
    (hfs : ∀ ver, List.Forall₂ (Meant look ver) fs as) (ht : factorsText k 0 fs = .ok t) :
    (fs = [] ∧ ∀ ver, t.get ver = []) ∨ ∀ ver, ∃ c l, t.get ver = c :: l ∧ (c = '1' ∨ ∃ f ∈ fs, c ∈ f.sym.get ver) := by
  cases fs with
  | nil =>
    simp only [factorsText, Except.ok.injEq] at ht
    exact Or.inl ⟨rfl, fun ver => by rw [← ht, SText.get_both]⟩
  | cons f fs =>
    right
    intro ver
    cases hfs ver with
    | @cons _ a _ as hf hfs =>
      obtain ⟨u, hu, htu⟩ := factorsText_cons hf.2.2.2.2 hf.2.2.2.1 ht
      rw [htu]
      unfold operatorText
      obtain ⟨hne, -⟩ := hf.1
      cases hs : f.sym.get ver with
      | nil => exact absurd hs hne
      | cons c l =>
        by_cases hi : (decide (f.num < 0) && k == 1) = true
        · simp only [hi, if_true, SText.get_both]
          exact ⟨'1', _, rfl, Or.inl rfl⟩
        · simp only [hi, if_true, Bool.false_eq_true, if_false, SText.get_both]
          exact ⟨c, _, rfl, Or.inr ⟨f, by simp, by rw [hs]; simp⟩⟩

end Systems

/-- The base dimensions of a system of units: shipped, and used in this system. -/
def BaseIn (S : Sys) (scope : Nat) (b : BaseDim) : Prop :=
  ∃ e ∈ S.log, ∃ d, e.ent = .dim d ∧ d.dim = .base b ∧ usedIn scope e.scope.code = true

/-- C74: what is printed for a unit in a dimension that no header declares, a product of integral powers of base dimensions of a system of units (in the
order `dimension_multiply` and the other operations give them), in the standard and in the ASCII version, reads as the size of the unit. -/
theorem C74_unknown (S : Sys) (hS : everything = .ok S) (scope : Nm) (hsc : scope ∈ productScopes) (es : List Exp)
    (hex : Dim.exps (.unknown es) = .ok es) (hes : ∀ x ∈ es, BaseIn S scope.code x.dim ∧ x.den = 1 ∧ Printable x.num) (u : MUnit) (hu : u.WF) (hs : Unsymbolised u)
    (hr : unitOf u (.unknown es) = true) (t : SText) (ht : S.printed (.unknown es) u = .ok t) (ver : Bool) :
    printedMeaning scope.code (t.get ver) = denote (.unknown es) u ∧ (denote (.unknown es) u).isSome := by
  have hone := checkOneSymbol_ok
  unfold checkOneSymbol at hone
  rw [Bool.and_eq_true] at hone
  have h1 : readSymbol (symbolsOf scope.code) ['1'] = some unity := by simpa using List.all_eq_true.mp hone.1 scope hsc
  have href : u.ref = "unknown_coherent_unit" := by simpa [unitOf, Dim.unit, unknownCoherentUnit] using hr
  -- the base dimensions
  have hbase : ∀ x ∈ es, x.dim.unit.named = true ∧ ∃ s a, (tUnitOf tableUnit x.dim.unit).symbol = some s ∧ baseUnitAmount x.dim = some a ∧
      ∀ ver, Meant (readSymbol (symbolsOf scope.code)) ver ⟨s, x.num, x.den⟩ a ∧ ∀ c ∈ s.get ver, beginsScale c = false := by
    intro x hx
    obtain ⟨⟨e, he, d, hd, hdb, hus⟩, hden, hpr⟩ := hes x hx
    have hc := List.all_eq_true.mp (List.all_eq_true.mp checkBaseSymbols_ok scope hsc) _ (dim_row hS he hd)
    simp only [hdb, hus, cond_true, Bool.and_eq_true] at hc
    obtain ⟨hn, hc⟩ := hc
    refine ⟨hn, ?_⟩
    split at hc
    · rename_i s a hs ha
      refine ⟨s, a, hs, ha, fun ver => ?_⟩
      simp only [SText.both', List.all_cons, List.all_nil, Bool.and_true, Bool.and_eq_true, decide_eq_true_eq, List.all_eq_true, Bool.not_eq_true',
        bne_iff_ne, ne_eq] at hc
      obtain ⟨⟨⟨⟨h2, h3⟩, h4⟩, ⟨h5, h6⟩, h7⟩, h8⟩ := hc
      cases ver
      · exact ⟨⟨⟨h5, fun c hcc => ⟨(h6 c hcc).1.1.1, (h6 c hcc).1.1.2, (h6 c hcc).1.2⟩⟩, h7, h8, hden, hpr⟩, fun c hcc => (h6 c hcc).2⟩
      · exact ⟨⟨⟨h2, fun c hcc => ⟨(h3 c hcc).1.1.1, (h3 c hcc).1.1.2, (h3 c hcc).1.2⟩⟩, h4, h8, hden, hpr⟩, fun c hcc => (h3 c hcc).2⟩
    · cases hc
  -- the factors
  have hfac : ∀ l : List Exp, (∀ x ∈ l, x ∈ es) → ∃ fs as,
      factorsOf (l.map fun e => ⟨.base e.dim.name (tUnitOf tableUnit e.dim.unit), e.num, e.den⟩) = .ok fs ∧
      (∀ ver, List.Forall₂ (Meant (readSymbol (symbolsOf scope.code)) ver) fs as) ∧
      dimAmount l = some (powers ((fs.zip as).map fun p => (p.2, p.1.num))) ∧ ∀ f ∈ fs, ∀ ver, ∀ c ∈ f.sym.get ver, beginsScale c = false := by
    intro l hl
    induction l with
    | nil => exact ⟨[], [], rfl, fun _ => .nil, rfl, by simp⟩
    | cons x l ih =>
      obtain ⟨fs, as, h2, h3, h4, h8⟩ := ih fun y hy => hl y (List.mem_cons_of_mem _ hy)
      obtain ⟨-, s, a, h5, h6, h7⟩ := hbase x (hl x (by simp))
      refine ⟨⟨s, x.num, x.den⟩ :: fs, a :: as, ?_, fun ver => .cons (h7 ver).1 (h3 ver), ?_, ?_⟩
      · simp only [List.map_cons, factorsOf, itemFactor, TDim.unit, h5, h2, ok_bind]
      · simp only [dimAmount, (hes x (hl x (by simp))).2.1, if_true, h6, h4, List.zip_cons_cons, List.map_cons, powers]
      · intro f hf
        rcases List.mem_cons.mp hf with rfl | hf
        · exact fun ver => (h7 ver).2
        · exact h8 f hf
  obtain ⟨fs, as, hf1, hf2, hf3, hf4⟩ := hfac es fun _ h => h
  rw [printed_tables hS] at ht
  obtain ⟨td, htd, ht⟩ := bind_ok.mp ht
  simp only [tDimOf] at htd
  obtain ⟨rec, hrec, htd⟩ := bind_ok.mp htd
  simp only [Except.ok.injEq] at htd
  have hrn := tRecipe_bases (fun x hx => (hbase x hx).1) hrec
  rw [unitText_unnamed (hs.symbol _)] at ht
  obtain ⟨s, hsx, ht⟩ := bind_ok.mp ht
  obtain ⟨r, hdiv, ht⟩ := bind_ok.mp ht
  obtain ⟨p, hpx, ht⟩ := bind_ok.mp ht
  simp only [Except.ok.injEq] at ht
  have hsx' : factorsText (negExpCount fs) 0 fs = .ok s := by
    rw [← htd] at hsx
    have : (tUnitOf tableUnit unknownCoherentUnit).symbol = none := by
      simp [tUnitOf, unknownCoherentUnit]
    unfold coherentText at hsx
    simp only [TDim.unit, this] at hsx
    unfold derivedDimensionUnitText at hsx
    rw [hrn, ok_bind, hf1, ok_bind] at hsx
    exact hsx
  have hread : ∀ ver, readUnits (readSymbol (symbolsOf scope.code)) (s.get ver) = some (powers ((fs.zip as).map fun p => (p.2, p.1.num))) :=
    fun ver => C74_product h1 (hf2 ver) hsx'
  have hhead := factorsText_head hf2 hsx'
  have hdiv' : Ratio.div u.ratio Ratio.one = .ok r := by rw [← htd] at hdiv; exact hdiv
  obtain ⟨hrw, hval, -⟩ := div_sound hu.ratio one_wf hdiv'
  have hov : Ratio.one.val = 1 := by simp [Ratio.val, Ratio.one]
  rw [hov, div_one] at hval
  have hrpos : 0 < r.num := by
    rw [← hrw.val_pos, hval]; exact hu.val_pos
  have hdu : denote (.unknown es) u = some ((powers ((fs.zip as).map fun p => (p.2, p.1.num))).times r.val) := by
    unfold denote
    simp only [hex, hf3, Dim.unit, unknownCoherentUnit, hov, div_one, hval]
  refine ⟨?_, by rw [hdu]; rfl⟩
  rw [hdu, ← ht, SText.get_append]
  rcases prefixOrRatio_text hrw hrpos hpx with ⟨h2, h3⟩ | ⟨g, q, h2, h3, h4⟩ | ⟨h2, h3, h4⟩
  · rw [h3, SText.get_both, List.nil_append, h2, hov, Amount.times_one]
    unfold printedMeaning readText
    rw [readScale_none (by
      intro c hc
      rcases hhead with ⟨-, h⟩ | h
      · rw [h] at hc; simp at hc
      · obtain ⟨d, l, h, hd⟩ := h ver
        rw [h] at hc
        simp only [List.head?_cons, Option.mem_def, Option.some.injEq] at hc
        subst hc
        rcases hd with rfl | ⟨f, hf, hd⟩
        · rfl
        · exact hf4 f hf ver _ hd)]
    exact hread ver
  · exfalso
    have : (tUnitOf tableUnit u).refFamily = none := by
      unfold tUnitOf
      simp only [href]
      rw [Option.isNone_iff_eq_none.mp hone.2]; rfl
    rw [this] at h2; cases h2
  · rw [h4, List.append_assoc]
    have hlen : (if s.std.length > 0 then [' '] else ([] : List Char)) = if (s.get ver).length > 0 then [' '] else [] := by
      rcases hhead with ⟨-, h⟩ | h
      · have h5 := h true
        rw [get_length] at h5
        rw [h5, h ver]
      · obtain ⟨c, l, h5, -⟩ := h true
        obtain ⟨c', l', h6, -⟩ := h ver
        rw [get_length] at h5
        rw [h5, h6]; rfl
    rw [hlen]
    unfold printedMeaning
    rw [C74_number h3 h2 ver, hread ver]
    rfl

/-! ### Texts with another meaning -/

namespace Systems

theorem prefixes_rows (l : List Entry) (f : String) (r : Ratio) :
    (l.findSome? fun e =>
      match e.ent with
      | .pre p a => if p.family = f ∧ p.ratio = r then some (⟨f, ⟨p.symbol.toList, a.toList⟩, r⟩ : TPrefix) else none
      | _ => none) =
    (prefixRows l).findSome? fun p => if p.pre.family = f ∧ p.pre.ratio = r then some ⟨f, ⟨p.pre.symbol.toList, p.ascii.toList⟩, r⟩ else none := by
  induction l with
  | nil => rfl
  | cons e l ih =>
    rw [List.findSome?_cons]
    unfold prefixRows
    cases h : e.ent <;> simp only [ih]
    rw [List.findSome?_cons]

theorem prefixes_eq {S : Sys} (hS : everything = .ok S) : S.prefixes = tablePrefix := by
  funext f r
  refine (prefixes_rows S.log f r).trans ?_
  rw [(tables hS).prefixes]; rfl

theorem printed_eq {S : Sys} (hS : everything = .ok S) : S.printed = tablePrinted := by
  funext d u
  rw [printed_tables hS, prefixes_eq hS]; rfl

end Systems

/-- C74 does not hold for three dimensions: the texts printed for their coherent units read as something else. -/
theorem C74_wrong_texts (S : Sys) (hS : everything = .ok S) : ∀ p ∈ wrongTextsShown, ∃ e ∈ S.log, ∃ d, e.ent = .dim d ∧ d.name = p.1 ∧
    S.printed d.dim d.dim.unit = .ok ⟨p.2.1.toList, p.2.2.toList⟩ ∧ (denote d.dim d.dim.unit).isSome ∧
    printedMeaning e.scope.code p.2.1.toList ≠ denote d.dim d.dim.unit ∧ printedMeaning e.scope.code p.2.2.toList ≠ denote d.dim d.dim.unit := by
  intro p hp
  obtain ⟨e, he, d, hd, h⟩ := exists_dim hS (List.all_eq_true.mp checkWrongTexts_ok p hp)
  simp only [Bool.and_eq_true, decide_eq_true_eq] at h
  exact ⟨e, he, d, hd, h.1.1.1.1, by rw [printed_eq hS]; exact h.1.1.1.2, h.1.1.2, h.1.2, h.2⟩

/-- These are the dimensions left out in `C74_unit_partial`. -/
example : wrongTextsShown.map (·.1) = wrongTexts := rfl

/-- C74 does not hold for units that get two prefixes: they are units of the dimension, no header declares units of this size, and what is printed has no meaning. -/
theorem C74_double_prefix (S : Sys) (hS : everything = .ok S) : ∀ p ∈ doublePrefixes, (∀ x ∈ S.unitDefs, ¬ (x.2.1 = p.2.1 ∧ x.2.2 = p.2.2.1)) ∧
    ∃ e ∈ S.log, ∃ d, e.ent = .dim d ∧ d.name = p.1 ∧ unitOf (plainScaled p.2.1 p.2.2.1) d.dim = true ∧
      S.printed d.dim (plainScaled p.2.1 p.2.2.1) = .ok (.both p.2.2.2.toList) ∧ printedMeaning e.scope.code p.2.2.2.toList = none := by
  intro p hp
  have hc := List.all_eq_true.mp checkDoublePrefixes_ok p hp
  rw [Bool.and_eq_true] at hc
  constructor
  · intro x hx hh
    have h1 : unitDefRow x ∈ unitDefTable := (tables hS).unitDefs ▸ List.mem_map_of_mem hx
    have := List.all_eq_true.mp hc.1 _ h1
    simp only [unitDefRow, hh.1, hh.2, decide_true, Bool.and_self, Bool.not_true, Bool.false_eq_true] at this
  · obtain ⟨e, he, d, hd, h⟩ := exists_dim hS hc.2
    simp only [Bool.and_eq_true, decide_eq_true_eq] at h
    exact ⟨e, he, d, hd, h.1.1.1, h.1.2, by rw [printed_eq hS]; exact h.1.1.2, h.2⟩

/-- These are the dimensions with the additional hypothesis in `C74_unit_partial`. -/
example : doublePrefixes.map (·.1) = prefixedCoherent := rfl

/-- C74 does not hold for two units: their names have a meaning, their symbols have none. -/
theorem C74_wrong_symbols (S : Sys) (hS : everything = .ok S) : ∀ n ∈ wrongSymbols, ∃ e ∈ S.log, ∃ u, e.ent = .unit u ∧ u.name = n ∧ u.unit.symbol ≠ "" ∧
    (meaning e.scope.code e.name.code).isSome ∧ printedMeaning e.scope.code u.unit.symbol.toList = none ∧
    printedMeaning e.scope.code u.ascii.toList = none := by
  intro n hn
  obtain ⟨e, he, u, hu, h⟩ := exists_unit hS (List.all_eq_true.mp checkWrongSymbols_ok n hn)
  simp only [Bool.and_eq_true, decide_eq_true_eq] at h
  exact ⟨e, he, u, hu, h.1.1.1.1, h.1.1.1.2, h.1.1.2, h.1.2, h.2⟩

/-- `C74_unknown` does not extend to natural units: the symbol of the unit of length contains a power, and the text of its square, `GeV⁻¹²`, reads as its twelfth power. -/
theorem C74_natural_area (S : Sys) (hS : everything = .ok S) :
    S.printed naturalArea unknownCoherentUnit = .ok ⟨"GeV⁻¹²".toList, "GeV^-1^2".toList⟩ ∧
    printedMeaning n!"units::isq::natural".code "GeV⁻¹²".toList = some ⟨1 / 10 ^ 108, [0, 0, 0, 0, 0, 0, 0, 0, 0, 0, -12]⟩ ∧
    printedMeaning n!"units::isq::natural".code "GeV^-1^2".toList = none ∧
    denote naturalArea unknownCoherentUnit = some ⟨1 / 10 ^ 18, [0, 0, 0, 0, 0, 0, 0, 0, 0, 0, -2]⟩ := by
  have h := checkNaturalArea_ok
  unfold checkNaturalArea at h
  simp only [Bool.and_eq_true, decide_eq_true_eq] at h
  exact ⟨by rw [printed_eq hS]; exact h.1.1.1, h.1.1.2, h.1.2, h.2⟩

/-- Two units of length of different sizes have the same symbol. -/
theorem C74_same_symbol (S : Sys) (hS : everything = .ok S) : ∃ e ∈ S.log, ∃ u, e.ent = .unit u ∧ ∃ e' ∈ S.log, ∃ v, e'.ent = .unit v ∧
    u.unit.symbol = v.unit.symbol ∧ u.unit.symbol = "mi(naut)" ∧ u.unit.ref = v.unit.ref ∧ u.unit.ratio.val ≠ v.unit.ratio.val := by
  obtain ⟨e, he, u, hu, h⟩ := exists_unit hS checkNautical_ok
  rw [Bool.and_eq_true] at h
  obtain ⟨e', he', v, hv, h'⟩ := exists_unit hS h.2
  simp only [Bool.and_eq_true, decide_eq_true_eq] at h h'
  exact ⟨e, he, u, hu, e', he', v, hv, by rw [h.1.2, h'.1.1.2], h.1.2, h'.1.2, h'.2⟩

/-! ### Cases -/

theorem plainScaled_unsymbolised (r : Ratio) (ref : String) : Unsymbolised (plainScaled r ref) := by
  intro n h; cases h

/-- A case of `C74_unit_partial`: `[5/18 × 10³] m/s` is printed for 1000 km/h as unit of speed. -/
example : ∃ S, everything = .ok S ∧ ∃ e ∈ S.log, ∃ d, e.ent = .dim d ∧ d.name = "units::isq::si::dim_speed" ∧ d.name ∉ wrongTexts ∧
    d.name ∉ prefixedCoherent ∧ d.name ≠ massName ∧ unitOf (plainScaled ⟨5, 18, 3⟩ "units::isq::si::metre_per_second") d.dim = true ∧
    (plainScaled ⟨5, 18, 3⟩ "units::isq::si::metre_per_second").WF ∧ Unsymbolised (plainScaled ⟨5, 18, 3⟩ "units::isq::si::metre_per_second") ∧
    S.printed d.dim (plainScaled ⟨5, 18, 3⟩ "units::isq::si::metre_per_second") = .ok ⟨"[5/18 × 10³] m/s".toList, "[5/18 x 10^3] m/s".toList⟩ := by
  obtain ⟨S, hS⟩ := everything_loads
  have hc := checkShown_ok
  unfold checkShown at hc
  rw [Bool.and_eq_true, Bool.and_eq_true] at hc
  obtain ⟨e, he, d, hd, h⟩ := exists_dim hS hc.1.1
  simp only [Bool.and_eq_true, decide_eq_true_eq] at h
  obtain ⟨⟨h1, h2⟩, h3⟩ := h
  refine ⟨S, hS, e, he, d, hd, h1, by rw [h1]; decide, by rw [h1]; decide, by rw [h1]; decide, h3, ?_, plainScaled_unsymbolised _ _,
    by rw [printed_eq hS]; exact h2⟩
  refine ⟨⟨?_, ?_, ?_, ?_, ?_, ?_, ?_, ?_⟩, ?_⟩ <;> decide

/-- A case of `C74_unknown`: `× 10³ m²/s³`. -/
example : ∃ S, everything = .ok S ∧ oddDim.exps = .ok [⟨b_isq_si_dim_length, 2, 1⟩, ⟨b_isq_si_dim_time, -3, 1⟩] ∧
    BaseIn S n!"units::isq::si".code b_isq_si_dim_length ∧ BaseIn S n!"units::isq::si".code b_isq_si_dim_time ∧
    unitOf (plainScaled ⟨1, 1, 3⟩ "unknown_coherent_unit") oddDim = true ∧
    S.printed oddDim (plainScaled ⟨1, 1, 3⟩ "unknown_coherent_unit") = .ok ⟨"× 10³ m²/s³".toList, "x 10^3 m^2/s^3".toList⟩ := by
  obtain ⟨S, hS⟩ := everything_loads
  have hc := checkShown_ok
  unfold checkShown at hc
  rw [Bool.and_eq_true] at hc
  refine ⟨S, hS, by decide +kernel, ?_, ?_, by decide, by rw [printed_eq hS]; exact of_decide_eq_true hc.2⟩
  · obtain ⟨e, he, d, hd, h⟩ := exists_dim hS (P := fun r => decide (r.dim = .base b_isq_si_dim_length) && usedIn n!"units::isq::si".code r.scope.code) (by decide +kernel)
    simp only [Bool.and_eq_true, decide_eq_true_eq] at h
    exact ⟨e, he, d, hd, h⟩
  · obtain ⟨e, he, d, hd, h⟩ := exists_dim hS (P := fun r => decide (r.dim = .base b_isq_si_dim_time) && usedIn n!"units::isq::si".code r.scope.code) (by decide +kernel)
    simp only [Bool.and_eq_true, decide_eq_true_eq] at h
    exact ⟨e, he, d, hd, h⟩

/-- A case of `C74_symbol_partial` and `C74_symbol_size_partial`: `km/h` for the unit of speed. -/
example : ∃ S, everything = .ok S ∧ ∃ e ∈ S.log, ∃ u, e.ent = .unit u ∧ u.name = "units::isq::si::kilometre_per_hour" ∧ u.unit.symbol = "km/h" ∧
    u.name ∉ wrongSymbols ∧ e.full ∉ misdefined.map (·.1) ∧ e.full ∉ rounded ∧ printedMeaning e.scope.code "km/h".toList = some ⟨5 / 18, [1, 0, -1, 0, 0, 0, 0, 0, 0, 0, 0]⟩ := by
  obtain ⟨S, hS⟩ := everything_loads
  obtain ⟨e, he, u, hu, h⟩ := exists_unit hS (P := fun r => decide (r.ent.name = "units::isq::si::kilometre_per_hour") && decide (r.ent.unit.symbol = "km/h") &&
    decide (r.full = "units::isq::si::kilometre_per_hour") &&
    decide (printedMeaning r.scope.code "km/h".toList = some ⟨5 / 18, [1, 0, -1, 0, 0, 0, 0, 0, 0, 0, 0]⟩)) (by decide +kernel)
  simp only [Bool.and_eq_true, decide_eq_true_eq] at h
  have hf : e.full = "units::isq::si::kilometre_per_hour" := h.1.2
  exact ⟨S, hS, e, he, u, hu, h.1.1.1, h.1.1.2, by rw [h.1.1.1]; decide, by rw [hf]; decide, by rw [hf]; decide, h.2⟩

end Verif
