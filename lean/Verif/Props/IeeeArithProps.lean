import Verif.IeeeArith
import Verif.Props.ArithProps
import Verif.Props.IeeeProps

/-!
# Sums and comparisons of floating point quantities on the IEEE formats (C70)
-/

namespace Verif

open FltTy

/-! ### Rounding is monotone -/

theorem roundEven_mono {x y : ℚ} (h : x ≤ y) : roundEven x ≤ roundEven y := by
  have h1 := Int.floor_le x
  have h2 := Int.lt_floor_add_one x
  have h3 := Int.floor_le y
  have h4 := Int.lt_floor_add_one y
  rcases lt_or_eq_of_le (Int.floor_mono h) with hf | hf
  · refine (roundEven_le (k := ⌊x⌋ + 1) (by push_cast; linarith)).trans (roundEven_ge ?_)
    have : ((⌊x⌋ + 1 : Int) : ℚ) ≤ ⌊y⌋ := by exact_mod_cast hf
    linarith
  · unfold roundEven
    rw [hf]
    simp only
    split_ifs <;> first | omega | (exfalso; linarith)

theorem rndU_mono {f : FltTy} {x y : ℚ} (hx : 0 ≤ x) (h : x ≤ y) : f.rndU x ≤ f.rndU y := by
  rcases hx.eq_or_lt with rfl | hx0
  · rw [rndU_zero]; exact rndU_nonneg h
  have hl : Int.log 2 x ≤ Int.log 2 y := Int.log_mono_right hx0 h
  rcases eq_or_ne (f.lastExp x) (f.lastExp y) with e | e
  · unfold rndU
    rw [e]
    refine mul_le_mul_of_nonneg_right ?_ (two_zpow_pos _).le
    exact_mod_cast roundEven_mono (mul_le_mul_of_nonneg_right h (two_zpow_pos _).le)
  · have k1 : Int.log 2 x < Int.log 2 y ∧ f.emin < Int.log 2 y := by
      unfold lastExp at e
      rcases le_total (Int.log 2 x) f.emin with a | a <;> rcases le_total (Int.log 2 y) f.emin with b | b <;>
        simp only [max_eq_left, max_eq_right, a, b] at e <;> constructor <;> omega
    have hy0 : 0 < y := hx0.trans_le h
    have hxl : x < 2 ^ (Int.log 2 x + 1) := by simpa using Int.lt_zpow_succ_log_self (b := 2) (by norm_num) x
    have hyl : (2 : ℚ) ^ Int.log 2 y ≤ y := zpow_log_le' hy0
    exact (rndU_le_pow k1.2.le hx (hxl.le.trans (two_zpow_le (by omega)))).trans (rndU_ge_pow k1.2.le hyl)

/-- Position of a value on the line; infinities are beyond all finite values. -/
def FVal.key (f : FltTy) : FVal → ℚ
  | .fin s m => (FVal.fin s m).q
  | .inf true => -2 ^ (f.emax + 1)
  | .inf false => 2 ^ (f.emax + 1)
  | .nan => 0

/-- The position of the rounded value of a number. -/
def posKey (f : FltTy) (x : ℚ) : ℚ := if f.rndU x < 2 ^ f.emax then f.rndU x else 2 ^ (f.emax + 1)

/-- The position of the rounded value of a signed number. -/
def roundKey (f : FltTy) (x : ℚ) : ℚ := if x < 0 then -posKey f (-x) else posKey f x

theorem posKey_mono {f : FltTy} {x y : ℚ} (hx : 0 ≤ x) (h : x ≤ y) : posKey f x ≤ posKey f y := by
  have := rndU_mono (f := f) hx h
  have h2 : (2 : ℚ) ^ f.emax ≤ 2 ^ (f.emax + 1) := two_zpow_le (by omega)
  unfold posKey
  split_ifs <;> linarith

theorem posKey_nonneg {f : FltTy} {x : ℚ} (hx : 0 ≤ x) : 0 ≤ posKey f x := by
  have := rndU_nonneg (f := f) hx
  have := two_zpow_pos (f.emax + 1)
  unfold posKey; split_ifs <;> linarith

theorem posKey_zero (f : FltTy) : posKey f 0 = 0 := by
  unfold posKey; rw [rndU_zero, if_pos (two_zpow_pos _)]

theorem roundKey_mono {f : FltTy} {x y : ℚ} (h : x ≤ y) : roundKey f x ≤ roundKey f y := by
  unfold roundKey
  split_ifs with h1 h2 h2
  · exact neg_le_neg (posKey_mono (by linarith) (by linarith))
  · have := posKey_nonneg (f := f) (x := -x) (by linarith)
    have := posKey_nonneg (f := f) (x := y) (by linarith)
    linarith
  · linarith
  · exact posKey_mono (by linarith) h

theorem key_round {f : FltTy} {s : Bool} {m : ℚ} (hm : 0 ≤ m) : (FVal.round f s m).key f = roundKey f (if s then -m else m) := by
  have hp : (FVal.round f s m).key f = if s then -posKey f m else posKey f m := by
    unfold FVal.round posKey
    rw [rndMag_eq]
    split_ifs <;> cases s <;> simp_all [FVal.key, FVal.q]
  rw [hp]
  unfold roundKey
  cases s
  · simp only [Bool.false_eq_true, if_false]
    rw [if_neg (not_lt.mpr hm)]
  · simp only [if_true]
    rcases hm.eq_or_lt with rfl | h
    · simp [posKey_zero]
    · rw [if_pos (by linarith), neg_neg]

theorem FVal.In.lt {f : FltTy} {s : Bool} {m : ℚ} (h : (FVal.fin s m).In f) : 0 ≤ m ∧ m < 2 ^ f.emax :=
  ⟨h.1, (rndMag_some.mp h.2).2⟩

/-- Comparisons of values are comparisons of positions. -/
theorem cmp_key {f : FltTy} {a b : FVal} (ha : a.In f) (hb : b.In f) (na : a ≠ .nan) (nb : b ≠ .nan) :
    (a.key f < b.key f → a.cmp b = some .lt) ∧ (a.key f = b.key f → a.cmp b = some .eq) ∧ (b.key f < a.key f → a.cmp b = some .gt) := by
  have e : (2 : ℚ) ^ (f.emax + 1) = 2 * 2 ^ f.emax := by rw [zpow_add₀ (by norm_num)]; ring
  have p := two_zpow_pos f.emax
  have bd : ∀ {s m}, (FVal.fin s m).In f → -2 ^ f.emax < (FVal.fin s m).q ∧ (FVal.fin s m).q < 2 ^ f.emax := by
    intro s m h
    obtain ⟨h1, h2⟩ := h.lt
    cases s <;> simp only [FVal.q] <;> constructor <;> linarith
  cases a with
  | nan => exact absurd rfl na
  | fin s m =>
    cases b with
    | nan => exact absurd rfl nb
    | fin t n =>
      simp only [FVal.key]
      refine ⟨fun h => ?_, fun h => ?_, fun h => ?_⟩
      · simp only [FVal.cmp, if_pos h]
      · simp only [FVal.cmp, if_neg (lt_irrefl _), h, if_true]
      · simp only [FVal.cmp, if_neg (not_lt.mpr h.le), if_neg h.ne']
    | inf t =>
      obtain ⟨h1, h2⟩ := bd ha
      cases t <;> simp only [FVal.key] <;> refine ⟨fun h => ?_, fun h => ?_, fun h => ?_⟩ <;> first | rfl | (exfalso; linarith)
  | inf s =>
    cases b with
    | nan => exact absurd rfl nb
    | fin t n =>
      obtain ⟨h1, h2⟩ := bd hb
      cases s <;> simp only [FVal.key] <;> refine ⟨fun h => ?_, fun h => ?_, fun h => ?_⟩ <;> first | rfl | (exfalso; linarith)
    | inf t =>
      cases s <;> cases t <;> simp only [FVal.key] <;> refine ⟨fun h => ?_, fun h => ?_, fun h => ?_⟩ <;> first | rfl | (exfalso; linarith)

theorem FVal.key_fin {f : FltTy} {y : FVal} (h : y.Finite) : y.key f = y.q := by
  cases y <;> first | rfl | exact h.elim

theorem FVal.Finite.ne_nan {y : FVal} (h : y.Finite) : y ≠ .nan := by
  rintro rfl; exact h

theorem FVal.Finite.abs_eq {f : FltTy} {y : FVal} (h : y.Finite) (hy : y.In f) : ∃ s m, y = .fin s m ∧ 0 ≤ m ∧ |y.q| = m := by
  cases y with
  | fin s m => exact ⟨s, m, rfl, hy.1, by cases s <;> simp [FVal.q, abs_of_nonneg hy.1]⟩
  | inf s => exact h.elim
  | nan => exact h.elim

/-! ### Operands -/

theorem castRep_common {r r' : Rep} {f : FltTy} (h : r.common r' = .flt f ∨ r'.common r = .flt f ∨ r.arith r' = .flt f ∨ r'.arith r = .flt f) :
    castRep r (.flt f) = .flt f := by
  revert h
  rcases r with r | r <;> rcases r' with r' | r' <;> cases r <;> cases r' <;> cases f <;> decide

/-- All conversions of `q` to `t` have ratios of at most this decimal exponent. -/
def ExpLe (est : RootEstimate) (t : QTy) (q : QTy) (n : ℕ) : Prop :=
  ∀ c, castRatio est q.dim q.unit t.dim t.unit = .ok c → c.exp.natAbs ≤ n

theorem convertQtyI_cases {E : Env} {t : QTy} {q r : QtyI} (h : convertQtyI E t q = .ok r) :
    (q.ty = t ∧ r = q) ∨ (q.ty ≠ t ∧ dimEquivalent t.dim q.ty.dim = .ok true ∧ quantityCastI E.est t q = .ok r) := by
  unfold convertQtyI at h
  split at h
  · rename_i he; simp only [Except.ok.injEq] at h; exact Or.inl ⟨he, h.symm⟩
  · rename_i he
    simp only [bind_ok] at h
    obtain ⟨b, hb, h⟩ := h
    cases b with
    | false => cases h
    | true =>
      refine Or.inr ⟨he, ?_, h⟩
      unfold safeCastable at hb
      simp only [bind_ok] at hb
      obtain ⟨b, hb1, -⟩ := id hb
      cases b with
      | true => exact hb1
      | false =>
        obtain ⟨b', hb2, hb⟩ := hb
        rw [hb1] at hb2; cases hb2
        cases hb

theorem quantityCastI_ratio {est : RootEstimate} {t : QTy} {q r : QtyI} (h : quantityCastI est t q = .ok r) :
    ∃ c, castRatio est q.ty.dim q.ty.unit t.dim t.unit = .ok c := by
  unfold quantityCastI at h
  simp only [bind_ok] at h
  obtain ⟨b, -, h⟩ := h
  cases b with
  | false => cases h
  | true =>
    simp only [if_true, bind_ok] at h
    obtain ⟨c, hc, -⟩ := h
    exact ⟨c, hc⟩

/-- An operand converted to the common type. -/
theorem convertQtyI_near {E : Env} {β : String → ℝ} (hβ : Sizes β) {t : QTy} {q x : QtyI} {f : FltTy} {n : ℕ} (gq : q.ty.Good E) (gt : t.Good E)
    (hco : Coherent β q.ty.dim t.dim) (hv : q.num.Typed q.ty.rep) (hfin : q.num.Finite) (ht : t.rep = .flt f)
    (hf : castRep q.ty.rep (.flt f) = .flt f) (hn : ExpLe E.est t q.ty n) (hns : n ≤ f.safeExp)
    (hb : |q.amount β| ≤ 2 ^ (f.emax - 2) * t.size β) (h : convertQtyI E t q = .ok x) :
    ∃ y : FVal, x = ⟨t, .f y⟩ ∧ y.Finite ∧ y.In f ∧ |(y.q : ℝ) * t.size β - q.amount β| ≤ gammaErr f (n + 6) * |q.amount β| + f.tiny * t.size β := by
  have sz := gt.size_pos hβ
  have u0 := f.u_pos
  have u1 := f.u_lt_one
  have hmono : ∀ m, m ≤ n → gammaErr f (m + 6) ≤ gammaErr f (n + 6) := by
    intro m hm
    unfold gammaErr
    have := pow_le_pow_right₀ (by linarith : 1 ≤ 1 + f.u) (Nat.add_le_add_right hm 6)
    have := div_le_div_of_nonneg_right this (by linarith : 0 ≤ 1 - f.u)
    linarith
  have g0 : 0 ≤ gammaErr f (n + 6) := by
    unfold gammaErr
    have h1 : 1 ≤ (1 + f.u) ^ (n + 6) := one_le_pow₀ (by linarith)
    have h2 : 1 ≤ (1 + f.u) ^ (n + 6) / (1 - f.u) := by rw [le_div_iff₀ (by linarith)]; linarith
    linarith
  rcases convertQtyI_cases h with ⟨he, rfl⟩ | ⟨-, he, h⟩
  · obtain ⟨ty, num⟩ := x
    dsimp only at he; subst he
    dsimp only at hv hfin
    cases num with
    | i z => obtain ⟨t', e, -⟩ := hv; rw [ht] at e; cases e
    | f y =>
      obtain ⟨f', e, hy⟩ := hv
      rw [ht] at e; cases e
      refine ⟨y, rfl, hfin, hy, ?_⟩
      have : (y.q : ℝ) * ty.size β - (⟨ty, .f y⟩ : QtyI).amount β = 0 := by simp [QtyI.amount, FNum.q]
      rw [this, abs_zero]
      have g0' : (0 : ℝ) ≤ gammaErr f (n + 6) := by exact_mod_cast g0
      have t0 : (0 : ℝ) < f.tiny := by exact_mod_cast f.tiny_pos
      positivity
  · obtain ⟨c, hc⟩ := quantityCastI_ratio h
    have hcn := hn c hc
    obtain ⟨k, -⟩ := C69_amounts_partial E β hβ t q c f f gq gt hco hv hfin ht (by rw [ht]; exact hf) he hc (hcn.trans hns)
    obtain ⟨r, h1, h2, h3, h4, h5, -⟩ := k hb
    rw [h] at h1; cases h1
    obtain ⟨ty, num⟩ := x
    dsimp only at h2; subst h2
    cases num with
    | i z => obtain ⟨t', e, -⟩ := h3; rw [ht] at e; cases e
    | f y =>
      obtain ⟨f', e, hy⟩ := h3
      rw [ht] at e; cases e
      refine ⟨y, rfl, h4, hy, ?_⟩
      refine le_trans (show _ ≤ _ from h5) ?_
      have : (gammaErr f (c.exp.natAbs + 6) : ℝ) ≤ gammaErr f (n + 6) := by exact_mod_cast hmono _ hcn
      have := mul_le_mul_of_nonneg_right this (abs_nonneg (q.amount β))
      linarith

/-! ### Sums -/

theorem gammaErr_succ (f : FltTy) (n : ℕ) : 1 + gammaErr f (n + 1) = (1 + gammaErr f n) * (1 + f.u) := by
  unfold gammaErr; rw [pow_succ]; ring

theorem gammaErr_nonneg (f : FltTy) (n : ℕ) : 0 ≤ gammaErr f n := by
  have u0 := f.u_pos
  have u1 := f.u_lt_one
  unfold gammaErr
  have h1 : 1 ≤ (1 + f.u) ^ n := one_le_pow₀ (by linarith)
  have h2 : 1 ≤ (1 + f.u) ^ n / (1 - f.u) := by rw [le_div_iff₀ (by linarith)]; linarith
  linarith

theorem FVal.neg_q (y : FVal) : y.neg.q = -y.q := by
  cases y with
  | fin s m => cases s <;> simp [FVal.neg, FVal.q]
  | inf s => simp [FVal.neg, FVal.q]
  | nan => simp [FVal.neg, FVal.q]

/-- The sum of two finite values of moderate size. -/
theorem add_near {f : FltTy} {x y : FVal} (hx : x.Finite) (hy : y.Finite) (hb : |x.q + y.q| ≤ 2 ^ (f.emax - 1)) :
    (x.add f y).Finite ∧ (x.add f y).In f ∧ |(x.add f y).q - (x.q + y.q)| ≤ f.u * |x.q + y.q| + f.tiny / 2 := by
  cases x with
  | inf s => exact hx.elim
  | nan => exact hx.elim
  | fin s a =>
    cases y with
    | inf t => exact hy.elim
    | nan => exact hy.elim
    | fin t b =>
      simp only [FVal.add]
      set z := (FVal.fin s a).q + (FVal.fin t b).q with hz
      have tp := f.tiny_pos
      split_ifs with h0
      · refine ⟨trivial, ⟨le_rfl, rndMag_zero f⟩, ?_⟩
        have : (FVal.fin (s && t) 0).q = 0 := by cases (s && t) <;> simp [FVal.q]
        rw [this, h0]; simp; linarith
      · have hle : f.rndU |z| ≤ 2 ^ (f.emax - 1) := rndU_le_pow (by unfold FltTy.emin; have := f.emax_ge; omega) (abs_nonneg _) hb
        have hr : f.rndMag |z| = some (f.rndU |z|) := rndMag_some.mpr ⟨rfl, hle.trans_lt (two_zpow_lt (by omega))⟩
        have hi : f.rndMag (f.rndU |z|) = some (f.rndU |z|) :=
          rndMag_some.mpr ⟨(rndU_idem (abs_nonneg _)).symm, hle.trans_lt (two_zpow_lt (by omega))⟩
        have e : FVal.round f (decide (z < 0)) |z| = .fin (decide (z < 0)) (f.rndU |z|) := by simp [FVal.round, hr]
        rw [e]
        refine ⟨trivial, ⟨rndU_nonneg (abs_nonneg _), hi⟩, ?_⟩
        have key := rndU_any (f := f) (abs_nonneg z)
        rcases lt_or_ge z 0 with h | h
        · simp only [h, decide_true, FVal.q]
          rw [abs_of_neg h] at key ⊢
          rw [show -f.rndU (-z) - z = -(f.rndU (-z) - -z) by ring, abs_neg]; exact key
        · simp only [not_lt.mpr h, decide_false, FVal.q]
          rw [abs_of_nonneg h] at key ⊢
          exact key

/-- The sum of two converted numbers of moderate size. -/
theorem add_amount {f : FltTy} {n : ℕ} {X W : FVal} {A B T : ℝ} (fX : X.Finite) (fW : W.Finite) (sz : 0 < T) (hns : n ≤ f.safeExp)
    (eX : |(X.q : ℝ) * T - A| ≤ gammaErr f (n + 6) * |A| + f.tiny * T) (eW : |(W.q : ℝ) * T - B| ≤ gammaErr f (n + 6) * |B| + f.tiny * T)
    (hb : |A| + |B| ≤ 2 ^ (f.emax - 2) * T) :
    (X.add f W).Finite ∧ (X.add f W).In f ∧ |((X.add f W).q : ℝ) * T - (A + B)| ≤ gammaErr f (n + 7) * (|A| + |B|) + 3 * f.tiny * T := by
  have A0 := abs_nonneg A
  have B0 := abs_nonneg B
  have G0 : (0 : ℝ) ≤ gammaErr f (n + 6) := by exact_mod_cast gammaErr_nonneg f (n + 6)
  have u0 : (0 : ℝ) < f.u := by exact_mod_cast f.u_pos
  have usm : (f.u : ℝ) ≤ 1 / 2 ^ 24 := by
    have h : ((f.u : ℚ) : ℝ) ≤ ((1 / 2 ^ 24 : ℚ) : ℝ) := Rat.cast_le.mpr f.u_small
    push_cast at h; exact h
  have t0 : (0 : ℝ) < f.tiny := by exact_mod_cast f.tiny_pos
  have Gs : (gammaErr f (n + 6) : ℝ) ≤ 1 / 100 := by
    have hk : n + 6 ≤ 5000 := by
      have : f.safeExp ≤ 4912 := by cases f <;> decide
      omega
    have := (Near.bounds (f := f) (k := n + 6) (j := 1) (by omega) le_rfl (x := 1) (y := 1 + gammaErr f (n + 6)) zero_le_one
      ⟨1 + gammaErr f (n + 6), by ring, ?_, by unfold gammaErr; simp⟩).2
    · have h : ((gammaErr f (n + 6) : ℚ) : ℝ) ≤ ((1 / 100 : ℚ) : ℝ) := Rat.cast_le.mpr (by linarith)
      push_cast at h; exact h
    · have h1 : (1 - f.u) ^ (n + 6) ≤ 1 := pow_le_one₀ (by linarith [f.u_lt_one]) (by linarith [f.u_pos])
      have h2 : (1 - f.u) ^ (n + 6) / (1 + f.u) ^ 1 ≤ 1 := by
        rw [pow_one, div_le_one (by linarith [f.u_pos])]; linarith [f.u_pos]
      linarith [gammaErr_nonneg f (n + 6)]
  have sum_err : |((X.q + W.q : ℚ) : ℝ) * T - (A + B)| ≤ gammaErr f (n + 6) * (|A| + |B|) + 2 * f.tiny * T := by
    have := abs_add_le ((X.q : ℝ) * T - A) ((W.q : ℝ) * T - B)
    rw [show (X.q : ℝ) * T - A + ((W.q : ℝ) * T - B) = ((X.q + W.q : ℚ) : ℝ) * T - (A + B) by push_cast; ring] at this
    linarith
  have sum_abs : |((X.q + W.q : ℚ) : ℝ)| * T ≤ (1 + gammaErr f (n + 6)) * (|A| + |B|) + 2 * f.tiny * T := by
    have h1 : |((X.q + W.q : ℚ) : ℝ)| * T = |((X.q + W.q : ℚ) : ℝ) * T| := by rw [abs_mul, abs_of_pos sz]
    have h2 := abs_add_le (((X.q + W.q : ℚ) : ℝ) * T - (A + B)) (A + B)
    rw [sub_add_cancel] at h2
    have h3 := abs_add_le A B
    rw [h1]; linarith
  have hbig : |X.q + W.q| ≤ 2 ^ (f.emax - 1) := by
    have e2 : (2 : ℝ) ^ (f.emax - 1) = 2 * 2 ^ (f.emax - 2) := by
      rw [show f.emax - 1 = f.emax - 2 + 1 by ring, zpow_add₀ (by norm_num)]; ring
    have t1 : (f.tiny : ℝ) ≤ 1 / 8 * 2 ^ (f.emax - 2) := by
      have : f.tiny ≤ 2 ^ (f.emax - 5) := two_zpow_le (by have := f.emin_neg; have := f.emax_ge; have := f.one_le_prec; omega)
      have e3 : (2 : ℚ) ^ (f.emax - 5) = 1 / 8 * 2 ^ (f.emax - 2) := by
        rw [show f.emax - 2 = f.emax - 5 + 3 by ring, zpow_add₀ (by norm_num), show (2 : ℚ) ^ (3 : Int) = 8 by norm_num]; ring
      rw [e3] at this
      have h : ((f.tiny : ℚ) : ℝ) ≤ ((1 / 8 * 2 ^ (f.emax - 2) : ℚ) : ℝ) := Rat.cast_le.mpr this
      push_cast at h; exact h
    have : |((X.q + W.q : ℚ) : ℝ)| * T ≤ 2 ^ (f.emax - 1) * T := by
      rw [e2]
      have p2 : (0 : ℝ) < 2 ^ (f.emax - 2) := by positivity
      have h1 : f.tiny * T ≤ 1 / 8 * 2 ^ (f.emax - 2) * T := mul_le_mul_of_nonneg_right t1 sz.le
      have h2 : (gammaErr f (n + 6) : ℝ) * (|A| + |B|) ≤ 1 / 100 * (|A| + |B|) := mul_le_mul_of_nonneg_right Gs (by positivity)
      have h3 : (0 : ℝ) < 2 ^ (f.emax - 2) * T := by positivity
      nlinarith
    have := le_of_mul_le_mul_right this sz
    refine (Rat.cast_le (K := ℝ)).mp ?_
    push_cast
    push_cast at this
    exact this
  obtain ⟨k1, k2, k3⟩ := add_near (f := f) fX fW hbig
  refine ⟨k1, k2, ?_⟩
  have k3' : |((X.add f W).q : ℝ) - ((X.q + W.q : ℚ) : ℝ)| ≤ f.u * |((X.q + W.q : ℚ) : ℝ)| + f.tiny / 2 := by exact_mod_cast k3
  have r1 : |((X.add f W).q : ℝ) * T - ((X.q + W.q : ℚ) : ℝ) * T| ≤ f.u * (|((X.q + W.q : ℚ) : ℝ)| * T) + f.tiny / 2 * T := by
    rw [← sub_mul, abs_mul, abs_of_pos sz]
    have := mul_le_mul_of_nonneg_right k3' sz.le
    linarith
  have r2 := abs_add_le (((X.add f W).q : ℝ) * T - ((X.q + W.q : ℚ) : ℝ) * T) (((X.q + W.q : ℚ) : ℝ) * T - (A + B))
  rw [sub_add_sub_cancel] at r2
  have gs : (gammaErr f (n + 7) : ℝ) = (1 + gammaErr f (n + 6)) * (1 + f.u) - 1 := by
    have := gammaErr_succ f (n + 6)
    have : gammaErr f (n + 7) = (1 + gammaErr f (n + 6)) * (1 + f.u) - 1 := by rw [← this]; ring
    rw [this]; push_cast; ring
  rw [gs]
  have r3 := mul_le_mul_of_nonneg_left sum_abs u0.le
  have r4 : (f.u : ℝ) * (f.tiny * T) ≤ 1 / 4 * (f.tiny * T) := mul_le_mul_of_nonneg_right (by linarith) (by positivity)
  nlinarith

/-- C70: a sum or difference of finite quantities of moderate size is finite and differs from the exact one by a small multiple of the sum of
the magnitudes of the amounts, plus at most three times the least positive number.  Partial: the exponents of the conversion ratios are limited, as
for C69, and `Related`, as for C25. -/
theorem C70_sum_partial (E : Env) (hE : E.OK) (β : String → ℝ) (hβ : Sizes β) (sub : Bool) (a b r : QtyI) (f : FltTy) (n : ℕ) (ga : a.ty.Good E)
    (gb : b.ty.Good E) (hr : Related β a.ty b.ty) (ta : a.num.Typed a.ty.rep) (tb : b.num.Typed b.ty.rep) (fa : a.num.Finite) (fb : b.num.Finite)
    (hf : a.ty.rep.arith b.ty.rep = .flt f) (hns : n ≤ f.safeExp) (h : addSubI E sub a b = .ok r) (na : ExpLe E.est r.ty a.ty n)
    (nb : ExpLe E.est r.ty b.ty n) (hb : |a.amount β| + |b.amount β| ≤ 2 ^ (f.emax - 2) * r.ty.size β) :
    IsCommonSize (a.ty.size β) (b.ty.size β) (r.ty.size β) ∧ r.num.Typed (.flt f) ∧ r.num.Finite ∧
      |r.amount β - (if sub then a.amount β - b.amount β else a.amount β + b.amount β)| ≤
        gammaErr f (n + 7) * (|a.amount β| + |b.amount β|) + 3 * f.tiny * r.ty.size β := by
  unfold addSubI at h
  simp only [bind_ok, Except.ok.injEq] at h
  obtain ⟨t, ht, x, hx, y, hy, z, hz, rfl⟩ := h
  dsimp only at na nb hb ⊢
  obtain ⟨gt, hrep, -, hcs, ca, cb⟩ := commonQty_sound hE hβ ga gb hr ht
  rw [hf] at hrep
  have sz := gt.size_pos hβ
  have A0 := abs_nonneg (a.amount β)
  have B0 := abs_nonneg (b.amount β)
  obtain ⟨X, rfl, fX, iX, eX⟩ := convertQtyI_near hβ ga gt ca ta fa hrep (castRep_common (r' := b.ty.rep) (by simp [hf])) na hns (by linarith) hx
  obtain ⟨Y, rfl, fY, iY, eY⟩ := convertQtyI_near hβ gb gt cb tb fb hrep (castRep_common (r' := a.ty.rep) (by simp [hf])) nb hns (by linarith) hy
  dsimp only at hz
  rw [hrep] at hz
  simp only [addSubNumI, Except.ok.injEq] at hz
  subst hz
  have fY' : Y.neg.Finite := by cases Y <;> exact fY
  set W := if sub then Y.neg else Y with hW
  have fW : W.Finite := by rw [hW]; split_ifs <;> assumption
  have qW : (W.q : ℝ) = if sub then -(Y.q : ℝ) else Y.q := by
    rw [hW]; split_ifs
    · rw [FVal.neg_q]; push_cast; rfl
    · rfl
  have eS : (if sub then FVal.sub f X Y else FVal.add f X Y) = FVal.add f X W := by rw [hW]; split_ifs <;> rfl
  rw [eS]
  set A := a.amount β with hA
  set B := b.amount β with hB
  set T := t.size β with hT
  set B' := if sub then -B else B with hB'
  have eB' : (if sub then A - B else A + B) = A + B' := by rw [hB']; split_ifs <;> ring
  have aB' : |B'| = |B| := by rw [hB']; split_ifs <;> simp
  have eW : |(W.q : ℝ) * T - B'| ≤ gammaErr f (n + 6) * |B| + f.tiny * T := by
    rw [qW, hB']; split_ifs
    · rw [show -(Y.q : ℝ) * T - -B = -(Y.q * T - B) by ring, abs_neg]; exact eY
    · exact eY
  rw [← aB'] at eW hb
  obtain ⟨k1, k2, k3⟩ := add_amount fX fW sz hns eX eW hb
  refine ⟨hcs, ⟨f, rfl, k2⟩, k1, ?_⟩
  rw [eB', ← aB']
  exact k3

/-! ### Comparisons -/

/-- One tenth of a kilometre, as nearly as a `double` can tell. -/
def exTenthKm : QtyI := ⟨exKms (.flt .f64), .f (.fin false (3602879701896397 / 2 ^ 55))⟩

/-- Whole centimetres. -/
def exCmI (v : Int) : QtyI := ⟨exCms (.int .i64), .i v⟩

theorem exTenth_ratio : castRatio exEnv.est (exKms (.flt .f64)).dim (exKms (.flt .f64)).unit (exCmSi (.flt .f64)).dim (exCmSi (.flt .f64)).unit =
      .ok ⟨1, 1, 5⟩ ∧
    castRatio exEnv.est (exCms (.int .i64)).dim (exCms (.int .i64)).unit (exCmSi (.flt .f64)).dim (exCmSi (.flt .f64)).unit = .ok ⟨1, 1, 0⟩ := by
  decide +kernel

theorem exTenth_exp : ExpLe exEnv.est (exCmSi (.flt .f64)) exTenthKm.ty 5 ∧ ∀ v, ExpLe exEnv.est (exCmSi (.flt .f64)) (exCmI v).ty 5 := by
  refine ⟨fun c h => ?_, fun v c h => ?_⟩
  · rw [show exTenthKm.ty = exKms (.flt .f64) from rfl, exTenth_ratio.1] at h; cases h; decide
  · rw [show (exCmI v).ty = exCms (.int .i64) from rfl, exTenth_ratio.2] at h; cases h; decide

/-- 0.1 km and 5 cm are 10005 cm, within the error the theorem allows (the sum of the two numbers is not exactly this). -/
example (β : String → ℝ) (hβ : Sizes β) : addSubI exEnv false exTenthKm (exCmI 5) = .ok ⟨exCmSi (.flt .f64), .f (.fin false 10005)⟩ ∧
    |(⟨exCmSi (.flt .f64), .f (.fin false 10005)⟩ : QtyI).amount β - (exTenthKm.amount β + (exCmI 5).amount β)| ≤
      gammaErr .f64 (5 + 7) * (|exTenthKm.amount β| + |(exCmI 5).amount β|) + 3 * FltTy.f64.tiny * (exCmSi (.flt .f64)).size β := by
  have h : addSubI exEnv false exTenthKm (exCmI 5) = .ok ⟨exCmSi (.flt .f64), .f (.fin false 10005)⟩ := by decide +kernel
  refine ⟨h, ?_⟩
  have m := hβ "metre"
  refine (C70_sum_partial exEnv exEnv_ok β hβ false exTenthKm (exCmI 5) _ .f64 5 (exKms_good _ _) (exCms_good _ _) (exKm_cm_related β _ _)
    ⟨.f64, rfl, by norm_num, by decide +kernel⟩ ⟨.i64, rfl, by decide⟩ trivial trivial rfl (by decide) h exTenth_exp.1 (exTenth_exp.2 5) ?_).2.2.2
  have e1 : exTenthKm.amount β = 3602879701896397 / 2 ^ 55 * (1000 * β "metre") := by
    rw [← exKms_size β (.flt .f64)]; simp only [QtyI.amount, exTenthKm, FNum.q, FVal.q]; push_cast; norm_num
  have e2 : (exCmI 5).amount β = 5 * (β "metre" / 100) := by
    rw [← exCms_size β (.int .i64)]; simp only [QtyI.amount, exCmI, FNum.q]; push_cast; rfl
  rw [e1, e2, exCmSi_size, abs_of_pos (by positivity), abs_of_pos (by positivity)]
  have big : (2 : ℝ) ^ 20 ≤ 2 ^ (FltTy.f64.emax - 2) := by
    rw [← zpow_natCast]; exact zpow_le_zpow_right₀ (by norm_num) (by decide)
  have := mul_le_mul_of_nonneg_right big (by positivity : 0 ≤ β "metre" / 100)
  linarith

/-- C70: amounts that differ by more than the rounding errors are compared correctly.  Partial as `C70_sum_partial`. -/
theorem C70_separated_partial (E : Env) (hE : E.OK) (β : String → ℝ) (hβ : Sizes β) (a b : QtyI) (t : QTy) (f : FltTy) (n : ℕ) (o : Option Ordering)
    (ga : a.ty.Good E) (gb : b.ty.Good E) (hr : Related β a.ty b.ty) (ta : a.num.Typed a.ty.rep) (tb : b.num.Typed b.ty.rep)
    (fa : a.num.Finite) (fb : b.num.Finite) (ht : commonQty E a.ty b.ty (a.ty.rep.common b.ty.rep) = .ok t)
    (hf : a.ty.rep.common b.ty.rep = .flt f) (hns : n ≤ f.safeExp) (na : ExpLe E.est t a.ty n) (nb : ExpLe E.est t b.ty n)
    (ba : |a.amount β| ≤ 2 ^ (f.emax - 2) * t.size β) (bb : |b.amount β| ≤ 2 ^ (f.emax - 2) * t.size β)
    (h : compareQtyI E a b = .ok o) :
    (a.amount β + (gammaErr f (n + 6) * (|a.amount β| + |b.amount β|) + 2 * f.tiny * t.size β) < b.amount β → o = some .lt) ∧
    (b.amount β + (gammaErr f (n + 6) * (|a.amount β| + |b.amount β|) + 2 * f.tiny * t.size β) < a.amount β → o = some .gt) ∧ o ≠ none := by
  unfold compareQtyI at h
  split at h
  swap
  · cases h
  rw [ht] at h
  simp only [ok_bind, bind_ok] at h
  obtain ⟨x, hx, y, hy, h⟩ := h
  obtain ⟨gt, hrep, -, hcs, ca, cb⟩ := commonQty_sound hE hβ ga gb hr ht
  rw [hf] at hrep
  have sz := gt.size_pos hβ
  obtain ⟨X, rfl, fX, iX, eX⟩ := convertQtyI_near hβ ga gt ca ta fa hrep (castRep_common (r' := b.ty.rep) (by simp [hf])) na hns ba hx
  obtain ⟨Y, rfl, fY, iY, eY⟩ := convertQtyI_near hβ gb gt cb tb fb hrep (castRep_common (r' := a.ty.rep) (by simp [hf])) nb hns bb hy
  simp only [FNum.cmp, Except.ok.injEq] at h
  subst h
  obtain ⟨k1, k2, k3⟩ := cmp_key iX iY fX.ne_nan fY.ne_nan
  rw [FVal.key_fin fX, FVal.key_fin fY] at k1 k2 k3
  have ex := abs_le.mp eX
  have ey := abs_le.mp eY
  refine ⟨fun hlt => k1 ?_, fun hlt => k3 ?_, ?_⟩
  · have : (X.q : ℝ) * t.size β < Y.q * t.size β := by linarith [ex.2, ey.1]
    exact_mod_cast lt_of_mul_lt_mul_right this sz.le
  · have : (Y.q : ℝ) * t.size β < X.q * t.size β := by linarith [ex.1, ey.2]
    exact_mod_cast lt_of_mul_lt_mul_right this sz.le
  · rcases lt_trichotomy X.q Y.q with h | h | h
    · rw [k1 h]; simp
    · rw [k2 h]; simp
    · rw [k3 h]; simp

/-! ### Exact factors -/

/-- The computed conversion factor is the exact one. -/
def ExactFactor (f : FltTy) (c : Ratio) : Prop :=
  FVal.div f (FVal.mul f (FVal.ofInt f c.num) (fpow10I f c.exp)) (FVal.ofInt f c.den) = .fin false c.val

instance (f : FltTy) (c : Ratio) : Decidable (ExactFactor f c) := by unfold ExactFactor; infer_instance

theorem rndMag_int {f : FltTy} {k : Int} (hk : 0 ≤ k) (hp : (k : ℚ) < 2 ^ f.prec) : f.rndMag (k : ℚ) = some (k : ℚ) := by
  have h := rndU_exact (f := f) (e := 0) hk hp (by have := f.emin_neg; have := f.one_le_prec; omega)
  simp only [zpow_zero, mul_one] at h
  refine rndMag_some.mpr ⟨h.symm, hp.trans_le (two_zpow_le ?_)⟩
  cases f <;> decide

theorem ofInt_exact {f : FltTy} {k : Int} (hk : 0 ≤ k) (hp : (k : ℚ) < 2 ^ f.prec) : FVal.ofInt f k = .fin false (k : ℚ) := by
  have h0 : (0 : ℚ) ≤ k := by exact_mod_cast hk
  simp [FVal.ofInt, FVal.round, abs_of_nonneg h0, rndMag_int hk hp, not_lt.mpr hk]

theorem fpow10LoopI_exact {f : FltTy} (n : ℕ) : ∀ {k : Int}, 0 < k → ((k * 10 ^ n : Int) : ℚ) < 2 ^ f.prec →
    fpow10LoopI (FVal.mul f) (.fin false 10) n (.fin false (k : ℚ)) = .fin false ((k * 10 ^ n : Int) : ℚ) := by
  induction n with
  | zero => intro k _ _; simp [fpow10LoopI]
  | succ n ih =>
    intro k hk hp
    have e : k * 10 ^ (n + 1) = k * 10 * 10 ^ n := by ring
    rw [e] at hp ⊢
    have h10 : ((k * 10 : Int) : ℚ) < 2 ^ f.prec := by
      refine lt_of_le_of_lt ?_ hp
      have : k * 10 ≤ k * 10 * 10 ^ n := le_mul_of_one_le_right (by omega) (one_le_pow₀ (by norm_num))
      exact_mod_cast this
    have hm : FVal.mul f (.fin false (k : ℚ)) (.fin false 10) = .fin false ((k * 10 : Int) : ℚ) := by
      have := rndMag_int (f := f) (k := k * 10) (by omega) h10
      push_cast at this
      simp [FVal.mul, FVal.round, this]
    rw [fpow10LoopI, hm]
    exact ih (by omega) hp

/-- Factors that are integers of moderate size are computed exactly. -/
theorem exactFactor_of {f : FltTy} {c : Ratio} (hn : 0 < c.num) (he : 0 ≤ c.exp) (hd : 0 < c.den) (hp : c.num * 10 ^ c.exp.natAbs < 2 ^ f.prec.toNat)
    (hdp : c.den < 2 ^ f.prec.toNat) (hdiv : c.den ∣ c.num * 10 ^ c.exp.natAbs) : ExactFactor f c := by
  have pp : ((2 : Int) ^ f.prec.toNat : ℚ) = 2 ^ f.prec := by
    have : (f.prec.toNat : Int) = f.prec := by have := f.one_le_prec; omega
    conv_rhs => rw [← this]
    rw [zpow_natCast]; norm_num
  have cast : ∀ k : Int, k < 2 ^ f.prec.toNat → (k : ℚ) < 2 ^ f.prec := by
    intro k h
    rw [← pp]; exact_mod_cast h
  have p10 : (0 : Int) < 10 ^ c.exp.natAbs := by positivity
  have h1 : c.num < 2 ^ f.prec.toNat := lt_of_le_of_lt (le_mul_of_one_le_right hn.le (by omega)) hp
  have h2 : (10 : Int) ^ c.exp.natAbs < 2 ^ f.prec.toNat := lt_of_le_of_lt (le_mul_of_one_le_left p10.le (by omega)) hp
  have hpow : fpow10I f c.exp = .fin false ((10 ^ c.exp.natAbs : Int) : ℚ) := by
    unfold fpow10I
    rw [ofInt_one, ofInt_ten]
    split_ifs with h h'
    · rw [h]; simp
    · omega
    · have := fpow10LoopI_exact (f := f) c.exp.natAbs (k := 1) (by norm_num) (by rw [one_mul]; exact cast _ h2)
      simpa using this
  have hmul : FVal.mul f (.fin false (c.num : ℚ)) (.fin false ((10 ^ c.exp.natAbs : Int) : ℚ)) = .fin false ((c.num * 10 ^ c.exp.natAbs : Int) : ℚ) := by
    have := rndMag_int (f := f) (k := c.num * 10 ^ c.exp.natAbs) (by positivity) (cast _ hp)
    push_cast at this ⊢
    simp [FVal.mul, FVal.round, this]
  obtain ⟨k, hk⟩ := hdiv
  have k0 : 0 < k := by
    have : 0 < c.den * k := by rw [← hk]; positivity
    exact pos_of_mul_pos_right this hd.le
  have hkp : (k : ℚ) < 2 ^ f.prec := by
    refine cast _ (lt_of_le_of_lt ?_ hp)
    rw [hk]; exact le_mul_of_one_le_left k0.le hd
  have d0 : (c.den : ℚ) ≠ 0 := by exact_mod_cast hd.ne'
  have hq : ((c.num * 10 ^ c.exp.natAbs : Int) : ℚ) / (c.den : ℚ) = (k : ℚ) := by
    rw [hk]; push_cast; field_simp
  have hval : c.val = k := by
    rw [← hq]
    unfold Ratio.val
    have e10 : (10 : ℚ) ^ c.exp = 10 ^ c.exp.natAbs := by rw [← zpow_natCast]; congr 1; omega
    rw [e10]; push_cast; ring
  unfold ExactFactor
  rw [ofInt_exact hn.le (cast _ h1), hpow, hmul, ofInt_exact hd.le (cast _ hdp), hval]
  simp only [FVal.div, if_neg d0, hq, FVal.round, rndMag_int k0.le hkp]
  rfl

theorem round_in {f : FltTy} {s : Bool} {m : ℚ} (hm : 0 ≤ m) : (FVal.round f s m).In f := by
  unfold FVal.round
  cases h : f.rndMag m with
  | none => trivial
  | some y =>
    obtain ⟨h1, h2⟩ := rndMag_some.mp h
    exact ⟨by rw [h1]; exact rndU_nonneg hm, rndMag_some.mpr ⟨by rw [h1, rndU_idem hm], h2⟩⟩

theorem round_ne_nan {f : FltTy} {s : Bool} {m : ℚ} : FVal.round f s m ≠ .nan := by
  unfold FVal.round; split <;> simp

theorem roundKey_self {f : FltTy} {y : FVal} (hf : y.Finite) (hy : y.In f) : y.key f = roundKey f y.q := by
  cases y with
  | inf s => exact hf.elim
  | nan => exact hf.elim
  | fin s m =>
    have := key_round (f := f) (s := s) hy.1
    have e : FVal.round f s m = .fin s m := by simp [FVal.round, hy.2]
    rw [e] at this
    rw [this]; cases s <;> rfl

/-- The conversion of `q` to `t` is exact but for the last rounding: the factor is, and integers have no more digits than the type. -/
structure ExactConv (est : RootEstimate) (t : QTy) (q : QtyI) (f : FltTy) : Prop where
  factor : ∀ c, castRatio est q.ty.dim q.ty.unit t.dim t.unit = .ok c → ExactFactor f c
  int : ∀ z, q.num = .i z → |(z : ℚ)| < 2 ^ f.prec

theorem convI_exact {s : Rep} {f : FltTy} (hw : ∀ g, s = .flt g → FltTy.Le g f) {v : FNum} (hv : v.Typed s) (hfin : v.Finite)
    (hi : ∀ z, v = .i z → |(z : ℚ)| < 2 ^ f.prec) : convI s (.flt f) v = .ok (.f (.fin v.neg |v.q|)) := by
  cases v with
  | i x =>
    obtain ⟨t, rfl, hx⟩ := hv
    have := hi x rfl
    have h := rndMag_int (f := f) (k := |x|) (abs_nonneg _) (by push_cast; exact this)
    push_cast at h
    simp [convI, FVal.ofInt, FVal.round, h, FNum.neg, FNum.q]
  | f x =>
    cases x with
    | inf b => exact hfin.elim
    | nan => exact hfin.elim
    | fin b m =>
      obtain ⟨g, rfl, hm, hr⟩ := hv
      have e : |(FNum.f (.fin b m)).q| = m := by cases b <;> simp [FNum.q, FVal.q, abs_of_nonneg hm]
      rw [e]
      unfold convI
      split
      · rfl
      · simp [FVal.conv, FVal.round, rndMag_wider (hw g rfl) hm hr, FNum.neg]

theorem convertQtyI_exact {E : Env} {β : String → ℝ} (hβ : Sizes β) {t : QTy} {q x : QtyI} {f : FltTy} (gq : q.ty.Good E) (gt : t.Good E)
    (hco : Coherent β q.ty.dim t.dim) (hv : q.num.Typed q.ty.rep) (hfin : q.num.Finite) (ht : t.rep = .flt f)
    (hf : castRep q.ty.rep (.flt f) = .flt f) (he : ExactConv E.est t q f) (h : convertQtyI E t q = .ok x) :
    ∃ (y : FVal) (w : ℚ), x = ⟨t, .f y⟩ ∧ y ≠ .nan ∧ y.In f ∧ (w : ℝ) * t.size β = q.amount β ∧ y.key f = roundKey f w := by
  have sz := gt.size_pos hβ
  rcases convertQtyI_cases h with ⟨hty, rfl⟩ | ⟨-, heq, h⟩
  · obtain ⟨ty, num⟩ := x
    dsimp only at hty; subst hty
    dsimp only at hv hfin
    cases num with
    | i z => obtain ⟨t', e, -⟩ := hv; rw [ht] at e; cases e
    | f y =>
      obtain ⟨f', e, hy⟩ := hv
      rw [ht] at e; cases e
      exact ⟨y, y.q, rfl, FVal.Finite.ne_nan hfin, hy, rfl, roundKey_self hfin hy⟩
  · obtain ⟨c, hc⟩ := quantityCastI_ratio h
    obtain ⟨w, p, e⟩ := castRatio_size hβ gq gt (C17_symmetric _ _ heq) hco hc
    have hF := he.factor c hc
    have c0 : 0 < c.val := w.val_pos.mpr p
    have m0 : 0 ≤ |q.num.q| * c.val := mul_nonneg (abs_nonneg _) c0.le
    rw [quantityCastI_eq heq hc, ht] at h
    have hcast : castNumI q.ty.rep (.flt f) c q.num = .ok (.f (FVal.round f q.num.neg (|q.num.q| * c.val))) := by
      unfold castNumI
      rw [hf, convI_exact (fun g' e => castRep_le_src hf e) hv hfin he.int]
      simp only [ok_bind]
      rw [castFltI_fin hF]
      simp [convI]
    rw [hcast] at h
    cases h
    refine ⟨_, q.num.q * c.val, rfl, round_ne_nan, round_in m0, ?_, ?_⟩
    · unfold QtyI.amount; push_cast; rw [e]; field_simp
    · rw [key_round m0]
      congr 1
      have := FNum.q_sign hv hfin
      conv_rhs => rw [this]
      split_ifs <;> ring

/-- C70: if the conversion factors are computed exactly then equal amounts are equal and no comparison contradicts the order of the amounts (different
amounts may be found equal).  Partial: exact factors (`exactFactor_of`), and `Related`, as for C26. -/
theorem C70_consistent_partial (E : Env) (hE : E.OK) (β : String → ℝ) (hβ : Sizes β) (a b : QtyI) (t : QTy) (f : FltTy) (o : Option Ordering)
    (ga : a.ty.Good E) (gb : b.ty.Good E) (hr : Related β a.ty b.ty) (ta : a.num.Typed a.ty.rep) (tb : b.num.Typed b.ty.rep)
    (fa : a.num.Finite) (fb : b.num.Finite) (ht : commonQty E a.ty b.ty (a.ty.rep.common b.ty.rep) = .ok t)
    (hf : a.ty.rep.common b.ty.rep = .flt f) (na : ExactConv E.est t a f) (nb : ExactConv E.est t b f) (h : compareQtyI E a b = .ok o) :
    (a.amount β = b.amount β → o = some .eq) ∧ (a.amount β < b.amount β → o = some .lt ∨ o = some .eq) ∧
      (b.amount β < a.amount β → o = some .gt ∨ o = some .eq) := by
  unfold compareQtyI at h
  split at h
  swap
  · cases h
  rw [ht] at h
  simp only [ok_bind, bind_ok] at h
  obtain ⟨x, hx, y, hy, h⟩ := h
  obtain ⟨gt, hrep, -, hcs, ca, cb⟩ := commonQty_sound hE hβ ga gb hr ht
  rw [hf] at hrep
  have sz := gt.size_pos hβ
  obtain ⟨X, v, rfl, fX, iX, eX, kX⟩ := convertQtyI_exact hβ ga gt ca ta fa hrep (castRep_common (r' := b.ty.rep) (by simp [hf])) na hx
  obtain ⟨Y, w, rfl, fY, iY, eY, kY⟩ := convertQtyI_exact hβ gb gt cb tb fb hrep (castRep_common (r' := a.ty.rep) (by simp [hf])) nb hy
  simp only [FNum.cmp, Except.ok.injEq] at h
  subst h
  obtain ⟨k1, k2, k3⟩ := cmp_key iX iY fX fY
  rw [kX, kY] at k1 k2 k3
  rw [← eX, ← eY]
  refine ⟨fun he => k2 ?_, fun hl => ?_, fun hl => ?_⟩
  · have : v = w := by exact_mod_cast mul_right_cancel₀ sz.ne' he
    rw [this]
  · have : v < w := by exact_mod_cast lt_of_mul_lt_mul_right hl sz.le
    rcases (roundKey_mono (f := f) this.le).lt_or_eq with h | h
    · exact Or.inl (k1 h)
    · exact Or.inr (k2 h)
  · have : w < v := by exact_mod_cast lt_of_mul_lt_mul_right hl sz.le
    rcases (roundKey_mono (f := f) this.le).lt_or_eq with h | h
    · exact Or.inl (k3 h)
    · exact Or.inr (k2 h.symm)

/-- 0.1 km is less than 10001 cm, and equal to 10000 cm although the `double` is a little more than 0.1. -/
example : commonQty exEnv exTenthKm.ty (exCmI 0).ty (exTenthKm.ty.rep.common (exCmI 0).ty.rep) = .ok (exCmSi (.flt .f64)) ∧
    ExactConv exEnv.est (exCmSi (.flt .f64)) exTenthKm .f64 ∧ ExactConv exEnv.est (exCmSi (.flt .f64)) (exCmI 10000) .f64 ∧
    compareQtyI exEnv exTenthKm (exCmI 10000) = .ok (some .eq) ∧ (exCmI 10000).num.q / 10 ^ 5 < exTenthKm.num.q ∧
    compareQtyI exEnv exTenthKm (exCmI 10001) = .ok (some .lt) := by
  refine ⟨by decide +kernel, ⟨fun c h => ?_, fun z h => by cases h⟩, ⟨fun c h => ?_, fun z h => ?_⟩, by decide +kernel, by decide +kernel, by decide +kernel⟩
  · rw [show exTenthKm.ty = exKms (.flt .f64) from rfl, exTenth_ratio.1] at h; cases h; decide +kernel
  · rw [show (exCmI 10000).ty = exCms (.int .i64) from rfl, exTenth_ratio.2] at h; cases h; decide +kernel
  · cases h; norm_num [FltTy.prec]

/-! ### Conversions keep the order -/

theorem convI_key {s : Rep} {f : FltTy} (hw : ∀ g, s = .flt g → FltTy.Le g f) {v : FNum} (hv : v.Typed s) (hfin : v.Finite) :
    ∃ b m, 0 ≤ m ∧ convI s (.flt f) v = .ok (.f (.fin b m)) ∧ (FVal.fin b m).q = roundKey f v.q := by
  obtain ⟨m, m0, hm, -⟩ := convI_first hw hv hfin
  refine ⟨_, m, m0, hm, ?_⟩
  cases v with
  | i x =>
    obtain ⟨t, rfl, hx⟩ := hv
    simp only [convI, reduceCtorEq, if_false, Except.ok.injEq, FNum.f.injEq] at hm
    have := key_round (f := f) (s := decide (x < 0)) (abs_nonneg (x : ℚ))
    rw [show FVal.round f (decide (x < 0)) |(x : ℚ)| = FVal.ofInt f x from rfl, hm] at this
    rw [FVal.key_fin (y := .fin _ m) trivial] at this
    rw [this]
    congr 1
    simp only [FNum.q, decide_eq_true_eq]
    split_ifs with h
    · rw [abs_of_neg (by exact_mod_cast h)]; ring
    · rw [abs_of_nonneg (by exact_mod_cast not_lt.mp h)]
  | f x =>
    cases x with
    | inf b => exact hfin.elim
    | nan => exact hfin.elim
    | fin b n =>
      obtain ⟨g, rfl, hn, hr⟩ := hv
      have hr' := rndMag_wider (hw g rfl) hn hr
      have e : convI (.flt g) (.flt f) (.f (.fin b n)) = .ok (.f (.fin b n)) := by
        unfold convI; split
        · rfl
        · simp [FVal.conv, FVal.round, hr']
      rw [e] at hm
      simp only [Except.ok.injEq, FNum.f.injEq, FVal.fin.injEq] at hm
      obtain ⟨h1, rfl⟩ := hm
      rw [← h1]
      exact roundKey_self (y := .fin b n) trivial ⟨hn, hr'⟩

theorem key_conv {f g : FltTy} (h : FltTy.Le g f) {y : FVal} (hy : y.In f) (hn : y ≠ .nan) :
    (y.conv g).key g = roundKey g (y.key f) ∧ (y.conv g).In g ∧ y.conv g ≠ .nan := by
  cases y with
  | nan => exact absurd rfl hn
  | fin b m =>
    refine ⟨?_, round_in hy.1, round_ne_nan⟩
    show (FVal.round g b m).key g = _
    rw [key_round hy.1]
    cases b <;> rfl
  | inf b =>
    refine ⟨?_, trivial, hn⟩
    have big : posKey g (2 ^ (f.emax + 1)) = 2 ^ (g.emax + 1) := by
      unfold posKey
      have : (2 : ℚ) ^ (g.emax + 1) ≤ g.rndU (2 ^ (f.emax + 1)) :=
        rndU_ge_pow (by unfold FltTy.emin; have := g.emax_ge; omega) (two_zpow_le (by have := h.2; omega))
      rw [if_neg]
      have := two_zpow_lt (m := g.emax) (n := g.emax + 1) (by omega)
      linarith
    have p := two_zpow_pos (f.emax + 1)
    cases b
    · show (2 : ℚ) ^ (g.emax + 1) = roundKey g (2 ^ (f.emax + 1))
      unfold roundKey
      rw [if_neg (by linarith), big]
    · show -(2 : ℚ) ^ (g.emax + 1) = roundKey g (-2 ^ (f.emax + 1))
      unfold roundKey
      rw [if_pos (by linarith), neg_neg, big]

/-- C69: conversions keep the order (though different numbers may become equal).  Partial as `C69_number_partial`. -/
theorem C69_monotone_partial (s : Rep) (g f : FltTy) (c : Ratio) (hc : c.WF) (hf : castRep s (.flt g) = .flt f) (hs : SafeRatio f c) (v w : FNum)
    (hv : v.Typed s) (hw : w.Typed s) (fv : v.Finite) (fw : w.Finite) (h : v.q ≤ w.q) :
    ∃ x y : FVal, castNumI s (.flt g) c v = .ok (.f x) ∧ castNumI s (.flt g) c w = .ok (.f y) ∧ (x.cmp y = some .lt ∨ x.cmp y = some .eq) := by
  obtain ⟨F, F0, hF, -⟩ := factor_near hc hs
  have hle := castRep_le_dst hf rfl
  have main : ∀ v : FNum, v.Typed s → v.Finite → ∃ x : FVal, castNumI s (.flt g) c v = .ok (.f x) ∧ x.In g ∧ x ≠ .nan ∧
      x.key g = if f = g then roundKey f (roundKey f v.q * F) else roundKey g (roundKey f (roundKey f v.q * F)) := by
    intro v hv fv
    obtain ⟨b, m, m0, hm, hq⟩ := convI_key (f := f) (fun g' e => castRep_le_src hf e) hv fv
    have z0 : 0 ≤ m * F := mul_nonneg m0 F0.le
    have hk : (FVal.round f b (m * F)).key f = roundKey f (roundKey f v.q * F) := by
      rw [key_round z0, ← hq]
      congr 1
      cases b <;> simp [FVal.q]
    have hcast : castNumI s (.flt g) c v = convI (.flt f) (.flt g) (.f (FVal.round f b (m * F))) := by
      unfold castNumI
      rw [hf, hm]
      simp only [ok_bind]
      rw [castFltI_fin hF]
    by_cases e : f = g
    · subst e
      exact ⟨FVal.round f b (m * F), by rw [hcast]; simp [convI], round_in z0, round_ne_nan, by rw [if_pos rfl, hk]⟩
    · obtain ⟨k1, k2, k3⟩ := key_conv hle (round_in (f := f) (s := b) z0) round_ne_nan
      refine ⟨_, by rw [hcast]; unfold convI; rw [if_neg (by simpa using e)], k2, k3, ?_⟩
      rw [if_neg e, k1, hk]
  obtain ⟨x, x1, x2, x3, x4⟩ := main v hv fv
  obtain ⟨y, y1, y2, y3, y4⟩ := main w hw fw
  refine ⟨x, y, x1, y1, ?_⟩
  obtain ⟨k1, k2, -⟩ := cmp_key x2 y2 x3 y3
  have m1 : roundKey f (roundKey f v.q * F) ≤ roundKey f (roundKey f w.q * F) :=
    roundKey_mono (mul_le_mul_of_nonneg_right (roundKey_mono h) F0.le)
  have m2 : x.key g ≤ y.key g := by
    rw [x4, y4]; split_ifs
    · exact m1
    · exact roundKey_mono m1
  rcases m2.lt_or_eq with h | h
  · exact Or.inl (k1 h)
  · exact Or.inr (k2 h)

/-- Two `double` numbers that become the same `float`, and two that do not. -/
example : castNumI (.flt .f64) (.flt .f32) ⟨1, 36, 1⟩ (.f (.fin false 36)) = .ok (.f (.fin false 10)) ∧
    castNumI (.flt .f64) (.flt .f32) ⟨1, 36, 1⟩ (.f (.fin false (36 + 1 / 2 ^ 40))) = .ok (.f (.fin false 10)) ∧
    castNumI (.flt .f64) (.flt .f32) ⟨1, 36, 1⟩ (.f (.fin false (36 + 1 / 2 ^ 10))) = .ok (.f (.fin false (10 + 284 / 2 ^ 20))) := by
  decide +kernel

/-! ### NaN -/

theorem castNumI_nan {s : FltTy} {g : FltTy} {c : Ratio} {x : FNum} (h : castNumI (.flt s) (.flt g) c (.f .nan) = .ok x) : x = .f .nan := by
  unfold castNumI at h
  obtain ⟨f, hf⟩ : ∃ f, castRep (.flt s) (.flt g) = .flt f := by cases s <;> cases g <;> exact ⟨_, rfl⟩
  rw [hf] at h
  have e : ∀ r r' : FltTy, convI (.flt r) (.flt r') (.f .nan) = .ok (.f .nan) := by
    intro r r'; unfold convI; split <;> rfl
  rw [e] at h
  simp only [ok_bind] at h
  have : castFltI f c .nan = .nan := by unfold castFltI FVal.mul; rfl
  rw [this, e] at h
  cases h; rfl

theorem convertQtyI_nan {E : Env} {t : QTy} {q x : QtyI} {s g : FltTy} (hs : q.ty.rep = .flt s) (hg : t.rep = .flt g) (hq : q.num = .f .nan)
    (h : convertQtyI E t q = .ok x) : x.num = .f .nan := by
  rcases convertQtyI_cases h with ⟨-, rfl⟩ | ⟨-, he, h⟩
  · exact hq
  · obtain ⟨c, hc⟩ := quantityCastI_ratio h
    rw [quantityCastI_eq he hc, hs, hg, hq] at h
    cases hx : castNumI (.flt s) (.flt g) c (.f .nan) with
    | error e => rw [hx] at h; cases h
    | ok y => rw [hx] at h; cases h; exact castNumI_nan hx

theorem convertQtyI_flt {E : Env} {t : QTy} {q x : QtyI} {g : FltTy} (hg : t.rep = .flt g) (hq : q.num.Typed q.ty.rep) (h : convertQtyI E t q = .ok x) :
    ∃ y, x.num = .f y := by
  rcases convertQtyI_cases h with ⟨rfl, rfl⟩ | ⟨-, he, h⟩
  · cases hx : x.num with
    | i z => rw [hx, hg] at hq; obtain ⟨t', e, -⟩ := hq; cases e
    | f y => exact ⟨y, rfl⟩
  · obtain ⟨c, hc⟩ := quantityCastI_ratio h
    rw [quantityCastI_eq he hc, hg] at h
    cases hx : castNumI q.ty.rep (.flt g) c q.num with
    | error e => rw [hx] at h; cases h
    | ok y =>
      rw [hx] at h; cases h
      cases y with
      | f y => exact ⟨y, rfl⟩
      | i z =>
        exfalso
        unfold castNumI at hx
        simp only [bind_ok] at hx
        obtain ⟨w, -, hx⟩ := hx
        have hc : ∀ (r : Rep) (v : FNum), r ≠ .flt g → convI r (.flt g) v ≠ .ok (.i z) := by
          intro r v hr hc
          unfold convI at hc
          rw [if_neg hr] at hc
          cases v <;> cases hc
        split at hx
        · simp only [bind_ok] at hx
          obtain ⟨k, -, hx⟩ := hx
          exact hc _ _ (by simp) hx
        · rename_i f y hf
          by_cases e : f = g
          · subst e; simp [convI] at hx
          · exact hc _ _ (by simpa using e) hx
        · cases hx

/-- C70: a quantity that is not a number is unordered with every quantity, even itself, and equal to none; sums and differences with it are no numbers. -/
theorem C70_nan (E : Env) (a b : QtyI) (ta : a.num.Typed a.ty.rep) (tb : b.num.Typed b.ty.rep) (h : a.num = .f .nan ∨ b.num = .f .nan) :
    (∀ o, compareQtyI E a b = .ok o → o = none) ∧ (∀ e, eqQtyI E a b = .ok e → e = false) ∧
      (∀ sub r, addSubI E sub a b = .ok r → r.num = .f .nan) := by
  have key : ∀ t x y g, t.rep = .flt g → convertQtyI E t a = .ok x → convertQtyI E t b = .ok y →
      ∃ X Y : FVal, x.num = .f X ∧ y.num = .f Y ∧ (X = .nan ∨ Y = .nan) := by
    intro t x y g hg hx hy
    obtain ⟨X, eX⟩ := convertQtyI_flt hg ta hx
    obtain ⟨Y, eY⟩ := convertQtyI_flt hg tb hy
    refine ⟨X, Y, eX, eY, h.imp (fun h => ?_) (fun h => ?_)⟩
    · rw [h] at ta; obtain ⟨s, hs, -⟩ := ta
      rw [convertQtyI_nan hs hg h hx] at eX; cases eX; rfl
    · rw [h] at tb; obtain ⟨s, hs, -⟩ := tb
      rw [convertQtyI_nan hs hg h hy] at eY; cases eY; rfl
  have rep : (∃ g, a.ty.rep.common b.ty.rep = .flt g) ∧ ∃ g, a.ty.rep.arith b.ty.rep = .flt g := by
    have : (∃ s, a.ty.rep = .flt s) ∨ ∃ s, b.ty.rep = .flt s := h.imp
      (fun h => by rw [h] at ta; obtain ⟨s, hs, -⟩ := ta; exact ⟨s, hs⟩) (fun h => by rw [h] at tb; obtain ⟨s, hs, -⟩ := tb; exact ⟨s, hs⟩)
    rcases ha : a.ty.rep with r | r <;> rcases hb : b.ty.rep with r' | r'
    · rw [ha, hb] at this; rcases this with ⟨s, e⟩ | ⟨s, e⟩ <;> cases e
    · exact ⟨⟨r', by cases r <;> cases r' <;> rfl⟩, ⟨r', rfl⟩⟩
    · exact ⟨⟨r, by cases r <;> cases r' <;> rfl⟩, ⟨r, rfl⟩⟩
    · exact ⟨by cases r <;> cases r' <;> exact ⟨_, rfl⟩, ⟨_, rfl⟩⟩
  have repOf : ∀ {t r}, commonQty E a.ty b.ty r = .ok t → t.rep = r := by
    intro t r ht
    unfold commonQty at ht
    simp only [bind_ok] at ht
    obtain ⟨e, -, ht⟩ := ht
    cases e with
    | false => cases ht
    | true =>
      simp only [if_true, bind_ok, Except.ok.injEq] at ht
      obtain ⟨⟨d, u⟩, -, rfl⟩ := ht
      rfl
  have cmp : ∀ o, compareQtyI E a b = .ok o → o = none := by
    intro o h
    unfold compareQtyI at h
    split at h
    swap
    · cases h
    simp only [bind_ok] at h
    obtain ⟨t, ht, x, hx, y, hy, h⟩ := h
    obtain ⟨g, hg⟩ := rep.1
    obtain ⟨X, Y, eX, eY, hn⟩ := key t x y g ((repOf ht).trans hg) hx hy
    rw [eX, eY] at h
    simp only [FNum.cmp, Except.ok.injEq] at h
    subst h
    rcases hn with rfl | rfl
    · rfl
    · cases X <;> rfl
  refine ⟨cmp, fun e h => ?_, fun sub r h => ?_⟩
  · unfold eqQtyI at h
    simp only [bind_ok, Except.ok.injEq] at h
    obtain ⟨t, ht, x, hx, y, hy, o, ho, rfl⟩ := h
    have : compareQtyI E a b = .ok o := by
      have tw : a.ty.rep.threeWay b.ty.rep = true := by
        obtain ⟨g, hg⟩ := rep.2
        cases ha : a.ty.rep <;> cases hb : b.ty.rep <;> first | rfl | (rw [ha, hb] at hg; cases hg)
      unfold compareQtyI
      rw [if_pos tw, ht]
      simp only [ok_bind, hx, hy, ho]
    rw [cmp o this]; rfl
  · unfold addSubI at h
    simp only [bind_ok, Except.ok.injEq] at h
    obtain ⟨t, ht, x, hx, y, hy, z, hz, rfl⟩ := h
    obtain ⟨g, hg⟩ := rep.2
    obtain ⟨X, Y, eX, eY, hn⟩ := key t x y g ((repOf ht).trans hg) hx hy
    rw [eX, eY, (repOf ht).trans hg] at hz
    simp only [addSubNumI, Except.ok.injEq] at hz
    subst hz
    show FNum.f _ = _
    rcases hn with rfl | rfl
    · cases sub <;> cases Y <;> rfl
    · cases sub <;> cases X <;> rfl

example : compareQtyI exEnv ⟨exKms (.flt .f64), .f .nan⟩ ⟨exKms (.flt .f64), .f .nan⟩ = .ok none ∧
    compareQtyI exEnv ⟨exKms (.flt .f32), .f .nan⟩ (exCmI 5) = .ok none ∧ eqQtyI exEnv (exCmI 5) ⟨exKms (.flt .f32), .f .nan⟩ = .ok false ∧
    addSubI exEnv true (exCmI 5) ⟨exKms (.flt .f32), .f .nan⟩ = .ok ⟨⟨.base exLcgs, exCmUnit, .flt .f32⟩, .f .nan⟩ := by decide +kernel

/-- Infinities of different signs: their sum is not a number, their comparison is ordered. -/
example : addSubI exEnv false ⟨exKms (.flt .f64), .f (.inf false)⟩ ⟨exCms (.flt .f64), .f (.inf true)⟩ = .ok ⟨exCmSi (.flt .f64), .f .nan⟩ ∧
    compareQtyI exEnv ⟨exKms (.flt .f64), .f (.inf false)⟩ ⟨exCms (.flt .f64), .f (.inf true)⟩ = .ok (some .gt) := by decide +kernel

/-- C70: where quantities are ordered, `==` agrees with the order: it holds exactly if the comparison finds them equal. -/
theorem C70_eq_agrees (E : Env) (a b : QtyI) (o : Option Ordering) (h : compareQtyI E a b = .ok o) : eqQtyI E a b = .ok (decide (o = some .eq)) := by
  unfold compareQtyI at h
  split at h
  swap
  · cases h
  simp only [bind_ok] at h
  obtain ⟨t, ht, x, hx, y, hy, h⟩ := h
  unfold eqQtyI
  rw [ht]
  simp only [ok_bind, hx, hy, h]
  congr 1
  rcases o with _ | o
  · rfl
  · cases o <;> rfl

example : compareQtyI exEnv exTenthKm (exCmI 10000) = .ok (some .eq) ∧ eqQtyI exEnv exTenthKm (exCmI 10000) = .ok true ∧
    eqQtyI exEnv exTenthKm (exCmI 9999) = .ok false := by decide +kernel

end Verif
