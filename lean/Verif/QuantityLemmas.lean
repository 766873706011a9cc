import Verif.Quantity
import Verif.Props.EquivalentProps

/-!
# Helper lemmas on conversions and arithmetic of quantities
-/

namespace Verif

open Ratio

/-! ### Specification: rounding, representability -/

/-- Truncation of a real number toward zero. -/
noncomputable def truncR (x : ℝ) : ℤ := if 0 ≤ x then ⌊x⌋ else ⌈x⌉

/-- A floating point type whose operations are exact. -/
def FlExact (fl : Rounding) : Prop := ∀ f x, fl f x = x

/-- The amount `x` is a value of the quantity type: for an integral representation it is a whole number
of units within the range of the type. -/
def Holds (β : String → ℝ) (t : QTy) (x : ℝ) : Prop :=
  ∀ ty, t.rep = .int ty → ∃ n : ℤ, ty.In n ∧ x = n * t.size β

/-- Unsigned 64-bit intermediate results of a conversion do not wrap around. -/
def CastGuard (E : Env) (t : QTy) (q : Qty) : Prop :=
  ∀ c v, castRatio E.est q.ty.dim q.ty.unit t.dim t.unit = .ok c → q.num = .i v →
    t.rep.floating = false → q.ty.rep = .int .u64 ∨ t.rep = .int .u64 → CastFits .u64 c v

/-- Two quantity types are comparable and their dimensions agree on the sizes of units. -/
structure Related (β : String → ℝ) (t1 t2 : QTy) : Prop where
  equiv : dimEquivalent t1.dim t2.dim = .ok true
  coherent : Coherent β t1.dim t2.dim
  one : t1.dim.unit.ref ≠ t2.dim.unit.ref → t1.dim.unit.ratio.val = 1 ∧ t2.dim.unit.ratio.val = 1

theorem Related.symm {β : String → ℝ} {t1 t2 : QTy} (h : Related β t1 t2) : Related β t2 t1 :=
  ⟨C17_symmetric _ _ h.equiv, fun he u => (h.coherent he.symm u).symm, fun he => (h.one (Ne.symm he)).symm⟩

/-! ### Numbers -/

theorem truncR_div (a b : ℤ) (hb : 0 < b) : truncR ((a : ℝ) / b) = a.tdiv b := by
  have hbR : (0 : ℝ) < b := by exact_mod_cast hb
  unfold truncR
  split
  · rename_i h
    have ha : 0 ≤ a := by
      by_contra hn
      have : (a : ℝ) / b < 0 := div_neg_of_neg_of_pos (by exact_mod_cast (not_le.mp hn)) hbR
      linarith
    rw [Int.tdiv_eq_ediv_of_nonneg ha, Int.floor_eq_iff]
    have h1 := Int.emod_add_mul_ediv a b
    have h2 := Int.emod_nonneg a hb.ne'
    have h3 := Int.emod_lt_of_pos a hb
    constructor
    · rw [le_div_iff₀ hbR]; exact_mod_cast (by nlinarith : a / b * b ≤ a)
    · rw [div_lt_iff₀ hbR]; exact_mod_cast (by nlinarith : a < (a / b + 1) * b)
  · rename_i h
    have ha : a < 0 := by
      by_contra hn
      exact h (div_nonneg (by exact_mod_cast (not_lt.mp hn)) hbR.le)
    have e : a.tdiv b = -((-a) / b) := by
      rw [← Int.tdiv_eq_ediv_of_nonneg (show 0 ≤ -a by omega), Int.neg_tdiv, neg_neg]
    rw [e, Int.ceil_eq_iff]
    have h1 := Int.emod_add_mul_ediv (-a) b
    have h2 := Int.emod_nonneg (-a) hb.ne'
    have h3 := Int.emod_lt_of_pos (-a) hb
    constructor
    · rw [lt_div_iff₀ hbR]
      exact_mod_cast (by nlinarith : (-((-a) / b) - 1) * b < a)
    · rw [div_le_iff₀ hbR]
      exact_mod_cast (by nlinarith : a ≤ -((-a) / b) * b)

theorem truncR_int (n : ℤ) : truncR n = n := by
  unfold truncR; split <;> simp

theorem truncQ_int (n : ℤ) : truncQ n = n := by
  unfold truncQ; split <;> simp

theorem Num.Typed.int {t : IntTy} {v : Num} (h : v.Typed (.int t)) : ∃ x, v = .i x ∧ t.In x := by
  cases v with
  | i x => obtain ⟨t', h1, h2⟩ := h; cases h1; exact ⟨x, rfl, h2⟩
  | f x => obtain ⟨f, h1⟩ := h; cases h1

theorem Num.Typed.flt {f : FltTy} {v : Num} (h : v.Typed (.flt f)) : ∃ x, v = .f x := by
  cases v with
  | i x => obtain ⟨t', h1, h2⟩ := h; cases h1
  | f x => exact ⟨x, rfl⟩

theorem convNum_int {fl : Rounding} {s t : IntTy} {x : Int} {y : Num} (hx : s.In x)
    (h : convNum fl (.int s) (.int t) (.i x) = .ok y) : y = .i (t.wrap x) := by
  unfold convNum at h
  split at h
  · rename_i he; cases he
    simp only [Except.ok.injEq] at h
    rw [← h, IntTy.wrap_of_in hx]
  · simp only [Except.ok.injEq] at h; exact h.symm

theorem convNum_self {fl : Rounding} {r : Rep} {v : Num} : convNum fl r r v = .ok v := by
  unfold convNum; rw [if_pos rfl]

theorem convNum_flt {fl : Rounding} (hfl : FlExact fl) {r : Rep} {f : FltTy} {v y : Num} (hv : v.Typed r)
    (h : convNum fl r (.flt f) v = .ok y) : y = .f v.q := by
  unfold convNum at h
  split at h
  · rename_i he; subst he
    obtain ⟨x, rfl⟩ := hv.flt
    simp only [Except.ok.injEq] at h
    exact h.symm
  · cases v with
    | i x => simp only [Except.ok.injEq] at h; rw [← h, hfl]; rfl
    | f x => simp only [Except.ok.injEq] at h; rw [← h, hfl]; rfl

theorem convNum_fint {fl : Rounding} {f : FltTy} {t : IntTy} {x : ℚ} {y : Num}
    (h : convNum fl (.flt f) (.int t) (.f x) = .ok y) : t.In (truncQ x) ∧ y = .i (truncQ x) := by
  unfold convNum at h
  rw [if_neg (by simp)] at h
  dsimp only at h
  split at h
  · rename_i hi; simp only [Except.ok.injEq] at h; exact ⟨hi, h.symm⟩
  · cases h

theorem convNum_typed {fl : Rounding} {r r' : Rep} {v y : Num} (hv : v.Typed r)
    (h : convNum fl r r' v = .ok y) : y.Typed r' := by
  by_cases he : r = r'
  · subst he; rw [convNum_self] at h; simp only [Except.ok.injEq] at h; rw [← h]; exact hv
  · unfold convNum at h
    rw [if_neg he] at h
    cases r' with
    | int t =>
      cases v with
      | i x => simp only [Except.ok.injEq] at h; rw [← h]; exact ⟨t, rfl, IntTy.wrap_in t x⟩
      | f x =>
        dsimp only at h
        split at h
        · rename_i hi; simp only [Except.ok.injEq] at h; rw [← h]; exact ⟨t, rfl, hi⟩
        · cases h
    | flt f =>
      cases v with
      | i x => simp only [Except.ok.injEq] at h; rw [← h]; exact ⟨f, rfl⟩
      | f x => simp only [Except.ok.injEq] at h; rw [← h]; exact ⟨f, rfl⟩

theorem IntTy.wide (s : IntTy) (hs : s ≠ .u64) {x : Int} (h : s.In x) : IntTy.i64.In x := by
  cases s <;> simp_all [IntTy.In, IntTy.lo, IntTy.hi, IntTy.signed, IntTy.bits] <;> omega

/-- The integral conversion: one truncating division of the exact product. -/
theorem castNum_int {fl : Rounding} {s t : IntTy} {c : Ratio} {v : Int} {y : Num} (hc : c.WF) (hp : 0 < c.num)
    (hv : s.In v) (hfit : s = .u64 ∨ t = .u64 → CastFits .u64 c v)
    (h : castNum fl (.int s) (.int t) c (.i v) = .ok y) : y = .i (t.wrap ((v * c.N).tdiv c.D)) := by
  unfold castNum at h
  rw [castRep_int] at h
  simp only [bind_ok] at h
  obtain ⟨v', hv', h⟩ := h
  have hv'' := convNum_int hv hv'
  subst hv''
  by_cases hu : s = .u64 ∨ t = .u64
  · rw [if_pos hu] at h
    have hf := hfit hu
    have hw : IntTy.u64.wrap v = v := by
      apply IntTy.wrap_of_in
      have hN := Ratio.N_pos hp
      have h3 := hf.2.2
      unfold IntTy.In at h3 ⊢
      have hlo : IntTy.u64.lo = 0 := by decide
      rw [hlo] at h3 ⊢
      have h0 : 0 ≤ v := by
        by_contra hn
        have := mul_neg_of_neg_of_pos (not_le.mp hn) hN
        omega
      exact ⟨h0, le_trans (le_mul_of_one_le_right h0 hN) h3.2⟩
    rw [hw] at h
    simp only [bind_ok] at h
    obtain ⟨z, hz, h⟩ := h
    have := castInt_sound (Or.inr rfl) hc hp (fun _ => hf) hz
    subst this
    exact convNum_int (tdiv_in (by decide) hf.2.2 (Ratio.D_pos hc)) h
  · rw [if_neg hu] at h
    have hw : IntTy.i64.wrap v = v := IntTy.wrap_of_in (IntTy.wide s (fun e => hu (Or.inl e)) hv)
    rw [hw] at h
    simp only [bind_ok] at h
    obtain ⟨z, hz, h⟩ := h
    have hz' := castInt_sound (Or.inl rfl) hc hp (fun e => by cases e) hz
    subst hz'
    have hin : IntTy.i64.In ((v * c.N).tdiv c.D) := by
      unfold castInt at hz
      have fin : ∀ {a b : Int}, intOp .i64 .div a b = .ok ((v * c.N).tdiv c.D) → IntTy.i64.In ((v * c.N).tdiv c.D) := by
        intro a b hab
        simp only [intOp] at hab
        split at hab
        · cases hab
        · exact IntTy.arith_in hab
      split at hz
      · simp only [bind_ok] at hz
        obtain ⟨_, _, _, _, _, _, hz⟩ := hz
        exact fin hz
      · simp only [bind_ok] at hz
        obtain ⟨_, _, _, _, _, _, _, _, hz⟩ := hz
        exact fin hz
    exact convNum_int hin h

theorem fpow10Loop_exact {fl : Rounding} (hfl : FlExact fl) (f : FltTy) (k : Nat) (x y : ℚ) :
    (fpow10Loop fl f .div k x = .ok y → y = x / 10 ^ k) ∧ (fpow10Loop fl f .mul k x = .ok y → y = x * 10 ^ k) := by
  induction k generalizing x with
  | zero => simp only [fpow10Loop, Except.ok.injEq, pow_zero, div_one, mul_one]; exact ⟨Eq.symm, Eq.symm⟩
  | succ k ih =>
    simp only [fpow10Loop, fltOp, bind_ok, Except.ok.injEq, hfl _ _]
    constructor
    · rw [if_neg (by norm_num)]
      rintro ⟨r, hr, h⟩
      simp only [Except.ok.injEq] at hr
      rw [(ih r).1 h, ← hr, pow_succ]; field_simp
    · rintro ⟨r, rfl, h⟩
      rw [(ih _).2 h, pow_succ]; ring

theorem fpow10_exact {fl : Rounding} (hfl : FlExact fl) {f : FltTy} {e : Int} {y : ℚ} (h : fpow10 fl f e = .ok y) :
    y = (10 : ℚ) ^ e := by
  unfold fpow10 at h
  split at h
  · rename_i he; simp only [Except.ok.injEq] at h; rw [← h, he]; simp
  · split at h
    · rename_i he
      rw [(fpow10Loop_exact hfl f _ _ _).1 h]
      obtain ⟨k, hk⟩ : ∃ k : Nat, e = -(k : Int) := ⟨e.natAbs, by omega⟩
      subst hk; simp
    · rename_i he
      rw [(fpow10Loop_exact hfl f _ _ _).2 h]
      obtain ⟨k, hk⟩ : ∃ k : Nat, e = (k : Int) := ⟨e.natAbs, by omega⟩
      subst hk; simp

theorem castFlt_exact {fl : Rounding} (hfl : FlExact fl) {f : FltTy} {c : Ratio} (_hc : c.WF) {v y : ℚ}
    (h : castFlt fl f c v = .ok y) : y = v * c.val := by
  unfold castFlt at h
  simp only [bind_ok, fltOp, Except.ok.injEq, hfl _ _] at h
  obtain ⟨p, hp, a, rfl, b, hb, rfl⟩ := h
  rw [fpow10_exact hfl hp] at hb
  split at hb
  · cases hb
  · simp only [Except.ok.injEq] at hb
    rw [← hb, Ratio.val]; ring

theorem castNum_flt {fl : Rounding} (hfl : FlExact fl) {s t : Rep} {c : Ratio} {v y : Num} (hc : c.WF)
    (hf : s.floating = true ∨ t.floating = true) (hv : v.Typed s) (h : castNum fl s t c v = .ok y) :
    (t.floating = true → y = .f (v.q * c.val)) ∧
    (∀ ty, t = .int ty → y = .i (truncQ (v.q * c.val)) ∧ ty.In (truncQ (v.q * c.val))) := by
  obtain ⟨f, hcr⟩ := castRep_flt hf
  unfold castNum at h
  rw [hcr] at h
  simp only [bind_ok] at h
  obtain ⟨v', hv', h⟩ := h
  have := convNum_flt hfl hv hv'
  subst this
  simp only [bind_ok] at h
  obtain ⟨z, hz, h⟩ := h
  have hz' := castFlt_exact hfl hc hz
  subst hz'
  constructor
  · intro ht
    cases t with
    | int ty => simp [Rep.floating] at ht
    | flt g => exact convNum_flt hfl (r := .flt f) (v := .f _) ⟨f, rfl⟩ h
  · rintro ty rfl
    exact ⟨(convNum_fint h).2, (convNum_fint h).1⟩

theorem castNum_typed {fl : Rounding} {s t : Rep} {c : Ratio} {v y : Num}
    (h : castNum fl s t c v = .ok y) : y.Typed t := by
  unfold castNum at h
  simp only [bind_ok] at h
  obtain ⟨v', hv', h⟩ := h
  split at h
  · simp only [bind_ok] at h
    obtain ⟨z, hz, h⟩ := h
    rename_i ty x hty
    refine convNum_typed (r := .int ty) (v := .i z) ⟨ty, rfl, ?_⟩ h
    have fin : ∀ {a b : Int}, intOp ty .div a b = .ok z → ty.In z := by
      intro a b hab
      simp only [intOp] at hab
      split at hab
      · cases hab
      · exact IntTy.arith_in hab
    unfold castInt at hz
    split at hz
    · simp only [bind_ok] at hz
      obtain ⟨_, _, _, _, _, _, hz⟩ := hz
      exact fin hz
    · simp only [bind_ok] at hz
      obtain ⟨_, _, _, _, _, _, _, _, hz⟩ := hz
      exact fin hz
  · simp only [bind_ok] at h
    obtain ⟨z, hz, h⟩ := h
    exact convNum_typed (v := .f _) ⟨_, rfl⟩ h
  · cases h

/-! ### Arithmetic of two numbers -/

/-- A result of an arithmetic operation of type `r` is in the range of an unsigned type. -/
def UFits (r : Rep) (x : ℚ) : Prop := ∀ ty, r = .int ty → ty.signed = false → ∃ n : ℤ, x = n ∧ ty.In n

/-- The mathematical operation. -/
def BinOp.val : BinOp → ℚ → ℚ → ℚ
  | .add, a, b => a + b
  | .sub, a, b => a - b
  | .mul, a, b => a * b
  | .div, a, b => a / b
  | .mod, a, b => a - b * truncQ (a / b)

theorem Rep.arith_idem (a b : Rep) : (a.arith b).arith (a.arith b) = a.arith b := by
  rcases a with a | a <;> rcases b with b | b <;> cases a <;> cases b <;> rfl

theorem Rep.arith_comm (a b : Rep) : a.arith b = b.arith a := by
  rcases a with a | a <;> rcases b with b | b <;> cases a <;> cases b <;> rfl

theorem Rep.arith_signed {a b : Rep} {ty : IntTy} (h : a.arith b = .int ty) (hs : ty.signed = true) {x : Int} :
    (∀ s, a = .int s → s.In x → ty.In x) ∧ (∀ s, b = .int s → s.In x → ty.In x) := by
  rcases a with a | a
  · rcases b with b | b
    · constructor
      · rintro s hs' hx
        cases hs'
        cases a <;> cases b <;> cases h <;> first | (exact absurd hs (by decide)) | skip
        all_goals (simp_all [IntTy.In, IntTy.lo, IntTy.hi, IntTy.signed, IntTy.bits, IntTy.promote, IntTy.usual]; try omega)
      · rintro s hs' hx
        cases hs'
        cases a <;> cases b <;> cases h <;> first | (exact absurd hs (by decide)) | skip
        all_goals (simp_all [IntTy.In, IntTy.lo, IntTy.hi, IntTy.signed, IntTy.bits, IntTy.promote, IntTy.usual]; try omega)
    · cases h
  · rcases b with b | b <;> cases h

theorem Rep.arith_int {a b : Rep} {ty : IntTy} (h : a.arith b = .int ty) :
    (∃ s, a = .int s) ∧ ∃ s, b = .int s := by
  rcases a with a | a <;> rcases b with b | b
  · exact ⟨⟨a, rfl⟩, ⟨b, rfl⟩⟩
  all_goals cases h

theorem UFits.int {r : Rep} {ty : IntTy} {x : Int} (h : UFits r x) (hr : r = .int ty) (hs : ty.signed = false) :
    ty.In x := by
  obtain ⟨n, hn, hi⟩ := h ty hr hs
  have : x = n := by exact_mod_cast hn
  rw [this]; exact hi

theorem sameOp_typed {fl : Rounding} {r : Rep} {op : BinOp} {a b y : Num} (ha : a.Typed r) (hb : b.Typed r)
    (h : sameOp fl r op a b = .ok y) : y.Typed r := by
  cases r with
  | int t =>
    obtain ⟨x, rfl, hx⟩ := ha.int
    obtain ⟨z, rfl, hz⟩ := hb.int
    simp only [sameOp, bind_ok, Except.ok.injEq] at h
    obtain ⟨w, hw, rfl⟩ := h
    refine ⟨t, rfl, ?_⟩
    cases op <;> simp only [intOp] at hw
    · exact IntTy.arith_in hw
    · exact IntTy.arith_in hw
    · exact IntTy.arith_in hw
    · split at hw
      · cases hw
      · exact IntTy.arith_in hw
    · split at hw
      · cases hw
      · split at hw
        · cases hw
        · rename_i hz0 _
          simp only [Except.ok.injEq] at hw
          rw [← hw]
          have h1 : |x.tmod z| ≤ |x| := by
            rw [Int.abs_eq_natAbs, Int.abs_eq_natAbs, Int.natAbs_tmod]
            exact_mod_cast Nat.mod_le _ _
          have h2 : 0 ≤ x → 0 ≤ x.tmod z := fun h => Int.tmod_nonneg _ h
          have h3 : x ≤ 0 → x.tmod z ≤ 0 := fun h => by
            have := Int.tmod_nonneg z (show 0 ≤ -x by omega)
            rw [Int.neg_tmod] at this; omega
          unfold IntTy.In at hx ⊢
          rcases le_total 0 x with h0 | h0
          · have hlo : t.lo ≤ 0 := by cases t <;> decide
            rw [abs_of_nonneg h0, abs_of_nonneg (h2 h0)] at h1
            have := h2 h0
            omega
          · have hhi : 0 ≤ t.hi := by cases t <;> decide
            rw [abs_of_nonpos h0, abs_of_nonpos (h3 h0)] at h1
            have := h3 h0
            omega
  | flt f =>
    obtain ⟨x, rfl⟩ := ha.flt
    obtain ⟨z, rfl⟩ := hb.flt
    simp only [sameOp, bind_ok, Except.ok.injEq] at h
    obtain ⟨w, hw, rfl⟩ := h
    exact ⟨f, rfl⟩

theorem numOp_typed {fl : Rounding} {op : BinOp} {ra rb : Rep} {a b y : Num} (ha : a.Typed ra) (hb : b.Typed rb)
    (h : numOp fl op ra rb a b = .ok y) : y.Typed (ra.arith rb) := by
  unfold numOp at h
  simp only [bind_ok] at h
  obtain ⟨x, hx, z, hz, h⟩ := h
  exact sameOp_typed (convNum_typed ha hx) (convNum_typed hb hz) h

theorem truncQ_div (a b : ℤ) (_hb : b ≠ 0) : truncQ ((a : ℚ) / b) = a.tdiv b := by
  have key : ∀ (a b : ℤ), 0 < b → truncQ ((a : ℚ) / b) = a.tdiv b := by
    intro a b hb
    have h := truncR_div a b hb
    rw [← h]
    unfold truncR truncQ
    have e : ((a : ℝ) / b) = (((a : ℚ) / b : ℚ) : ℝ) := by push_cast; rfl
    rw [e]
    simp only [Rat.floor_cast, Rat.ceil_cast, Rat.cast_nonneg]
  rcases lt_or_gt_of_ne _hb with h | h
  · have h2 := key (-a) (-b) (by omega)
    rw [Int.tdiv_neg, Int.neg_tdiv, neg_neg] at h2
    rw [← h2]; push_cast; rw [neg_div_neg_eq]
  · exact key a b h

/-- An operation between two numbers is exact when nothing wraps and, for integral division, the truncated
quotient is meant. -/
theorem numOp_exact {fl : Rounding} {op : BinOp} {ra rb : Rep} {a b y : Num} (ha : a.Typed ra) (hb : b.Typed rb)
    (hfl : (ra.arith rb).floating = true → FlExact fl)
    (ua : UFits (ra.arith rb) a.q) (ub : UFits (ra.arith rb) b.q)
    (uy : (op = .add ∨ op = .sub ∨ op = .mul) → UFits (ra.arith rb) (op.val a.q b.q))
    (h : numOp fl op ra rb a b = .ok y) :
    (op = .div ∨ op = .mod → b.q ≠ 0) ∧
    y.q = (if op = .div ∧ (ra.arith rb).floating = false then (truncQ (a.q / b.q) : ℚ) else op.val a.q b.q) := by
  unfold numOp at h
  simp only [bind_ok] at h
  obtain ⟨x, hx, z, hz, h⟩ := h
  cases hr : ra.arith rb with
  | int ty =>
    rw [hr] at hx hz h ua ub uy
    obtain ⟨⟨sa, rfl⟩, ⟨sb, rfl⟩⟩ := Rep.arith_int hr
    obtain ⟨va, rfl, hva⟩ := ha.int
    obtain ⟨vb, rfl, hvb⟩ := hb.int
    have ina : ty.In va := by
      cases hs : ty.signed with
      | true => exact (Rep.arith_signed hr hs).1 _ rfl hva
      | false => exact UFits.int ua rfl hs
    have inb : ty.In vb := by
      cases hs : ty.signed with
      | true => exact (Rep.arith_signed hr hs).2 _ rfl hvb
      | false => exact UFits.int ub rfl hs
    have e1 := convNum_int hva hx
    have e2 := convNum_int hvb hz
    rw [IntTy.wrap_of_in ina] at e1
    rw [IntTy.wrap_of_in inb] at e2
    subst e1 e2
    simp only [sameOp, bind_ok, Except.ok.injEq] at h
    obtain ⟨w, hw, rfl⟩ := h
    cases op <;> simp only [intOp] at hw
    · have := IntTy.arith_of_in hw fun hs => by
        have := uy (Or.inl rfl); simp only [BinOp.val, Num.q] at this
        exact UFits.int (by exact_mod_cast this) rfl hs
      subst this; simp [BinOp.val, Num.q]
    · have := IntTy.arith_of_in hw fun hs => by
        have := uy (Or.inr (Or.inl rfl)); simp only [BinOp.val, Num.q] at this
        exact UFits.int (by exact_mod_cast this) rfl hs
      subst this; simp [BinOp.val, Num.q]
    · have := IntTy.arith_of_in hw fun hs => by
        have := uy (Or.inr (Or.inr rfl)); simp only [BinOp.val, Num.q] at this
        exact UFits.int (by exact_mod_cast this) rfl hs
      subst this; simp [BinOp.val, Num.q]
    · split at hw
      · cases hw
      · rename_i h0
        have := IntTy.arith_of_in hw fun hs => by
          have hlo : ty.lo = 0 := by unfold IntTy.lo; simp [hs]
          have hb0 : 0 < vb := by have := inb.1; rw [hlo] at this; omega
          exact tdiv_in hs ina hb0
        subst this
        refine ⟨fun _ => by simpa [Num.q] using h0, ?_⟩
        simp only [Rep.floating, and_self, if_true, Num.q]
        rw [truncQ_div _ _ h0]
    · split at hw
      · cases hw
      · rename_i h0
        split at hw
        · cases hw
        · simp only [Except.ok.injEq] at hw
          subst hw
          refine ⟨fun _ => by simpa [Num.q] using h0, ?_⟩
          simp only [reduceCtorEq, false_and, if_false, BinOp.val, Num.q]
          rw [truncQ_div _ _ h0, Int.tmod_def]; push_cast; ring
  | flt f =>
    rw [hr] at hx hz h hfl
    have hfl := hfl rfl
    have e1 := convNum_flt hfl ha hx
    have e2 := convNum_flt hfl hb hz
    subst e1 e2
    simp only [sameOp, bind_ok, Except.ok.injEq] at h
    obtain ⟨w, hw, rfl⟩ := h
    cases op <;> simp only [fltOp, Except.ok.injEq, hfl _ _] at hw
    · subst hw; simp [BinOp.val, Num.q]
    · subst hw; simp [BinOp.val, Num.q]
    · subst hw; simp [BinOp.val, Num.q]
    · split at hw
      · cases hw
      · rename_i h0
        simp only [Except.ok.injEq] at hw
        subst hw
        exact ⟨fun _ => h0, by simp [BinOp.val, Num.q, Rep.floating]⟩
    · cases hw

/-! ### Conversions of quantities -/

theorem quantityCast_eq_ok {E : Env} {t : QTy} {q r : Qty} (h : quantityCast E t q = .ok r) :
    dimEquivalent t.dim q.ty.dim = .ok true ∧ ∃ c x, castRatio E.est q.ty.dim q.ty.unit t.dim t.unit = .ok c ∧
      castNum E.fl q.ty.rep t.rep c q.num = .ok x ∧ r = ⟨t, x⟩ := by
  unfold quantityCast at h
  simp only [bind_ok] at h
  obtain ⟨b, hb, h⟩ := h
  cases b with
  | false => cases h
  | true =>
    simp only [if_true, bind_ok, Except.ok.injEq] at h
    obtain ⟨c, hc, x, hx, rfl⟩ := h
    exact ⟨hb, c, x, hc, hx, rfl⟩

/-- The ratio used by a conversion is the quotient of the unit sizes. -/
theorem castRatio_size {E : Env} {β : String → ℝ} (hβ : Sizes β) {t1 t2 : QTy} (g1 : t1.Good E) (g2 : t2.Good E)
    (heq : dimEquivalent t1.dim t2.dim = .ok true) (hco : Coherent β t1.dim t2.dim) {c : Ratio}
    (h : castRatio E.est t1.dim t1.unit t2.dim t2.unit = .ok c) :
    c.WF ∧ 0 < c.num ∧ (c.val : ℝ) = t1.size β / t2.size β := by
  obtain ⟨w, p, e⟩ := castRatio_sound hβ g1.dim g2.dim g1.rooted g2.rooted g1.unit g2.unit g1.unitOf g2.unitOf
    heq hco h
  exact ⟨w, w.val_pos.mp p, e⟩

/-- The number produced by a conversion between integral representations. -/
theorem quantityCast_int {E : Env} {β : String → ℝ} (hβ : Sizes β) {t : QTy} {q r : Qty} {s d : IntTy} {v : Int}
    (g1 : q.ty.Good E) (g2 : t.Good E) (hco : Coherent β q.ty.dim t.dim) (hs : q.ty.rep = .int s)
    (hd : t.rep = .int d) (hq : q.num = .i v) (hv : s.In v) (hg : CastGuard E t q)
    (h : quantityCast E t q = .ok r) :
    r = ⟨t, .i (d.wrap (truncR (q.amount β / t.size β)))⟩ := by
  obtain ⟨heq, c, x, hc, hx, rfl⟩ := quantityCast_eq_ok h
  obtain ⟨w, p, e⟩ := castRatio_size hβ g1 g2 (C17_symmetric _ _ heq) hco hc
  rw [hs, hd, hq] at hx
  have hfit : s = .u64 ∨ d = .u64 → CastFits .u64 c v := by
    intro hu
    refine hg c v hc hq (by rw [hd]; rfl) ?_
    rcases hu with rfl | rfl
    · exact Or.inl hs
    · exact Or.inr hd
  have := castNum_int w p hv hfit hx
  subst this
  congr 3
  rw [← truncR_div _ _ (Ratio.D_pos w)]
  congr 1
  rw [Qty.amount_eq, hq]
  simp only [Num.q, Rat.cast_intCast]
  rw [mul_div_assoc, ← e, Ratio.val_eq]
  push_cast; ring

/-- A conversion to a type that can hold the amount keeps the amount. -/
theorem quantityCast_exact {E : Env} {β : String → ℝ} (hβ : Sizes β) {t : QTy} {q r : Qty}
    (g1 : q.ty.Good E) (g2 : t.Good E) (hco : Coherent β q.ty.dim t.dim) (hq : q.num.Typed q.ty.rep)
    (hfl : q.ty.rep.floating = true ∨ t.rep.floating = true → FlExact E.fl) (hg : CastGuard E t q)
    (hh : Holds β t (q.amount β)) (h : quantityCast E t q = .ok r) :
    r.ty = t ∧ r.num.Typed t.rep ∧ r.amount β = q.amount β := by
  have hsz := g2.size_pos hβ
  obtain ⟨heq, c, x, hc, hx, rfl⟩ := quantityCast_eq_ok h
  refine ⟨rfl, castNum_typed hx, ?_⟩
  obtain ⟨w, p, e⟩ := castRatio_size hβ g1 g2 (C17_symmetric _ _ heq) hco hc
  have hval : ((q.num.q * c.val : ℚ) : ℝ) * t.size β = q.amount β := by
    push_cast
    rw [e, Qty.amount_eq]; field_simp
  by_cases hf : q.ty.rep.floating = true ∨ t.rep.floating = true
  · obtain ⟨k1, k2⟩ := castNum_flt (hfl hf) w hf hq hx
    cases ht : t.rep with
    | flt f =>
      rw [k1 (by rw [ht]; rfl)]
      exact hval
    | int ty =>
      obtain ⟨k, -⟩ := k2 ty ht
      obtain ⟨n, hn, ha⟩ := hh ty ht
      have : q.num.q * c.val = n := by
        have : ((q.num.q * c.val : ℚ) : ℝ) = (n : ℝ) := by
          have := hval.trans ha
          exact mul_right_cancel₀ hsz.ne' this
        exact_mod_cast this
      rw [k, Qty.amount_eq, this, truncQ_int, ha]
      simp [Num.q]
  · cases hs : q.ty.rep with
    | flt f => rw [hs] at hf; exact absurd (Or.inl rfl) hf
    | int s =>
      cases hd : t.rep with
      | flt f => rw [hd] at hf; exact absurd (Or.inr rfl) hf
      | int d =>
        rw [hs] at hq
        obtain ⟨v, hv, hin⟩ := hq.int
        have := quantityCast_int hβ g1 g2 hco hs hd hv hin hg h
        rw [this]
        obtain ⟨n, hn, ha⟩ := hh d hd
        rw [ha, mul_div_assoc, div_self hsz.ne', mul_one, truncR_int, IntTy.wrap_of_in hn]
        simp [Qty.amount_eq, Num.q]

theorem convertQty_cases {E : Env} {t : QTy} {q r : Qty} (h : convertQty E t q = .ok r) :
    (q.ty = t ∧ r = q) ∨ (q.ty ≠ t ∧ safeCastable E q.ty t = .ok true ∧ quantityCast E t q = .ok r) := by
  unfold convertQty at h
  split at h
  · rename_i he; simp only [Except.ok.injEq] at h; exact Or.inl ⟨he, h.symm⟩
  · rename_i he
    simp only [bind_ok] at h
    obtain ⟨b, hb, h⟩ := h
    cases b with
    | false => cases h
    | true => exact Or.inr ⟨he, hb, h⟩

theorem convertQty_exact {E : Env} {β : String → ℝ} (hβ : Sizes β) {t : QTy} {q r : Qty}
    (g1 : q.ty.Good E) (g2 : t.Good E) (hco : Coherent β q.ty.dim t.dim) (hq : q.num.Typed q.ty.rep)
    (hfl : t.rep.floating = true → FlExact E.fl) (hg : CastGuard E t q)
    (hh : Holds β t (q.amount β)) (h : convertQty E t q = .ok r) :
    r.ty = t ∧ r.num.Typed t.rep ∧ r.amount β = q.amount β := by
  rcases convertQty_cases h with ⟨he, rfl⟩ | ⟨-, hs, h⟩
  · subst he; exact ⟨rfl, hq, rfl⟩
  · refine quantityCast_exact hβ g1 g2 hco hq ?_ hg hh h
    rintro (h1 | h1)
    · unfold safeCastable at hs
      simp only [bind_ok] at hs
      obtain ⟨b, hb, hs⟩ := hs
      cases b with
      | false => cases hs
      | true =>
        simp only [if_true] at hs
        cases ht : t.rep.floating with
        | true => exact hfl ht
        | false => rw [ht, h1] at hs; simp at hs
    · exact hfl h1

/-- What the converting constructor accepts for an integral target. -/
theorem safeCastable_int {E : Env} {β : String → ℝ} (hβ : Sizes β) {s t : QTy} (g1 : s.Good E) (g2 : t.Good E)
    (ht : t.rep.floating = false) (h : safeCastable E s t = .ok true) :
    dimEquivalent s.dim t.dim = .ok true ∧ s.rep.floating = false ∧ ∃ k : ℤ, s.size β = k * t.size β := by
  unfold safeCastable at h
  simp only [bind_ok] at h
  obtain ⟨b, hb, h⟩ := h
  cases b with
  | false => cases h
  | true =>
    simp only [if_true, ht, Bool.false_eq_true, if_false] at h
    cases hs : s.rep.floating with
    | true => rw [hs] at h; cases h
    | false =>
      rw [hs] at h
      simp only [Bool.false_eq_true, if_false] at h
      have heq := C17_symmetric _ _ hb
      refine ⟨heq, rfl, ?_⟩
      unfold harmonic at h
      simp only [bind_ok] at h
      obtain ⟨r1, h1, r2, h2, x, hx, hi⟩ := h
      obtain ⟨es1, e1, hw1⟩ := g1.dim.exps
      obtain ⟨es2, e2, hw2⟩ := g2.dim.exps
      obtain ⟨w1, p1, s1⟩ := quantityRatio_sound hβ g1.dim g1.rooted g1.unit e1 h1
      obtain ⟨w2, p2, s2⟩ := quantityRatio_sound hβ g2.dim g2.rooted g2.unit e2 h2
      obtain ⟨w, v, -⟩ := div_sound w1 w2 hx
      have hxp : 0 < x.val := by rw [v]; exact div_pos p1 p2
      obtain ⟨n, hn⟩ := ((isIntegral_eq_ok w (w.val_pos.mp hxp)).mp hi).mp rfl
      have href : refSize β es1 = refSize β es2 := refSize_congr β (dimEquivalent_eq_ok e1 e2 heq)
      refine ⟨n, ?_⟩
      have hr : r1.val = n * r2.val := by rw [← hn, v]; field_simp
      unfold QTy.size
      rw [s1, s2, href, hr]; push_cast; ring

/-! ### Common type, sums, comparisons -/

theorem commonQty_sound {E : Env} (hE : E.OK) {β : String → ℝ} (hβ : Sizes β) {t1 t2 t : QTy} {r : Rep}
    (g1 : t1.Good E) (g2 : t2.Good E) (hr : Related β t1 t2) (h : commonQty E t1 t2 r = .ok t) :
    t.Good E ∧ t.rep = r ∧ (t.dim = t1.dim ∨ t.dim = t2.dim) ∧ IsCommonSize (t1.size β) (t2.size β) (t.size β) ∧
      Coherent β t1.dim t.dim ∧ Coherent β t2.dim t.dim := by
  unfold commonQty at h
  simp only [bind_ok] at h
  obtain ⟨b, hb, h⟩ := h
  cases b with
  | false => cases h
  | true =>
    simp only [if_true, bind_ok, Except.ok.injEq] at h
    obtain ⟨⟨d, u⟩, hc, rfl⟩ := h
    obtain ⟨k1, k2, k3, k4⟩ := commonUnit_sound hE.units hβ g1.dim g2.dim g1.rooted g2.rooted g1.unit g2.unit
      g1.unitOf hr.equiv hr.coherent hr.one hc
    refine ⟨⟨?_, k1, k2, ?_⟩, rfl, k3, k4, ?_, ?_⟩
    · rcases k3 with rfl | rfl
      · exact g1.dim
      · exact g2.dim
    · rcases k3 with rfl | rfl
      · exact g1.rooted
      · exact g2.rooted
    · rcases k3 with rfl | rfl
      · exact Coherent.refl _ _
      · exact hr.coherent
    · rcases k3 with rfl | rfl
      · exact hr.symm.coherent
      · exact Coherent.refl _ _

theorem addSub_sound {E : Env} (hE : E.OK) {β : String → ℝ} (hβ : Sizes β) {op : BinOp} (hop : op = .add ∨ op = .sub)
    {a b r : Qty} (g1 : a.ty.Good E) (g2 : b.ty.Good E) (hr : Related β a.ty b.ty)
    (ta : a.num.Typed a.ty.rep) (tb : b.num.Typed b.ty.rep) (h : addSub E op a b = .ok r) :
    r.ty.Good E ∧ r.ty.rep = a.ty.rep.arith b.ty.rep ∧ r.num.Typed r.ty.rep ∧
    (r.ty.dim = a.ty.dim ∨ r.ty.dim = b.ty.dim) ∧
    IsCommonSize (a.ty.size β) (b.ty.size β) (r.ty.size β) ∧
    ((r.ty.rep.floating = true → FlExact E.fl) → CastGuard E r.ty a → CastGuard E r.ty b →
      Holds β r.ty (a.amount β) → Holds β r.ty (b.amount β) →
      (∀ ty, r.ty.rep = .int ty → ty.signed = false →
        Holds β r.ty (if op = .add then a.amount β + b.amount β else a.amount β - b.amount β)) →
      r.amount β = if op = .add then a.amount β + b.amount β else a.amount β - b.amount β) := by
  unfold addSub at h
  simp only [bind_ok] at h
  obtain ⟨t, ht, x, hx, y, hy, z, hz, h⟩ := h
  obtain ⟨gt, hrep, hdim, hcs, ca, cb⟩ := commonQty_sound hE hβ g1 g2 hr ht
  have hidem := Rep.arith_idem a.ty.rep b.ty.rep
  unfold mkQty at h
  rw [hidem] at h
  split at h
  swap
  · cases h
  rw [hrep, convNum_self] at h
  simp only [ok_bind, Except.ok.injEq] at h
  subst h
  have typed : ∀ {q q' : Qty}, q.num.Typed q.ty.rep → convertQty E t q = .ok q' → q'.num.Typed t.rep := by
    intro q q' hq hc
    rcases convertQty_cases hc with ⟨he, rfl⟩ | ⟨-, -, hc⟩
    · rw [← he]; exact hq
    · obtain ⟨-, c, n, -, hn, rfl⟩ := quantityCast_eq_ok hc
      exact castNum_typed hn
  have tx := typed ta hx
  have ty' := typed tb hy
  rw [hrep] at tx ty'
  have tz := numOp_typed tx ty' hz
  rw [hidem] at tz
  refine ⟨gt, hrep, by rw [hrep]; exact tz, hdim, hcs, ?_⟩
  intro hfl ga gb ha hb hs
  dsimp only at hfl ga gb ha hb hs
  obtain ⟨ex, -, ax⟩ := convertQty_exact hβ g1 gt ca ta hfl ga ha hx
  obtain ⟨ey, -, ay⟩ := convertQty_exact hβ g2 gt cb tb hfl gb hb hy
  have hsz := gt.size_pos hβ
  have toU : ∀ {w : ℚ}, (∀ ty, t.rep = .int ty → ty.signed = false → Holds β t ((w : ℝ) * t.size β)) →
      UFits (a.ty.rep.arith b.ty.rep) w := by
    intro w hw ty e s
    obtain ⟨n, hn, hv⟩ := hw ty (by rw [hrep]; exact e) s ty (by rw [hrep]; exact e)
    refine ⟨n, ?_, hn⟩
    exact_mod_cast mul_right_cancel₀ hsz.ne' hv
  have ux : UFits (a.ty.rep.arith b.ty.rep) x.num.q := toU fun ty e s => by
    have := ax; rw [Qty.amount_eq, ex] at this; rw [this]; exact ha
  have uy : UFits (a.ty.rep.arith b.ty.rep) y.num.q := toU fun ty e s => by
    have := ay; rw [Qty.amount_eq, ey] at this; rw [this]; exact hb
  rw [Qty.amount_eq, ex] at ax
  rw [Qty.amount_eq, ey] at ay
  have us : UFits (a.ty.rep.arith b.ty.rep) (op.val x.num.q y.num.q) := toU fun ty e s => by
    have := hs ty e s
    rcases hop with rfl | rfl
    · simp only [if_true] at this
      rw [← ax, ← ay] at this
      simp only [BinOp.val]; push_cast; rw [add_mul]; exact this
    · simp only [reduceCtorEq, if_false] at this
      rw [← ax, ← ay] at this
      simp only [BinOp.val]; push_cast; rw [sub_mul]; exact this
  have := (numOp_exact tx ty' (by rw [hidem, ← hrep]; exact hfl) (by rw [hidem]; exact ux) (by rw [hidem]; exact uy)
    (fun _ => by rw [hidem]; exact us) hz).2
  rw [hidem] at this
  rw [if_neg (by rcases hop with rfl | rfl <;> simp)] at this
  rw [Qty.amount_eq]
  simp only
  rw [this, ← ax, ← ay]
  rcases hop with rfl | rfl
  · simp only [BinOp.val, if_true]; push_cast; ring
  · simp only [BinOp.val, reduceCtorEq, if_false]; push_cast; ring

theorem numCompare_scale (x y : Num) {k : ℝ} (hk : 0 < k) :
    (numCompare x y = .lt ↔ (x.q : ℝ) * k < (y.q : ℝ) * k) ∧ (numCompare x y = .eq ↔ (x.q : ℝ) * k = (y.q : ℝ) * k) ∧
    (numCompare x y = .gt ↔ (y.q : ℝ) * k < (x.q : ℝ) * k) := by
  have h1 : ((x.q : ℝ) * k < (y.q : ℝ) * k) ↔ x.q < y.q := by rw [mul_lt_mul_iff_left₀ hk]; exact_mod_cast Iff.rfl
  have h2 : ((x.q : ℝ) * k = (y.q : ℝ) * k) ↔ x.q = y.q := by
    rw [mul_left_inj' hk.ne']; exact_mod_cast Iff.rfl
  have h3 : ((y.q : ℝ) * k < (x.q : ℝ) * k) ↔ y.q < x.q := by rw [mul_lt_mul_iff_left₀ hk]; exact_mod_cast Iff.rfl
  rw [h1, h2, h3]
  unfold numCompare
  rcases lt_trichotomy x.q y.q with h | h | h
  · rw [if_pos h]; simp [h, h.ne, h.le]
  · rw [if_neg (by rw [h]; exact lt_irrefl _), if_pos h]; simp [h]
  · rw [if_neg h.not_gt, if_neg h.ne']; simp [h, h.ne', h.le]

/-- The common type of the operands of a comparison. -/
def cmpType (E : Env) (a b : QTy) : C QTy := commonQty E a b (a.rep.common b.rep)

/-- Both operands of a comparison are values of the common type and nothing wraps. -/
structure CmpFits (E : Env) (β : String → ℝ) (a b : Qty) : Prop where
  left : ∀ t, cmpType E a.ty b.ty = .ok t → Holds β t (a.amount β) ∧ CastGuard E t a
  right : ∀ t, cmpType E a.ty b.ty = .ok t → Holds β t (b.amount β) ∧ CastGuard E t b
  exact : (a.ty.rep.common b.ty.rep).floating = true → FlExact E.fl

theorem compare_operands {E : Env} (hE : E.OK) {β : String → ℝ} (hβ : Sizes β) {a b x y : Qty} {t : QTy}
    (g1 : a.ty.Good E) (g2 : b.ty.Good E) (hr : Related β a.ty b.ty)
    (ta : a.num.Typed a.ty.rep) (tb : b.num.Typed b.ty.rep) (hf : CmpFits E β a b)
    (ht : commonQty E a.ty b.ty (a.ty.rep.common b.ty.rep) = .ok t) (hx : convertQty E t a = .ok x)
    (hy : convertQty E t b = .ok y) :
    0 < t.size β ∧ (x.num.q : ℝ) * t.size β = a.amount β ∧ (y.num.q : ℝ) * t.size β = b.amount β := by
  obtain ⟨gt, hrep, hdim, hcs, ca, cb⟩ := commonQty_sound hE hβ g1 g2 hr ht
  have hfl : t.rep.floating = true → FlExact E.fl := by rw [hrep]; exact hf.exact
  obtain ⟨ex, -, ax⟩ := convertQty_exact hβ g1 gt ca ta hfl (hf.left t ht).2 (hf.left t ht).1 hx
  obtain ⟨ey, -, ay⟩ := convertQty_exact hβ g2 gt cb tb hfl (hf.right t ht).2 (hf.right t ht).1 hy
  rw [Qty.amount_eq, ex] at ax
  rw [Qty.amount_eq, ey] at ay
  exact ⟨gt.size_pos hβ, ax, ay⟩

/-! ### Products and quotients -/

theorem dimSize_mul {β : String → ℝ} (hβ : Sizes β) {Γ : DimReg} (hΓ : Γ.OK) {d1 d2 d : Dim} {e1 e2 e : List Exp}
    (h1 : d1.exps = .ok e1) (h2 : d2.exps = .ok e2) (h3 : d.exps = .ok e) (w1 : ∀ x ∈ e1, x.dim.unit.WF)
    (w2 : ∀ x ∈ e2, x.dim.unit.WF) (w : ∀ x ∈ e, x.dim.unit.WF) (h : dimMultiply Γ d1 d2 = .ok d) :
    dimSize β e = dimSize β e1 * dimSize β e2 := by
  have := dimSize_combine hβ (k1 := 1) (k2 := 1) w w1 w2 fun b => by
    rw [Dim.exps_exp h1, Dim.exps_exp h2, Dim.exps_exp h3, dimMultiply_exp hΓ h]; ring
  simpa using this

theorem dimSize_div {β : String → ℝ} (hβ : Sizes β) {Γ : DimReg} (hΓ : Γ.OK) {d1 d2 d : Dim} {e1 e2 e : List Exp}
    (h1 : d1.exps = .ok e1) (h2 : d2.exps = .ok e2) (h3 : d.exps = .ok e) (w1 : ∀ x ∈ e1, x.dim.unit.WF)
    (w2 : ∀ x ∈ e2, x.dim.unit.WF) (w : ∀ x ∈ e, x.dim.unit.WF) (h : dimDivide Γ d1 d2 = .ok d) :
    dimSize β e = dimSize β e1 / dimSize β e2 := by
  have := dimSize_combine hβ (k1 := 1) (k2 := -1) w w1 w2 fun b => by
    rw [Dim.exps_exp h1, Dim.exps_exp h2, Dim.exps_exp h3, dimDivide_exp hΓ h]; ring
  rw [this]
  push_cast
  rw [Real.rpow_one, Real.rpow_neg (dimSize_pos hβ w2).le, Real.rpow_one, div_eq_mul_inv]

theorem dimSize_inv {β : String → ℝ} (hβ : Sizes β) {Γ : DimReg} (hΓ : Γ.OK) {d1 d : Dim} {e1 e : List Exp}
    (h1 : d1.exps = .ok e1) (h3 : d.exps = .ok e) (w1 : ∀ x ∈ e1, x.dim.unit.WF)
    (w : ∀ x ∈ e, x.dim.unit.WF) (h : dimInvert Γ d1 = .ok d) :
    dimSize β e = (dimSize β e1)⁻¹ := by
  have := dimSize_combine hβ (k1 := -1) (k2 := 0) w w1 w1 fun b => by
    rw [Dim.exps_exp h1, Dim.exps_exp h3, dimInvert_exp hΓ h]; ring
  rw [this]
  push_cast
  rw [Real.rpow_neg (dimSize_pos hβ w1).le, Real.rpow_one, Real.rpow_zero, mul_one]

theorem refMultiply_sound {E : Env} (hE : E.OK) {β : String → ℝ} (hβ : Sizes β) {d1 d2 d : Dim} {u1 u2 u : MUnit}
    (g1 : d1.Good) (g2 : d2.Good) (g : d.Good) (w1 : u1.WF) (w2 : u2.WF)
    (h : refMultiply E d1 u1 d2 u2 = .ok (d, u)) :
    u.WF ∧ u.ref = d.unit.ref ∧ d.size β u = d1.size β u1 * d2.size β u2 := by
  unfold refMultiply at h
  simp only [bind_ok, Except.ok.injEq, Prod.mk.injEq] at h
  obtain ⟨d', hd, a, ha, b, hb, x, hx, y, hy, u', hu, rfl, rfl⟩ := h
  obtain ⟨aw, av, -⟩ := div_sound w1.ratio g1.unit.ratio ha
  obtain ⟨bw, bv, -⟩ := div_sound w2.ratio g2.unit.ratio hb
  obtain ⟨xw, xv⟩ := mul_sound aw bw hx
  obtain ⟨yw, yv⟩ := mul_sound xw g.unit.ratio hy
  obtain ⟨ur, uref, -⟩ := downcastUnit_eq_ok hE.units hu
  refine ⟨downcastUnit_wf hE.units yw hu, uref, ?_⟩
  obtain ⟨e1, h1, k1⟩ := g1.exps
  obtain ⟨e2, h2, k2⟩ := g2.exps
  obtain ⟨e, h3, k⟩ := g.exps
  rw [Dim.size_eq h1, Dim.size_eq h2, Dim.size_eq h3, dimSize_mul hβ hE.dims h1 h2 h3 k1 k2 k hd, ur, yv, xv, av, bv]
  have hne : ((d'.unit.ratio.val : ℚ) : ℝ) ≠ 0 := by exact_mod_cast g.unit.val_pos.ne'
  push_cast
  field_simp

theorem refDivide_sound {E : Env} (hE : E.OK) {β : String → ℝ} (hβ : Sizes β) {d1 d2 d : Dim} {u1 u2 u : MUnit}
    (g1 : d1.Good) (g2 : d2.Good) (g : d.Good) (w1 : u1.WF) (w2 : u2.WF)
    (h : refDivide E d1 u1 d2 u2 = .ok (d, u)) :
    u.WF ∧ u.ref = d.unit.ref ∧ d.size β u = d1.size β u1 / d2.size β u2 := by
  unfold refDivide at h
  simp only [bind_ok, Except.ok.injEq, Prod.mk.injEq] at h
  obtain ⟨d', hd, a, ha, b, hb, x, hx, y, hy, u', hu, rfl, rfl⟩ := h
  obtain ⟨aw, av, -⟩ := div_sound w1.ratio g1.unit.ratio ha
  obtain ⟨bw, bv, -⟩ := div_sound w2.ratio g2.unit.ratio hb
  obtain ⟨xw, xv, -⟩ := div_sound aw bw hx
  obtain ⟨yw, yv⟩ := mul_sound xw g.unit.ratio hy
  obtain ⟨ur, uref, -⟩ := downcastUnit_eq_ok hE.units hu
  refine ⟨downcastUnit_wf hE.units yw hu, uref, ?_⟩
  obtain ⟨e1, h1, k1⟩ := g1.exps
  obtain ⟨e2, h2, k2⟩ := g2.exps
  obtain ⟨e, h3, k⟩ := g.exps
  rw [Dim.size_eq h1, Dim.size_eq h2, Dim.size_eq h3, dimSize_div hβ hE.dims h1 h2 h3 k1 k2 k hd, ur, yv, xv, av, bv]
  have hne : ((d'.unit.ratio.val : ℚ) : ℝ) ≠ 0 := by exact_mod_cast g.unit.val_pos.ne'
  push_cast
  field_simp

theorem mulQty_eq_ok {E : Env} {a b r : Qty} (h : mulQty E a b = .ok r) :
    refMultiply E a.ty.dim a.ty.unit b.ty.dim b.ty.unit = .ok (r.ty.dim, r.ty.unit) ∧
      numOp E.fl .mul a.ty.rep b.ty.rep a.num b.num = .ok r.num ∧ r.ty.rep = a.ty.rep.arith b.ty.rep := by
  unfold mulQty at h
  simp only [bind_ok] at h
  obtain ⟨⟨d, u⟩, h1, z, hz, h⟩ := h
  simp only [Except.ok.injEq] at h
  subst h
  exact ⟨h1, hz, rfl⟩

theorem divQty_eq_ok {E : Env} {a b r : Qty} (h : divQty E a b = .ok r) :
    refDivide E a.ty.dim a.ty.unit b.ty.dim b.ty.unit = .ok (r.ty.dim, r.ty.unit) ∧
      numOp E.fl .div a.ty.rep b.ty.rep a.num b.num = .ok r.num ∧ r.ty.rep = a.ty.rep.arith b.ty.rep := by
  unfold divQty at h
  simp only [bind_ok] at h
  obtain ⟨⟨d, u⟩, h1, z, hz, h⟩ := h
  simp only [Except.ok.injEq] at h
  subst h
  exact ⟨h1, hz, rfl⟩

theorem Related.refl {β : String → ℝ} {t1 t2 : QTy} (h : t1.dim = t2.dim) : Related β t1 t2 :=
  ⟨by rw [← h]; exact C17_reflexive _, by rw [h]; exact Coherent.refl _ _, fun hn => absurd (by rw [h]) hn⟩

end Verif
