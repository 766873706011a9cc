import Verif.Props.ArithProps

/-!
# Quotient and remainder, compound assignment (C29, C30)
-/

namespace Verif

open Ratio

/-! ### Helper lemmas -/

theorem Num.q_i (v : ℤ) : (Num.i v).q = v := rfl

theorem ratio_one_of_val {c : Ratio} (hc : c.WF) (h : c.val = 1) : c = ⟨1, 1, 0⟩ := by
  have hd := hc.den_pos
  have hnd : c.N = c.D := by
    have := Ratio.val_eq c
    rw [h] at this
    have hD : (c.D : ℚ) ≠ 0 := by exact_mod_cast (Ratio.D_pos hc).ne'
    have : (c.N : ℚ) = c.D := by field_simp at this; linarith
    exact_mod_cast this
  have hn0 : c.num ≠ 0 := by
    intro h0
    have : c.N = 0 := by unfold Ratio.N; rw [h0]; simp
    have := Ratio.D_pos hc
    omega
  unfold Ratio.N Ratio.D at hnd
  have hcop := hc.coprime
  have hexp : c.exp = 0 := by
    rcases lt_trichotomy c.exp 0 with he | he | he
    · exfalso
      obtain ⟨k, hk⟩ : ∃ k : Nat, c.exp = -(k + 1 : Int) := ⟨(-c.exp).toNat - 1, by omega⟩
      have e1 : c.exp.toNat = 0 := by omega
      have e2 : (-c.exp).toNat = k + 1 := by omega
      rw [e1, e2, pow_succ] at hnd
      refine hc.num10 hn0 ?_
      exact ⟨c.den * 10 ^ k, by linarith⟩
    · exact he
    · exfalso
      obtain ⟨k, hk⟩ : ∃ k : Nat, c.exp = (k + 1 : Int) := ⟨c.exp.toNat - 1, by omega⟩
      have e1 : c.exp.toNat = k + 1 := by omega
      have e2 : (-c.exp).toNat = 0 := by omega
      rw [e1, e2, pow_succ] at hnd
      refine hc.den10 ?_
      exact ⟨c.num * 10 ^ k, by linarith⟩
  rw [hexp] at hnd
  simp at hnd
  have hden : c.den = 1 := by
    rw [hnd] at hcop
    have : Int.gcd c.den c.den = 1 := hcop
    rw [Int.gcd_self] at this
    omega
  cases c
  simp_all

/-- Conversions that only change the name of the unit do not wrap. -/
theorem guard_of_size_eq {E : Env} {β : String → ℝ} (hβ : Sizes β) {t : QTy} {q : Qty} (g1 : q.ty.Good E) (g2 : t.Good E)
    (heq : dimEquivalent q.ty.dim t.dim = .ok true) (hco : Coherent β q.ty.dim t.dim)
    (hs : q.ty.size β = t.size β)
    (hv : ∀ v, q.num = .i v → t.rep.floating = false → q.ty.rep = .int .u64 ∨ t.rep = .int .u64 → IntTy.u64.In v) :
    CastGuard E t q := by
  intro c v hc hq hf hu
  obtain ⟨w, -, e⟩ := castRatio_size hβ g1 g2 heq hco hc
  rw [hs, div_self (g2.size_pos hβ).ne'] at e
  have := ratio_one_of_val w (by exact_mod_cast e)
  subst this
  have := hv v hq hf hu
  refine ⟨by decide, by decide, ?_⟩
  simpa [Ratio.N] using this

theorem Rep.arith_absorb (a b : Rep) : (a.arith b).arith b = a.arith b := by
  rcases a with a | a <;> rcases b with b | b <;> cases a <;> cases b <;> rfl

theorem Rep.arith_common (a b : Rep) : (a.arith b).common a = a.arith b := by
  rcases a with a | a <;> rcases b with b | b <;> cases a <;> cases b <;> rfl

theorem Rep.arith_u64_left (b : Rep) (h : b.floating = false) : (Rep.int .u64).arith b = .int .u64 := by
  rcases b with b | b
  · cases b <;> rfl
  · cases h

/-! ## C29 -/

/-- C29: the remainder of two quantities with the same unit is smaller in magnitude than the divisor and has
the sign of the dividend. -/
theorem C29_remainder_smaller_partial (E : Env) (β : String → ℝ) (hβ : Sizes β) (a b z : Qty)
    (ga : a.Good E) (gb : b.Good E) (hd : a.ty.dim = b.ty.dim) (hu : a.ty.unit = b.ty.unit)
    (ua : UFits (a.ty.rep.arith b.ty.rep) a.num.q) (ub : UFits (a.ty.rep.arith b.ty.rep) b.num.q)
    (h : modQty E a b = .ok z) :
    z.Good E ∧ z.ty.dim = a.ty.dim ∧ z.ty.unit = a.ty.unit ∧ b.amount β ≠ 0 ∧
    |z.amount β| < |b.amount β| ∧ |z.amount β| ≤ |a.amount β| ∧ 0 ≤ z.amount β * a.amount β := by
  unfold modQty at h
  simp only [bind_ok] at h
  obtain ⟨e, he, x, hx, h⟩ := h
  split at h
  swap
  · cases h
  rename_i hc
  obtain ⟨-, fa, fb⟩ := hc
  simp only [bind_ok, Except.ok.injEq] at h
  obtain ⟨n, hn, rfl⟩ := h
  have hr : (a.ty.rep.arith b.ty.rep).floating = false := by
    cases h1 : a.ty.rep with
    | flt f => rw [h1] at fa; exact absurd rfl fa
    | int s => cases h2 : b.ty.rep with
      | flt f => rw [h2] at fb; exact absurd rfl fb
      | int s' => rfl
  obtain ⟨h0, hq⟩ := numOp_exact ga.num gb.num (fun h => by rw [hr] at h; cases h) ua ub
    (fun h => by rcases h with h | h | h <;> cases h) hn
  have h0 := h0 (Or.inr rfl)
  simp only [reduceCtorEq, false_and, if_false, BinOp.val] at hq
  have hsz := gb.ty.size_pos hβ
  have hsa : a.ty.size β = b.ty.size β := by unfold QTy.size; rw [hd, hu]
  have h0R : ((b.num.q : ℚ) : ℝ) ≠ 0 := by exact_mod_cast h0
  refine ⟨⟨⟨ga.ty.dim, ga.ty.unit, ga.ty.unitOf, ga.ty.rooted⟩, numOp_typed ga.num gb.num hn⟩, rfl, rfl,
    by rw [Qty.amount_eq]; exact mul_ne_zero h0R hsz.ne', ?_⟩
  have key : |n.q| < |b.num.q| ∧ |n.q| ≤ |a.num.q| ∧ 0 ≤ n.q * a.num.q := by
    set α := a.num.q
    set γ := b.num.q
    rw [hq]
    have e1 : α = (α / γ) * γ := by field_simp
    have e2 : α - γ * truncQ (α / γ) = (α / γ - truncQ (α / γ)) * γ := by
      calc α - γ * truncQ (α / γ) = (α / γ) * γ - γ * truncQ (α / γ) := by rw [← e1]
        _ = _ := by ring
    have tr : |α / γ - truncQ (α / γ)| < 1 ∧ |α / γ - truncQ (α / γ)| ≤ |α / γ| ∧
        0 ≤ (α / γ - truncQ (α / γ)) * (α / γ) := by
      generalize α / γ = x
      unfold truncQ
      split
      · rename_i h
        have f1 := Int.floor_le x
        have f2 := Int.lt_floor_add_one x
        have f3 : (0 : ℚ) ≤ ⌊x⌋ := by exact_mod_cast Int.floor_nonneg.mpr h
        rw [abs_of_nonneg (show (0 : ℚ) ≤ x - ⌊x⌋ by linarith), abs_of_nonneg h]
        exact ⟨by linarith, by linarith, mul_nonneg (by linarith) h⟩
      · rename_i h
        have h := (not_le.mp h).le
        have f1 := Int.le_ceil x
        have f2 := Int.ceil_lt_add_one x
        have f3 : (⌈x⌉ : ℚ) ≤ 0 := by
          have : ⌈x⌉ ≤ 0 := Int.ceil_le.mpr (by simpa using h)
          exact_mod_cast this
        rw [abs_of_nonpos (show x - ⌈x⌉ ≤ (0 : ℚ) by linarith), abs_of_nonpos h]
        exact ⟨by linarith, by linarith, mul_nonneg_of_nonpos_of_nonpos (by linarith) h⟩
    have hγ : 0 < |γ| := abs_pos.mpr h0
    rw [e2, abs_mul]
    refine ⟨?_, ?_, ?_⟩
    · calc _ < 1 * |γ| := mul_lt_mul_of_pos_right tr.1 hγ
        _ = _ := one_mul _
    · calc _ ≤ |α / γ| * |γ| := mul_le_mul_of_nonneg_right tr.2.1 hγ.le
        _ = |α| := by rw [← abs_mul, ← e1]
    · calc (0 : ℚ) ≤ ((α / γ - truncQ (α / γ)) * (α / γ)) * γ ^ 2 := mul_nonneg tr.2.2 (sq_nonneg _)
        _ = (α / γ - truncQ (α / γ)) * γ * (α / γ * γ) := by ring
        _ = _ := by rw [← e1]
  have cast : ∀ x y : ℚ, |x| < |y| → |(x : ℝ)| < |(y : ℝ)| := by intro x y h; exact_mod_cast h
  have castle : ∀ x y : ℚ, |x| ≤ |y| → |(x : ℝ)| ≤ |(y : ℝ)| := by intro x y h; exact_mod_cast h
  have hz : (⟨⟨a.ty.dim, a.ty.unit, a.ty.rep.arith b.ty.rep⟩, n⟩ : Qty).amount β = (n.q : ℝ) * b.ty.size β := by
    rw [Qty.amount_eq]; unfold QTy.size; rw [← hd, ← hu]
  rw [hz, Qty.amount_eq, Qty.amount_eq, hsa]
  refine ⟨?_, ?_, ?_⟩
  · rw [abs_mul, abs_mul]; exact mul_lt_mul_of_pos_right (cast _ _ key.1) (abs_pos.mpr hsz.ne')
  · rw [abs_mul, abs_mul]; exact mul_le_mul_of_nonneg_right (castle _ _ key.2.1) (abs_nonneg _)
  · have h3 : (0 : ℝ) ≤ (n.q : ℝ) * (a.num.q : ℝ) := by exact_mod_cast key.2.2
    calc (0 : ℝ) ≤ ((n.q : ℝ) * (a.num.q : ℝ)) * (b.ty.size β) ^ 2 := mul_nonneg h3 (sq_nonneg _)
      _ = _ := by ring

example : modQty exEnv ⟨exKms (.int .i32), .i (-17)⟩ ⟨exKms (.int .i64), .i 5⟩ = .ok ⟨exKms (.int .i64), .i (-2)⟩ := by
  decide +kernel

/-- C29 is violated when the units differ: the remainder of 5 km by 3 m is 2 km; the remainder of 5 m by 300
percent is 5 m although the divisor is 3. -/
theorem C29_units_not_converted (β : String → ℝ) (hβ : Sizes β) :
    modQty exEnv ⟨exKms (.int .i64), .i 5⟩ ⟨exMetres (.int .i64), .i 3⟩ = .ok ⟨exKms (.int .i64), .i 2⟩ ∧
    |(⟨exMetres (.int .i64), .i 3⟩ : Qty).amount β| < |(⟨exKms (.int .i64), .i 2⟩ : Qty).amount β| := by
  refine ⟨by decide +kernel, ?_⟩
  have hb : 0 < β "metre" := hβ _
  simp only [Qty.amount_eq, exKms_size, exMetres_size, Num.q]
  push_cast
  rw [abs_of_pos (by positivity), abs_of_pos (by positivity)]
  linarith

/-- `percent`. -/
def exPercent : MUnit := ⟨.named "units::percent", ⟨1, 1, -2⟩, "units::one", [.scaled ⟨1, 1, -2⟩ "units::one"], true, "%", none⟩

theorem C29_percent_not_converted (β : String → ℝ) :
    modQty exEnv ⟨exMetres (.int .i64), .i 5⟩ ⟨⟨.named dimOne, exPercent, .int .i64⟩, .i 300⟩ =
      .ok ⟨exMetres (.int .i64), .i 5⟩ ∧
    (⟨⟨.named dimOne, exPercent, .int .i64⟩, .i 300⟩ : Qty).amount β = 3 := by
  refine ⟨by decide +kernel, ?_⟩
  rw [Qty.amount, Dim.size_eq (d := .named dimOne) rfl]
  norm_num [dimSize, Num.q, exPercent, Ratio.val, Dim.unit, dimOne, unitOne, Ratio.one]

/-- C29: for integral quantities in the same unit, `(a / b) * b + a % b == a`.  Partial: `Related` asks that
downcasting the dimension of `(a / b) * b` finds the dimension of `a` or one that agrees with it; `UFits` that
unsigned operands are values of the common type. -/
theorem C29_quotient_remainder_partial (E : Env) (hE : E.OK) (β : String → ℝ) (hβ : Sizes β) (a b x y z w : Qty)
    (e : Bool) (ga : a.Good E) (gb : b.Good E) (gx : x.ty.dim.Good) (gy : y.ty.dim.Good)
    (ry : y.ty.dim.Rooted E.est)
    (hd : a.ty.dim = b.ty.dim) (hu : a.ty.unit = b.ty.unit) (hrel : Related β y.ty a.ty)
    (ua : UFits (a.ty.rep.arith b.ty.rep) a.num.q) (ub : UFits (a.ty.rep.arith b.ty.rep) b.num.q)
    (h1 : divQty E a b = .ok x) (h2 : mulQty E x b = .ok y) (h3 : modQty E a b = .ok z)
    (h4 : addSub E .add y z = .ok w) (h5 : eqQty E w a = .ok e) : e = true := by
  obtain ⟨gz, zd, zu, hb0, -, -, -⟩ := C29_remainder_smaller_partial E β hβ a b z ga gb hd hu ua ub h3
  obtain ⟨x1, x2, x3⟩ := divQty_eq_ok h1
  obtain ⟨xw, xr, xs⟩ := refDivide_sound hE hβ ga.ty.dim gb.ty.dim gx ga.ty.unit gb.ty.unit x1
  obtain ⟨y1, y2, y3⟩ := mulQty_eq_ok h2
  obtain ⟨yw, yr, ys⟩ := refMultiply_sound hE hβ gx gb.ty.dim gy xw gb.ty.unit y1
  have hsz := ga.ty.size_pos hβ
  have hsb : b.ty.size β = a.ty.size β := by unfold QTy.size; rw [hd, hu]
  have xs1 : x.ty.dim.size β x.ty.unit = 1 := by
    rw [xs]
    show a.ty.size β / b.ty.size β = 1
    rw [hsb, div_self hsz.ne']
  have ysz : y.ty.size β = a.ty.size β := by
    show y.ty.dim.size β y.ty.unit = _
    rw [ys, xs1, one_mul]; exact hsb
  have zsz : z.ty.size β = a.ty.size β := by unfold QTy.size; rw [zd, zu]
  -- the numbers
  have fab : a.ty.rep.floating = false ∧ b.ty.rep.floating = false := by
    unfold modQty at h3
    simp only [bind_ok] at h3
    obtain ⟨_, _, _, _, h3⟩ := h3
    split at h3
    · rename_i hc; simpa using hc.2
    · cases h3
  obtain ⟨sa, hsa⟩ : ∃ s, a.ty.rep = .int s := by
    cases h : a.ty.rep with
    | int s => exact ⟨s, rfl⟩
    | flt f => rw [h] at fab; simp [Rep.floating] at fab
  obtain ⟨sb, hsbr⟩ : ∃ s, b.ty.rep = .int s := by
    cases h : b.ty.rep with
    | int s => exact ⟨s, rfl⟩
    | flt f => rw [h] at fab; simp [Rep.floating] at fab
  obtain ⟨rt, hrt⟩ : ∃ rt, a.ty.rep.arith b.ty.rep = .int rt := by rw [hsa, hsbr]; exact ⟨_, rfl⟩
  have hnf : (a.ty.rep.arith b.ty.rep).floating = false := by rw [hrt]; rfl
  have hflx : (a.ty.rep.arith b.ty.rep).floating = true → FlExact E.fl := fun h => by rw [hnf] at h; cases h
  obtain ⟨va, ea, ina⟩ := (hsa ▸ ga.num).int
  obtain ⟨vb, eb, inb⟩ := (hsbr ▸ gb.num).int
  have ina' : rt.In va := by
    cases hs : rt.signed with
    | true => exact (Rep.arith_signed hrt hs).1 _ hsa ina
    | false => rw [ea] at ua; exact UFits.int ua hrt hs
  have inb' : rt.In vb := by
    cases hs : rt.signed with
    | true => exact (Rep.arith_signed hrt hs).2 _ hsbr inb
    | false => rw [eb] at ub; exact UFits.int ub hrt hs
  obtain ⟨nz0, xq⟩ := numOp_exact ga.num gb.num hflx ua ub (fun h => by rcases h with h | h | h <;> cases h) x2
  have nz0 := nz0 (Or.inl rfl)
  have vb0 : vb ≠ 0 := by rw [eb] at nz0; simpa [Num.q] using nz0
  rw [if_pos ⟨rfl, hnf⟩, ea, eb] at xq
  simp only [Num.q_i] at xq
  rw [truncQ_div _ _ vb0] at xq
  have tx := numOp_typed ga.num gb.num x2
  rw [← x3] at tx
  have habs : (x.ty.rep).arith b.ty.rep = a.ty.rep.arith b.ty.rep := by rw [x3, Rep.arith_absorb]
  -- the product stays between zero and the dividend
  have hprod : rt.In (va.tdiv vb * vb) ∧ rt.In (va.tdiv vb) := by
    have hmod := Int.tmod_add_mul_tdiv va vb
    have hsgn : (0 ≤ va → 0 ≤ va.tmod vb ∧ va.tmod vb ≤ va) ∧ (va ≤ 0 → va.tmod vb ≤ 0 ∧ va ≤ va.tmod vb) := by
      have pos : ∀ v : ℤ, 0 ≤ v → 0 ≤ v.tmod vb ∧ v.tmod vb ≤ v := by
        intro v h
        refine ⟨Int.tmod_nonneg _ h, ?_⟩
        have h1 : |v.tmod vb| ≤ |v| := by
          rw [Int.abs_eq_natAbs, Int.abs_eq_natAbs, Int.natAbs_tmod]
          exact_mod_cast Nat.mod_le _ _
        rw [abs_of_nonneg h] at h1
        exact (le_abs_self _).trans h1
      refine ⟨pos va, fun h => ?_⟩
      have := pos (-va) (by omega)
      rw [Int.neg_tmod] at this
      omega
    constructor
    · have hlo : rt.lo ≤ 0 := by cases rt <;> decide
      have hhi : 0 ≤ rt.hi := by cases rt <;> decide
      have e1 : va.tdiv vb * vb = va - va.tmod vb := by linarith [mul_comm vb (va.tdiv vb)]
      unfold IntTy.In at ina' ⊢
      rw [e1]
      rcases le_total 0 va with h0 | h0
      · have := hsgn.1 h0; omega
      · have := hsgn.2 h0; omega
    · obtain ⟨v, hv, hin⟩ := (show x.num.Typed (.int rt) by rw [← hrt, ← x3]; exact tx).int
      rw [hv, Num.q_i] at xq
      have : v = va.tdiv vb := by exact_mod_cast xq
      rw [← this]; exact hin
  have ux : UFits (x.ty.rep.arith b.ty.rep) x.num.q := by
    intro ty he _; rw [habs, hrt] at he; cases he
    exact ⟨_, xq, hprod.2⟩
  have uxb : UFits (x.ty.rep.arith b.ty.rep) (x.num.q * b.num.q) := by
    intro ty he _; rw [habs, hrt] at he; cases he
    refine ⟨_, ?_, hprod.1⟩
    rw [xq, eb]; simp [Num.q_i]
  have yq := (numOp_exact (op := .mul) tx gb.num (by rw [habs]; exact hflx) ux (by rw [habs]; exact ub) (fun _ => uxb) y2).2
  simp only [reduceCtorEq, false_and, if_false, BinOp.val] at yq
  rw [xq, eb] at yq
  simp only [Num.q_i] at yq
  have yrep : y.ty.rep = .int rt := by rw [y3, habs, hrt]
  have ty' := numOp_typed tx gb.num y2
  rw [← y3] at ty'
  have Gy : y.Good E := ⟨⟨gy, yw, yr, ry⟩, ty'⟩
  -- the remainder
  have zrep : z.ty.rep = .int rt := by
    unfold modQty at h3
    simp only [bind_ok] at h3
    obtain ⟨_, _, _, _, h3⟩ := h3
    split at h3
    · simp only [bind_ok, Except.ok.injEq] at h3
      obtain ⟨n, hn, rfl⟩ := h3
      exact hrt
    · cases h3
  have zq : z.num.q = ((va - va.tdiv vb * vb : ℤ) : ℚ) := by
    unfold modQty at h3
    simp only [bind_ok] at h3
    obtain ⟨_, _, _, _, h3⟩ := h3
    split at h3
    · simp only [bind_ok, Except.ok.injEq] at h3
      obtain ⟨n, hn, rfl⟩ := h3
      have := (numOp_exact ga.num gb.num hflx ua ub (fun h => by rcases h with h | h | h <;> cases h) hn).2
      simp only [reduceCtorEq, false_and, if_false, BinOp.val] at this
      rw [ea, eb] at this
      simp only [Num.q_i] at this
      rw [truncQ_div _ _ vb0] at this
      rw [this]; push_cast; ring
    · cases h3
  have hrel' : Related β y.ty z.ty := by
    refine ⟨by rw [zd]; exact hrel.equiv, by rw [zd]; exact hrel.coherent, by rw [zd]; exact hrel.one⟩
  obtain ⟨gw, wrep, wcs, wamt⟩ := C25_add_exact_partial E hE β hβ y z w Gy gz hrel' h4
  obtain ⟨-, -, -, wdim, -, -⟩ := addSub_sound hE hβ (Or.inl rfl) Gy.ty gz.ty hrel' Gy.num gz.num h4
  rw [yrep, zrep] at wrep
  have hrtrt : (Rep.int rt).arith (.int rt) = .int rt := by rw [← hrt]; exact Rep.arith_idem _ _
  rw [hrtrt] at wrep
  have hwsz : w.ty.size β = a.ty.size β := by
    obtain ⟨k, hk⟩ := wcs.left
    obtain ⟨m, hm⟩ := wcs.greatest (a.ty.size β) ⟨1, by rw [ysz]; simp⟩ ⟨1, by rw [zsz]; simp⟩
    rw [ysz] at hk
    have hwp := gw.ty.size_pos hβ
    have hmk : (k : ℝ) * m = 1 := by
      have : a.ty.size β = (k * m) * a.ty.size β := by rw [mul_assoc, ← hm, ← hk]
      have h1 : ((k : ℝ) * m - 1) * a.ty.size β = 0 := by linarith
      rcases mul_eq_zero.mp h1 with h1 | h1
      · linarith
      · exact absurd h1 hsz.ne'
    have hm0 : 0 < m := by
      have : (0 : ℝ) < m := by
        by_contra hn
        have := mul_nonpos_of_nonpos_of_nonneg (not_lt.mp hn) hsz.le
        linarith
      exact_mod_cast this
    have hmk' : m * k = 1 := by rw [mul_comm]; exact_mod_cast hmk
    have : m = 1 := by
      rcases Int.eq_one_or_neg_one_of_mul_eq_one hmk' with h | h
      · exact h
      · omega
    rw [hm, this]; simp
  have yam : y.amount β = ((va.tdiv vb * vb : ℤ) : ℝ) * a.ty.size β := by
    rw [Qty.amount_eq, ysz, yq]; push_cast; ring
  have zam : z.amount β = ((va - va.tdiv vb * vb : ℤ) : ℝ) * a.ty.size β := by
    rw [Qty.amount_eq, zsz, zq]; push_cast; ring
  have aam : a.amount β = (va : ℝ) * a.ty.size β := by rw [Qty.amount_eq, ea]; simp [Num.q_i]
  have zin : rt.In (va - va.tdiv vb * vb) := by
    obtain ⟨v, hv, hin⟩ := (zrep ▸ gz.num).int
    rw [hv, Num.q_i] at zq
    have : v = va - va.tdiv vb * vb := by exact_mod_cast zq
    rw [← this]; exact hin
  have wco : Coherent β y.ty.dim w.ty.dim ∧ dimEquivalent y.ty.dim w.ty.dim = .ok true ∧
      Coherent β z.ty.dim w.ty.dim ∧ dimEquivalent z.ty.dim w.ty.dim = .ok true := by
    rcases wdim with h | h
    · rw [h]; exact ⟨Coherent.refl _ _, C17_reflexive _, hrel'.symm.coherent, hrel'.symm.equiv⟩
    · rw [h]; exact ⟨hrel'.coherent, hrel'.equiv, Coherent.refl _ _, C17_reflexive _⟩
  have hfit : SumFits E β .add y z w := by
    refine ⟨(fun h => by rw [wrep] at h; cases h), ?_, ?_, ?_, ?_, ?_⟩
    · refine guard_of_size_eq hβ Gy.ty gw.ty wco.2.1 wco.1 (by rw [ysz, hwsz]) ?_
      intro v hv _ hu64
      have hv' : v = va.tdiv vb * vb := by rw [hv, Num.q_i] at yq; exact_mod_cast yq
      rw [yrep, wrep] at hu64
      have : rt = .u64 := by rcases hu64 with h | h <;> cases h <;> rfl
      rw [hv', ← this]; exact hprod.1
    · refine guard_of_size_eq hβ gz.ty gw.ty wco.2.2.2 wco.2.2.1 (by rw [zsz, hwsz]) ?_
      intro v hv _ hu64
      have hv' : v = va - va.tdiv vb * vb := by rw [hv, Num.q_i] at zq; exact_mod_cast zq
      rw [zrep, wrep] at hu64
      have : rt = .u64 := by rcases hu64 with h | h <;> cases h <;> rfl
      rw [hv', ← this]; exact zin
    · intro ty hty; rw [wrep] at hty; cases hty
      exact ⟨_, hprod.1, by rw [hwsz]; exact yam⟩
    · intro ty hty; rw [wrep] at hty; cases hty
      exact ⟨_, zin, by rw [hwsz]; exact zam⟩
    · intro ty' _ _ ty hty; rw [wrep] at hty; cases hty
      refine ⟨va, ina', ?_⟩
      rw [if_pos rfl, yam, zam, hwsz]; push_cast; ring
  have wam : w.amount β = a.amount β := by
    rw [wamt hfit, yam, zam, aam]; push_cast; ring
  have hrelw : Related β w.ty a.ty := by
    rcases wdim with h | h
    · exact ⟨by rw [h]; exact hrel.equiv, by rw [h]; exact hrel.coherent, by rw [h]; exact hrel.one⟩
    · exact Related.refl (h.trans zd)
  have crep : w.ty.rep.common a.ty.rep = .int rt := by rw [wrep, ← hrt]; exact Rep.arith_common _ _
  refine (C26_eq_partial E hE β hβ w a e gw ga hrelw ?_ h5).mpr wam
  have hcmp : ∀ t, cmpType E w.ty a.ty = .ok t → t.Good E ∧ t.rep = .int rt ∧ t.size β = a.ty.size β ∧
      (t.dim = w.ty.dim ∨ t.dim = a.ty.dim) := by
    intro t ht
    obtain ⟨c1, c2, c3, c4, -, -⟩ := commonQty_sound hE hβ gw.ty ga.ty hrelw ht
    refine ⟨c1, by rw [c2, crep], ?_, c3⟩
    obtain ⟨k, hk⟩ := c4.right
    obtain ⟨m, hm⟩ := c4.greatest (a.ty.size β) ⟨1, by rw [hwsz]; simp⟩ ⟨1, by simp⟩
    have hmk : (k : ℝ) * m = 1 := by
      have : a.ty.size β = (k * m) * a.ty.size β := by rw [mul_assoc, ← hm, ← hk]
      have h1 : ((k : ℝ) * m - 1) * a.ty.size β = 0 := by linarith
      rcases mul_eq_zero.mp h1 with h1 | h1
      · linarith
      · exact absurd h1 hsz.ne'
    have htp := c1.size_pos hβ
    have hm0 : 0 < m := by
      have : (0 : ℝ) < m := by
        by_contra hn
        have := mul_nonpos_of_nonpos_of_nonneg (not_lt.mp hn) hsz.le
        linarith
      exact_mod_cast this
    have hmk' : m * k = 1 := by rw [mul_comm]; exact_mod_cast hmk
    have : m = 1 := by
      rcases Int.eq_one_or_neg_one_of_mul_eq_one hmk' with h | h
      · exact h
      · omega
    rw [hm, this]; simp
  have wnum : ∀ v, w.num = .i v → v = va := by
    intro v hv
    rw [Qty.amount_eq, hwsz, aam, hv] at wam
    have := mul_right_cancel₀ hsz.ne' wam
    simp only [Num.q_i] at this
    exact_mod_cast this
  constructor
  · intro t ht
    obtain ⟨t1, t2, t3, t4⟩ := hcmp t ht
    refine ⟨?_, ?_⟩
    · intro ty hty; rw [t2] at hty; cases hty
      exact ⟨va, ina', by rw [wam, aam, t3]⟩
    · have hc : Coherent β w.ty.dim t.dim ∧ dimEquivalent w.ty.dim t.dim = .ok true := by
        rcases t4 with h | h
        · rw [h]; exact ⟨Coherent.refl _ _, C17_reflexive _⟩
        · rw [h]; exact ⟨hrelw.coherent, hrelw.equiv⟩
      refine guard_of_size_eq hβ gw.ty t1 hc.2 hc.1 (by rw [hwsz, t3]) ?_
      intro v hv _ hu64
      rw [wnum v hv]
      rw [wrep, t2] at hu64
      have : rt = .u64 := by rcases hu64 with h | h <;> cases h <;> rfl
      rw [← this]; exact ina'
  · intro t ht
    obtain ⟨t1, t2, t3, t4⟩ := hcmp t ht
    refine ⟨?_, ?_⟩
    · intro ty hty; rw [t2] at hty; cases hty
      exact ⟨va, ina', by rw [aam, t3]⟩
    · have hc : Coherent β a.ty.dim t.dim ∧ dimEquivalent a.ty.dim t.dim = .ok true := by
        rcases t4 with h | h
        · rw [h]; exact ⟨hrelw.symm.coherent, hrelw.symm.equiv⟩
        · rw [h]; exact ⟨Coherent.refl _ _, C17_reflexive _⟩
      refine guard_of_size_eq hβ ga.ty t1 hc.2 hc.1 (by rw [t3]) ?_
      intro v hv _ hu64
      rw [ea] at hv; cases hv
      have : rt = .u64 := by
        rcases hu64 with h | h
        · have hh := Rep.arith_u64_left b.ty.rep fab.2
          rw [← h, hrt] at hh; rw [h] at hh
          cases hh; rfl
        · rw [t2] at h; cases h; rfl
      rw [← this]; exact ina'
  · intro h; rw [crep] at h; cases h

example : divQty exEnv ⟨exKms (.int .i32), .i (-17)⟩ ⟨exKms (.int .i32), .i 5⟩ =
      .ok ⟨⟨.unknown [], ⟨.scaled ⟨1, 1, 0⟩ "unknown_coherent_unit", ⟨1, 1, 0⟩, "unknown_coherent_unit", [], false, "", none⟩, .int .i32⟩, .i (-3)⟩ ∧
    mulQty exEnv ⟨⟨.unknown [], ⟨.scaled ⟨1, 1, 0⟩ "unknown_coherent_unit", ⟨1, 1, 0⟩, "unknown_coherent_unit", [], false, "", none⟩, .int .i32⟩, .i (-3)⟩
      ⟨exKms (.int .i32), .i 5⟩ = .ok ⟨⟨.base exL, ⟨.scaled ⟨1, 1, 3⟩ "metre", ⟨1, 1, 3⟩, "metre", [], false, "", none⟩, .int .i32⟩, .i (-15)⟩ ∧
    addSub exEnv .add ⟨⟨.base exL, ⟨.scaled ⟨1, 1, 3⟩ "metre", ⟨1, 1, 3⟩, "metre", [], false, "", none⟩, .int .i32⟩, .i (-15)⟩
      ⟨exKms (.int .i32), .i (-2)⟩ = .ok ⟨⟨.base exL, ⟨.scaled ⟨1, 1, 3⟩ "metre", ⟨1, 1, 3⟩, "metre", [], false, "", none⟩, .int .i32⟩, .i (-17)⟩ ∧
    eqQty exEnv ⟨⟨.base exL, ⟨.scaled ⟨1, 1, 3⟩ "metre", ⟨1, 1, 3⟩, "metre", [], false, "", none⟩, .int .i32⟩, .i (-17)⟩
      ⟨exKms (.int .i32), .i (-17)⟩ = .ok true := by
  decide +kernel

/-! ## C30 -/

/-- The number is a value of the representation type. -/
def RFits (r : Rep) (x : ℚ) : Prop := ∀ ty, r = .int ty → ∃ n : ℤ, x = n ∧ ty.In n

/-- The mathematical result of the operator in the type of the operands. -/
def BinOp.result (op : BinOp) (r : Rep) (x y : ℚ) : ℚ :=
  if op = .div ∧ r.floating = false then (truncQ (x / y) : ℚ) else op.val x y

theorem convNum_fits {fl : Rounding} {r r' : Rep} {v y : Num} (hv : v.Typed r) (hfl : r'.floating = true → FlExact fl)
    (hf : RFits r' v.q) (h : convNum fl r r' v = .ok y) : y.q = v.q := by
  cases r' with
  | flt f => rw [convNum_flt (hfl rfl) hv h]; rfl
  | int t =>
    obtain ⟨n, hn, hin⟩ := hf t rfl
    cases r with
    | int s =>
      obtain ⟨x, rfl, hx⟩ := hv.int
      have e : x = n := by simpa [Num.q_i] using hn
      rw [convNum_int hx h, e, IntTy.wrap_of_in hin]
    | flt f =>
      obtain ⟨x, rfl⟩ := hv.flt
      have hn : x = n := hn
      rw [(convNum_fint h).2, hn, truncQ_int]; rfl

theorem compound_exact {fl : Rounding} {op : BinOp} {r r2 : Rep} {a b y : Num} (ha : a.Typed r) (hb : b.Typed r2)
    (hfl : (r.arith r2).floating = true → FlExact fl)
    (ua : UFits (r.arith r2) a.q) (ub : UFits (r.arith r2) b.q)
    (uy : (op = .add ∨ op = .sub ∨ op = .mul) → UFits (r.arith r2) (op.val a.q b.q))
    (hr : RFits r (op.result (r.arith r2) a.q b.q)) (h : compound fl op r r2 a b = .ok y) :
    y.Typed r ∧ (op = .div ∨ op = .mod → b.q ≠ 0) ∧ y.q = op.result (r.arith r2) a.q b.q := by
  unfold compound at h
  simp only [bind_ok] at h
  obtain ⟨z, hz, h⟩ := h
  obtain ⟨h0, hq⟩ := numOp_exact ha hb hfl ua ub uy hz
  have tz := numOp_typed ha hb hz
  refine ⟨convNum_typed tz h, h0, ?_⟩
  have hq : z.q = op.result (r.arith r2) a.q b.q := hq
  rw [← hq] at hr ⊢
  refine convNum_fits tz ?_ hr h
  intro hf
  refine hfl ?_
  cases r with
  | int _ => cases hf
  | flt f => cases r2 <;> rfl

theorem Num.Typed.rfits {r : Rep} {v : Num} (h : v.Typed r) : RFits r v.q := by
  rintro ty rfl
  obtain ⟨x, rfl, hx⟩ := h.int
  exact ⟨x, rfl, hx⟩

theorem RFits.ufits {r : Rep} {x : ℚ} (h : RFits r x) : UFits (r.arith r) x := by
  intro ty hty hs
  cases r with
  | flt f => cases f <;> cases hty
  | int t =>
    have : ty = t := by cases t <;> cases ty <;> first | rfl | (exfalso; revert hty hs; decide)
    subst this
    exact h _ rfl

theorem Rep.arith_self_floating (r : Rep) : (r.arith r).floating = r.floating := by
  rcases r with r | r <;> cases r <;> rfl

/-- C30: `q += r` and `q -= r` keep the type of `q` and leave it with the amount of the sum or difference.
Partial: `Coherent` excludes what `C22_unknown_dimensions_wrong` shows to be wrong. -/
theorem C30_add_sub_exact_partial (E : Env) (β : String → ℝ) (hβ : Sizes β) (op : BinOp)
    (hop : op = .add ∨ op = .sub) (q r x : Qty) (gq : q.Good E) (gr : r.Good E)
    (hco : Coherent β r.ty.dim q.ty.dim) (hfl : q.ty.rep.floating = true → FlExact E.fl)
    (hg : CastGuard E q.ty r) (hr : Holds β q.ty (r.amount β))
    (hs : Holds β q.ty (if op = .add then q.amount β + r.amount β else q.amount β - r.amount β))
    (h : assignQty E op q r = .ok x) :
    x.ty = q.ty ∧ x.num.Typed q.ty.rep ∧
      x.amount β = if op = .add then q.amount β + r.amount β else q.amount β - r.amount β := by
  unfold assignQty at h
  simp only [bind_ok] at h
  obtain ⟨r', hr', h⟩ := h
  rw [if_neg (by rcases hop with rfl | rfl <;> simp)] at h
  simp only [bind_ok, Except.ok.injEq] at h
  obtain ⟨z, hz, rfl⟩ := h
  obtain ⟨e1, e2, e3⟩ := convertQty_exact hβ gr.ty gq.ty hco gr.num hfl hg hr hr'
  have hsz := gq.ty.size_pos hβ
  rw [Qty.amount_eq, e1] at e3
  have hv : ((op.val q.num.q r'.num.q : ℚ) : ℝ) * q.ty.size β =
      if op = .add then q.amount β + r.amount β else q.amount β - r.amount β := by
    rw [← e3, Qty.amount_eq]
    rcases hop with rfl | rfl
    · simp only [BinOp.val, if_true]; push_cast; ring
    · simp only [BinOp.val, reduceCtorEq, if_false]; push_cast; ring
  have hrf : RFits q.ty.rep (op.val q.num.q r'.num.q) := by
    intro ty hty
    obtain ⟨n, hn, he⟩ := hs ty hty
    rw [← hv] at he
    exact ⟨n, by exact_mod_cast mul_right_cancel₀ hsz.ne' he, hn⟩
  have hres : op.result (q.ty.rep.arith q.ty.rep) q.num.q r'.num.q = op.val q.num.q r'.num.q := by
    unfold BinOp.result
    rw [if_neg (by rcases hop with rfl | rfl <;> simp)]
  obtain ⟨t1, -, t3⟩ := compound_exact gq.num e2 (by rw [Rep.arith_self_floating]; exact hfl) gq.num.rfits.ufits
    e2.rfits.ufits (fun _ => hrf.ufits) (by rw [hres]; exact hrf) hz
  refine ⟨rfl, t1, ?_⟩
  rw [Qty.amount_eq]
  simp only
  rw [t3, hres, hv]

example : assignQty exEnv .add ⟨exMetres (.int .i8), .i 100⟩ ⟨exMetres (.int .i32), .i (-128)⟩ = .ok ⟨exMetres (.int .i8), .i (-28)⟩ ∧
    assignQty exEnv .sub ⟨exMetres (.int .i32), .i 100⟩ ⟨exKms (.int .i64), .i 2⟩ = .ok ⟨exMetres (.int .i32), .i (-1900)⟩ ∧
    Coherent (fun _ => 1) (exKms (.int .i64)).dim (exMetres (.int .i32)).dim := by
  refine ⟨by decide +kernel, by decide +kernel, Coherent.refl _ _⟩

/-- C30: hence `q += r` and `q -= r` agree with `q + r` and `q - r` whenever both are accepted and their
results are representable. -/
theorem C30_agrees_with_binary_partial (E : Env) (hE : E.OK) (β : String → ℝ) (hβ : Sizes β) (op : BinOp)
    (hop : op = .add ∨ op = .sub) (q r x y : Qty) (gq : q.Good E) (gr : r.Good E)
    (hrel : Related β q.ty r.ty) (hfl : q.ty.rep.floating = true → FlExact E.fl)
    (hg : CastGuard E q.ty r) (hr : Holds β q.ty (r.amount β))
    (hs : Holds β q.ty (if op = .add then q.amount β + r.amount β else q.amount β - r.amount β))
    (hy : SumFits E β op q r y)
    (h : assignQty E op q r = .ok x) (h' : addSub E op q r = .ok y) : x.ty = q.ty ∧ x.amount β = y.amount β := by
  obtain ⟨h1, -, h3⟩ := C30_add_sub_exact_partial E β hβ op hop q r x gq gr hrel.symm.coherent hfl hg hr hs h
  refine ⟨h1, ?_⟩
  rw [h3]
  rcases hop with rfl | rfl
  · rw [(C25_add_exact_partial E hE β hβ q r y gq gr hrel h').2.2.2 hy]; simp
  · rw [(C25_sub_exact_partial E hE β hβ q r y gq gr hrel h').2.2.2 hy]; simp

example : addSub exEnv .sub ⟨exMetres (.int .i32), .i 100⟩ ⟨exKms (.int .i64), .i 2⟩ =
    .ok ⟨⟨.base exL, ⟨.scaled ⟨1, 1, 0⟩ "metre", ⟨1, 1, 0⟩, "metre", [], false, "", none⟩, .int .i64⟩, .i (-1900)⟩ := by
  decide +kernel

/-- C30: `q %= r` leaves the remainder of the amounts, whatever the unit of `r`. -/
theorem C30_mod_exact_partial (E : Env) (β : String → ℝ) (hβ : Sizes β) (q r x : Qty) (gq : q.Good E) (gr : r.Good E)
    (hco : Coherent β r.ty.dim q.ty.dim) (hg : CastGuard E q.ty r) (hr : Holds β q.ty (r.amount β))
    (h : assignQty E .mod q r = .ok x) :
    x.ty = q.ty ∧ r.amount β ≠ 0 ∧ x.amount β = q.amount β - r.amount β * truncR (q.amount β / r.amount β) := by
  unfold assignQty at h
  simp only [bind_ok] at h
  obtain ⟨r', hr', h⟩ := h
  split at h
  · cases h
  rename_i hf
  have hf : q.ty.rep.floating = false := by simpa using hf
  simp only [bind_ok, Except.ok.injEq] at h
  obtain ⟨z, hz, rfl⟩ := h
  obtain ⟨e1, e2, e3⟩ := convertQty_exact hβ gr.ty gq.ty hco gr.num (fun h => by rw [hf] at h; cases h) hg hr hr'
  have hsz := gq.ty.size_pos hβ
  rw [Qty.amount_eq, e1] at e3
  obtain ⟨ty, hty⟩ : ∃ ty, q.ty.rep = .int ty := by
    cases h : q.ty.rep with
    | int t => exact ⟨t, rfl⟩
    | flt f => rw [h] at hf; cases hf
  have hz0 := hz
  unfold compound at hz0
  simp only [bind_ok] at hz0
  obtain ⟨w, hw, hz0⟩ := hz0
  have hfa : (q.ty.rep.arith q.ty.rep).floating = true → FlExact E.fl := by
    rw [Rep.arith_self_floating]; intro h; rw [hf] at h; cases h
  obtain ⟨n0, nq⟩ := numOp_exact gq.num e2 hfa gq.num.rfits.ufits e2.rfits.ufits
    (fun h => by rcases h with h | h | h <;> cases h) hw
  have n0 := n0 (Or.inr rfl)
  simp only [reduceCtorEq, false_and, if_false] at nq
  have hrf : RFits q.ty.rep (BinOp.mod.val q.num.q r'.num.q) := by
    intro ty' hty'
    rw [hty] at hty'; cases hty'
    obtain ⟨a, ha, hain⟩ := (hty ▸ gq.num).int
    obtain ⟨b, hb, hbin⟩ := (hty ▸ e2).int
    have hb0 : b ≠ 0 := by rw [hb, Num.q_i] at n0; exact_mod_cast n0
    refine ⟨a.tmod b, ?_, ?_⟩
    · rw [ha, hb]; simp only [BinOp.val, Num.q_i]; rw [truncQ_div _ _ hb0, Int.tmod_def]; push_cast; ring
    · have hlo : ty.lo ≤ 0 := by cases ty <;> decide
      have hhi : 0 ≤ ty.hi := by cases ty <;> decide
      have h1 : |a.tmod b| ≤ |a| := by
        rw [Int.abs_eq_natAbs, Int.abs_eq_natAbs, Int.natAbs_tmod]
        exact_mod_cast Nat.mod_le _ _
      unfold IntTy.In at hain ⊢
      rcases le_total 0 a with h0 | h0
      · have := Int.tmod_nonneg b h0
        rw [abs_of_nonneg h0, abs_of_nonneg this] at h1; omega
      · have : a.tmod b ≤ 0 := by
          have := Int.tmod_nonneg b (show 0 ≤ -a by omega)
          rw [Int.neg_tmod] at this; omega
        rw [abs_of_nonpos h0, abs_of_nonpos this] at h1; omega
  have hres : BinOp.mod.result (q.ty.rep.arith q.ty.rep) q.num.q r'.num.q = BinOp.mod.val q.num.q r'.num.q := by
    unfold BinOp.result; rw [if_neg (by simp)]
  obtain ⟨t1, -, t3⟩ := compound_exact gq.num e2 hfa gq.num.rfits.ufits e2.rfits.ufits
    (fun h => by rcases h with h | h | h <;> cases h) (by rw [hres]; exact hrf) hz
  have n0R : ((r'.num.q : ℚ) : ℝ) ≠ 0 := by exact_mod_cast n0
  refine ⟨rfl, by rw [← e3]; exact mul_ne_zero n0R hsz.ne', ?_⟩
  rw [Qty.amount_eq]
  simp only
  rw [t3, hres, ← e3, Qty.amount_eq]
  have hdiv : (q.num.q : ℝ) * q.ty.size β / (r'.num.q * q.ty.size β) = ((q.num.q / r'.num.q : ℚ) : ℝ) := by
    push_cast; field_simp
  rw [hdiv]
  have htr : truncR ((q.num.q / r'.num.q : ℚ) : ℝ) = truncQ (q.num.q / r'.num.q) := by
    unfold truncR truncQ
    simp only [Rat.floor_cast, Rat.ceil_cast, Rat.cast_nonneg]
  rw [htr]
  simp only [BinOp.val]; push_cast; ring

example : assignQty exEnv .mod ⟨exMetres (.int .i16), .i (-5000)⟩ ⟨exKms (.int .i16), .i 3⟩ =
    .ok ⟨exMetres (.int .i16), .i (-2000)⟩ := by decide +kernel

/-- C30 is violated by the remainder of quantities in different units: `q %= r` converts `r` to the unit of
`q`, `q % r` does not: 5000 m `%=` 3 km is 2000 m, but 5000 m `%` 3 km is 2 m. -/
theorem C30_remainder_disagrees :
    assignQty exEnv .mod ⟨exMetres (.int .i64), .i 5000⟩ ⟨exKms (.int .i64), .i 3⟩ =
      .ok ⟨exMetres (.int .i64), .i 2000⟩ ∧
    modQty exEnv ⟨exMetres (.int .i64), .i 5000⟩ ⟨exKms (.int .i64), .i 3⟩ = .ok ⟨exMetres (.int .i64), .i 2⟩ := by
  decide +kernel

/-- C30: `q *= v`, `q /= v` and `q %= v` leave the value of `q * v`, `q / v`, `q % v` converted to the
representation type of `q`, for every operand type, including every wrap-around and every error. -/
theorem C30_number_agrees (E : Env) (op : BinOp) (hop : op = .mul ∨ op = .div ∨ op = .mod) (q : Qty) (r : Rep)
    (v : Num) (hq : q.num.Typed q.ty.rep) (hv : v.Typed r) (x : Qty) :
    assignNum E op q r v = .ok x ↔
      ∃ y, scaleQty E op q r v = .ok y ∧ x.ty = q.ty ∧ convNum E.fl y.ty.rep q.ty.rep y.num = .ok x.num := by
  have key : (do let z ← compound E.fl op q.ty.rep r q.num v; (.ok ⟨q.ty, z⟩ : C Qty)) = .ok x ↔
      ∃ y, scaleQty E op q r v = .ok y ∧ x.ty = q.ty ∧ convNum E.fl y.ty.rep q.ty.rep y.num = .ok x.num := by
    unfold compound scaleQty
    simp only [bind_ok, Except.ok.injEq]
    constructor
    · rintro ⟨z, ⟨w, hw, hz⟩, rfl⟩
      exact ⟨_, ⟨w, hw, rfl⟩, rfl, hz⟩
    · rintro ⟨y, ⟨w, hw, rfl⟩, h1, h2⟩
      exact ⟨x.num, ⟨w, hw, h2⟩, by rw [← h1]⟩
  unfold assignNum
  split
  · rename_i hc
    obtain ⟨rfl, hc⟩ := hc
    refine ⟨fun h => (by cases h), ?_⟩
    rintro ⟨y, hy, -, -⟩
    exfalso
    unfold scaleQty at hy
    simp only [bind_ok] at hy
    obtain ⟨z, hz, -⟩ := hy
    unfold numOp at hz
    simp only [bind_ok] at hz
    obtain ⟨x1, h1, x2, h2, hz⟩ := hz
    have t1 := convNum_typed hq h1
    have t2 := convNum_typed hv h2
    obtain ⟨f, hf⟩ : ∃ f, q.ty.rep.arith r = .flt f := by
      cases h3 : q.ty.rep with
      | flt f => cases r <;> exact ⟨_, rfl⟩
      | int s => cases h4 : r with
        | flt f => exact ⟨_, rfl⟩
        | int s' => rw [h3, h4] at hc; simp [Rep.floating] at hc
    rw [hf] at t1 t2 hz
    obtain ⟨a, rfl⟩ := t1.flt
    obtain ⟨b, rfl⟩ := t2.flt
    simp [sameOp, fltOp] at hz
  · exact key

/-- C30: the amounts: multiplied or divided by the number, when the result is representable. -/
theorem C30_number_exact (E : Env) (β : String → ℝ) (q : Qty) (r : Rep) (v : Num) (gq : q.Good E)
    (hv : v.Typed r) (hfl : (q.ty.rep.arith r).floating = true → FlExact E.fl)
    (uq : UFits (q.ty.rep.arith r) q.num.q) (uv : UFits (q.ty.rep.arith r) v.q) (x : Qty) :
    (UFits (q.ty.rep.arith r) (q.num.q * v.q) → RFits q.ty.rep (q.num.q * v.q) → assignNum E .mul q r v = .ok x →
      x.ty = q.ty ∧ x.amount β = q.amount β * v.q) ∧
    (RFits q.ty.rep (q.num.q / v.q) → assignNum E .div q r v = .ok x →
      x.ty = q.ty ∧ v.q ≠ 0 ∧ x.amount β = q.amount β / v.q) := by
  constructor
  · intro hu hr h
    unfold assignNum at h
    rw [if_neg (by simp)] at h
    simp only [bind_ok, Except.ok.injEq] at h
    obtain ⟨z, hz, rfl⟩ := h
    have hres : BinOp.mul.result (q.ty.rep.arith r) q.num.q v.q = q.num.q * v.q := by
      unfold BinOp.result; rw [if_neg (by simp)]; rfl
    obtain ⟨-, -, e⟩ := compound_exact (op := .mul) gq.num hv hfl uq uv (fun _ => hu) (by rw [hres]; exact hr) hz
    refine ⟨rfl, ?_⟩
    rw [Qty.amount_eq, Qty.amount_eq]; simp only; rw [e, hres]; push_cast; ring
  · intro hr h
    unfold assignNum at h
    rw [if_neg (by simp)] at h
    simp only [bind_ok, Except.ok.injEq] at h
    obtain ⟨z, hz, rfl⟩ := h
    have hres : BinOp.div.result (q.ty.rep.arith r) q.num.q v.q = q.num.q / v.q := by
      unfold BinOp.result
      split
      · rename_i hc
        obtain ⟨ty, hty⟩ : ∃ ty, q.ty.rep = .int ty := by
          cases h : q.ty.rep with
          | int t => exact ⟨t, rfl⟩
          | flt f => rw [h] at hc; cases r <;> simp [Rep.arith, Rep.floating] at hc
        obtain ⟨n, hn, -⟩ := hr ty hty
        rw [hn, truncQ_int]
      · rfl
    obtain ⟨-, h0, e⟩ := compound_exact gq.num hv hfl uq uv (fun h => by rcases h with h | h | h <;> cases h)
      (by rw [hres]; exact hr) hz
    refine ⟨rfl, h0 (Or.inl rfl), ?_⟩
    rw [Qty.amount_eq, Qty.amount_eq]; simp only; rw [e, hres]; push_cast; ring

example : assignNum exEnv .mul ⟨exKms (.int .i16), .i (-120)⟩ (.int .i64) (.i 250) = .ok ⟨exKms (.int .i16), .i (-30000)⟩ ∧
    assignNum exEnv .mul ⟨exKms (.int .i32), .i 4⟩ (.flt .f64) (.f (5/2)) = .ok ⟨exKms (.int .i32), .i 10⟩ ∧
    assignNum exEnv .div ⟨exKms (.int .u8), .i 7⟩ (.int .i32) (.i 2) = .ok ⟨exKms (.int .u8), .i 3⟩ ∧
    assignNum exEnv .mod ⟨exKms (.int .u8), .i 7⟩ (.int .i32) (.i 4) = .ok ⟨exKms (.int .u8), .i 3⟩ := by
  decide +kernel

/-- C30: a dimensionless operand counts as its number. -/
theorem C30_dimensionless (E : Env) (op : BinOp) (q d x : Qty) (h : assignDimless E op q d = .ok x) (β : String → ℝ) :
    assignNum E op q d.ty.rep d.num = .ok x ∧ d.amount β = d.num.q := by
  unfold assignDimless at h
  split at h
  · rename_i hc
    refine ⟨h, ?_⟩
    rw [Qty.amount, hc.1, hc.2, Dim.size_eq (d := .named dimOne) rfl]
    norm_num [dimSize, Ratio.val, Dim.unit, dimOne, unitOne, Ratio.one]
  · cases h

example : assignDimless exEnv .mul ⟨exKms (.int .i16), .i 3⟩ ⟨⟨.named dimOne, unitOne, .int .i32⟩, .i (-4)⟩ =
    .ok ⟨exKms (.int .i16), .i (-12)⟩ := by decide +kernel

/-- C30: `++` and `--` add and subtract one unit; the postfix forms change the object in the same way and
return its former value. -/
theorem C30_increment (E : Env) (β : String → ℝ) (op : BinOp) (hop : op = .add ∨ op = .sub) (q : Qty)
    (gq : q.Good E) (hfl : q.ty.rep.floating = true → FlExact E.fl) (x old : Qty)
    (hr : RFits q.ty.rep (op.val q.num.q 1)) :
    (incDec E op q = .ok x → x.ty = q.ty ∧
      x.amount β = if op = .add then q.amount β + q.ty.size β else q.amount β - q.ty.size β) ∧
    (incDecPost E op q = .ok (x, old) ↔ incDec E op q = .ok x ∧ old = q) := by
  refine ⟨?_, ?_⟩
  · intro h
    unfold incDec at h
    simp only [bind_ok, Except.ok.injEq] at h
    obtain ⟨z, hz, rfl⟩ := h
    have hres : op.result (q.ty.rep.arith (.int .i32)) q.num.q (Num.i 1).q = op.val q.num.q 1 := by
      unfold BinOp.result; rw [if_neg (by rcases hop with rfl | rfl <;> simp)]; simp [Num.q_i]
    have hu : ∀ y, RFits q.ty.rep y → UFits (q.ty.rep.arith (.int .i32)) y := by
      intro y hy ty hty hs
      cases hq : q.ty.rep with
      | flt f => rw [hq] at hty; cases f <;> cases hty
      | int t =>
        rw [hq] at hty hy
        have : ty = t := by cases t <;> cases ty <;> first | rfl | (exfalso; revert hty hs; decide)
        subst this
        exact hy _ rfl
    have h1 : UFits (q.ty.rep.arith (.int .i32)) (Num.i 1).q := by
      intro ty _ _
      refine ⟨1, by simp [Num.q_i], by cases ty <;> decide⟩
    obtain ⟨-, -, e⟩ := compound_exact gq.num (r2 := .int .i32) (b := .i 1) ⟨.i32, rfl, by decide⟩ (by
        intro hf
        refine hfl ?_
        cases h : q.ty.rep with
        | int t => rw [h] at hf; cases hf
        | flt f => rfl) (hu _ gq.num.rfits) h1
      (fun _ => by rw [show (Num.i 1).q = 1 by simp [Num.q_i]]; exact hu _ hr) (by rw [hres]; exact hr) hz
    refine ⟨rfl, ?_⟩
    rw [Qty.amount_eq]
    simp only
    rw [e, hres]
    rcases hop with rfl | rfl
    · simp only [BinOp.val, if_true, Qty.amount_eq]; push_cast; ring
    · simp only [BinOp.val, reduceCtorEq, if_false, Qty.amount_eq]; push_cast; ring
  · unfold incDec incDecPost
    simp only [bind_ok, Except.ok.injEq, Prod.mk.injEq]
    constructor
    · rintro ⟨z, hz, rfl, rfl⟩; exact ⟨⟨z, hz, rfl⟩, rfl⟩
    · rintro ⟨⟨z, hz, rfl⟩, rfl⟩; exact ⟨z, hz, rfl, rfl⟩

example : incDec exEnv .sub ⟨exKms (.int .i8), .i (-127)⟩ = .ok ⟨exKms (.int .i8), .i (-128)⟩ ∧
    incDecPost exEnv .add ⟨exKms (.int .u8), .i 41⟩ = .ok (⟨exKms (.int .u8), .i 42⟩, ⟨exKms (.int .u8), .i 41⟩) := by
  decide +kernel

/-- Unary minus negates the amount (unsigned representations excluded: they wrap). -/
theorem C30_negate (E : Env) (β : String → ℝ) (q x : Qty) (gq : q.Good E) (hu : UFits q.ty.rep.promote (-q.num.q))
    (h : negQty q = .ok x) :
    x.ty.dim = q.ty.dim ∧ x.ty.unit = q.ty.unit ∧ x.num.Typed x.ty.rep ∧ x.amount β = -q.amount β := by
  unfold negQty at h
  simp only [bind_ok, Except.ok.injEq] at h
  obtain ⟨z, hz, rfl⟩ := h
  have : z.Typed q.ty.rep.promote ∧ z.q = -q.num.q := by
    cases hr : q.ty.rep with
    | int t =>
      rw [hr] at hz hu
      obtain ⟨v, hv, -⟩ := (hr ▸ gq.num).int
      rw [hv] at hz hu ⊢
      simp only [numNeg, bind_ok, Except.ok.injEq] at hz
      obtain ⟨w, hw, rfl⟩ := hz
      refine ⟨⟨_, rfl, IntTy.arith_in hw⟩, ?_⟩
      rw [IntTy.arith_of_in hw fun hs => by
        obtain ⟨n, hn, hi⟩ := hu _ rfl hs
        rw [Num.q_i] at hn
        have : -v = n := by exact_mod_cast hn
        rw [this]; exact hi]
      simp [Num.q_i]
    | flt f =>
      rw [hr] at hz
      obtain ⟨v, hv⟩ := (hr ▸ gq.num).flt
      rw [hv] at hz ⊢
      simp only [numNeg, Except.ok.injEq] at hz
      subst hz
      exact ⟨⟨f, rfl⟩, rfl⟩
  refine ⟨rfl, rfl, this.1, ?_⟩
  rw [Qty.amount, Qty.amount, this.2]; push_cast; ring

example : negQty ⟨exKms (.int .u8), .i 200⟩ = .ok ⟨exKms (.int .i32), .i (-200)⟩ ∧
    negQty ⟨exKms (.int .u32), .i 1⟩ = .ok ⟨exKms (.int .u32), .i 4294967295⟩ := by decide +kernel

end Verif
