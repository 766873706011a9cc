import Verif.IeeeLinear
import Verif.Props.IeeeEnergyProps
import Verif.Props.IeeeCapacitorProps

/-!
# C100: vectors of quantities in IEEE floating point
-/

namespace Verif

open FltTy

set_option maxRecDepth 100000

/-! ### Specification -/

/-- The sum of the products of the elements. -/
def dotR : List FVal → List FVal → ℝ
  | x :: xs, y :: ys => x.q * y.q + dotR xs ys
  | _, _ => 0

/-- The sum of the magnitudes of the products of the elements. -/
def dotAbs : List FVal → List FVal → ℝ
  | x :: xs, y :: ys => |(x.q : ℝ) * y.q| + dotAbs xs ys
  | _, _ => 0

/-! ### Proof -/

theorem u53' : ((FltTy.f64.u : ℚ) : ℝ) ≤ 1 / 2 ^ 53 := by rw [u53]

/-- A number obtained with `k` roundings from terms whose magnitudes add up to `S`. -/
structure Summed (k : ℕ) (S X : ℝ) (z : FVal) : Prop where
  finite : z.Finite
  within : z.In .f64
  err : |(z.q : ℝ) - X| ≤ ((1 + 1 / 2 ^ 53) ^ k - 1) * S
  dom : |X| ≤ S

theorem summed_mul {x y : FVal} (hx : MidZero x) (hy : MidZero y) : Summed 1 |(x.q : ℝ) * y.q| (x.q * y.q) (x.mul .f64 y) ∧ |(x.q : ℝ) * y.q| ≤ 2 ^ 200 := by
  have hδ : (1 / 2 ^ 53 : ℝ) ≤ 1 / 400 := by norm_num
  have top : |(x.q : ℝ) * y.q| ≤ 2 ^ 200 := by
    have t : ∀ {z : FVal}, MidZero z → |(z.q : ℝ)| ≤ 2 ^ 100 := fun {z} h => by
      rcases h.bd with e | e
      · rw [e, abs_zero]; positivity
      · exact e.2
    rw [abs_mul]
    exact (mul_le_mul (t hx) (t hy) (abs_nonneg _) (by positivity)).trans (by norm_num)
  have b : |x.q * y.q| ≤ 2 ^ (FltTy.f64.emax - 1) := by
    refine le_two_zpow ?_
    push_cast
    rw [show FltTy.f64.emax - 1 = ((1023 : ℕ) : Int) by decide, zpow_natCast]
    exact top.trans (pow_le_pow_right₀ (by norm_num) (by norm_num))
  have k := key_mul hx.within hy.within hx.finite hy.finite
  have i := finite_round k b
  have s : x.q * y.q = 0 ∨ 2 ^ FltTy.f64.emin ≤ |x.q * y.q| := by
    rcases hx.bd with e | e
    · left; rw [show x.q = 0 by exact_mod_cast e, zero_mul]
    rcases hy.bd with f | f
    · left; rw [show y.q = 0 by exact_mod_cast f, mul_zero]
    right
    have := e.mul f
    refine (Bd.range (j := 200) (w := x.q * y.q) ?_ (by norm_num)).2
    push_cast
    exact this
  refine ⟨⟨i.finite, i.within, ?_, le_rfl⟩, top⟩
  rw [i.eq]
  have e := (Rat.cast_le (K := ℝ)).mpr (roundKey_rel b s)
  push_cast at e
  refine e.trans ?_
  rw [pow_one, add_sub_cancel_left]
  exact mul_le_mul_of_nonneg_right u53' (abs_nonneg _)

theorem pow_two_le {k : ℕ} (hk : k ≤ 2 ^ 52) : (1 + 1 / 2 ^ 53 : ℝ) ^ k ≤ 2 := by
  have h : (1 + 1 / 2 ^ 53 : ℝ) ≤ Real.exp (1 / 2 ^ 53) := by linarith [Real.add_one_le_exp (1 / 2 ^ 53 : ℝ)]
  have kk : (k : ℝ) ≤ 2 ^ 52 := by exact_mod_cast hk
  calc (1 + 1 / 2 ^ 53 : ℝ) ^ k ≤ Real.exp (1 / 2 ^ 53) ^ k := pow_le_pow_left₀ (by positivity) h _
    _ = Real.exp (k * (1 / 2 ^ 53)) := (Real.exp_nat_mul _ _).symm
    _ ≤ Real.exp (1 / 2) := Real.exp_le_exp.mpr (by nlinarith)
    _ ≤ 2 := by
      have e : Real.exp (1 / 2) * Real.exp (1 / 2) = Real.exp 1 := by rw [← Real.exp_add]; norm_num
      have := Real.exp_one_lt_d9
      have := Real.exp_pos (1 / 2)
      nlinarith

theorem Summed.add {k : ℕ} {S X T Y : ℝ} {z p : FVal} (h : Summed k S X z) (h' : Summed 1 T Y p) (hk : 1 ≤ k) (hk' : k ≤ 2 ^ 52) (hb : S + T ≤ 2 ^ 1000) :
    Summed (k + 1) (S + T) (X + Y) (z.add .f64 p) := by
  have S0 := (abs_nonneg _).trans h.dom
  have T0 := (abs_nonneg _).trans h'.dom
  have c2 := pow_two_le hk'
  have mono : (1 + 1 / 2 ^ 53 : ℝ) ^ 1 ≤ (1 + 1 / 2 ^ 53) ^ k := pow_le_pow_right₀ (by norm_num) hk
  have one : (1 : ℝ) ≤ (1 + 1 / 2 ^ 53) ^ k := one_le_pow₀ (by norm_num)
  have e1 := h.err
  have e2 := h'.err.trans (mul_le_mul_of_nonneg_right (sub_le_sub_right mono 1) T0)
  have ps : (1 + 1 / 2 ^ 53 : ℝ) ^ (k + 1) = (1 + 1 / 2 ^ 53) ^ k + 1 / 2 ^ 53 * (1 + 1 / 2 ^ 53) ^ k := by rw [pow_succ]; ring
  generalize (1 + 1 / 2 ^ 53 : ℝ) ^ k = c at *
  have e3 : |((z.q : ℝ) + p.q) - (X + Y)| ≤ (c - 1) * (S + T) := by
    rw [show ((z.q : ℝ) + p.q) - (X + Y) = (z.q - X) + (p.q - Y) by ring]
    refine (abs_add_le _ _).trans ?_
    linarith
  have dXY : |X + Y| ≤ S + T := (abs_add_le _ _).trans (add_le_add h.dom h'.dom)
  have e4 : |(z.q : ℝ) + p.q| ≤ c * (S + T) := by
    have := abs_add_le (((z.q : ℝ) + p.q) - (X + Y)) (X + Y)
    rw [sub_add_cancel] at this
    linarith
  have b : |z.q + p.q| ≤ 2 ^ (FltTy.f64.emax - 1) := by
    refine le_two_zpow ?_
    push_cast
    rw [show FltTy.f64.emax - 1 = ((1023 : ℕ) : Int) by decide, zpow_natCast]
    have q : (2 : ℝ) * 2 ^ 1000 ≤ 2 ^ 1023 := by
      rw [← pow_succ']; exact pow_le_pow_right₀ (by norm_num) (by norm_num)
    refine (e4.trans ?_).trans q
    exact mul_le_mul c2 hb (by positivity) (by norm_num)
  obtain ⟨f1, f2, f3⟩ := add_rel h.within h'.within h.finite h'.finite b
  refine ⟨f1, f2, ?_, dXY⟩
  have f := (Rat.cast_le (K := ℝ)).mpr f3
  push_cast at f
  have f' := f.trans (mul_le_mul u53' e4 (abs_nonneg _) (by positivity))
  rw [ps, show ((z.add .f64 p).q : ℝ) - (X + Y) = ((z.add .f64 p).q - (z.q + p.q)) + ((z.q + p.q) - (X + Y)) by ring]
  refine (abs_add_le _ _).trans ?_
  linarith

/-- The type of the products. -/
structure ProdTy (E : Env) (a b t : QTy) : Prop where
  ra : a.rep = .flt .f64
  rb : b.rep = .flt .f64
  rt : t.rep = .flt .f64
  mul : refMultiply E a.dim a.unit b.dim b.unit = .ok (t.dim, t.unit)

theorem ProdTy.run {E : Env} {a b t : QTy} (h : ProdTy E a b t) (v w : FVal) : mulQtyI E ⟨a, .f v⟩ ⟨b, .f w⟩ = .ok ⟨t, .f (v.mul .f64 w)⟩ := by
  obtain ⟨d, u, r⟩ := t
  obtain ⟨d1, u1, r1⟩ := a
  obtain ⟨d2, u2, r2⟩ := b
  obtain ⟨h1, h2, h3, h⟩ := h
  dsimp only at *
  subst h1 h2 h3
  unfold mulQtyI
  dsimp only
  rw [h]
  rfl

theorem dot_from {E : Env} {a b t : QTy} (ht : ProdTy E a b t) : ∀ (xs ys : List FVal), xs.length = ys.length → (∀ x ∈ xs, MidZero x) → (∀ y ∈ ys, MidZero y) →
    ∀ (k : ℕ) (S X : ℝ) (z : FVal), Summed k S X z → 1 ≤ k → k + xs.length ≤ 2 ^ 52 → S ≤ k * 2 ^ 200 →
    ∃ r, dotFrom (mulQtyI E) (addSubI E false) ⟨t, .f z⟩ (vecOfQtyI a xs) (vecOfQtyI b ys) = .ok ⟨t, .f r⟩ ∧ Summed (k + xs.length) (S + dotAbs xs ys) (X + dotR xs ys) r := by
  intro xs
  induction xs with
  | nil =>
    intro ys hl _ _ k S X z hz _ _ _
    cases ys with
    | cons y ys => cases hl
    | nil =>
      refine ⟨z, rfl, ?_⟩
      show Summed k (S + 0) (X + 0) z
      rw [add_zero, add_zero]; exact hz
  | cons x xs ih =>
    intro ys hl hx hy k S X z hz h1 hn hS
    cases ys with
    | nil => cases hl
    | cons y ys =>
      simp only [List.length_cons] at hl hn ⊢
      obtain ⟨p, top⟩ := summed_mul (hx x (List.mem_cons_self ..)) (hy y (List.mem_cons_self ..))
      have kk : (k : ℝ) ≤ 2 ^ 52 := by exact_mod_cast (show k ≤ 2 ^ 52 by omega)
      have hS' : S + |(x.q : ℝ) * y.q| ≤ ((k + 1 : ℕ) : ℝ) * 2 ^ 200 := by push_cast; linarith
      have big : S + |(x.q : ℝ) * y.q| ≤ 2 ^ 1000 := by
        refine hS'.trans ?_
        calc ((k + 1 : ℕ) : ℝ) * 2 ^ 200 ≤ 2 ^ 53 * 2 ^ 200 := mul_le_mul_of_nonneg_right (by push_cast; linarith) (by positivity)
          _ = 2 ^ 253 := by rw [← pow_add]
          _ ≤ 2 ^ 1000 := pow_le_pow_right₀ (by norm_num) (by norm_num)
      have s := hz.add p h1 (by omega) big
      obtain ⟨r, hr, hs⟩ := ih ys (by omega) (fun w hw => hx w (List.mem_cons_of_mem _ hw)) (fun w hw => hy w (List.mem_cons_of_mem _ hw)) (k + 1) _ _ _ s (by omega) (by omega) hS'
      refine ⟨r, ?_, ?_⟩
      · show (mulQtyI E ⟨a, .f x⟩ ⟨b, .f y⟩ >>= _) = _
        rw [ht.run, ok_bind, addSubI_self E false t .f64 ht.rt, ok_bind]
        exact hr
      · rw [show k + (xs.length + 1) = k + 1 + xs.length by omega]
        simp only [dotAbs, dotR]
        rw [← add_assoc, ← add_assoc]
        exact hs

/-- C100: the product of two vectors of quantities in double precision, of any length from one to 2^52: the sum of the products of the elements, in the unit of the products, with
an error of at most `(1 + 2 ^ -53) ^ n - 1` times the sum of the magnitudes of the products. -/
theorem C100_dot {E : Env} {a b t : QTy} (ht : ProdTy E a b t) {xs ys : List FVal} (hl : xs.length = ys.length) (h0 : xs ≠ []) (hn : xs.length ≤ 2 ^ 52)
    (hx : ∀ x ∈ xs, MidZero x) (hy : ∀ y ∈ ys, MidZero y) :
    ∃ r, dotQtyI E (vecOfQtyI a xs) (vecOfQtyI b ys) = .ok ⟨t, .f r⟩ ∧ r.Finite ∧ r.In .f64 ∧
      |(r.q : ℝ) - dotR xs ys| ≤ ((1 + 1 / 2 ^ 53) ^ xs.length - 1) * dotAbs xs ys := by
  cases xs with
  | nil => exact absurd rfl h0
  | cons x xs =>
    cases ys with
    | nil => cases hl
    | cons y ys =>
      simp only [List.length_cons] at hl hn
      obtain ⟨p, top⟩ := summed_mul (hx x (List.mem_cons_self ..)) (hy y (List.mem_cons_self ..))
      obtain ⟨r, hr, hs⟩ := dot_from ht xs ys (by omega) (fun w hw => hx w (List.mem_cons_of_mem _ hw)) (fun w hw => hy w (List.mem_cons_of_mem _ hw)) 1 _ _ _ p le_rfl (by omega)
        (by rw [Nat.cast_one, one_mul]; exact top)
      refine ⟨r, ?_, hs.finite, hs.within, ?_⟩
      · show (mulQtyI E ⟨a, .f x⟩ ⟨b, .f y⟩ >>= _) = _
        rw [ht.run, ok_bind]
        exact hr
      · rw [List.length_cons, add_comm xs.length 1]
        exact hs.err

/-- C100: without cancellation, that is a relative error. -/
theorem C100_dot_nonneg {E : Env} {a b t : QTy} (ht : ProdTy E a b t) {xs ys : List FVal} (hl : xs.length = ys.length) (h0 : xs ≠ []) (hn : xs.length ≤ 2 ^ 52)
    (hx : ∀ x ∈ xs, MidZero x ∧ 0 ≤ x.q) (hy : ∀ y ∈ ys, MidZero y ∧ 0 ≤ y.q) :
    ∃ r, dotQtyI E (vecOfQtyI a xs) (vecOfQtyI b ys) = .ok ⟨t, .f r⟩ ∧ |(r.q : ℝ) - dotR xs ys| ≤ ((1 + 1 / 2 ^ 53) ^ xs.length - 1) * dotR xs ys := by
  obtain ⟨r, h, -, -, e⟩ := C100_dot ht hl h0 hn (fun x m => (hx x m).1) fun y m => (hy y m).1
  have : ∀ xs ys : List FVal, (∀ x ∈ xs, 0 ≤ x.q) → (∀ y ∈ ys, 0 ≤ y.q) → dotAbs xs ys = dotR xs ys := by
    intro xs
    induction xs with
    | nil => intro ys _ _; rfl
    | cons x xs ih =>
      intro ys hx hy
      cases ys with
      | nil => rfl
      | cons y ys =>
        simp only [dotAbs, dotR]
        rw [ih ys (fun w hw => hx w (List.mem_cons_of_mem _ hw)) fun w hw => hy w (List.mem_cons_of_mem _ hw),
          abs_of_nonneg (mul_nonneg (by exact_mod_cast hx x (List.mem_cons_self ..)) (by exact_mod_cast hy y (List.mem_cons_self ..)))]
  rw [this xs ys (fun x m => (hx x m).2) fun y m => (hy y m).2] at e
  exact ⟨r, h, e⟩

/-- C100: exchanging the vectors gives the same number, to the last bit, whatever the numbers are. -/
theorem C100_dot_comm {E : Env} {a b t : QTy} (ht : ProdTy E a b t) (ht' : ProdTy E b a t) (xs ys : List FVal) :
    dotQtyI E (vecOfQtyI a xs) (vecOfQtyI b ys) = dotQtyI E (vecOfQtyI b ys) (vecOfQtyI a xs) := by
  have go : ∀ (xs ys : List FVal) (z : QtyI), dotFrom (mulQtyI E) (addSubI E false) z (vecOfQtyI a xs) (vecOfQtyI b ys) = dotFrom (mulQtyI E) (addSubI E false) z (vecOfQtyI b ys) (vecOfQtyI a xs) := by
    intro xs
    induction xs with
    | nil => intro ys z; cases ys <;> rfl
    | cons x xs ih =>
      intro ys z
      cases ys with
      | nil => rfl
      | cons y ys =>
        show (mulQtyI E ⟨a, .f x⟩ ⟨b, .f y⟩ >>= _) = (mulQtyI E ⟨b, .f y⟩ ⟨a, .f x⟩ >>= _)
        rw [ht.run, ht'.run, FVal.mul_comm, ok_bind, ok_bind]
        exact congrArg _ (funext fun s => ih ys s)
  cases xs with
  | nil => cases ys <;> rfl
  | cons x xs =>
    cases ys with
    | nil => rfl
    | cons y ys =>
      show (mulQtyI E ⟨a, .f x⟩ ⟨b, .f y⟩ >>= _) = (mulQtyI E ⟨b, .f y⟩ ⟨a, .f x⟩ >>= _)
      rw [ht.run, ht'.run, FVal.mul_comm, ok_bind, ok_bind]
      exact go xs ys _

/-- C100: vectors of different lengths have neither a product nor a sum. -/
theorem C100_lengths {E : Env} {a b t : QTy} (ht : ProdTy E a b t) {xs ys : List FVal} (hl : xs.length ≠ ys.length) :
    dotQtyI E (vecOfQtyI a xs) (vecOfQtyI b ys) = .error .rejected ∧
    ∀ sub, addVecI E sub (vecOfQtyI t xs) (vecOfQtyI t ys) = .error .rejected := by
  have go : ∀ (xs ys : List FVal) (z : FVal), xs.length ≠ ys.length → dotFrom (mulQtyI E) (addSubI E false) ⟨t, .f z⟩ (vecOfQtyI a xs) (vecOfQtyI b ys) = .error .rejected := by
    intro xs
    induction xs with
    | nil =>
      intro ys z h
      cases ys with
      | nil => exact absurd rfl h
      | cons y ys => rfl
    | cons x xs ih =>
      intro ys z h
      cases ys with
      | nil => rfl
      | cons y ys =>
        show (mulQtyI E ⟨a, .f x⟩ ⟨b, .f y⟩ >>= _) = _
        rw [ht.run, ok_bind, addSubI_self E false t .f64 ht.rt, ok_bind]
        exact ih ys _ fun e => h (by rw [List.length_cons, List.length_cons, e])
  constructor
  · cases xs with
    | nil => cases ys <;> rfl
    | cons x xs =>
      cases ys with
      | nil => rfl
      | cons y ys =>
        show (mulQtyI E ⟨a, .f x⟩ ⟨b, .f y⟩ >>= _) = _
        rw [ht.run, ok_bind]
        exact go xs ys _ fun e => hl (by rw [List.length_cons, List.length_cons, e])
  · intro sub
    clear go
    induction xs generalizing ys with
    | nil =>
      cases ys with
      | nil => exact absurd rfl hl
      | cons y ys => rfl
    | cons x xs ih =>
      cases ys with
      | nil => rfl
      | cons y ys =>
        show (addSubI E sub ⟨t, .f x⟩ ⟨t, .f y⟩ >>= fun z => addVecI E sub (vecOfQtyI t xs) (vecOfQtyI t ys) >>= _) = _
        rw [addSubI_self E sub t .f64 ht.rt, ok_bind, ih fun e => hl (by rw [List.length_cons, List.length_cons, e])]
        rfl

/-- C100: the elements of a sum or difference of vectors of one type are the sums or differences with a relative error of at most `2 ^ -53`, where these do not come
near the end of the range. -/
theorem C100_add (E : Env) {t : QTy} (ht : t.rep = .flt .f64) (sub : Bool) {xs ys : List FVal}
    (h : List.Forall₂ (fun x y => (x.Finite ∧ x.In .f64) ∧ (y.Finite ∧ y.In .f64) ∧ |x.q + (if sub then -y.q else y.q)| ≤ 2 ^ 1023) xs ys) :
    ∃ zs, addVecI E sub (vecOfQtyI t xs) (vecOfQtyI t ys) = .ok (vecOfQtyI t zs) ∧ zs.length = xs.length ∧
      ∀ (i : ℕ) (x y z : FVal), xs[i]? = some x → ys[i]? = some y → zs[i]? = some z →
        z.Finite ∧ z.In .f64 ∧ |z.q - (x.q + (if sub then -y.q else y.q))| ≤ 1 / 2 ^ 53 * |x.q + (if sub then -y.q else y.q)| := by
  induction h with
  | nil => exact ⟨[], rfl, rfl, fun i x y z h => by simp at h⟩
  | @cons x y xs ys h _ ih =>
    obtain ⟨zs, h1, h2, h3⟩ := ih
    refine ⟨x.add .f64 (if sub then y.neg else y) :: zs, ?_, by rw [List.length_cons, h2, List.length_cons], ?_⟩
    · show (addSubI E sub ⟨t, .f x⟩ ⟨t, .f y⟩ >>= fun z => addVecI E sub (vecOfQtyI t xs) (vecOfQtyI t ys) >>= _) = _
      rw [addSubI_self E sub t .f64 ht, ok_bind, h1]
      rfl
    · intro i a b c ha hb hc
      cases i with
      | succ i => exact h3 i a b c ha hb hc
      | zero =>
        cases ha; cases hb; cases hc
        obtain ⟨⟨fx, ix⟩, ⟨fy, iy⟩, hb⟩ := h
        have e : (if sub then y.neg else y).q = if sub then -y.q else y.q := by cases sub <;> simp [FVal.neg_q]
        have f : (if sub then y.neg else y).Finite := by
          cases sub
          · exact fy
          · rcases y with ⟨s, q⟩ | s | _ <;> exact fy
        have g : (if sub then y.neg else y).In .f64 := by
          cases sub
          · exact iy
          · rcases y with ⟨s, q⟩ | s | _ <;> exact iy
        have b : |x.q + (if sub then y.neg else y).q| ≤ 2 ^ (FltTy.f64.emax - 1) := by
          rw [e, show FltTy.f64.emax - 1 = ((1023 : ℕ) : Int) by decide, zpow_natCast]; exact hb
        have r := add_rel ix g fx f b
        rw [e] at r
        exact ⟨r.1, r.2.1, r.2.2.trans (le_of_eq (by rw [show FltTy.f64.u = 1 / 2 ^ 53 by decide +kernel]))⟩

/-- C100: the elements of a quantity times a vector are the products, with a relative error of at most `2 ^ -53`. -/
theorem C100_scale {E : Env} {a b t : QTy} (ht : ProdTy E a b t) {x : FVal} (hx : MidZero x) {ys : List FVal} (hy : ∀ y ∈ ys, MidZero y) :
    ∃ zs, scaleVecI E ⟨a, .f x⟩ (vecOfQtyI b ys) = .ok (vecOfQtyI t zs) ∧ zs.length = ys.length ∧
      ∀ (i : ℕ) (y z : FVal), ys[i]? = some y → zs[i]? = some z → z.Finite ∧ z.In .f64 ∧ |(z.q : ℝ) - x.q * y.q| ≤ 1 / 2 ^ 53 * |(x.q : ℝ) * y.q| := by
  induction ys with
  | nil => exact ⟨[], rfl, rfl, fun i y z h => by simp at h⟩
  | cons y ys ih =>
    obtain ⟨zs, h1, h2, h3⟩ := ih fun w hw => hy w (List.mem_cons_of_mem _ hw)
    refine ⟨x.mul .f64 y :: zs, ?_, by rw [List.length_cons, h2, List.length_cons], ?_⟩
    · unfold scaleVecI at h1 ⊢
      unfold vecOfQtyI at h1 ⊢
      rw [List.map_cons, List.mapM_cons, ht.run, ok_bind, h1]
      rfl
    · intro i b c hb hc
      cases i with
      | succ i => exact h3 i b c hb hc
      | zero =>
        cases hb; cases hc
        obtain ⟨p, -⟩ := summed_mul hx (hy y (List.mem_cons_self ..))
        have := p.err
        rw [pow_one, add_sub_cancel_left] at this
        exact ⟨p.finite, p.within, this⟩

/-! ### Matrices -/

theorem mapM_each {α : Type} (f : α → C QtyI) (P : α → FVal → Prop) (t : QTy) : ∀ l : List α, (∀ x ∈ l, ∃ z, f x = .ok ⟨t, .f z⟩ ∧ P x z) →
    ∃ zs, l.mapM f = .ok (vecOfQtyI t zs) ∧ zs.length = l.length ∧ ∀ (i : ℕ) (x : α) (z : FVal), l[i]? = some x → zs[i]? = some z → P x z := by
  intro l
  induction l with
  | nil => intro _; exact ⟨[], rfl, rfl, fun i x z h => by simp at h⟩
  | cons x l ih =>
    intro h
    obtain ⟨z, hz, p⟩ := h x (List.mem_cons_self ..)
    obtain ⟨zs, h1, h2, h3⟩ := ih fun y hy => h y (List.mem_cons_of_mem _ hy)
    refine ⟨z :: zs, ?_, by rw [List.length_cons, h2, List.length_cons], ?_⟩
    · rw [List.mapM_cons, hz, ok_bind, h1]; rfl
    · intro i a b ha hb
      cases i with
      | succ i => exact h3 i a b ha hb
      | zero => cases ha; cases hb; exact p

/-- C100: the elements of a matrix times a vector are the products of the rows with the vector. -/
theorem C100_matrix_vector {E : Env} {a b t : QTy} (ht : ProdTy E a b t) {m : List (List FVal)} {v : List FVal} (h0 : v ≠ []) (hn : v.length ≤ 2 ^ 52) (hv : ∀ y ∈ v, MidZero y)
    (hm : ∀ row ∈ m, row.length = v.length ∧ ∀ x ∈ row, MidZero x) :
    ∃ zs, matVecI E (m.map (vecOfQtyI a)) (vecOfQtyI b v) = .ok (vecOfQtyI t zs) ∧ zs.length = m.length ∧
      ∀ (i : ℕ) (row : List FVal) (z : FVal), m[i]? = some row → zs[i]? = some z →
        z.Finite ∧ z.In .f64 ∧ |(z.q : ℝ) - dotR row v| ≤ ((1 + 1 / 2 ^ 53) ^ v.length - 1) * dotAbs row v := by
  unfold matVecI
  rw [List.mapM_map]
  refine mapM_each _ (fun row z => z.Finite ∧ z.In .f64 ∧ |(z.q : ℝ) - dotR row v| ≤ ((1 + 1 / 2 ^ 53) ^ v.length - 1) * dotAbs row v) t m ?_
  intro row hr
  obtain ⟨l, mz⟩ := hm row hr
  have r0 : row ≠ [] := fun e => h0 (List.eq_nil_of_length_eq_zero (by rw [← l, e]; rfl))
  obtain ⟨z, h1, h2, h3, h4⟩ := C100_dot ht l r0 (by omega) mz hv
  rw [l] at h4
  exact ⟨z, h1, h2, h3, h4⟩

/-- The column `j` of a matrix, element by element. -/
def column (j : ℕ) (m : List (List FVal)) : List FVal := m.map fun row => row.getD j .nan

theorem columns_eq (b : QTy) {n : ℕ} {m : List (List FVal)} (hm : ∀ row ∈ m, row.length = n) :
    matColumns n (m.map (vecOfQtyI b)) = (List.range n).map fun j => vecOfQtyI b (column j m) := by
  unfold matColumns
  refine List.map_congr_left fun j hj => ?_
  have hj' := List.mem_range.mp hj
  induction m with
  | nil => rfl
  | cons row m ih =>
    have l := hm row (List.mem_cons_self ..)
    have e : (vecOfQtyI b row)[j]? = some ⟨b, .f (row.getD j .nan)⟩ := by
      unfold vecOfQtyI
      rw [List.getElem?_map, List.getD_eq_getElem?_getD, List.getElem?_eq_getElem (by omega)]
      rfl
    rw [List.map_cons, List.filterMap_cons, e]
    show _ :: _ = _ :: _
    congr 1
    exact ih fun r hr => hm r (List.mem_cons_of_mem _ hr)

/-- C100: the elements of a vector times a matrix are the products of the vector with the columns. -/
theorem C100_vector_matrix {E : Env} {a b t : QTy} (ht : ProdTy E a b t) {n : ℕ} {v : List FVal} {m : List (List FVal)} (h0 : v ≠ []) (hn : v.length ≤ 2 ^ 52) (hl : m.length = v.length)
    (hv : ∀ x ∈ v, MidZero x) (hm : ∀ row ∈ m, row.length = n ∧ ∀ x ∈ row, MidZero x) :
    ∃ zs, vecMatI E n (vecOfQtyI a v) (m.map (vecOfQtyI b)) = .ok (vecOfQtyI t zs) ∧ zs.length = n ∧
      ∀ (j : ℕ) (z : FVal), zs[j]? = some z →
        z.Finite ∧ z.In .f64 ∧ |(z.q : ℝ) - dotR v (column j m)| ≤ ((1 + 1 / 2 ^ 53) ^ v.length - 1) * dotAbs v (column j m) := by
  unfold vecMatI
  rw [columns_eq b fun row hr => (hm row hr).1, List.mapM_map]
  obtain ⟨zs, h1, h2, h3⟩ := mapM_each (fun j => dotQtyI E (vecOfQtyI a v) (vecOfQtyI b (column j m)))
    (fun j z => z.Finite ∧ z.In .f64 ∧ |(z.q : ℝ) - dotR v (column j m)| ≤ ((1 + 1 / 2 ^ 53) ^ v.length - 1) * dotAbs v (column j m)) t (List.range n) (by
    intro j hj
    have hj' := List.mem_range.mp hj
    obtain ⟨z, h1, h2, h3, h4⟩ := C100_dot ht (xs := v) (ys := column j m) (by unfold column; rw [List.length_map, hl]) h0 hn hv (by
      intro y hy
      obtain ⟨row, hr, rfl⟩ := List.mem_map.mp hy
      obtain ⟨l, mz⟩ := hm row hr
      rw [List.getD_eq_getElem?_getD, List.getElem?_eq_getElem (by omega)]
      exact mz _ (List.getElem_mem _))
    exact ⟨z, h1, h2, h3, h4⟩)
  refine ⟨zs, h1, by rw [h2, List.length_range], fun j z hz => ?_⟩
  have lt : j < n := by
    have := (List.getElem?_eq_some_iff.mp hz).1
    rw [h2, List.length_range] at this
    exact this
  exact h3 j j z (List.getElem?_range lt) hz

/-- C100: the elements of a whole number times a vector are the products, with a relative error of at most `2 ^ -53`. -/
theorem C100_number {t : QTy} (ht : t.rep = .flt .f64) (i : IntTy) {n : ℤ} (h0 : n ≠ 0) (h1 : |n| ≤ 2 ^ 31) {ys : List FVal} (hy : ∀ y ∈ ys, MidZero y) :
    ∃ zs, numVecI (.int i) (.i n) (vecOfQtyI t ys) = .ok (vecOfQtyI t zs) ∧ zs.length = ys.length ∧
      ∀ (k : ℕ) (y z : FVal), ys[k]? = some y → zs[k]? = some z → z.Finite ∧ z.In .f64 ∧ |(z.q : ℝ) - n * y.q| ≤ 1 / 2 ^ 53 * |(n : ℝ) * y.q| := by
  obtain ⟨d, u, r⟩ := t
  dsimp only at ht
  subst ht
  have h53 : |n| ≤ 2 ^ FltTy.f64.prec.toNat := h1.trans (by decide)
  have q : (FVal.ofInt .f64 n).q = n := by rw [ofInt_whole h53, signed_abs]
  have mz : MidZero (FVal.ofInt .f64 n) := by
    have a : (1 : ℚ) ≤ |(n : ℚ)| := by exact_mod_cast Int.one_le_abs h0
    have b : |(n : ℚ)| ≤ 2 ^ 31 := by exact_mod_cast h1
    refine ⟨?_, ?_, .inr ?_⟩
    · rw [ofInt_whole h53]; exact trivial
    · rw [ofInt_whole h53]; exact ⟨abs_nonneg _, rndMag_whole h53⟩
    · rw [q]; exact ⟨le_trans (by norm_num) a, b.trans (by norm_num)⟩
  unfold numVecI
  unfold vecOfQtyI
  rw [List.mapM_map]
  refine mapM_each _ (fun y z => z.Finite ∧ z.In .f64 ∧ |(z.q : ℝ) - n * y.q| ≤ 1 / 2 ^ 53 * |(n : ℝ) * y.q|) _ ys ?_
  intro y hy'
  obtain ⟨p, -⟩ := summed_mul mz (hy y hy')
  have e := p.err
  rw [pow_one, add_sub_cancel_left, q, Rat.cast_intCast] at e
  exact ⟨_, by cases i <;> rfl, p.finite, p.within, e⟩

/-! ### The program -/

theorem metre_metre : ProdTy progEnv boxLen boxLen boxArea := ⟨rfl, rfl, rfl, by decide +kernel⟩

theorem newton_metre : ProdTy progEnv boxForce boxLen jouleTy := ⟨rfl, rfl, rfl, by decide +kernel⟩

theorem metre_newton : ProdTy progEnv boxLen boxForce jouleTy := ⟨rfl, rfl, rfl, by decide +kernel⟩

/-- C100: the products of the program, for all elements: metres times metres are square metres, and newtons times metres are joules. -/
theorem C100_program {v u : List FVal} (hl : v.length = u.length) (h0 : v ≠ []) (hn : v.length ≤ 2 ^ 52) (hv : ∀ x ∈ v, MidZero x) (hu : ∀ y ∈ u, MidZero y) :
    ∃ r, dotQtyI progEnv (vecOfQtyI boxLen v) (vecOfQtyI boxLen u) = .ok ⟨boxArea, .f r⟩ ∧ dotQtyI progEnv (vecOfQtyI boxForce v) (vecOfQtyI boxLen u) = .ok ⟨jouleTy, .f r⟩ ∧
      r.Finite ∧ r.In .f64 ∧ |(r.q : ℝ) - dotR v u| ≤ ((1 + 1 / 2 ^ 53) ^ v.length - 1) * dotAbs v u := by
  have same : ∀ {r}, dotQtyI progEnv (vecOfQtyI boxLen v) (vecOfQtyI boxLen u) = .ok ⟨boxArea, .f r⟩ → dotQtyI progEnv (vecOfQtyI boxForce v) (vecOfQtyI boxLen u) = .ok ⟨jouleTy, .f r⟩ := by
    have go : ∀ (xs ys : List FVal) (z r : FVal), dotFrom (mulQtyI progEnv) (addSubI progEnv false) ⟨boxArea, .f z⟩ (vecOfQtyI boxLen xs) (vecOfQtyI boxLen ys) = .ok ⟨boxArea, .f r⟩ →
        dotFrom (mulQtyI progEnv) (addSubI progEnv false) ⟨jouleTy, .f z⟩ (vecOfQtyI boxForce xs) (vecOfQtyI boxLen ys) = .ok ⟨jouleTy, .f r⟩ := by
      intro xs
      induction xs with
      | nil =>
        intro ys z r h
        cases ys with
        | nil => cases h; rfl
        | cons y ys => cases h
      | cons x xs ih =>
        intro ys z r h
        cases ys with
        | nil => cases h
        | cons y ys =>
          change (mulQtyI progEnv ⟨boxLen, .f x⟩ ⟨boxLen, .f y⟩ >>= _) = _ at h
          rw [metre_metre.run, ok_bind, addSubI_self progEnv false boxArea .f64 rfl, ok_bind] at h
          show (mulQtyI progEnv ⟨boxForce, .f x⟩ ⟨boxLen, .f y⟩ >>= _) = _
          rw [newton_metre.run, ok_bind, addSubI_self progEnv false jouleTy .f64 rfl, ok_bind]
          exact ih ys _ r h
    intro r h
    cases v with
    | nil => exact absurd rfl h0
    | cons x xs =>
      cases u with
      | nil => cases hl
      | cons y ys =>
        change (mulQtyI progEnv ⟨boxLen, .f x⟩ ⟨boxLen, .f y⟩ >>= _) = _ at h
        rw [metre_metre.run, ok_bind] at h
        show (mulQtyI progEnv ⟨boxForce, .f x⟩ ⟨boxLen, .f y⟩ >>= _) = _
        rw [newton_metre.run, ok_bind]
        exact go xs ys _ r h
  obtain ⟨r, h, f, i, e⟩ := C100_dot metre_metre hl h0 hn hv hu
  exact ⟨r, h, same h, f, i, e⟩

theorem mz_nat {n : ℕ} (h0 : 1 ≤ n) (h1 : n ≤ 2 ^ 50) (h : FltTy.f64.rndMag n = some (n : ℚ)) : MidZero (.fin false n) := by
  have a : (1 : ℚ) ≤ n := by exact_mod_cast h0
  have b : (n : ℚ) ≤ 2 ^ 50 := by exact_mod_cast h1
  have e : |(FVal.fin false (n : ℚ)).q| = n := abs_of_nonneg (show (0 : ℚ) ≤ n by linarith)
  refine ⟨trivial, ⟨by linarith, h⟩, .inr ⟨?_, ?_⟩⟩ <;> rw [e]
  · exact le_trans (by norm_num) a
  · exact b.trans (by norm_num)

/-- `si::length<si::kilometre>` in doubles. -/
def km64Ty : QTy := ⟨.base siLength, siKilometre, .flt .f64⟩

theorem km_metre (y : FVal) : convertQtyI progEnv boxLen ⟨km64Ty, .f y⟩ = .ok ⟨boxLen, .f (y.mul .f64 (.fin false (1000 : ℕ)))⟩ :=
  convPI (c := ⟨1, 1, 3⟩) (by decide) rfl rfl (by decide +kernel) (by decide +kernel) (castNumI_factor (by decide +kernel) y)

theorem metre_km (x y : FVal) : addSubI progEnv false ⟨boxLen, .f x⟩ ⟨km64Ty, .f y⟩ = .ok ⟨boxLen, .f (x.add .f64 (y.mul .f64 (.fin false (1000 : ℕ))))⟩ := by
  unfold addSubI
  show (commonQty progEnv boxLen km64Ty (.flt .f64) >>= _) = _
  rw [show commonQty progEnv boxLen km64Ty (.flt .f64) = .ok boxLen by decide +kernel, ok_bind,
    show convertQtyI progEnv boxLen ⟨boxLen, .f x⟩ = _ from convertQtyI_self progEnv ⟨boxLen, .f x⟩, ok_bind, km_metre, ok_bind]
  rfl

/-- C100: `v + t` and `t[m]` of the program: the elements of a sum of metres and kilometres, in metres, with two roundings, and those of a conversion of kilometres to metres, with one. -/
theorem C100_add_kilometres {v t : List FVal} (h : List.Forall₂ (fun x y => MidZero x ∧ MidZero y) v t) :
    ∃ zs ws, addVecI progEnv false (vecOfQtyI boxLen v) (vecOfQtyI km64Ty t) = .ok (vecOfQtyI boxLen zs) ∧ convVecI progEnv boxLen (vecOfQtyI km64Ty t) = .ok (vecOfQtyI boxLen ws) ∧
      zs.length = v.length ∧ ws.length = v.length ∧
      ∀ (i : ℕ) (x y z w : FVal), v[i]? = some x → t[i]? = some y → zs[i]? = some z → ws[i]? = some w →
        (z.Finite ∧ z.In .f64 ∧ |(z.q : ℝ) - (x.q + 1000 * y.q)| ≤ ((1 + 1 / 2 ^ 53) ^ 2 - 1) * (|(x.q : ℝ)| + 1000 * |(y.q : ℝ)|)) ∧
        (w.Finite ∧ w.In .f64 ∧ |(w.q : ℝ) - 1000 * y.q| ≤ 1 / 2 ^ 53 * |1000 * (y.q : ℝ)|) := by
  induction h with
  | nil => exact ⟨[], [], rfl, rfl, rfl, rfl, fun i x y z w h => by simp at h⟩
  | @cons x y xs ys h _ ih =>
    obtain ⟨zs, ws, h1, h1', h2, h2', h3⟩ := ih
    refine ⟨x.add .f64 (y.mul .f64 (.fin false (1000 : ℕ))) :: zs, y.mul .f64 (.fin false (1000 : ℕ)) :: ws, ?_, ?_, by rw [List.length_cons, h2, List.length_cons], by rw [List.length_cons, h2', List.length_cons], ?_⟩
    · show (addSubI progEnv false ⟨boxLen, .f x⟩ ⟨km64Ty, .f y⟩ >>= fun z => addVecI progEnv false (vecOfQtyI boxLen xs) (vecOfQtyI km64Ty ys) >>= _) = _
      rw [metre_km, ok_bind, h1]
      rfl
    · unfold convVecI vecOfQtyI at h1' ⊢
      rw [List.map_cons, List.mapM_cons, km_metre, ok_bind, h1']
      rfl
    · intro i a b c d ha hb hc hd
      cases i with
      | succ i => exact h3 i a b c d ha hb hc hd
      | zero =>
        cases ha; cases hb; cases hc; cases hd
        have m : MidZero (.fin false (1000 : ℕ)) := mz_nat (by norm_num) (by norm_num) (by decide +kernel)
        obtain ⟨p, top⟩ := summed_mul h.2 m
        have q : (((FVal.fin false ((1000 : ℕ) : ℚ)).q : ℚ) : ℝ) = 1000 := by norm_num [FVal.q]
        have x0 : Summed 1 |(x.q : ℝ)| x.q x := ⟨h.1.finite, h.1.within, by rw [sub_self, abs_zero, pow_one, add_sub_cancel_left]; positivity, le_rfl⟩
        have xt : |(x.q : ℝ)| ≤ 2 ^ 100 := by
          rcases h.1.bd with e | e
          · rw [e, abs_zero]; positivity
          · exact e.2
        have s := x0.add p le_rfl (by norm_num) ((add_le_add xt top).trans (by
          refine le_trans (by norm_num : (2 : ℝ) ^ 100 + 2 ^ 200 ≤ 2 ^ 201) (pow_le_pow_right₀ (by norm_num) (by norm_num))))
        have e1 := s.err
        have e2 := p.err
        rw [q] at e1 e2
        rw [pow_one, add_sub_cancel_left] at e2
        have c : (y.q : ℝ) * 1000 = 1000 * y.q := mul_comm _ _
        rw [c] at e1 e2
        rw [abs_mul 1000 (y.q : ℝ), abs_of_pos (by norm_num : (0 : ℝ) < 1000)] at e1
        exact ⟨⟨s.finite, s.within, e1⟩, p.finite, p.within, e2⟩

/-- The vectors `v` and `t` of the program. -/
example : addVecI progEnv false (vecOfQtyI boxLen [.fin false 1, .fin false 2, .fin false 3]) (vecOfQtyI km64Ty [.fin false 3, .fin false 2, .fin false 1]) =
      .ok (vecOfQtyI boxLen [.fin false 3001, .fin false 2002, .fin false 1003]) ∧
    List.Forall₂ (fun x y => MidZero x ∧ MidZero y) [.fin false (1 : ℕ), .fin false (2 : ℕ)] [.fin false (3 : ℕ), .fin false (2 : ℕ)] :=
  ⟨by decide +kernel, .cons ⟨mz_nat (by norm_num) (by norm_num) (by decide +kernel), mz_nat (by norm_num) (by norm_num) (by decide +kernel)⟩
    (.cons ⟨mz_nat (by norm_num) (by norm_num) (by decide +kernel), mz_nat (by norm_num) (by norm_num) (by decide +kernel)⟩ .nil)⟩

/-- The vectors of the program: (1, 2, 3) and (3, 2, 1). -/
example : ∃ r, dotQtyI progEnv (vecOfQtyI boxForce [.fin false (1 : ℕ), .fin false (2 : ℕ), .fin false (3 : ℕ)]) (vecOfQtyI boxLen [.fin false (3 : ℕ), .fin false (2 : ℕ), .fin false (1 : ℕ)]) = .ok ⟨jouleTy, .f r⟩ ∧
    |(r.q : ℝ) - 10| ≤ ((1 + 1 / 2 ^ 53) ^ 3 - 1) * 10 := by
  have m : ∀ x ∈ ([1, 2, 3] : List ℕ).map (fun n : ℕ => FVal.fin false n), MidZero x := by
    intro x hx
    simp only [List.map_cons, List.map_nil, List.mem_cons, List.not_mem_nil, or_false] at hx
    rcases hx with rfl | rfl | rfl <;> exact mz_nat (by norm_num) (by norm_num) (by decide +kernel)
  have p : ∀ x ∈ ([1, 2, 3] : List ℕ).map (fun n : ℕ => FVal.fin false n), 0 ≤ x.q := by
    intro x hx
    simp only [List.map_cons, List.map_nil, List.mem_cons, List.not_mem_nil, or_false] at hx
    rcases hx with rfl | rfl | rfl <;> norm_num [FVal.q]
  have mem : ∀ y ∈ ([3, 2, 1] : List ℕ).map (fun n : ℕ => FVal.fin false n), y ∈ ([1, 2, 3] : List ℕ).map (fun n : ℕ => FVal.fin false n) := by
    intro y hy
    simp only [List.map_cons, List.map_nil, List.mem_cons, List.not_mem_nil, or_false] at hy ⊢
    tauto
  obtain ⟨r, h, e⟩ := C100_dot_nonneg newton_metre (xs := ([1, 2, 3] : List ℕ).map fun n : ℕ => FVal.fin false n) (ys := ([3, 2, 1] : List ℕ).map fun n : ℕ => FVal.fin false n) rfl (by simp) (by simp)
    (fun x hx => ⟨m x hx, p x hx⟩) fun y hy => ⟨m y (mem y hy), p y (mem y hy)⟩
  refine ⟨r, h, e.trans_eq' ?_ |>.trans (le_of_eq ?_)⟩ <;> norm_num [dotR, FVal.q]

example : dotQtyI progEnv (vecOfQtyI boxLen [.fin false 1, .fin true 2]) (vecOfQtyI boxForce [.fin false 3, .fin false 4]) = .ok ⟨jouleTy, .f (.fin true 5)⟩ ∧
    dotQtyI progEnv (vecOfQtyI boxForce [.fin false 3, .fin false 4]) (vecOfQtyI boxLen [.fin false 1, .fin true 2]) = .ok ⟨jouleTy, .f (.fin true 5)⟩ := by
  rw [C100_dot_comm newton_metre metre_newton]
  decide +kernel

example : dotQtyI progEnv (vecOfQtyI boxLen [.fin false 1, .fin true 2]) (vecOfQtyI boxLen [.fin false 3]) = .error .rejected :=
  (C100_lengths metre_metre (by decide)).1

example : ∃ zs, addVecI progEnv true (vecOfQtyI boxLen [.fin false 1, .fin false 2]) (vecOfQtyI boxLen [.fin false 3, .fin false 2]) = .ok (vecOfQtyI boxLen zs) ∧ zs.length = 2 := by
  obtain ⟨zs, h, l, -⟩ := C100_add progEnv (t := boxLen) rfl true (xs := [.fin false 1, .fin false 2]) (ys := [.fin false 3, .fin false 2])
    (.cons ⟨⟨trivial, ⟨by norm_num, by decide +kernel⟩⟩, ⟨trivial, ⟨by norm_num, by decide +kernel⟩⟩, by decide +kernel⟩
      (.cons ⟨⟨trivial, ⟨by norm_num, by decide +kernel⟩⟩, ⟨trivial, ⟨by norm_num, by decide +kernel⟩⟩, by decide +kernel⟩ .nil))
  exact ⟨zs, h, l⟩

/-- The vector of the program times two metres. -/
example : ∃ zs, scaleVecI progEnv ⟨boxLen, .f (.fin false (2 : ℕ))⟩ (vecOfQtyI boxLen [.fin false (3 : ℕ), .fin false (1 : ℕ)]) = .ok (vecOfQtyI boxArea zs) ∧ zs.length = 2 := by
  obtain ⟨zs, h, l, -⟩ := C100_scale metre_metre (x := .fin false (2 : ℕ)) (mz_nat (by norm_num) (by norm_num) (by decide +kernel)) (ys := [.fin false (3 : ℕ), .fin false (1 : ℕ)]) (by
    intro y hy
    simp only [List.mem_cons, List.not_mem_nil, or_false] at hy
    rcases hy with rfl | rfl <;> exact mz_nat (by norm_num) (by norm_num) (by decide +kernel))
  exact ⟨zs, h, l⟩

/-- The matrix of the program times its vector, and the vector of forces times the matrix. -/
example : matVecI progEnv ([[.fin false 1, .fin false 2, .fin false 3], [.fin false 4, .fin false 5, .fin false 6], [.fin false 7, .fin false 8, .fin false 9]].map (vecOfQtyI boxLen))
      (vecOfQtyI boxLen [.fin false 3, .fin false 2, .fin false 1]) = .ok (vecOfQtyI boxArea [.fin false 10, .fin false 28, .fin false 46]) ∧
    vecMatI progEnv 3 (vecOfQtyI boxForce [.fin false 1, .fin false 2, .fin false 3])
      ([[.fin false 1, .fin false 2, .fin false 3], [.fin false 4, .fin false 5, .fin false 6], [.fin false 7, .fin false 8, .fin false 9]].map (vecOfQtyI boxLen)) =
        .ok (vecOfQtyI jouleTy [.fin false 30, .fin false 36, .fin false 42]) ∧
    numVecI (.int .i32) (.i 2) (vecOfQtyI boxLen [.fin false 3, .fin false 2, .fin false 1]) = .ok (vecOfQtyI boxLen [.fin false 6, .fin false 4, .fin false 2]) := by
  refine ⟨?_, ?_, ?_⟩ <;> decide +kernel

/-- The hypotheses for a matrix of two rows and columns. -/
example : (∃ zs, matVecI progEnv ([[.fin false (1 : ℕ), .fin false (2 : ℕ)], [.fin false (2 : ℕ), .fin false (1 : ℕ)]].map (vecOfQtyI boxForce)) (vecOfQtyI boxLen [.fin false (1 : ℕ), .fin false (2 : ℕ)]) =
      .ok (vecOfQtyI jouleTy zs) ∧ zs.length = 2) ∧
    ∃ zs, vecMatI progEnv 2 (vecOfQtyI boxForce [.fin false (1 : ℕ), .fin false (2 : ℕ)]) ([[.fin false (1 : ℕ), .fin false (2 : ℕ)], [.fin false (2 : ℕ), .fin false (1 : ℕ)]].map (vecOfQtyI boxLen)) =
      .ok (vecOfQtyI jouleTy zs) ∧ zs.length = 2 := by
  have a : MidZero (.fin false (1 : ℕ)) := mz_nat (by norm_num) (by norm_num) (by decide +kernel)
  have b : MidZero (.fin false (2 : ℕ)) := mz_nat (by norm_num) (by norm_num) (by decide +kernel)
  have hv : ∀ y ∈ ([.fin false (1 : ℕ), .fin false (2 : ℕ)] : List FVal), MidZero y := by
    intro y hy
    simp only [List.mem_cons, List.not_mem_nil, or_false] at hy
    rcases hy with rfl | rfl
    · exact a
    · exact b
  have hw : ∀ y ∈ ([.fin false (2 : ℕ), .fin false (1 : ℕ)] : List FVal), MidZero y := by
    intro y hy
    simp only [List.mem_cons, List.not_mem_nil, or_false] at hy
    rcases hy with rfl | rfl
    · exact b
    · exact a
  have hm : ∀ row ∈ ([[.fin false (1 : ℕ), .fin false (2 : ℕ)], [.fin false (2 : ℕ), .fin false (1 : ℕ)]] : List (List FVal)), row.length = 2 ∧ ∀ x ∈ row, MidZero x := by
    intro row hr
    simp only [List.mem_cons, List.not_mem_nil, or_false] at hr
    rcases hr with rfl | rfl
    · exact ⟨rfl, hv⟩
    · exact ⟨rfl, hw⟩
  obtain ⟨zs, h1, h2, -⟩ := C100_matrix_vector newton_metre (m := [[.fin false (1 : ℕ), .fin false (2 : ℕ)], [.fin false (2 : ℕ), .fin false (1 : ℕ)]]) (v := [.fin false (1 : ℕ), .fin false (2 : ℕ)])
    (by simp) (by simp) hv hm
  obtain ⟨ws, k1, k2, -⟩ := C100_vector_matrix newton_metre (n := 2) (v := [.fin false (1 : ℕ), .fin false (2 : ℕ)]) (m := [[.fin false (1 : ℕ), .fin false (2 : ℕ)], [.fin false (2 : ℕ), .fin false (1 : ℕ)]])
    (by simp) (by simp) rfl hv hm
  exact ⟨⟨zs, h1, h2⟩, ws, k1, k2⟩

/-- C100: the error is not relative to the result, where terms cancel: (2^53, 1, -2^53) times (1, 1, 1) is zero instead of one, and the order of the elements matters. -/
theorem C100_cancellation_wrong :
    dotQtyI progEnv (vecOfQtyI boxLen [.fin false (2 ^ 53), .fin false 1, .fin true (2 ^ 53)]) (vecOfQtyI boxLen [.fin false 1, .fin false 1, .fin false 1]) = .ok ⟨boxArea, .f (.fin false 0)⟩ ∧
    dotQtyI progEnv (vecOfQtyI boxLen [.fin false (2 ^ 53), .fin true (2 ^ 53), .fin false 1]) (vecOfQtyI boxLen [.fin false 1, .fin false 1, .fin false 1]) = .ok ⟨boxArea, .f (.fin false 1)⟩ ∧
    dotR [.fin false (2 ^ 53), .fin false 1, .fin true (2 ^ 53)] [.fin false 1, .fin false 1, .fin false 1] = 1 := by
  refine ⟨by decide +kernel, by decide +kernel, ?_⟩
  norm_num [dotR, FVal.q]

end Verif
