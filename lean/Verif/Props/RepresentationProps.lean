import Verif.Representation
import Verif.Props.ConversionProps

/-!
# C76: representation types supplied by the user

Which types are representations, and what `quantity_cast` computes for them: the arithmetic types, vectors of arithmetic types, and
any type whose operators are those of a vector space.
-/

set_option linter.unusedTactic false

namespace Verif

namespace TypeSys

/-! ### Which types are representations -/

/-- `T::value_type::…::value_type`. -/
inductive Chain (S : TypeSys) : S.Ty → S.Ty → Prop where
  | one {t v : S.Ty} : S.valueType t = some v → Chain S t v
  | more {t v w : S.Ty} : S.valueType t = some v → Chain S v w → Chain S t w

theorem wrappedIn_enough (S : TypeSys) : ∀ (k j : ℕ) (t : S.Ty), S.depth t ≤ k → S.depth t ≤ j → S.wrappedIn k t = S.wrappedIn j t
  | 0, j, t, hk, _ => by
    have hv : S.valueType t = none := by
      cases h : S.valueType t with
      | none => rfl
      | some v => have := S.depth_lt t v h; omega
    rw [wrappedIn, wrappedIn, hv]
  | k + 1, 0, t, _, hj => by
    have hv : S.valueType t = none := by
      cases h : S.valueType t with
      | none => rfl
      | some v => have := S.depth_lt t v h; omega
    rw [wrappedIn, wrappedIn, hv]
  | k + 1, j + 1, t, hk, hj => by
    rw [wrappedIn, wrappedIn]
    cases h : S.valueType t with
    | none => rfl
    | some v =>
      have := S.depth_lt t v h
      simp only [wrappedIn_enough S k j v (by omega) (by omega)]

theorem treatIn_enough (S : TypeSys) : ∀ (k j : ℕ) (t : S.Ty), S.depth t ≤ k → S.depth t ≤ j → S.treatFloatingIn k t = S.treatFloatingIn j t
  | 0, j, t, hk, _ => by
    have hv : S.valueType t = none := by
      cases h : S.valueType t with
      | none => rfl
      | some v => have := S.depth_lt t v h; omega
    rw [treatFloatingIn, treatFloatingIn, hv]
  | k + 1, 0, t, _, hj => by
    have hv : S.valueType t = none := by
      cases h : S.valueType t with
      | none => rfl
      | some v => have := S.depth_lt t v h; omega
    rw [treatFloatingIn, treatFloatingIn, hv]
  | k + 1, j + 1, t, hk, hj => by
    rw [treatFloatingIn, treatFloatingIn]
    cases h : S.valueType t with
    | none => rfl
    | some v =>
      have := S.depth_lt t v h
      simp only [treatIn_enough S k j v (by omega) (by omega)]

theorem wrapped_some {S : TypeSys} {t v : S.Ty} (h : S.valueType t = some v) :
    S.wrapped t = (S.quantity v || S.quantityLike v || S.wrapped v) := by
  have hd := S.depth_lt t v h
  obtain ⟨k, hk⟩ : ∃ k, S.depth t = k + 1 := ⟨S.depth t - 1, by omega⟩
  rw [wrapped, hk, wrappedIn, h, wrapped]
  simp only [wrappedIn_enough S k (S.depth v) v (by omega) le_rfl]

theorem wrapped_none {S : TypeSys} {t : S.Ty} (h : S.valueType t = none) :
    S.wrapped t = (match S.quantityType t with | some q => S.quantity q | none => false) := by
  rw [wrapped, wrappedIn, h]; rfl

theorem treat_some {S : TypeSys} {t v : S.Ty} (h : S.valueType t = some v) : S.treatFloating t = S.treatFloating v := by
  have hd := S.depth_lt t v h
  obtain ⟨k, hk⟩ : ∃ k, S.depth t = k + 1 := ⟨S.depth t - 1, by omega⟩
  rw [treatFloating, hk, treatFloatingIn, h, treatFloating]
  simp only [treatIn_enough S k (S.depth v) v (by omega) le_rfl]

theorem treat_none {S : TypeSys} {t : S.Ty} (h : S.valueType t = none) : S.treatFloating t = S.floating t := by
  rw [treatFloating, treatFloatingIn, h]

end TypeSys

open TypeSys

/-- A type wraps a quantity: following `value_type` from it one meets a quantity, a type like a quantity, or a type whose `quantity_type` is a
quantity. -/
def Wraps (S : TypeSys) (t : S.Ty) : Prop :=
  (∃ v, Chain S t v ∧ (S.quantity v ∨ S.quantityLike v)) ∨
  (∃ v q, (v = t ∨ Chain S t v) ∧ S.valueType v = none ∧ S.quantityType v = some q ∧ S.quantity q)

theorem wrapped_iff (S : TypeSys) : ∀ (k : ℕ) (t : S.Ty), S.depth t < k → (S.wrapped t = true ↔ Wraps S t) := by
  intro k
  induction k with
  | zero => intro t h; omega
  | succ k ih =>
    intro t ht
    cases hv : S.valueType t with
    | none =>
      rw [wrapped_none hv]
      have nochain : ∀ w, ¬ Chain S t w := by
        intro w hw
        cases hw with
        | one h => rw [hv] at h; cases h
        | more h _ => rw [hv] at h; cases h
      constructor
      · intro h
        cases hq : S.quantityType t with
        | none => rw [hq] at h; cases h
        | some q => rw [hq] at h; exact Or.inr ⟨t, q, Or.inl rfl, hv, hq, h⟩
      · rintro (⟨v, hc, -⟩ | ⟨v, q, rfl | hc, h1, h2, h3⟩)
        · exact absurd hc (nochain v)
        · rw [h2]; exact h3
        · exact absurd hc (nochain v)
    | some v =>
      have hd := S.depth_lt t v hv
      rw [wrapped_some hv, Bool.or_eq_true, Bool.or_eq_true, ih v (by omega)]
      constructor
      · rintro ((h | h) | h)
        · exact Or.inl ⟨v, .one hv, Or.inl h⟩
        · exact Or.inl ⟨v, .one hv, Or.inr h⟩
        · rcases h with ⟨w, hc, h⟩ | ⟨w, q, hw, h1, h2, h3⟩
          · exact Or.inl ⟨w, .more hv hc, h⟩
          · refine Or.inr ⟨w, q, Or.inr ?_, h1, h2, h3⟩
            rcases hw with rfl | hw
            · exact .one hv
            · exact .more hv hw
      · rintro (⟨w, hc, h⟩ | ⟨w, q, hw, h1, h2, h3⟩)
        · cases hc with
          | one h' => rw [hv] at h'; cases h'; exact Or.inl h
          | more h' hc => rw [hv] at h'; cases h'; exact Or.inr (Or.inl ⟨w, hc, h⟩)
        · rcases hw with rfl | hw
          · rw [hv] at h1; cases h1
          · cases hw with
            | one h' => rw [hv] at h'; cases h'; exact Or.inr (Or.inr ⟨_, q, Or.inl rfl, h1, h2, h3⟩)
            | more h' hc => rw [hv] at h'; cases h'; exact Or.inr (Or.inr ⟨w, q, Or.inr hc, h1, h2, h3⟩)

/-- The element type in the end: follow `value_type` as long as there is one. -/
def Innermost (S : TypeSys) (t e : S.Ty) : Prop := (e = t ∨ Chain S t e) ∧ S.valueType e = none

/-- C76: a representation is neither a quantity, nor like one, nor wraps one at any depth; nested containers are treated as floating point if
their innermost elements are. -/
theorem C76_representation (S : TypeSys) (t : S.Ty) :
    (S.representation t = true → ¬ S.quantity t ∧ ¬ S.quantityLike t ∧ ¬ Wraps S t ∧ S.regular t ∧ S.scalable t) ∧
    (¬ S.quantity t → ¬ S.quantityLike t → ¬ Wraps S t → S.regular t → S.scalable t → S.representation t = true) ∧
    (∃ e, Innermost S t e) ∧ (∀ e, Innermost S t e → (S.treatFloating t = true ↔ S.floating e = true)) := by
  have hw := wrapped_iff S (S.depth t + 1) t (Nat.lt_succ_self _)
  refine ⟨?_, ?_, ?_, ?_⟩
  · intro h
    simp only [TypeSys.representation, Bool.and_eq_true, Bool.not_eq_true'] at h
    obtain ⟨⟨⟨⟨h1, h2⟩, h3⟩, h4⟩, h5⟩ := h
    refine ⟨by simp [h1], by simp [h2], fun h => ?_, h4, h5⟩
    rw [← hw, h3] at h; cases h
  · intro h1 h2 h3 h4 h5
    have : S.wrapped t = false := by
      cases h : S.wrapped t with
      | false => rfl
      | true => exact absurd (hw.mp h) h3
    simp [TypeSys.representation, h1, h2, this, h4, h5]
  · have : ∀ k (t : S.Ty), S.depth t < k → ∃ e, Innermost S t e := by
      intro k
      induction k with
      | zero => intro t h; omega
      | succ k ih =>
        intro t ht
        cases hv : S.valueType t with
        | none => exact ⟨t, Or.inl rfl, hv⟩
        | some v =>
          have hd := S.depth_lt t v hv
          obtain ⟨e, h1, h2⟩ := ih v (by omega)
          refine ⟨e, Or.inr ?_, h2⟩
          rcases h1 with rfl | h1
          · exact .one hv
          · exact .more hv h1
    exact this _ t (Nat.lt_succ_self _)
  · clear hw
    rintro e ⟨h1, h2⟩
    rcases h1 with rfl | h1
    · rw [treat_none h2]
    · induction h1 with
      | one h => rw [treat_some h, treat_none h2]
      | more h _ ih => rw [treat_some h]; exact ih h2

example (fl : Rounding) : Innermost (vecSys (vecSys (builtin fl) .promoting) .promoting) (.vec (.vec (.flt .f32))) (.sc (.sc (.flt .f32))) :=
  ⟨Or.inr (.more (v := VTy.sc (.vec (.flt .f32))) rfl (.one rfl)), rfl⟩

/-- Vectors of something that is a quantity are no representations. -/
example (fl : Rounding) :
    (vecSys { builtin fl with quantity := fun r => decide (r = .flt .f80) } .promoting).representation (.vec (.flt .f80)) = false := by
  cases h : (vecSys { builtin fl with quantity := fun r => decide (r = .flt .f80) } .promoting).representation (.vec (.flt .f80)) with
  | false => rfl
  | true =>
    exact absurd (Or.inl ⟨.sc (.flt .f80), .one rfl, Or.inl rfl⟩) ((C76_representation _ _).1 h).2.2.1

/-! ### The arithmetic types -/

/-- A rounding that keeps the numbers 1 and 10. -/
def KeepsOneTen (fl : Rounding) : Prop := ∀ f, fl f 1 = 1 ∧ fl f 10 = 10

section
variable (fl : Rounding)

theorem builtin_as (t : Rep) (x : Rep × Num) : (builtin fl).as t x = (do let y ← convNum fl x.1 t x.2; Except.ok (t, y)) := rfl
theorem builtin_times (x y : Rep × Num) :
    (builtin fl).times x y = (do let z ← numOp fl .mul x.1 y.1 x.2 y.2; Except.ok (x.1.arith y.1, z)) := rfl
theorem builtin_over (x y : Rep × Num) :
    (builtin fl).over x y = (do let z ← numOp fl .div x.1 y.1 x.2 y.2; Except.ok (x.1.arith y.1, z)) := rfl

theorem arith_flt (f : FltTy) : (Rep.flt f).arith (.flt f) = .flt f := by cases f <;> rfl

theorem builtin_accepts (a b : Rep) : (builtin fl).castAccepts a b = true := by
  have hc : ∀ x y : Rep, x.common y = y.common x := by
    intro x y; unfold Rep.common
    split
    · rename_i h; rw [h, if_pos rfl]
    · rename_i h; rw [if_neg (Ne.symm h), Rep.arith_comm]
  simp [TypeSys.castAccepts, TypeSys.scalableWith, TypeSys.commonWith, TypeSys.scalable, TypeSys.castableNumber, TypeSys.scalableNumber, builtin, hc]

theorem builtin_traits (a b : Rep) : (builtin fl).castTraits a b = some (castRep a b, castRep a b) := by
  have hc : ∀ x y : Rep, x.common y = y.common x := by
    intro x y; unfold Rep.common
    split
    · rename_i h; rw [h, if_pos rfl]
    · rename_i h; rw [if_neg (Ne.symm h), Rep.arith_comm]
  simp [TypeSys.castTraits, TypeSys.commonWith, builtin, hc, castRep]

theorem numOp_flt (op : BinOp) (f : FltTy) (x y : ℚ) :
    numOp fl op (.flt f) (.flt f) (.f x) (.f y) = (do let z ← fltOp fl f op x y; Except.ok (Num.f z)) := by
  unfold numOp
  rw [arith_flt, convNum_self, convNum_self]; rfl

theorem builtin_loop (hfl : KeepsOneTen fl) (f : FltTy) (op : BinOp)
    (o : Rep × Num → Rep × Num → C (Rep × Num))
    (ho : ∀ x y, o x y = (do let z ← numOp fl op x.1 y.1 x.2 y.2; Except.ok (x.1.arith y.1, z))) (k : ℕ) (r : ℚ) :
    (builtin fl).fpow10LoopG o (.flt f) k (.flt f, .f r) = (do let z ← fpow10Loop fl f op k r; Except.ok (Rep.flt f, Num.f z)) := by
  induction k generalizing r with
  | zero => rfl
  | succ k ih =>
    have h10 : convNum fl (.flt .f64) (.flt f) (.f 10) = .ok (.f 10) := by
      unfold convNum; split
      · rfl
      · exact congrArg (fun x => Except.ok (Num.f x)) (hfl f).2
    rw [TypeSys.fpow10LoopG, fpow10Loop]
    rw [builtin_as]
    change ((do
        let ten ← (do let y ← convNum fl (.flt .f64) (.flt f) (.f ((10 : ℤ) : ℚ)); Except.ok (Rep.flt f, y))
        let x ← o (Rep.flt f, Num.f r) ten
        let y ← (builtin fl).as (Rep.flt f) x
        (builtin fl).fpow10LoopG o (.flt f) k y) : C (Rep × Num)) = _
    rw [show ((10 : ℤ) : ℚ) = 10 from by norm_num, h10]
    simp only [ok_bind, ho, numOp_flt]
    cases h : fltOp fl f op r 10 with
    | error e => rfl
    | ok z =>
      simp only [ok_bind, arith_flt, builtin_as, convNum_self]
      exact ih z

theorem builtin_fpow10 (hfl : KeepsOneTen fl) (f : FltTy) (e : Int) :
    (builtin fl).fpow10G (.flt f) e = (do let z ← fpow10 fl f e; Except.ok (Rep.flt f, Num.f z)) := by
  have h1 : (builtin fl).as (.flt f) (Rep.flt .f64, Num.f ((1 : ℤ) : ℚ)) = .ok (Rep.flt f, Num.f 1) := by
    rw [builtin_as]
    unfold convNum
    split
    · norm_num
    · simp only [Int.cast_one, (hfl f).1, ok_bind]
  unfold TypeSys.fpow10G fpow10
  change ((do
    let one ← (builtin fl).as (.flt f) (Rep.flt .f64, Num.f ((1 : ℤ) : ℚ))
    if e = 0 then .ok one
    else if e < 0 then (builtin fl).fpow10LoopG (builtin fl).over (.flt f) e.natAbs one
    else (builtin fl).fpow10LoopG (builtin fl).times (.flt f) e.natAbs one) : C (Rep × Num)) = _
  rw [h1]
  simp only [ok_bind]
  split
  · rfl
  split
  · exact builtin_loop fl hfl f .div _ (builtin_over fl) _ _
  · exact builtin_loop fl hfl f .mul _ (builtin_times fl) _ _

theorem numOp_int (op : BinOp) {t : IntTy} (ht : t = .i64 ∨ t = .u64) (x y : Int) :
    numOp fl op (.int t) (.int t) (.i x) (.i y) = (do let z ← intOp t op x y; Except.ok (Num.i z)) := by
  have h : (Rep.int t).arith (.int t) = .int t := by rcases ht with rfl | rfl <;> rfl
  unfold numOp
  rw [h, convNum_self, convNum_self]; rfl

theorem builtin_ratioNum_flt (f : FltTy) (n : Int) : (builtin fl).ratioNum (.flt f) n = .ok (Rep.flt f, Num.f (fl f n)) := by
  unfold TypeSys.ratioNum
  rw [builtin_as]
  simp [convNum]

theorem builtin_ratioNum_int {t : IntTy} (n : Int) (hn : I64 n) : (builtin fl).ratioNum (.int t) n = .ok (Rep.int t, Num.i (t.wrap n)) := by
  unfold TypeSys.ratioNum
  rw [builtin_as]
  unfold convNum
  split
  · rename_i h
    cases h
    rw [IntTy.wrap_of_in (show IntTy.In .i64 n from hn)]
    rfl
  · rfl

theorem treat_builtin (r : Rep) : (builtin fl).treatFloating r = r.floating := TypeSys.treat_none rfl

end

theorem ipow10_in {e p : Int} (h : ipow10 e = .ok p) : I64 p := by
  obtain ⟨-, h1, rfl⟩ := ipow10_eq_ok.1 h
  exact h1

theorem builtin_representation (fl : Rounding) (a : Rep) : (builtin fl).representation a = true := by
  have h1 := TypeSys.wrapped_none (S := builtin fl) (t := a) rfl
  have hc : (a.common (.int .i64)) = (Rep.int .i64).common a := by
    unfold Rep.common
    split
    · rename_i h; rw [h, if_pos rfl]
    · rename_i h; rw [if_neg (Ne.symm h), Rep.arith_comm]
  simp [TypeSys.representation, h1, TypeSys.scalable, TypeSys.castableNumber, TypeSys.commonWith, TypeSys.scalableNumber, builtin, hc]

/-- C76: for the arithmetic types the general definition is that of C22, C23, C24 and C33. -/
theorem C76_arithmetic (fl : Rounding) (hfl : KeepsOneTen fl) (a b : Rep) (c : Ratio) (hn : I64 c.num) (hd : I64 c.den) (v : Num)
    (hv : v.Typed a) : (builtin fl).representation a = true ∧ (builtin fl).castG a b c v = castNum fl a b c v := by
  refine ⟨builtin_representation fl a, ?_⟩
  unfold TypeSys.castG castNum
  rw [builtin_accepts, builtin_traits]
  simp only [if_true, builtin_as, treat_builtin]
  cases hr : castRep a b with
  | flt f =>
    obtain ⟨x, hx⟩ : ∃ x, convNum fl a (.flt f) v = .ok (.f x) := by
      unfold convNum
      split
      · rename_i h
        cases v with
        | i x => obtain ⟨t, e, -⟩ := hv; rw [h] at e; cases e
        | f x => exact ⟨x, rfl⟩
      · cases v <;> exact ⟨_, rfl⟩
    rw [hx]
    simp only [ok_bind, Rep.floating, if_true, builtin_ratioNum_flt, builtin_fpow10 fl hfl, castFlt]
    cases fpow10 fl f c.exp with
    | error e => rfl
    | ok p =>
      simp only [ok_bind, builtin_times, builtin_over, numOp_flt]
      cases fltOp fl f .mul (fl f c.num) p with
      | error e => rfl
      | ok s =>
        simp only [ok_bind, arith_flt, numOp_flt]
        cases fltOp fl f .div s (fl f c.den) with
        | error e => rfl
        | ok d =>
          simp only [ok_bind, arith_flt, numOp_flt]
          cases fltOp fl f .mul x d with
          | error e => rfl
          | ok y =>
            simp only [ok_bind]
            cases convNum fl (.flt f) b (.f y) <;> rfl
  | int t =>
    have hab : ∃ a' b', a = .int a' ∧ b = .int b' ∧ (t = .i64 ∨ t = .u64) := by
      cases a with
      | flt f => cases b with
        | int b' => simp [castRep, Rep.common, Rep.arith] at hr
        | flt g => cases f <;> cases g <;> cases hr
      | int a' => cases b with
        | int b' => 
          refine ⟨a', b', rfl, rfl, ?_⟩
          rw [castRep_int] at hr
          cases hr
          split <;> simp
        | flt g => simp [castRep, Rep.common, Rep.arith] at hr
    obtain ⟨a', b', rfl, rfl, ht⟩ := hab
    have harith : (Rep.int t).arith (.int t) = .int t := by rcases ht with rfl | rfl <;> rfl
    obtain ⟨x, hx⟩ : ∃ x, convNum fl (.int a') (.int t) v = .ok (.i x) := by
      cases v with
      | f x => obtain ⟨f, e⟩ := hv; cases e
      | i x =>
        unfold convNum
        split <;> exact ⟨_, rfl⟩
    rw [hx]
    simp only [ok_bind, Rep.floating, Bool.false_eq_true, if_false, castInt, builtin_ratioNum_int fl _ hn, builtin_ratioNum_int fl _ hd]
    by_cases he : c.exp > 0
    · rw [if_pos he, if_pos he]
      cases hp : ipow10 c.exp with
      | error e => rfl
      | ok p =>
        simp only [ok_bind, builtin_ratioNum_int fl _ (ipow10_in hp), builtin_times, builtin_over, numOp_int fl _ ht]
        cases intOp t .mul (t.wrap c.num) (t.wrap p) with
        | error e => rfl
        | ok n =>
          simp only [ok_bind, harith, numOp_int fl _ ht]
          cases intOp t .mul x n with
          | error e => rfl
          | ok m =>
            simp only [ok_bind, harith, numOp_int fl _ ht]
            cases intOp t .div m (t.wrap c.den) with
            | error e => rfl
            | ok y =>
              simp only [ok_bind]
              cases convNum fl (.int t) (.int b') (.i y) <;> rfl
    · rw [if_neg he, if_neg he]
      simp only [builtin_times, builtin_over, numOp_int fl _ ht]
      cases intOp t .mul x (t.wrap c.num) with
      | error e => rfl
      | ok m =>
        simp only [ok_bind]
        cases neg64 c.exp with
        | error e => rfl
        | ok e =>
          simp only [ok_bind]
          cases hp : ipow10 e with
          | error e => rfl
          | ok p =>
            simp only [ok_bind, builtin_ratioNum_int fl _ (ipow10_in hp), numOp_int fl _ ht]
            cases intOp t .mul (t.wrap c.den) (t.wrap p) with
            | error e => rfl
            | ok q =>
              simp only [ok_bind, harith, numOp_int fl _ ht]
              cases intOp t .div m q with
              | error e => rfl
              | ok y =>
                simp only [ok_bind]
                cases convNum fl (.int t) (.int b') (.i y) <;> rfl

example : KeepsOneTen (fun _ q => q) := fun _ => ⟨rfl, rfl⟩

example : (builtin fun _ q => q).castG (.int .i32) (.int .i16) ⟨9144, 1, -4⟩ (.i 300) = .ok (.i 274) := by
  have hv : (Num.i 300).Typed (.int .i32) := ⟨.i32, rfl, by decide⟩
  rw [(C76_arithmetic _ (fun _ => ⟨rfl, rfl⟩) _ _ _ (by decide) (by decide) _ hv).2]
  rfl

/-! ### A class around a number -/

section
variable (fl : Rounding)

theorem my_as {sp : Bool} (x : Num) : (myRep fl sp).as none (none, x) = .ok (none, x) := rfl

theorem my_ratio {sp : Bool} (n : Int) : (myRep fl sp).ratioNum none n = .ok (none, .i n) := by
  unfold TypeSys.ratioNum TypeSys.as
  simp only [convNum_self, ok_bind]

theorem my_times {sp : Bool} (x y : Int) :
    (myRep fl sp).times (none, .i x) (none, .i y) = (do let z ← intOp .i64 .mul x y; Except.ok (none, Num.i z)) := by
  unfold TypeSys.times
  simp only [numOp_int fl _ (Or.inl rfl)]
  cases intOp .i64 .mul x y <;> rfl

theorem my_over {sp : Bool} (x y : Int) :
    (myRep fl sp).over (none, .i x) (none, .i y) = (do let z ← intOp .i64 .div x y; Except.ok (none, Num.i z)) := by
  unfold TypeSys.over
  simp only [numOp_int fl _ (Or.inl rfl)]
  cases intOp .i64 .div x y <;> rfl

end

/-- C76: a class around a number that has a common type with `intmax_t` is a representation and is converted as the number is. -/
theorem C76_class (fl : Rounding) (c : Ratio) (hn : I64 c.num) (hd : I64 c.den) (x : Int) :
    (myRep fl true).representation none = true ∧
    (myRep fl true).castG none none c (.i x) = castNum fl (.int .i64) (.int .i64) c (.i x) := by
  have hw : (myRep fl true).wrapped none = false := TypeSys.wrapped_none rfl
  have hf : (myRep fl true).treatFloating none = false := TypeSys.treat_none rfl
  constructor
  · unfold TypeSys.representation
    rw [hw]; rfl
  have hacc : (myRep fl true).castAccepts none none = true := rfl
  have htr : (myRep fl true).castTraits none none = some (none, none) := rfl
  have hr : castRep (.int .i64) (.int .i64) = .int .i64 := by decide
  have w1 : IntTy.i64.wrap c.num = c.num := IntTy.wrap_of_in hn
  have w2 : IntTy.i64.wrap c.den = c.den := IntTy.wrap_of_in hd
  unfold TypeSys.castG castNum
  rw [hacc, htr, hr, convNum_self]
  simp only [if_true, hf, Bool.false_eq_true, if_false, ok_bind, my_ratio, castInt]
  erw [my_as]
  simp only [ok_bind]
  by_cases he : c.exp > 0
  · rw [if_pos he, if_pos he]
    cases hp : ipow10 c.exp with
    | error e => rfl
    | ok p =>
      have w3 : IntTy.i64.wrap p = p := IntTy.wrap_of_in (ipow10_in hp)
      simp only [ok_bind, w1, w2, w3]
      erw [my_times]
      cases intOp .i64 .mul c.num p with
      | error e => rfl
      | ok n =>
        simp only [ok_bind]
        erw [my_times]
        cases intOp .i64 .mul x n with
        | error e => rfl
        | ok m =>
          simp only [ok_bind]
          erw [my_over]
          cases intOp .i64 .div m c.den with
          | error e => rfl
          | ok y => simp only [ok_bind, convNum_self]; rfl
  · rw [if_neg he, if_neg he]
    simp only [w1]
    erw [my_times]
    cases intOp .i64 .mul x c.num with
    | error e => rfl
    | ok m =>
      simp only [ok_bind]
      cases neg64 c.exp with
      | error e => rfl
      | ok e =>
        simp only [ok_bind]
        cases hp : ipow10 e with
        | error e => rfl
        | ok p =>
          have w3 : IntTy.i64.wrap p = p := IntTy.wrap_of_in (ipow10_in hp)
          simp only [ok_bind, w2, w3]
          erw [my_times]
          cases intOp .i64 .mul c.den p with
          | error e => rfl
          | ok q =>
            simp only [ok_bind]
            erw [my_over]
            cases intOp .i64 .div m q with
            | error e => rfl
            | ok y => simp only [ok_bind, convNum_self]; rfl

/-- C76: without the specialisation of `std::common_type` the class, as it is in the documentation, is no representation. -/
theorem C76_documented_class (fl : Rounding) : (myRep fl false).representation none = false := by
  have hw : (myRep fl false).wrapped none = false := TypeSys.wrapped_none rfl
  unfold TypeSys.representation
  rw [hw]; rfl

example (fl : Rounding) : (myRep fl true).castG none none ⟨1, 1, -3⟩ (.i 2000) = .ok (.i 2) := by
  rw [(C76_class fl _ (by decide) (by decide) _).2]; rfl

/-- C76: quantities of `intmax_t` convert to quantities of the class as to `intmax_t`; nothing converts back, and nothing converts from or to
other arithmetic types. -/
theorem C76_class_and_numbers (fl : Rounding) (c : Ratio) (hn : I64 c.num) (hd : I64 c.den) (x : Int) :
    (myRep fl true).castG (some (.int .i64)) none c (.i x) = castNum fl (.int .i64) (.int .i64) c (.i x) ∧
    (∀ r v, (myRep fl true).castG none (some r) c v = .error .rejected) ∧
    (∀ r v, r ≠ .int .i64 → (myRep fl true).castG (some r) none c v = .error .rejected) := by
  refine ⟨?_, ?_, ?_⟩
  · rw [← (C76_class fl c hn hd x).2]
    have hx : (myRep fl true).as none (some (.int .i64), .i x) = .ok (none, .i x) := my_ratio fl x
    have h1 : (myRep fl true).castAccepts (some (.int .i64)) none = true := rfl
    have h2 : (myRep fl true).castTraits (some (.int .i64)) none = some (none, none) := rfl
    have h3 : (myRep fl true).castAccepts none none = true := rfl
    have h4 : (myRep fl true).castTraits none none = some (none, none) := rfl
    have h5 : (myRep fl true).as none (none, .i x) = .ok (none, .i x) := rfl
    unfold TypeSys.castG
    rw [h1, h2, h3, h4]
    simp only [hx, h5]
  · intro r v
    have : (myRep fl true).castAccepts none (some r) = false := by
      by_cases hr : r = .int .i64
      · subst hr; rfl
      · simp [TypeSys.castAccepts, TypeSys.scalableWith, TypeSys.commonWith, hr]
    unfold TypeSys.castG
    rw [this]; rfl
  · intro r v hr
    have : (myRep fl true).castAccepts (some r) none = false := by
      simp [TypeSys.castAccepts, TypeSys.scalableWith, TypeSys.commonWith, hr]
    unfold TypeSys.castG
    rw [this]; rfl

example (fl : Rounding) : (myRep fl true).castG (some (.int .i64)) none ⟨1, 1, 3⟩ (.i 7) = .ok (.i 7000) := by
  rw [(C76_class_and_numbers fl _ (by decide) (by decide) _).1]; rfl

/-! ### Vectors -/

theorem mapM_ok_iff {α β : Type} (f : α → C β) : ∀ (xs : List α) (ys : List β),
    xs.mapM f = .ok ys ↔ List.Forall₂ (fun x y => f x = .ok y) xs ys := by
  intro xs
  induction xs with
  | nil => intro ys; simp [List.mapM_nil, pure, Except.pure, eq_comm]
  | cons x xs ih =>
    intro ys
    rw [List.mapM_cons]
    constructor
    · intro h
      obtain ⟨y, hy, h⟩ := bind_ok.1 h
      obtain ⟨zs, hz, h⟩ := bind_ok.1 h
      cases h
      exact .cons hy ((ih zs).1 hz)
    · intro h
      cases h with
      | cons hy h => rw [hy, ok_bind, (ih _).2 h]; rfl

theorem forall₂_comp {α β γ : Type} {P : α → β → Prop} {Q : β → γ → Prop} {R : α → γ → Prop} (h : ∀ x z, R x z ↔ ∃ y, P x y ∧ Q y z)
    (xs : List α) (zs : List γ) :
    List.Forall₂ R xs zs ↔ ∃ ys, List.Forall₂ P xs ys ∧ List.Forall₂ Q ys zs := by
  induction xs generalizing zs with
  | nil =>
    constructor
    · rintro ⟨⟩; exact ⟨[], .nil, .nil⟩
    · rintro ⟨ys, h1, h2⟩; cases h1; cases h2; exact .nil
  | cons x xs ih =>
    constructor
    · intro h'
      cases h' with
      | cons a b =>
        obtain ⟨y, p, q⟩ := (h _ _).1 a
        obtain ⟨ys, p', q'⟩ := (ih _).1 b
        exact ⟨y :: ys, .cons p p', .cons q q'⟩
    · rintro ⟨ys, h1, h2⟩
      cases h1 with
      | cons a b => cases h2 with
        | cons c d => exact .cons ((h _ _).2 ⟨_, a, c⟩) ((ih _).2 ⟨_, b, d⟩)

section
variable (fl : Rounding)

theorem common_comm (x y : Rep) : x.common y = y.common x := by
  unfold Rep.common
  split
  · rename_i h; rw [h, if_pos rfl]
  · rename_i h; rw [if_neg (Ne.symm h), Rep.arith_comm]

/-- Vectors over the arithmetic types. -/
abbrev vecs (fl : Rounding) (m : VecMode) : TypeSys := vecSys (builtin fl) m

theorem vec_accepts {m : VecMode} (hm : m ≠ .strict) (a b : Rep) : (vecs fl m).castAccepts (.vec a) (.vec b) = true := by
  cases m with
  | strict => exact absurd rfl hm
  | _ => simp [TypeSys.castAccepts, TypeSys.scalableWith, TypeSys.commonWith, TypeSys.scalable, TypeSys.castableNumber, TypeSys.scalableNumber,
          vecs, vecSys, builtin, common_comm, VecMode.elem]

theorem vec_traits {m : VecMode} (hm : m ≠ .strict) (a b : Rep) :
    (vecs fl m).castTraits (.vec a) (.vec b) = some (.sc (castRep a b), .vec (a.common b)) := by
  cases m with
  | strict => exact absurd rfl hm
  | _ => simp [TypeSys.castTraits, TypeSys.commonWith, TypeSys.scalableNumber, vecs, vecSys, builtin, common_comm, VecMode.elem, castRep]

theorem vec_treat (m : VecMode) (t : Rep) : (vecs fl m).treatFloating (.vec t) = t.floating := by
  rw [TypeSys.treat_some (S := vecs fl m) (t := .vec t) (v := .sc t) rfl, TypeSys.treat_none rfl]

/-- The numbers of the system of vectors behave as the numbers. -/
def sc (x : Rep × Num) : VTy Rep × VVal Num := (.sc x.1, .sc x.2)

theorem sc_as (m : VecMode) (t : Rep) (x : Rep × Num) :
    (vecs fl m).as (.sc t) (sc x) = (do let y ← (builtin fl).as t x; Except.ok (sc y)) := by
  unfold TypeSys.as
  simp only [sc, vecs, vecSys, builtin]
  cases convNum fl x.1 t x.2 <;> rfl

theorem sc_times (m : VecMode) (x y : Rep × Num) :
    (vecs fl m).times (sc x) (sc y) = (do let z ← (builtin fl).times x y; Except.ok (sc z)) := by
  unfold TypeSys.times
  simp only [sc, vecs, vecSys, builtin, Option.map_some]
  cases numOp fl .mul x.1 y.1 x.2 y.2 <;> rfl

theorem sc_over (m : VecMode) (x y : Rep × Num) :
    (vecs fl m).over (sc x) (sc y) = (do let z ← (builtin fl).over x y; Except.ok (sc z)) := by
  unfold TypeSys.over
  simp only [sc, vecs, vecSys, builtin, Option.map_some]
  cases numOp fl .div x.1 y.1 x.2 y.2 <;> rfl

theorem sc_ratioNum (m : VecMode) (t : Rep) (n : Int) :
    (vecs fl m).ratioNum (.sc t) n = (do let y ← (builtin fl).ratioNum t n; Except.ok (sc y)) := sc_as fl m t (_, _)

theorem sc_loop (m : VecMode) (t : Rep) (o : VTy Rep × VVal Num → VTy Rep × VVal Num → C (VTy Rep × VVal Num))
    (o' : Rep × Num → Rep × Num → C (Rep × Num)) (ho : ∀ x y, o (sc x) (sc y) = (do let z ← o' x y; Except.ok (sc z))) (k : ℕ) (r : Rep × Num) :
    (vecs fl m).fpow10LoopG o (.sc t) k (sc r) = (do let z ← (builtin fl).fpow10LoopG o' t k r; Except.ok (sc z)) := by
  induction k generalizing r with
  | zero => rfl
  | succ k ih =>
    rw [TypeSys.fpow10LoopG, TypeSys.fpow10LoopG]
    have h10 := sc_as fl m t (Rep.flt .f64, Num.f ((10 : ℤ) : ℚ))
    change ((do
        let ten ← (vecs fl m).as (.sc t) (sc (Rep.flt .f64, Num.f ((10 : ℤ) : ℚ)))
        let x ← o (sc r) ten
        let y ← (vecs fl m).as (.sc t) x
        (vecs fl m).fpow10LoopG o (.sc t) k y) : C (VTy Rep × VVal Num)) = ((do
        let z ← (do
          let ten ← (builtin fl).as t (Rep.flt .f64, Num.f ((10 : ℤ) : ℚ))
          let x ← o' r ten
          let y ← (builtin fl).as t x
          (builtin fl).fpow10LoopG o' t k y)
        Except.ok (sc z)) : C (VTy Rep × VVal Num))
    rw [h10]
    cases (builtin fl).as t (Rep.flt .f64, Num.f ((10 : ℤ) : ℚ)) with
    | error e => rfl
    | ok ten =>
      simp only [ok_bind, ho]
      cases o' r ten with
      | error e => rfl
      | ok x =>
        simp only [ok_bind]
        have hx := sc_as fl m t x
        cases h : (builtin fl).as t x with
        | error e => rw [h] at hx; erw [hx]; rfl
        | ok y => rw [h] at hx; erw [hx]; exact ih y

theorem sc_fpow10 (m : VecMode) (t : Rep) (e : Int) :
    (vecs fl m).fpow10G (.sc t) e = (do let y ← (builtin fl).fpow10G t e; Except.ok (sc y)) := by
  have h1 := sc_as fl m t (Rep.flt .f64, Num.f ((1 : ℤ) : ℚ))
  unfold TypeSys.fpow10G
  change ((do
    let one ← (vecs fl m).as (.sc t) (sc (Rep.flt .f64, Num.f ((1 : ℤ) : ℚ)))
    if e = 0 then .ok one
    else if e < 0 then (vecs fl m).fpow10LoopG (vecs fl m).over (.sc t) e.natAbs one
    else (vecs fl m).fpow10LoopG (vecs fl m).times (.sc t) e.natAbs one) : C (VTy Rep × VVal Num)) = ((do
    let z ← (do
      let one ← (builtin fl).as t (Rep.flt .f64, Num.f ((1 : ℤ) : ℚ))
      if e = 0 then .ok one
      else if e < 0 then (builtin fl).fpow10LoopG (builtin fl).over t e.natAbs one
      else (builtin fl).fpow10LoopG (builtin fl).times t e.natAbs one)
    Except.ok (sc z)) : C (VTy Rep × VVal Num))
  rw [h1]
  cases (builtin fl).as t (Rep.flt .f64, Num.f ((1 : ℤ) : ℚ)) with
  | error e => rfl
  | ok one =>
    simp only [ok_bind]
    split
    · rfl
    split
    · exact sc_loop fl m t _ _ (sc_over fl m) _ _
    · exact sc_loop fl m t _ _ (sc_times fl m) _ _

end

theorem forall₂_congr_mem {α β : Type} {P Q : α → β → Prop} : ∀ (xs : List α) (ys : List β), (∀ x ∈ xs, ∀ y, P x y ↔ Q x y) →
    (List.Forall₂ P xs ys ↔ List.Forall₂ Q xs ys) := by
  intro xs
  induction xs with
  | nil => intro ys _; simp
  | cons x xs ih =>
    intro ys h
    cases ys with
    | nil => simp
    | cons y ys => simp [h x (by simp), ih ys fun x hx => h x (by simp [hx])]

section
variable (fl : Rounding)

theorem vec_as (m : VecMode) (a t : Rep) (xs : List Num) :
    (vecs fl m).as (.vec t) (.vec a, .vec xs) = (do let ys ← xs.mapM (convNum fl a t); Except.ok (.vec t, .vec ys)) := by
  unfold TypeSys.as
  simp only [vecs, vecSys, builtin]
  cases xs.mapM (convNum fl a t) <;> rfl

theorem vec_times {m : VecMode} {t u : Rep} (H : m = .promoting ∨ m = .keeping ∧ t.arith u = t) (xs : List Num) (y : Num) :
    (vecs fl m).times (.vec t, .vec xs) (sc (u, y)) =
      (do let zs ← xs.mapM (fun x => numOp fl .mul t u x y); Except.ok (.vec (t.arith u), .vec zs)) := by
  unfold TypeSys.times
  rcases H with rfl | ⟨rfl, H⟩
  · simp only [sc, vecs, vecSys, builtin, VecMode.elem, Option.map_some]
    have : (fun x => (do let z ← numOp fl .mul t u x y; if True then Except.ok z else convNum fl (t.arith u) (t.arith u) z) : Num → C Num)
      = fun x => numOp fl .mul t u x y := by
      funext x; cases numOp fl .mul t u x y <;> simp
    rw [this]
    cases xs.mapM (fun x => numOp fl .mul t u x y) <;> rfl
  · simp only [sc, vecs, vecSys, builtin, VecMode.elem, Option.map_some]
    have : (fun x => (do let z ← numOp fl .mul t u x y; if VecMode.keeping = .promoting then Except.ok z else convNum fl (t.arith u) t z) : Num → C Num)
      = fun x => numOp fl .mul t u x y := by
      funext x
      rw [H]
      cases numOp fl .mul t u x y with
      | error e => rfl
      | ok z => simp [convNum_self]
    rw [this, H]
    cases xs.mapM (fun x => numOp fl .mul t u x y) <;> rfl

theorem vec_over {m : VecMode} {t u : Rep} (H : m = .promoting ∨ m = .keeping ∧ t.arith u = t) (xs : List Num) (y : Num) :
    (vecs fl m).over (.vec t, .vec xs) (sc (u, y)) =
      (do let zs ← xs.mapM (fun x => numOp fl .div t u x y); Except.ok (.vec (t.arith u), .vec zs)) := by
  unfold TypeSys.over
  rcases H with rfl | ⟨rfl, H⟩
  · simp only [sc, vecs, vecSys, builtin, VecMode.elem, Option.map_some]
    have : (fun x => (do let z ← numOp fl .div t u x y; if True then Except.ok z else convNum fl (t.arith u) (t.arith u) z) : Num → C Num)
      = fun x => numOp fl .div t u x y := by
      funext x; cases numOp fl .div t u x y <;> simp
    rw [this]
    cases xs.mapM (fun x => numOp fl .div t u x y) <;> rfl
  · simp only [sc, vecs, vecSys, builtin, VecMode.elem, Option.map_some]
    have : (fun x => (do let z ← numOp fl .div t u x y; if VecMode.keeping = .promoting then Except.ok z else convNum fl (t.arith u) t z) : Num → C Num)
      = fun x => numOp fl .div t u x y := by
      funext x
      rw [H]
      cases numOp fl .div t u x y with
      | error e => rfl
      | ok z => simp [convNum_self]
    rw [this, H]
    cases xs.mapM (fun x => numOp fl .div t u x y) <;> rfl

theorem arith_castRep (a b : Rep) : (a.common b).arith (castRep a b) = castRep a b ∧ (castRep a b).arith (castRep a b) = castRep a b := by
  rcases a with a | a <;> rcases b with b | b <;> cases a <;> cases b <;> exact ⟨rfl, rfl⟩

/-- Elements of vectors are converted to the common type first, numbers to the common type with `intmax_t`. -/
theorem widen {a b : Rep} {v : Num} (hv : v.Typed a)
    (hfit : a.common b = castRep a b ∨ ∀ t, a.common b = .int t → ∀ x, v = .i x → t.In x) :
    ∃ x' x, convNum fl a (a.common b) v = .ok x' ∧ convNum fl (a.common b) (castRep a b) x' = .ok x ∧ convNum fl a (castRep a b) v = .ok x := by
  by_cases hT : a.common b = castRep a b
  · obtain ⟨x, hx⟩ : ∃ x, convNum fl a (castRep a b) v = .ok x := by
      cases v with
      | i x =>
        unfold convNum; split
        · exact ⟨_, rfl⟩
        · cases castRep a b <;> exact ⟨_, rfl⟩
      | f x =>
        obtain ⟨f, rfl⟩ := hv
        obtain ⟨g, hg⟩ := castRep_flt (a := .flt f) (b := b) (Or.inl rfl)
        rw [hg]
        unfold convNum; split <;> exact ⟨_, rfl⟩
    exact ⟨x, x, by rw [hT]; exact hx, by rw [hT, convNum_self], hx⟩
  · have hfit := hfit.resolve_left hT
    rcases a with a | a <;> rcases b with b | b
    · cases v with
      | f x => obtain ⟨f, e⟩ := hv; cases e
      | i x =>
        obtain ⟨t, ht⟩ : ∃ t, (Rep.int a).common (.int b) = .int t := by
          unfold Rep.common; split
          · exact ⟨_, rfl⟩
          · exact ⟨_, rfl⟩
        have hx := hfit t ht x rfl
        rw [ht] at hT ⊢
        rw [castRep_int] at hT ⊢
        generalize (if a = .u64 ∨ b = .u64 then IntTy.u64 else .i64) = T at hT
        have h1 : convNum fl (.int a) (.int t) (.i x) = .ok (.i x) := by
          unfold convNum; split
          · rfl
          · simp [IntTy.wrap_of_in hx]
        refine ⟨.i x, .i (T.wrap x), h1, by unfold convNum; rw [if_neg hT], ?_⟩
        unfold convNum; split
        · rename_i e
          cases e
          obtain ⟨s, e, hs⟩ := hv
          cases e
          rw [IntTy.wrap_of_in hs]
        · rfl
    · exact absurd (by cases a <;> cases b <;> rfl) hT
    · exact absurd (by cases a <;> cases b <;> rfl) hT
    · exact absurd (by cases a <;> cases b <;> rfl) hT

theorem widen_op {a b : Rep} {v : Num} (hv : v.Typed a)
    (hfit : a.common b = castRep a b ∨ ∀ t, a.common b = .int t → ∀ x, v = .i x → t.In x) (op : BinOp) (s : Num) :
    ∃ x' x, convNum fl a (a.common b) v = .ok x' ∧ convNum fl a (castRep a b) v = .ok x ∧
      numOp fl op (a.common b) (castRep a b) x' s = numOp fl op (castRep a b) (castRep a b) x s := by
  obtain ⟨x', x, h1, h2, h3⟩ := widen fl hv hfit
  refine ⟨x', x, h1, h3, ?_⟩
  unfold numOp
  rw [(arith_castRep a b).1, (arith_castRep a b).2, h2, convNum_self, convNum_self]

end

theorem stage1 {α β γ δ σ : Type} {P : α → β → Prop} {S : C σ} {Q : σ → β → γ → Prop} {R : γ → δ → Prop} {vs : List α} {ws : List δ}
    (hne : vs ≠ []) :
    (∃ xs, List.Forall₂ P vs xs ∧ ∃ s, S = .ok s ∧ ∃ ys, List.Forall₂ (Q s) xs ys ∧ List.Forall₂ R ys ws) ↔
    List.Forall₂ (fun v w => ∃ s, S = .ok s ∧ ∃ x, P v x ∧ ∃ y, Q s x y ∧ R y w) vs ws := by
  cases S with
  | error e =>
    constructor
    · rintro ⟨xs, -, s, h, -⟩; cases h
    · intro h
      cases h with
      | nil => exact absurd rfl hne
      | cons h _ => obtain ⟨s, h, -⟩ := h; cases h
  | ok s =>
    constructor
    · rintro ⟨xs, h1, s', h, ys, h2, h3⟩
      cases h
      refine (forall₂_comp (P := P) (Q := fun x w => ∃ y, Q s x y ∧ R y w) ?_ _ _).2 ⟨xs, h1, (forall₂_comp (fun _ _ => Iff.rfl) _ _).2 ⟨ys, h2, h3⟩⟩
      intro x z; simp
    · intro h
      obtain ⟨xs, h1, h2⟩ := (forall₂_comp (P := P) (Q := fun x w => ∃ y, Q s x y ∧ R y w) (by intro x z; simp) _ _).1 h
      obtain ⟨ys, h2, h3⟩ := (forall₂_comp (fun _ _ => Iff.rfl) _ _).1 h2
      exact ⟨xs, h1, s, rfl, ys, h2, h3⟩

theorem castG_flt {S : TypeSys} {src dst rt rp : S.Ty} {c : Ratio} {v w : S.Val} (h1 : S.castAccepts src dst = true)
    (h2 : S.castTraits src dst = some (rt, rp)) (h3 : S.treatFloating rp = true) :
    S.castG src dst c v = .ok w ↔ ∃ x, S.as rp (src, v) = .ok x ∧ ∃ n, S.ratioNum rt c.num = .ok n ∧ ∃ p, S.fpow10G rt c.exp = .ok p ∧
      ∃ a, S.times n p = .ok a ∧ ∃ d, S.ratioNum rt c.den = .ok d ∧ ∃ b, S.over a d = .ok b ∧ ∃ y, S.times x b = .ok y ∧
      ∃ z, S.as dst y = .ok z ∧ z.2 = w := by
  unfold TypeSys.castG
  rw [h1, h2]
  simp only [if_true, h3, bind_ok, Except.ok.injEq]
  constructor
  · rintro ⟨x, hx, y, ⟨n, hn, p, hp, a, ha, d, hd, b, hb, hy⟩, z, hz, hw⟩
    exact ⟨x, hx, n, hn, p, hp, a, ha, d, hd, b, hb, y, hy, z, hz, hw⟩
  · rintro ⟨x, hx, n, hn, p, hp, a, ha, d, hd, b, hb, y, hy, z, hz, hw⟩
    exact ⟨x, hx, y, ⟨n, hn, p, hp, a, ha, d, hd, b, hb, hy⟩, z, hz, hw⟩

theorem castG_up {S : TypeSys} {src dst rt rp : S.Ty} {c : Ratio} {v w : S.Val} (h1 : S.castAccepts src dst = true)
    (h2 : S.castTraits src dst = some (rt, rp)) (h3 : S.treatFloating rp = false) (h4 : c.exp > 0) :
    S.castG src dst c v = .ok w ↔ ∃ x, S.as rp (src, v) = .ok x ∧ ∃ n, S.ratioNum rt c.num = .ok n ∧ ∃ e, ipow10 c.exp = .ok e ∧
      ∃ p, S.ratioNum rt e = .ok p ∧ ∃ a, S.times n p = .ok a ∧ ∃ m, S.times x a = .ok m ∧ ∃ d, S.ratioNum rt c.den = .ok d ∧
      ∃ y, S.over m d = .ok y ∧ ∃ z, S.as dst y = .ok z ∧ z.2 = w := by
  unfold TypeSys.castG
  rw [h1, h2]
  simp only [if_true, h3, Bool.false_eq_true, if_false, if_pos h4, bind_ok, Except.ok.injEq]
  constructor
  · rintro ⟨x, hx, y, ⟨n, hn, e, he, p, hp, a, ha, m, hm, d, hd, hy⟩, z, hz, hw⟩
    exact ⟨x, hx, n, hn, e, he, p, hp, a, ha, m, hm, d, hd, y, hy, z, hz, hw⟩
  · rintro ⟨x, hx, n, hn, e, he, p, hp, a, ha, m, hm, d, hd, y, hy, z, hz, hw⟩
    exact ⟨x, hx, y, ⟨n, hn, e, he, p, hp, a, ha, m, hm, d, hd, hy⟩, z, hz, hw⟩

theorem castG_down {S : TypeSys} {src dst rt rp : S.Ty} {c : Ratio} {v w : S.Val} (h1 : S.castAccepts src dst = true)
    (h2 : S.castTraits src dst = some (rt, rp)) (h3 : S.treatFloating rp = false) (h4 : ¬ c.exp > 0) :
    S.castG src dst c v = .ok w ↔ ∃ x, S.as rp (src, v) = .ok x ∧ ∃ n, S.ratioNum rt c.num = .ok n ∧ ∃ m, S.times x n = .ok m ∧
      ∃ d, S.ratioNum rt c.den = .ok d ∧ ∃ e, neg64 c.exp = .ok e ∧ ∃ p, ipow10 e = .ok p ∧ ∃ q, S.ratioNum rt p = .ok q ∧
      ∃ a, S.times d q = .ok a ∧ ∃ y, S.over m a = .ok y ∧ ∃ z, S.as dst y = .ok z ∧ z.2 = w := by
  unfold TypeSys.castG
  rw [h1, h2]
  simp only [if_true, h3, Bool.false_eq_true, if_false, if_neg h4, bind_ok, Except.ok.injEq]
  constructor
  · rintro ⟨x, hx, y, ⟨n, hn, m, hm, d, hd, e, he, p, hp, q, hq, a, ha, hy⟩, z, hz, hw⟩
    exact ⟨x, hx, n, hn, m, hm, d, hd, e, he, p, hp, q, hq, a, ha, y, hy, z, hz, hw⟩
  · rintro ⟨x, hx, n, hn, m, hm, d, hd, e, he, p, hp, q, hq, a, ha, y, hy, z, hz, hw⟩
    exact ⟨x, hx, y, ⟨n, hn, m, hm, d, hd, e, he, p, hp, q, hq, a, ha, hy⟩, z, hz, hw⟩

section
variable (fl : Rounding)

theorem vec_as_iff {m : VecMode} {a t : Rep} {xs : List Num} {r : VTy Rep × VVal Num} :
    (vecs fl m).as (.vec t) (.vec a, .vec xs) = .ok r ↔ ∃ ys, xs.mapM (convNum fl a t) = .ok ys ∧ r = (.vec t, .vec ys) := by
  refine (Eq.congr_left (vec_as fl m a t xs)).trans ?_
  simp only [bind_ok, Except.ok.injEq]
  exact exists_congr fun _ => and_congr_right fun _ => eq_comm

theorem vec_times_iff {m : VecMode} {t u : Rep} (H : m = .promoting ∨ m = .keeping ∧ t.arith u = t) {xs : List Num} {y : Num}
    {r : VTy Rep × VVal Num} : (vecs fl m).times (.vec t, .vec xs) (sc (u, y)) = .ok r ↔
      ∃ zs, xs.mapM (fun x => numOp fl .mul t u x y) = .ok zs ∧ r = (.vec (t.arith u), .vec zs) := by
  refine (Eq.congr_left (vec_times fl H xs y)).trans ?_
  simp only [bind_ok, Except.ok.injEq]
  exact exists_congr fun _ => and_congr_right fun _ => eq_comm

theorem vec_over_iff {m : VecMode} {t u : Rep} (H : m = .promoting ∨ m = .keeping ∧ t.arith u = t) {xs : List Num} {y : Num}
    {r : VTy Rep × VVal Num} : (vecs fl m).over (.vec t, .vec xs) (sc (u, y)) = .ok r ↔
      ∃ zs, xs.mapM (fun x => numOp fl .div t u x y) = .ok zs ∧ r = (.vec (t.arith u), .vec zs) := by
  refine (Eq.congr_left (vec_over fl H xs y)).trans ?_
  simp only [bind_ok, Except.ok.injEq]
  exact exists_congr fun _ => and_congr_right fun _ => eq_comm

theorem sc_ratio_flt_iff {m : VecMode} {f : FltTy} {n : Int} {r : VTy Rep × VVal Num} :
    (vecs fl m).ratioNum (.sc (.flt f)) n = .ok r ↔ r = sc (.flt f, .f (fl f n)) := by
  refine (Eq.congr_left (sc_ratioNum fl m (.flt f) n)).trans ?_
  rw [builtin_ratioNum_flt, ok_bind, Except.ok.injEq, eq_comm]

theorem sc_ratio_int_iff {m : VecMode} {t : IntTy} {n : Int} (hn : I64 n) {r : VTy Rep × VVal Num} :
    (vecs fl m).ratioNum (.sc (.int t)) n = .ok r ↔ r = sc (.int t, .i (t.wrap n)) := by
  refine (Eq.congr_left (sc_ratioNum fl m (.int t) n)).trans ?_
  rw [builtin_ratioNum_int fl n hn, ok_bind, Except.ok.injEq, eq_comm]

theorem sc_fpow10_iff (hfl : KeepsOneTen fl) {m : VecMode} {f : FltTy} {e : Int} {r : VTy Rep × VVal Num} :
    (vecs fl m).fpow10G (.sc (.flt f)) e = .ok r ↔ ∃ p, fpow10 fl f e = .ok p ∧ r = sc (.flt f, .f p) := by
  refine (Eq.congr_left (sc_fpow10 fl m (.flt f) e)).trans ?_
  rw [builtin_fpow10 fl hfl]
  cases fpow10 fl f e with
  | error e => constructor
               · intro h; cases h
               · rintro ⟨p, h, -⟩; cases h
  | ok p =>
    simp only [ok_bind, Except.ok.injEq]
    constructor
    · intro h; exact ⟨p, rfl, h.symm⟩
    · rintro ⟨p', rfl, h⟩; exact h.symm

theorem sc_op_flt_iff {m : VecMode} {f : FltTy} {x y : ℚ} {r : VTy Rep × VVal Num} :
    ((vecs fl m).times (sc (.flt f, .f x)) (sc (.flt f, .f y)) = .ok r ↔ ∃ z, fltOp fl f .mul x y = .ok z ∧ r = sc (.flt f, .f z)) ∧
    ((vecs fl m).over (sc (.flt f, .f x)) (sc (.flt f, .f y)) = .ok r ↔ ∃ z, fltOp fl f .div x y = .ok z ∧ r = sc (.flt f, .f z)) := by
  constructor
  · refine (Eq.congr_left (sc_times fl m (.flt f, .f x) (.flt f, .f y))).trans ?_
    rw [builtin_times]
    simp only [numOp_flt, arith_flt]
    cases fltOp fl f .mul x y with
    | error e => constructor
                 · intro h; cases h
                 · rintro ⟨p, h, -⟩; cases h
    | ok p =>
      simp only [ok_bind, Except.ok.injEq]
      constructor
      · intro h; exact ⟨p, rfl, h.symm⟩
      · rintro ⟨p', rfl, h⟩; exact h.symm
  · refine (Eq.congr_left (sc_over fl m (.flt f, .f x) (.flt f, .f y))).trans ?_
    rw [builtin_over]
    simp only [numOp_flt, arith_flt]
    cases fltOp fl f .div x y with
    | error e => constructor
                 · intro h; cases h
                 · rintro ⟨p, h, -⟩; cases h
    | ok p =>
      simp only [ok_bind, Except.ok.injEq]
      constructor
      · intro h; exact ⟨p, rfl, h.symm⟩
      · rintro ⟨p', rfl, h⟩; exact h.symm

theorem sc_times_int_iff {m : VecMode} {t : IntTy} (ht : t = .i64 ∨ t = .u64) {x y : Int} {r : VTy Rep × VVal Num} :
    (vecs fl m).times (sc (.int t, .i x)) (sc (.int t, .i y)) = .ok r ↔ ∃ z, intOp t .mul x y = .ok z ∧ r = sc (.int t, .i z) := by
  refine (Eq.congr_left (sc_times fl m (.int t, .i x) (.int t, .i y))).trans ?_
  rw [builtin_times]
  have h : (Rep.int t).arith (.int t) = .int t := by rcases ht with rfl | rfl <;> rfl
  simp only [numOp_int fl _ ht, h]
  cases intOp t .mul x y with
  | error e => constructor
               · intro h; cases h
               · rintro ⟨p, h, -⟩; cases h
  | ok p =>
    simp only [ok_bind, Except.ok.injEq]
    constructor
    · intro h; exact ⟨p, rfl, h.symm⟩
    · rintro ⟨p', rfl, h⟩; exact h.symm

end

/-- C76: a vector of numbers of any length, multiplied by numbers element by element, is converted by converting its elements as numbers
are. -/
theorem C76_vector_partial (fl : Rounding) (hfl : KeepsOneTen fl) {m : VecMode} (hm : m ≠ .strict) (a b : Rep) (c : Ratio) (hn : I64 c.num)
    (hd : I64 c.den) (vs ws : List Num) (hne : vs ≠ []) (hv : ∀ v ∈ vs, v.Typed a)
    (hfit : a.common b = castRep a b ∨ m = .promoting ∧ ∀ t, a.common b = .int t → ∀ x, Num.i x ∈ vs → t.In x) :
    (vecs fl m).castG (.vec a) (.vec b) c (.vec vs) = .ok (.vec ws) ↔ List.Forall₂ (fun v w => castNum fl a b c v = .ok w) vs ws := by
  have hA := arith_castRep a b
  have H : m = .promoting ∨ m = .keeping ∧ (a.common b).arith (castRep a b) = (a.common b) := by
    rcases hfit with h | h
    · cases m with
      | strict => exact absurd rfl hm
      | promoting => exact Or.inl rfl
      | keeping => exact Or.inr ⟨rfl, by rw [hA.1, h]⟩
    · exact Or.inl h.1
  have H' : m = .promoting ∨ m = .keeping ∧ (castRep a b).arith (castRep a b) = (castRep a b) := by
    rcases H with h | h
    · exact Or.inl h
    · exact Or.inr ⟨h.1, hA.2⟩
  have hF : ∀ v ∈ vs, a.common b = castRep a b ∨ ∀ t, a.common b = .int t → ∀ x, v = .i x → t.In x := by
    intro v hv
    rcases hfit with h | h
    · exact Or.inl h
    · exact Or.inr fun t ht x hx => h.2 t ht x (hx ▸ hv)
  have hacc := vec_accepts fl hm a b
  have htr := vec_traits fl hm a b
  cases hr : castRep a b with
  | flt f =>
    have ht : (a.common b).floating = true := by
      rcases a with a | a <;> rcases b with b | b <;> cases a <;> cases b <;> first | rfl | (cases hr)
    rw [hr] at H H' hA htr
    rw [castG_flt hacc htr ((vec_treat fl m _).trans ht)]
    -- the factor
    let S : C ℚ := do
      let p ← fpow10 fl f c.exp
      let s ← fltOp fl f .mul (fl f c.num) p
      fltOp fl f .div s (fl f c.den)
    have hL : (∃ x, (vecs fl m).as (.vec (a.common b)) (.vec a, .vec vs) = .ok x ∧ ∃ n, (vecs fl m).ratioNum (.sc (.flt f)) c.num = .ok n ∧
        ∃ p, (vecs fl m).fpow10G (.sc (.flt f)) c.exp = .ok p ∧ ∃ a, (vecs fl m).times n p = .ok a ∧
        ∃ d, (vecs fl m).ratioNum (.sc (.flt f)) c.den = .ok d ∧ ∃ b', (vecs fl m).over a d = .ok b' ∧ ∃ y, (vecs fl m).times x b' = .ok y ∧
        ∃ z, (vecs fl m).as (.vec b) y = .ok z ∧ z.2 = .vec ws) ↔
        ∃ xs, List.Forall₂ (fun v x => convNum fl a (a.common b) v = .ok x) vs xs ∧ ∃ s, S = .ok s ∧
          ∃ ys, List.Forall₂ (fun x y => numOp fl .mul (a.common b) (.flt f) x (.f s) = .ok y) xs ys ∧
            List.Forall₂ (fun y w => convNum fl (.flt f) b y = .ok w) ys ws := by
      simp only [← mapM_ok_iff]
      constructor
      · rintro ⟨x, hx, n, hn, p, hp, s, hs, d, hd, b', hb, y, hy, z, hz, hw⟩
        obtain ⟨xs, hxs, rfl⟩ := (vec_as_iff fl).1 hx
        obtain rfl := (sc_ratio_flt_iff fl).1 hn
        obtain ⟨p, hp', rfl⟩ := (sc_fpow10_iff fl hfl).1 hp
        obtain ⟨s, hs', rfl⟩ := (sc_op_flt_iff fl).1.1 hs
        obtain rfl := (sc_ratio_flt_iff fl).1 hd
        obtain ⟨s', hb', rfl⟩ := (sc_op_flt_iff fl).2.1 hb
        obtain ⟨ys, hys, rfl⟩ := (vec_times_iff fl H).1 hy
        rw [hA.1] at hz
        obtain ⟨zs, hzs, rfl⟩ := (vec_as_iff fl).1 hz
        cases hw
        exact ⟨xs, hxs, s', by simp only [S, hp', ok_bind, hs', hb'], ys, hys, hzs⟩
      · rintro ⟨xs, hxs, s', hS, ys, hys, hzs⟩
        obtain ⟨p, hp, hS⟩ := bind_ok.1 hS
        obtain ⟨s, hs, hb⟩ := bind_ok.1 hS
        exact ⟨_, (vec_as_iff fl).2 ⟨xs, hxs, rfl⟩, _, (sc_ratio_flt_iff fl).2 rfl, _, (sc_fpow10_iff fl hfl).2 ⟨p, hp, rfl⟩,
          _, (sc_op_flt_iff fl).1.2 ⟨s, hs, rfl⟩, _, (sc_ratio_flt_iff fl).2 rfl, _, (sc_op_flt_iff fl).2.2 ⟨s', hb, rfl⟩,
          _, (vec_times_iff fl H).2 ⟨ys, hys, rfl⟩, _, (vec_as_iff fl).2 ⟨ws, by rw [hA.1]; exact hzs, rfl⟩, rfl⟩
    rw [hL, stage1 hne]
    refine forall₂_congr_mem _ _ fun v hvm w => ?_
    unfold castNum
    rw [hr]
    constructor
    · rintro ⟨s, hS, x', hx', y, hy, hw⟩
      obtain ⟨x1, x, h1, h2, h3⟩ := widen_op fl (hv v hvm) (hF v hvm) .mul (.f s)
      rw [hr] at h2 h3
      rw [hx'] at h1
      cases h1
      rw [h3] at hy
      rw [h2, ok_bind]
      cases x with
      | i x => simp [numOp, convNum_self, sameOp, arith_flt] at hy
      | f x =>
        rw [numOp_flt] at hy
        obtain ⟨z, hz, hy⟩ := bind_ok.1 hy
        cases hy
        simp only [castFlt]
        obtain ⟨p, hp, hS⟩ := bind_ok.1 hS
        obtain ⟨s1, hs, hb⟩ := bind_ok.1 hS
        simp only [hp, hs, hb, hz, ok_bind, hw]
    · intro hw
      obtain ⟨x, h2, hw⟩ := bind_ok.1 hw
      cases x with
      | i x => cases hw
      | f x =>
        simp only [castFlt] at hw
        obtain ⟨y, hy, hw⟩ := bind_ok.1 hw
        obtain ⟨p, hp, hy⟩ := bind_ok.1 hy
        obtain ⟨s1, hs, hy⟩ := bind_ok.1 hy
        obtain ⟨s, hb, hy⟩ := bind_ok.1 hy
        obtain ⟨x', x1, h1, h2', h3⟩ := widen_op fl (hv v hvm) (hF v hvm) .mul (.f s)
        rw [hr] at h2' h3
        rw [h2] at h2'
        cases h2'
        refine ⟨s, by simp only [S, hp, hs, hb, ok_bind], x', h1, .f y, ?_, hw⟩
        rw [h3, numOp_flt, hy]; rfl
  | int t =>
    have ht : (a.common b).floating = false ∧ (t = .i64 ∨ t = .u64) := by
      rcases a with a | a <;> rcases b with b | b <;> cases a <;> cases b <;> cases hr <;> first | exact ⟨rfl, Or.inl rfl⟩ | exact ⟨rfl, Or.inr rfl⟩
    rw [hr] at H H' hA htr
    -- the two factors
    let S : C (Int × Int) :=
      if c.exp > 0 then do
        let p ← ipow10 c.exp
        let n ← intOp t .mul (t.wrap c.num) (t.wrap p)
        .ok (n, t.wrap c.den)
      else do
        let e ← neg64 c.exp
        let p ← ipow10 e
        let d ← intOp t .mul (t.wrap c.den) (t.wrap p)
        .ok (t.wrap c.num, d)
    have hL : (vecs fl m).castG (.vec a) (.vec b) c (.vec vs) = .ok (.vec ws) ↔
        ∃ xs, List.Forall₂ (fun v x => convNum fl a (a.common b) v = .ok x) vs xs ∧ ∃ s, S = .ok s ∧
          ∃ ys, List.Forall₂ (fun x y => ∃ k, numOp fl .mul (a.common b) (.int t) x (.i s.1) = .ok k ∧
              numOp fl .div (.int t) (.int t) k (.i s.2) = .ok y) xs ys ∧
            List.Forall₂ (fun y w => convNum fl (.int t) b y = .ok w) ys ws := by
      have hcomp : ∀ (s : Int × Int) (xs ys : List Num),
          List.Forall₂ (fun x y => ∃ k, numOp fl .mul (a.common b) (.int t) x (.i s.1) = .ok k ∧
              numOp fl .div (.int t) (.int t) k (.i s.2) = .ok y) xs ys ↔
          ∃ ks, xs.mapM (fun x => numOp fl .mul (a.common b) (.int t) x (.i s.1)) = .ok ks ∧
            ks.mapM (fun x => numOp fl .div (.int t) (.int t) x (.i s.2)) = .ok ys := by
        intro s xs ys
        simp only [mapM_ok_iff]
        exact forall₂_comp (fun _ _ => Iff.rfl) _ _
      simp only [hcomp]
      simp only [← mapM_ok_iff]
      by_cases he : c.exp > 0
      · rw [castG_up hacc htr ((vec_treat fl m _).trans ht.1) he]
        have hS : S = (do
            let p ← ipow10 c.exp
            let n ← intOp t .mul (t.wrap c.num) (t.wrap p)
            .ok (n, t.wrap c.den)) := if_pos he
        rw [hS]
        constructor
        · rintro ⟨x, hx, n, hn', e, he', p, hp, a', ha, k, hk, d, hd', y, hy, z, hz, hw⟩
          obtain ⟨xs, hxs, rfl⟩ := (vec_as_iff fl).1 hx
          obtain rfl := (sc_ratio_int_iff fl hn).1 hn'
          obtain rfl := (sc_ratio_int_iff fl (ipow10_in he')).1 hp
          obtain ⟨q, hq, rfl⟩ := (sc_times_int_iff fl ht.2).1 ha
          obtain ⟨ks, hks, rfl⟩ := (vec_times_iff fl H).1 hk
          obtain rfl := (sc_ratio_int_iff fl hd).1 hd'
          rw [hA.1] at hy
          obtain ⟨ys, hys, rfl⟩ := (vec_over_iff fl H').1 hy
          rw [hA.2] at hz
          obtain ⟨zs, hzs, rfl⟩ := (vec_as_iff fl).1 hz
          cases hw
          exact ⟨xs, hxs, (q, t.wrap c.den), by simp only [he', hq, ok_bind], ys, ⟨ks, hks, hys⟩, hzs⟩
        · rintro ⟨xs, hxs, s, hS, ys, ⟨ks, hks, hys⟩, hzs⟩
          obtain ⟨e, he', hS⟩ := bind_ok.1 hS
          obtain ⟨q, hq, hS⟩ := bind_ok.1 hS
          cases hS
          exact ⟨_, (vec_as_iff fl).2 ⟨xs, hxs, rfl⟩, _, (sc_ratio_int_iff fl hn).2 rfl, e, he', _, (sc_ratio_int_iff fl (ipow10_in he')).2 rfl,
            _, (sc_times_int_iff fl ht.2).2 ⟨q, hq, rfl⟩, _, (vec_times_iff fl H).2 ⟨ks, hks, rfl⟩, _, (sc_ratio_int_iff fl hd).2 rfl,
            (.vec ((Rep.int t).arith (.int t)), .vec ys), by rw [hA.1]; exact (vec_over_iff fl H').2 ⟨ys, hys, rfl⟩,
            _, (vec_as_iff fl).2 ⟨ws, by rw [hA.2]; exact hzs, rfl⟩, rfl⟩
      · rw [castG_down hacc htr ((vec_treat fl m _).trans ht.1) he]
        have hS : S = (do
            let e ← neg64 c.exp
            let p ← ipow10 e
            let d ← intOp t .mul (t.wrap c.den) (t.wrap p)
            .ok (t.wrap c.num, d)) := if_neg he
        rw [hS]
        constructor
        · rintro ⟨x, hx, n, hn', k, hk, d, hd', e, he', p, hp, q, hq, a', ha, y, hy, z, hz, hw⟩
          obtain ⟨xs, hxs, rfl⟩ := (vec_as_iff fl).1 hx
          obtain rfl := (sc_ratio_int_iff fl hn).1 hn'
          obtain ⟨ks, hks, rfl⟩ := (vec_times_iff fl H).1 hk
          obtain rfl := (sc_ratio_int_iff fl hd).1 hd'
          obtain rfl := (sc_ratio_int_iff fl (ipow10_in hp)).1 hq
          obtain ⟨r, hr', rfl⟩ := (sc_times_int_iff fl ht.2).1 ha
          rw [hA.1] at hy
          obtain ⟨ys, hys, rfl⟩ := (vec_over_iff fl H').1 hy
          rw [hA.2] at hz
          obtain ⟨zs, hzs, rfl⟩ := (vec_as_iff fl).1 hz
          cases hw
          exact ⟨xs, hxs, (t.wrap c.num, r), by simp only [he', hp, hr', ok_bind], ys, ⟨ks, hks, hys⟩, hzs⟩
        · rintro ⟨xs, hxs, s, hS, ys, ⟨ks, hks, hys⟩, hzs⟩
          obtain ⟨e, he', hS⟩ := bind_ok.1 hS
          obtain ⟨p, hp, hS⟩ := bind_ok.1 hS
          obtain ⟨r, hr', hS⟩ := bind_ok.1 hS
          cases hS
          exact ⟨_, (vec_as_iff fl).2 ⟨xs, hxs, rfl⟩, _, (sc_ratio_int_iff fl hn).2 rfl, _, (vec_times_iff fl H).2 ⟨ks, hks, rfl⟩,
            _, (sc_ratio_int_iff fl hd).2 rfl, e, he', p, hp, _, (sc_ratio_int_iff fl (ipow10_in hp)).2 rfl,
            _, (sc_times_int_iff fl ht.2).2 ⟨r, hr', rfl⟩,
            (.vec ((Rep.int t).arith (.int t)), .vec ys), by rw [hA.1]; exact (vec_over_iff fl H').2 ⟨ys, hys, rfl⟩,
            _, (vec_as_iff fl).2 ⟨ws, by rw [hA.2]; exact hzs, rfl⟩, rfl⟩
    rw [hL, stage1 hne]
    refine forall₂_congr_mem _ _ fun v hvm w => ?_
    unfold castNum
    rw [hr]
    have key : ∀ x, (∃ y, castInt t c x = .ok y ∧ convNum fl (.int t) b (.i y) = .ok w) ↔
        ∃ s, S = .ok s ∧ ∃ k, intOp t .mul x s.1 = .ok k ∧ ∃ y, intOp t .div k s.2 = .ok y ∧ convNum fl (.int t) b (.i y) = .ok w := by
      intro x
      unfold castInt
      by_cases he : c.exp > 0
      · simp only [S, if_pos he, bind_ok, Except.ok.injEq]
        constructor
        · rintro ⟨y, ⟨p, hp, n, hn', k, hk, hy⟩, hw⟩
          exact ⟨_, ⟨p, hp, n, hn', rfl⟩, k, hk, y, hy, hw⟩
        · rintro ⟨_, ⟨p, hp, n, hn', rfl⟩, k, hk, y, hy, hw⟩
          exact ⟨y, ⟨p, hp, n, hn', k, hk, hy⟩, hw⟩
      · simp only [S, if_neg he, bind_ok, Except.ok.injEq]
        constructor
        · rintro ⟨y, ⟨k, hk, e, he', p, hp, d, hd', hy⟩, hw⟩
          exact ⟨_, ⟨e, he', p, hp, d, hd', rfl⟩, k, hk, y, hy, hw⟩
        · rintro ⟨_, ⟨e, he', p, hp, d, hd', rfl⟩, k, hk, y, hy, hw⟩
          exact ⟨y, ⟨k, hk, e, he', p, hp, d, hd', hy⟩, hw⟩
    constructor
    · rintro ⟨s, hS, x', hx', y, ⟨k, hk, hy⟩, hw⟩
      obtain ⟨x1, x, h1, h2, h3⟩ := widen_op fl (hv v hvm) (hF v hvm) .mul (.i s.1)
      rw [hr] at h2 h3
      rw [hx'] at h1
      cases h1
      rw [h3] at hk
      rw [h2, ok_bind]
      cases x with
      | f x => simp [numOp, convNum_self, sameOp, hA.2] at hk
      | i x =>
        rw [numOp_int fl _ ht.2] at hk
        obtain ⟨k', hk', hk⟩ := bind_ok.1 hk
        cases hk
        rw [numOp_int fl _ ht.2] at hy
        obtain ⟨y', hy', hy⟩ := bind_ok.1 hy
        cases hy
        exact bind_ok.2 ((key x).2 ⟨s, hS, k', hk', y', hy', hw⟩)
    · intro hw
      obtain ⟨x, h2, hw⟩ := bind_ok.1 hw
      cases x with
      | f x => cases hw
      | i x =>
        obtain ⟨s, hS, k, hk, y, hy, hw⟩ := (key x).1 (bind_ok.1 hw)
        obtain ⟨x', x1, h1, h2', h3⟩ := widen_op fl (hv v hvm) (hF v hvm) .mul (.i s.1)
        rw [hr] at h2' h3
        rw [h2] at h2'
        cases h2'
        refine ⟨s, hS, x', h1, .i y, ⟨.i k, ?_, ?_⟩, hw⟩
        · rw [h3, numOp_int fl _ ht.2, hk]; rfl
        · rw [numOp_int fl _ ht.2, hy]; rfl

/-- C76: vectors of an arithmetic type are representations, which `quantity_cast` accepts; a vector is scaled by a number of the type numbers
are scaled by, but is not widened to `intmax_t` itself. -/
theorem C76_vector_types (fl : Rounding) {m : VecMode} (hm : m ≠ .strict) (a b : Rep) :
    (vecs fl m).representation (.vec a) = true ∧ (vecs fl m).castAccepts (.vec a) (.vec b) = true ∧
    (vecs fl m).castTraits (.vec a) (.vec b) = some (.sc (castRep a b), .vec (a.common b)) ∧
    ((vecs fl m).treatFloating (.vec a) = true ↔ a.floating = true) := by
  refine ⟨?_, vec_accepts fl hm a b, vec_traits fl hm a b, by rw [vec_treat]⟩
  have h3 : (vecs fl m).wrapped (.vec a) = false := by
    rw [TypeSys.wrapped_some (S := vecs fl m) (t := .vec a) (v := .sc a) rfl, TypeSys.wrapped_none rfl]; rfl
  unfold TypeSys.representation
  rw [h3]
  cases m with
  | strict => exact absurd rfl hm
  | _ => simp [TypeSys.scalable, TypeSys.castableNumber, TypeSys.scalableNumber, TypeSys.commonWith, vecs, vecSys, builtin, common_comm,
          VecMode.elem]

/-- C76 is wider than what compiles: vectors of doubles that are multiplied by doubles only are representations and meet the
constraints of `quantity_cast`, but no conversion of a quantity with this representation compiles. -/
theorem C76_gap (fl : Rounding) :
    (vecs fl .strict).representation (.vec (.flt .f64)) = true ∧ (vecs fl .strict).castAccepts (.vec (.flt .f64)) (.vec (.flt .f64)) = true ∧
    ∀ c v, (vecs fl .strict).castG (.vec (.flt .f64)) (.vec (.flt .f64)) c v = .error .rejected := by
  have h1 : (vecs fl .strict).castAccepts (.vec (.flt .f64)) (.vec (.flt .f64)) = true := by rfl
  have h2 : (vecs fl .strict).castTraits (.vec (.flt .f64)) (.vec (.flt .f64)) = none := by rfl
  have h3 : (vecs fl .strict).wrapped (.vec (.flt .f64)) = false := by
    rw [TypeSys.wrapped_some (S := vecs fl .strict) (t := .vec (.flt .f64)) (v := .sc (.flt .f64)) rfl, TypeSys.wrapped_none rfl]; rfl
  refine ⟨?_, h1, fun c v => ?_⟩
  · unfold TypeSys.representation
    rw [h3]; rfl
  · unfold TypeSys.castG
    rw [h1, h2]; rfl

/-- C76_vector_partial cannot be had without its condition: 300000 yd in a vector of 32 bit integers that keeps the type of its elements becomes
−155176 m, whereas as a number it becomes 274320 m. -/
theorem C76_vector_narrow (fl : Rounding) :
    castNum fl (.int .i32) (.int .i32) ⟨9144, 1, -4⟩ (.i 300000) = .ok (.i 274320) ∧
    (vecs fl .keeping).castG (.vec (.int .i32)) (.vec (.int .i32)) ⟨9144, 1, -4⟩ (.vec [.i 300000]) = .ok (.vec [.i (-155176)]) := by
  refine ⟨rfl, (castG_down (S := vecs fl .keeping) (rt := .sc (.int .i64)) (rp := .vec (.int .i32)) rfl rfl (vec_treat fl _ _) (by decide)).2 ?_⟩
  exact ⟨_, rfl, _, rfl, _, rfl, _, rfl, _, rfl, _, rfl, _, rfl, _, rfl, _, rfl, _, rfl, rfl⟩

example (fl : Rounding) (hfl : KeepsOneTen fl) :
    (vecs fl .promoting).castG (.vec (.int .i32)) (.vec (.int .i32)) ⟨9144, 1, -4⟩ (.vec [.i 300000, .i (-11)]) = .ok (.vec [.i 274320, .i (-10)]) := by
  rw [C76_vector_partial fl hfl (by decide) _ _ _ (by decide) (by decide) _ _ (by simp) (by simp [Num.Typed]; decide) (Or.inr ⟨rfl, by
    intro t ht x hx; cases ht; simp at hx; rcases hx with rfl | rfl <;> decide⟩)]
  exact .cons rfl (.cons rfl .nil)

/-! ### Any representation with the operators of a vector space -/

/-- Numbers and vectors of a system of types mean real numbers and elements of a real vector space; conversions keep the meaning, products with
and quotients by numbers mean products with and quotients by numbers. -/
structure Linear (S : TypeSys) {V : Type} [AddCommGroup V] [Module ℝ V] (num : S.Ty → S.Val → Option ℝ) (vec : S.Ty → S.Val → V) : Prop where
  cast_vec : ∀ {t u x y}, S.cast t u x = .ok y → vec u y = vec t x
  cast_num : ∀ {t u x y q}, S.cast t u x = .ok y → num t x = some q → num u y = some q
  lit : ∀ z : ℤ, num S.intmax (S.lit z) = some (z : ℝ)
  dlit : ∀ z : ℤ, num S.double (S.dlit z) = some (z : ℝ)
  mul_vec : ∀ {t u r x y z q}, S.mulTy t u = some r → S.mul t u x y = .ok z → num u y = some q → vec r z = q • vec t x
  mul_num : ∀ {t u r x y z p q}, S.mulTy t u = some r → S.mul t u x y = .ok z → num t x = some p → num u y = some q → num r z = some (p * q)
  div_vec : ∀ {t u r x y z q}, S.divTy t u = some r → S.div t u x y = .ok z → num u y = some q → q ≠ 0 → vec r z = q⁻¹ • vec t x
  div_num : ∀ {t u r x y z p q}, S.divTy t u = some r → S.div t u x y = .ok z → num t x = some p → num u y = some q → q ≠ 0 →
    num r z = some (p / q)

namespace Linear

variable {S : TypeSys} {V : Type} [AddCommGroup V] [Module ℝ V] {num : S.Ty → S.Val → Option ℝ} {vec : S.Ty → S.Val → V}

theorem as_num (L : Linear S num vec) {t : S.Ty} {x y : S.Ty × S.Val} {q : ℝ} (h : S.as t x = .ok y) (hx : num x.1 x.2 = some q) :
    y.1 = t ∧ num y.1 y.2 = some q := by
  obtain ⟨z, hz, h⟩ := bind_ok.1 h
  cases h
  exact ⟨rfl, L.cast_num hz hx⟩

theorem as_vec (L : Linear S num vec) {t : S.Ty} {x y : S.Ty × S.Val} (h : S.as t x = .ok y) : y.1 = t ∧ vec y.1 y.2 = vec x.1 x.2 := by
  obtain ⟨z, hz, h⟩ := bind_ok.1 h
  cases h
  exact ⟨rfl, L.cast_vec hz⟩

theorem times_num (L : Linear S num vec) {x y z : S.Ty × S.Val} {p q : ℝ} (h : S.times x y = .ok z) (hx : num x.1 x.2 = some p)
    (hy : num y.1 y.2 = some q) : num z.1 z.2 = some (p * q) := by
  unfold TypeSys.times at h
  split at h
  · cases h
  · rename_i t ht
    obtain ⟨w, hw, h⟩ := bind_ok.1 h
    cases h
    exact L.mul_num ht hw hx hy

theorem times_vec (L : Linear S num vec) {x y z : S.Ty × S.Val} {q : ℝ} (h : S.times x y = .ok z)
    (hy : num y.1 y.2 = some q) : vec z.1 z.2 = q • vec x.1 x.2 := by
  unfold TypeSys.times at h
  split at h
  · cases h
  · rename_i t ht
    obtain ⟨w, hw, h⟩ := bind_ok.1 h
    cases h
    exact L.mul_vec ht hw hy

theorem over_num (L : Linear S num vec) {x y z : S.Ty × S.Val} {p q : ℝ} (h : S.over x y = .ok z) (hx : num x.1 x.2 = some p)
    (hy : num y.1 y.2 = some q) (hq : q ≠ 0) : num z.1 z.2 = some (p / q) := by
  unfold TypeSys.over at h
  split at h
  · cases h
  · rename_i t ht
    obtain ⟨w, hw, h⟩ := bind_ok.1 h
    cases h
    exact L.div_num ht hw hx hy hq

theorem over_vec (L : Linear S num vec) {x y z : S.Ty × S.Val} {q : ℝ} (h : S.over x y = .ok z)
    (hy : num y.1 y.2 = some q) (hq : q ≠ 0) : vec z.1 z.2 = q⁻¹ • vec x.1 x.2 := by
  unfold TypeSys.over at h
  split at h
  · cases h
  · rename_i t ht
    obtain ⟨w, hw, h⟩ := bind_ok.1 h
    cases h
    exact L.div_vec ht hw hy hq

theorem loop_mul (L : Linear S num vec) {t : S.Ty} (k : ℕ) {x y : S.Ty × S.Val} {p : ℝ} (h : S.fpow10LoopG S.times t k x = .ok y)
    (hx : num x.1 x.2 = some p) : num y.1 y.2 = some (p * 10 ^ k) := by
  induction k generalizing x p with
  | zero => cases h; simpa using hx
  | succ k ih =>
    rw [TypeSys.fpow10LoopG] at h
    obtain ⟨ten, h10, h⟩ := bind_ok.1 h
    obtain ⟨a, ha, h⟩ := bind_ok.1 h
    obtain ⟨b, hb, h⟩ := bind_ok.1 h
    have h10' := (L.as_num h10 (L.dlit 10)).2
    have := ih h (L.as_num hb (L.times_num ha hx h10')).2
    rw [this]; push_cast; rw [pow_succ]; congr 1; ring

theorem loop_div (L : Linear S num vec) {t : S.Ty} (k : ℕ) {x y : S.Ty × S.Val} {p : ℝ} (h : S.fpow10LoopG S.over t k x = .ok y)
    (hx : num x.1 x.2 = some p) : num y.1 y.2 = some (p / 10 ^ k) := by
  induction k generalizing x p with
  | zero => cases h; simpa using hx
  | succ k ih =>
    rw [TypeSys.fpow10LoopG] at h
    obtain ⟨ten, h10, h⟩ := bind_ok.1 h
    obtain ⟨a, ha, h⟩ := bind_ok.1 h
    obtain ⟨b, hb, h⟩ := bind_ok.1 h
    have h10' := (L.as_num h10 (L.dlit 10)).2
    have := ih h (L.as_num hb (L.over_num ha hx h10' (by norm_num))).2
    rw [this]; push_cast; rw [pow_succ]; congr 1; field_simp

theorem fpow10 (L : Linear S num vec) {t : S.Ty} {e : Int} {y : S.Ty × S.Val} (h : S.fpow10G t e = .ok y) :
    num y.1 y.2 = some ((10 : ℝ) ^ e) := by
  obtain ⟨one, h1, h⟩ := bind_ok.1 h
  have h1' := (L.as_num h1 (L.dlit 1)).2
  split at h
  · rename_i he
    cases h
    rw [h1', he]; simp
  · split at h
    · rename_i he
      rw [L.loop_div _ h h1']
      congr 1
      obtain ⟨n, hn⟩ : ∃ n : ℕ, e = -n := ⟨e.natAbs, by omega⟩
      subst hn
      simp
    · rw [L.loop_mul _ h h1']
      congr 1
      obtain ⟨n, hn⟩ : ∃ n : ℕ, e = n := ⟨e.natAbs, by omega⟩
      subst hn
      simp

end Linear

/-- C76: for any representation whose operators do what products with numbers are, a conversion multiplies by the ratio of the units. -/
theorem C76_linear {S : TypeSys} {V : Type} [AddCommGroup V] [Module ℝ V] {num : S.Ty → S.Val → Option ℝ} {vec : S.Ty → S.Val → V}
    (L : Linear S num vec) {src dst : S.Ty} {c : Ratio} (hd : c.den ≠ 0) {v w : S.Val} (h : S.castG src dst c v = .ok w) :
    vec dst w = (c.val : ℝ) • vec src v := by
  have hd' : (c.den : ℝ) ≠ 0 := by exact_mod_cast hd
  have h0 := h
  unfold TypeSys.castG at h0
  split at h0
  swap
  · cases h0
  rename_i hacc
  split at h0
  · cases h0
  rename_i rt rp htr
  clear h0
  cases ht : S.treatFloating rp with
  | true =>
    obtain ⟨x, hx, n, hn, p, hp, a, ha, d, hd1, b, hb, y, hy, z, hz, rfl⟩ := (castG_flt hacc htr ht).1 h
    have e1 := (L.as_vec hx).2
    have e2 := (L.as_num hn (L.lit c.num)).2
    have e3 := L.fpow10 hp
    have e4 := (L.as_num hd1 (L.lit c.den)).2
    have e5 := L.over_num hb (L.times_num ha e2 e3) e4 hd'
    have e6 := L.times_vec hy e5
    obtain ⟨rfl, e7⟩ := L.as_vec hz
    rw [e7, e6, e1, Ratio.val]
    congr 1
    push_cast; ring
  | false =>
    by_cases he : c.exp > 0
    · obtain ⟨x, hx, n, hn, e, he', p, hp, a, ha, m, hm, d, hd1, y, hy, z, hz, rfl⟩ := (castG_up hacc htr ht he).1 h
      have e1 := (L.as_vec hx).2
      have e2 := (L.as_num hn (L.lit c.num)).2
      have e3 := (L.as_num hp (L.lit e)).2
      have e4 := (L.as_num hd1 (L.lit c.den)).2
      have e5 := L.times_vec hm (L.times_num ha e2 e3)
      have e6 := L.over_vec hy e4 hd'
      obtain ⟨rfl, e7⟩ := L.as_vec hz
      obtain ⟨hpos, -, rfl⟩ := ipow10_eq_ok.1 he'
      rw [e7, e6, e5, e1, Ratio.val, smul_smul]
      congr 1
      obtain ⟨k, hk⟩ : ∃ k : ℕ, c.exp = k := ⟨c.exp.natAbs, by omega⟩
      rw [hk]
      push_cast
      simp only [Int.toNat_natCast, zpow_natCast]
      ring
    · obtain ⟨x, hx, n, hn, m, hm, d, hd1, e, he', p, hp, q, hq, a, ha, y, hy, z, hz, rfl⟩ := (castG_down hacc htr ht he).1 h
      have e1 := (L.as_vec hx).2
      have e2 := (L.as_num hn (L.lit c.num)).2
      have e3 := (L.as_num hq (L.lit p)).2
      have e4 := (L.as_num hd1 (L.lit c.den)).2
      have e5 := L.times_vec hm e2
      obtain ⟨hpos, -, rfl⟩ := ipow10_eq_ok.1 hp
      have hne : (c.den : ℝ) * (((10 : ℤ) ^ e.toNat : ℤ) : ℝ) ≠ 0 := mul_ne_zero hd' (by push_cast; positivity)
      have e6 := L.over_vec hy (L.times_num ha e4 e3) hne
      obtain ⟨rfl, e7⟩ := L.as_vec hz
      have hneg : e = -c.exp := (neg64_eq_ok.1 he').2
      rw [e7, e6, e5, e1, Ratio.val, smul_smul]
      congr 1
      obtain ⟨k, hk⟩ : ∃ k : ℕ, c.exp = -k := ⟨c.exp.natAbs, by omega⟩
      rw [hneg, hk]
      push_cast
      simp only [neg_neg, Int.toNat_natCast, zpow_natCast, zpow_neg]
      field_simp

/-- C76: such a conversion keeps the amount: the number of units times the size of the unit. -/
theorem C76_amount {est : RootEstimate} {β : String → ℝ} (hβ : Sizes β) {d1 d2 : Dim} {u1 u2 : MUnit} {c : Ratio} (g1 : d1.Good)
    (g2 : d2.Good) (r1 : d1.Rooted est) (r2 : d2.Rooted est) (w1 : u1.WF) (w2 : u2.WF) (f1 : u1.ref = d1.unit.ref)
    (f2 : u2.ref = d2.unit.ref) (heq : dimEquivalent d1 d2 = .ok true) (hco : Coherent β d1 d2) (hc : castRatio est d1 u1 d2 u2 = .ok c)
    {S : TypeSys} {V : Type} [AddCommGroup V] [Module ℝ V] {num : S.Ty → S.Val → Option ℝ} {vec : S.Ty → S.Val → V}
    (L : Linear S num vec) {src dst : S.Ty} {v w : S.Val} (h : S.castG src dst c v = .ok w) :
    d2.size β u2 • vec dst w = d1.size β u1 • vec src v := by
  obtain ⟨wf, -, e⟩ := castRatio_sound hβ g1 g2 r1 r2 w1 w2 f1 f2 heq hco hc
  rw [C76_linear L wf.den_pos.ne' h, smul_smul, e]
  congr 1
  have := (Dim.size_pos hβ g2 w2).ne'
  field_simp

/-! ### Such a representation -/

/-- One type of numbers, the rational ones; `std::intmax_t` and `double` are this type. -/
abbrev exactNums : TypeSys where
  Ty := Unit
  Val := ℚ
  intmax := ()
  double := ()
  common _ _ := some ()
  constructible _ _ := true
  valueType _ := none
  quantityType _ := none
  depth _ := 0
  depth_lt _ _ h := by cases h
  mulTy _ _ := some ()
  divTy _ _ := some ()
  floating _ := true
  regular _ := true
  quantity _ := false
  quantityLike _ := false
  decTy := inferInstance
  lit z := z
  dlit z := z
  cast _ _ x := .ok x
  mul _ _ x y := .ok (x * y)
  div _ _ x y := if y = 0 then .error .divZero else .ok (x / y)

abbrev exactVecs : TypeSys := vecSys exactNums .promoting

/-- Numbers mean themselves. -/
def exactNum : VTy Unit → VVal ℚ → Option ℝ
  | .sc _, .sc x => some x
  | _, _ => none

/-- Vectors mean the sequence of their coordinates, numbers a constant one. -/
def exactVec : VTy Unit → VVal ℚ → ℕ → ℝ
  | .sc _, .sc x => fun _ => x
  | .vec _, .vec xs => fun i => ((xs.getD i 0 : ℚ) : ℝ)
  | _, _ => 0

theorem forall₂_eq_map {α β : Type} {f : α → β} : ∀ {xs : List α} {ys : List β}, List.Forall₂ (fun x y => f x = y) xs ys → ys = xs.map f
  | _, _, .nil => rfl
  | _, _, .cons h t => by rw [List.map_cons, h, forall₂_eq_map t]

theorem exact_mapM {f : ℚ → C ℚ} {g : ℚ → ℚ} {xs ys : List ℚ} (hf : ∀ x y, f x = .ok y → y = g x) (h : xs.mapM f = .ok ys) : ys = xs.map g :=
  forall₂_eq_map (((mapM_ok_iff _ _ _).1 h).imp fun x y hxy => (hf x y hxy).symm)

theorem getD_map (g : ℚ → ℚ) (hg : g 0 = 0) (xs : List ℚ) (i : ℕ) : (xs.map g).getD i 0 = g (xs.getD i 0) := by
  by_cases hi : i < xs.length
  · simp [List.getD, hi]
  · simp [List.getD, hi, hg]

theorem exact_linear : Linear exactVecs exactNum exactVec where
  cast_vec := by
    rintro (t | t) (u | u) (x | x) y h <;> try (cases h; done)
    · obtain ⟨z, hz, h⟩ := bind_ok.1 h
      cases h; cases hz; rfl
    · obtain ⟨ys, hy, h⟩ := bind_ok.1 h
      cases h
      rw [exact_mapM (g := id) (fun x y h => by cases h; rfl) hy, List.map_id]
  cast_num := by
    rintro (t | t) (u | u) (x | x) y q h hq <;> try (cases h; done)
    · obtain ⟨z, hz, h⟩ := bind_ok.1 h
      cases h; cases hz; exact hq
    · cases hq
  lit z := by simp [exactNum]
  dlit z := by simp [exactNum]
  mul_vec := by
    rintro (t | t) (u | u) r (x | x) (y | y) z q hr h hq <;> try (cases h; done)
    · obtain ⟨w, hw, h⟩ := bind_ok.1 h
      cases h; cases hr; cases hw; cases hq; funext i; simp [exactVec, mul_comm]
    · obtain ⟨ys, hy, h⟩ := bind_ok.1 h
      cases h; cases hr; cases hq
      have := exact_mapM (g := fun x => x * y) (fun x w h => by cases h; rfl) hy
      funext i
      simp only [exactVec, this, getD_map (fun x => x * y) (zero_mul y), Pi.smul_apply, smul_eq_mul]
      push_cast; ring
  mul_num := by
    rintro (t | t) (u | u) r (x | x) (y | y) z p q hr h hp hq <;> try (cases h; done)
    · obtain ⟨w, hw, h⟩ := bind_ok.1 h
      cases h; cases hr; cases hw; cases hp; cases hq
      simp [exactNum]
    · cases hp
  div_vec := by
    rintro (t | t) (u | u) r (x | x) (y | y) z q hr h hq h0 <;> try (cases h; done)
    · obtain ⟨w, hw, h⟩ := bind_ok.1 h
      cases hq
      have hy0 : y ≠ 0 := by rintro rfl; exact h0 (by simp)
      simp only [if_neg hy0] at hw
      cases h; cases hr; cases hw; funext i; simp [exactVec, div_eq_inv_mul]
    · obtain ⟨ys, hy, h⟩ := bind_ok.1 h
      cases h; cases hr; cases hq
      have hy0 : y ≠ 0 := by rintro rfl; exact h0 (by simp)
      have := exact_mapM (g := fun x => x / y) (fun x w h => by
        simp only [if_neg hy0] at h; cases h; rfl) hy
      funext i
      simp only [exactVec, this, getD_map (fun x => x / y) (zero_div y), Pi.smul_apply, smul_eq_mul]
      push_cast; ring
  div_num := by
    rintro (t | t) (u | u) r (x | x) (y | y) z p q hr h hp hq h0 <;> try (cases h; done)
    · obtain ⟨w, hw, h⟩ := bind_ok.1 h
      cases hp; cases hq
      have hy0 : y ≠ 0 := by rintro rfl; exact h0 (by simp)
      simp only [if_neg hy0] at hw
      cases h; cases hr; cases hw
      simp [exactNum]
    · cases hp

example : ∃ w, exactVecs.castG (.vec ()) (.vec ()) ⟨9144, 1, -4⟩ (.vec [10000, 1 / 2]) = .ok w := by
  refine ⟨.vec [9144, 4572 / 10000], (castG_flt (S := exactVecs) (rt := .sc ()) (rp := .vec ()) rfl rfl ?_).2 ?_⟩
  · rw [TypeSys.treat_some (S := exactVecs) (t := .vec ()) (v := .sc ()) rfl, TypeSys.treat_none rfl]
  · have h1 : exactVecs.over (.sc (), .sc (9144 * (1 / 10 / 10 / 10 / 10))) (.sc (), .sc 1) = .ok (.sc (), .sc (9144 / 10000)) := by
      simp [TypeSys.over]; norm_num
    refine ⟨(.vec (), .vec [10000, 1 / 2]), rfl, (.sc (), .sc 9144), rfl, (.sc (), .sc (1 / 10 / 10 / 10 / 10)), ?_, _, rfl, (.sc (), .sc 1), rfl, _, h1,
      (.vec (), .vec [9144, 4572 / 10000]), ?_, _, rfl, rfl⟩
    · have h4 : exactVecs.fpow10LoopG exactVecs.over (.sc ()) 4 (.sc (), .sc 1) = .ok (.sc (), .sc (1 / 10 / 10 / 10 / 10)) := by
        simp [TypeSys.as, TypeSys.fpow10LoopG, TypeSys.over]
      exact h4
    · simp [TypeSys.times]; norm_num; rfl

example {w : VVal ℚ} (h : exactVecs.castG (.vec ()) (.vec ()) ⟨9144, 1, -4⟩ (.vec [10000, 1 / 2]) = .ok w) :
    exactVec (.vec ()) w 0 = 9144 := by
  rw [C76_linear exact_linear (by decide) h]
  norm_num [exactVec, Ratio.val]

example (E : Env) (β : String → ℝ) (hβ : Sizes β) (r : Rep) {v w : VVal ℚ} {c : Ratio}
    (hc : castRatio E.est (exKms r).dim (exKms r).unit (exCms r).dim (exCms r).unit = .ok c)
    (h : exactVecs.castG (.vec ()) (.vec ()) c v = .ok w) :
    (exCms r).size β • exactVec (.vec ()) w = (exKms r).size β • exactVec (.vec ()) v :=
  C76_amount hβ (exKms_good E r).dim (exCms_good E r).dim (exKms_good E r).rooted (exCms_good E r).rooted (exKms_good E r).unit
    (exCms_good E r).unit (exKms_good E r).unitOf (exCms_good E r).unitOf (show dimEquivalent (exKms (.int .i32)).dim (exCms (.int .i32)).dim = .ok true by decide +kernel) (exL_cgs_coherent β) hc exact_linear h

end Verif
