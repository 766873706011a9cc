import Verif.Hacks

/-!
# Properties of the integer comparison helpers (C53)
-/

namespace Verif

theorem wrap_of_in {c : IntTy} {x : Int} (h : c.In x) : c.wrap x = x := by
  obtain ⟨h1, h2⟩ := h
  have hb : c.hi - c.lo < 2 ^ c.bits := by cases c <;> decide
  unfold IntTy.wrap
  rw [Int.emod_eq_of_lt (by omega) (by omega)]
  omega

theorem common_in {T U : IntTy} (h : T.signed = U.signed) : (T.promote.usual U.promote).lo ≤ T.lo ∧
    T.hi ≤ (T.promote.usual U.promote).hi ∧ (T.promote.usual U.promote).lo ≤ U.lo ∧ U.hi ≤ (T.promote.usual U.promote).hi := by
  revert h
  cases T <;> cases U <;> decide

theorem builtinEq_iff {T U : IntTy} {t u : Int} (h : T.signed = U.signed) (ht : T.In t) (hu : U.In u) :
    builtinEq T U t u = decide (t = u) := by
  obtain ⟨h1, h2, h3, h4⟩ := common_in h
  unfold builtinEq
  simp only
  rw [wrap_of_in ⟨h1.trans ht.1, ht.2.trans h2⟩, wrap_of_in ⟨h3.trans hu.1, hu.2.trans h4⟩]
  rfl

theorem builtinLt_iff {T U : IntTy} {t u : Int} (h : T.signed = U.signed) (ht : T.In t) (hu : U.In u) :
    builtinLt T U t u = decide (t < u) := by
  obtain ⟨h1, h2, h3, h4⟩ := common_in h
  unfold builtinLt
  simp only
  rw [wrap_of_in ⟨h1.trans ht.1, ht.2.trans h2⟩, wrap_of_in ⟨h3.trans hu.1, hu.2.trans h4⟩]

theorem unsigned_in {T : IntTy} {t : Int} (ht : T.In t) (h0 : 0 ≤ t) : T.unsigned.In t := by
  have h1 : T.unsigned.lo = 0 := by cases T <;> rfl
  have h2 : T.hi ≤ T.unsigned.hi := by cases T <;> decide
  exact ⟨by omega, ht.2.trans h2⟩

theorem unsigned_signed (T : IntTy) : T.unsigned.signed = false := by cases T <;> rfl

theorem unsigned_nonneg {T : IntTy} {t : Int} (h : T.signed = false) (ht : T.In t) : 0 ≤ t := by
  have h1 : T.lo = 0 := by revert h; cases T <;> decide
  have := ht.1
  omega

theorem zero_in_i32 : IntTy.i32.In 0 := by decide

/-- C53: `cmp_equal` compares the mathematical values. -/
theorem C53_cmp_equal {T U : IntTy} {t u : Int} (ht : T.In t) (hu : U.In u) : cmpEqual T U t u = decide (t = u) := by
  unfold cmpEqual
  by_cases h : T.signed = U.signed
  · rw [if_pos h, builtinEq_iff h ht hu]
  · rw [if_neg h]
    cases hT : T.signed with
    | true =>
      have hU : U.signed = false := by cases hU : U.signed with
        | true => exact absurd (hT.trans hU.symm) h
        | false => rfl
      have hu0 := unsigned_nonneg hU hu
      rw [if_pos rfl, builtinLt_iff hT ht zero_in_i32]
      by_cases h0 : t < 0
      · rw [if_pos (by simpa using h0)]
        symm; simp only [decide_eq_false_iff_not]; omega
      · rw [if_neg (by simpa using h0)]
        have ht' := unsigned_in ht (by omega)
        rw [wrap_of_in ht', builtinEq_iff (by rw [unsigned_signed, hU]) ht' hu]
    | false =>
      have hU : U.signed = true := by cases hU : U.signed with
        | false => exact absurd (hT.trans hU.symm) h
        | true => rfl
      have ht0 := unsigned_nonneg hT ht
      rw [if_neg (by simp), builtinLt_iff hU hu zero_in_i32]
      by_cases h0 : u < 0
      · rw [if_pos (by simpa using h0)]
        symm; simp only [decide_eq_false_iff_not]; omega
      · rw [if_neg (by simpa using h0)]
        have hu' := unsigned_in hu (by omega)
        rw [wrap_of_in hu', builtinEq_iff (by rw [unsigned_signed, hT]) ht hu']

example : cmpEqual .i32 .u32 (-1) 4294967295 = false ∧ builtinEq .i32 .u32 (-1) 4294967295 = true := by decide

/-- C53: `cmp_less` compares the mathematical values. -/
theorem C53_cmp_less {T U : IntTy} {t u : Int} (ht : T.In t) (hu : U.In u) : cmpLess T U t u = decide (t < u) := by
  unfold cmpLess
  by_cases h : T.signed = U.signed
  · rw [if_pos h, builtinLt_iff h ht hu]
  · rw [if_neg h]
    cases hT : T.signed with
    | true =>
      have hU : U.signed = false := by cases hU : U.signed with
        | true => exact absurd (hT.trans hU.symm) h
        | false => rfl
      have hu0 := unsigned_nonneg hU hu
      rw [if_pos rfl, builtinLt_iff hT ht zero_in_i32]
      by_cases h0 : t < 0
      · rw [if_pos (by simpa using h0)]
        symm; simp only [decide_eq_true_eq]; omega
      · rw [if_neg (by simpa using h0)]
        have ht' := unsigned_in ht (by omega)
        rw [wrap_of_in ht', builtinLt_iff (by rw [unsigned_signed, hU]) ht' hu]
    | false =>
      have hU : U.signed = true := by cases hU : U.signed with
        | false => exact absurd (hT.trans hU.symm) h
        | true => rfl
      have ht0 := unsigned_nonneg hT ht
      rw [if_neg (by simp), builtinLt_iff hU hu zero_in_i32]
      by_cases h0 : u < 0
      · rw [if_pos (by simpa using h0)]
        symm; simp only [decide_eq_false_iff_not]; omega
      · rw [if_neg (by simpa using h0)]
        have hu' := unsigned_in hu (by omega)
        rw [wrap_of_in hu', builtinLt_iff (by rw [unsigned_signed, hT]) ht hu']

example : cmpLess .i8 .u64 (-1) 0 = true ∧ builtinLt .i8 .u64 (-1) 0 = false := by decide

/-- C53: the four other comparisons compare the mathematical values. -/
theorem C53_cmp_others {T U : IntTy} {t u : Int} (ht : T.In t) (hu : U.In u) :
    cmpNotEqual T U t u = decide (t ≠ u) ∧ cmpGreater T U t u = decide (t > u) ∧
    cmpLessEqual T U t u = decide (t ≤ u) ∧ cmpGreaterEqual T U t u = decide (t ≥ u) := by
  unfold cmpNotEqual cmpLessEqual cmpGreaterEqual cmpGreater
  rw [C53_cmp_equal ht hu, C53_cmp_less ht hu, C53_cmp_less hu ht]
  refine ⟨by simp, rfl, ?_, ?_⟩
  · rw [← decide_not]; simp only [decide_eq_decide]; omega
  · rw [← decide_not]; simp only [decide_eq_decide]; omega

/-- C53: `in_range` is true exactly when the value is one of the target type. -/
theorem C53_in_range {R T : IntTy} {t : Int} (ht : T.In t) : inRange R T t = true ↔ R.lo ≤ t ∧ t ≤ R.hi := by
  have hlo : R.In R.lo := by cases R <;> decide
  have hhi : R.In R.hi := by cases R <;> decide
  unfold inRange
  rw [(C53_cmp_others ht hlo).2.2.2, (C53_cmp_others ht hhi).2.2.1]
  simp

example : inRange .u8 .i32 (-1) = false ∧ inRange .u8 .i32 255 = true ∧ inRange .i8 .u64 200 = false := by decide

end Verif
