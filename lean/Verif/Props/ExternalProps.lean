import Verif.External
import Verif.Props.RefProps

/-!
# Properties of the quantities and points of other libraries (C83)
-/

namespace Verif

open Ratio

/-- The specialization provides what the documentation asks for (src/core/include/units/customization_points.h:75-86): a dimension, a unit of this dimension, a
representation, and a number of this type. -/
structure Ext.Documented (x : Ext) (t : QTy) : Prop where
  traits : x.traits = some ⟨some t.dim, some t.unit, some t.rep, some t.rep⟩
  unitOf : t.unit.ref = t.dim.unit.ref
  value : x.value.Typed t.rep

theorem Ext.Documented.like {x : Ext} {t : QTy} (h : x.Documented t) : x.like = .ok t := by
  simp [Ext.like, Ext.quantityLike, h.traits, h.unitOf]

theorem Ext.Documented.numberRep {x : Ext} {t : QTy} (h : x.Documented t) : x.numberRep = .ok t.rep := by
  simp [Ext.numberRep, h.traits]

/-- C83: an object of another library whose traits are as documented becomes, by construction of a given type, what the quantity with its number, dimension, unit
and representation becomes by conversion. -/
theorem C83_construction (E : Env) (t l : QTy) (x : Ext) (h : x.Documented l) (q : Qty) :
    fromExt E t x = .ok q ↔ safeCastable E l t = .ok true ∧ convertQty E t ⟨l, x.value⟩ = .ok q := by
  unfold fromExt
  rw [h.like, h.numberRep]
  simp only [ok_bind, mkQty_self, bind_ok]
  constructor
  · rintro ⟨b, hb, hc⟩
    cases b with
    | false => cases hc
    | true => exact ⟨hb, by simpa using hc⟩
  · rintro ⟨h1, h2⟩
    exact ⟨true, h1, by simpa using h2⟩

/-- C83: and it keeps its amount, if the type holds it. -/
theorem C83_amount (E : Env) (β : String → ℝ) (hβ : Sizes β) (t l : QTy) (x : Ext) (h : x.Documented l) (q : Qty) (gl : l.Good E) (gt : t.Good E)
    (hco : Coherent β l.dim t.dim) (hfl : t.rep.floating = true → FlExact E.fl) (hg : CastGuard E t ⟨l, x.value⟩)
    (hh : Holds β t ((x.value.q : ℝ) * l.size β)) (hq : fromExt E t x = .ok q) :
    q.ty = t ∧ q.num.Typed t.rep ∧ q.amount β = (x.value.q : ℝ) * l.size β := by
  obtain ⟨-, h2⟩ := (C83_construction E t l x h q).1 hq
  exact convertQty_exact hβ (q := ⟨l, x.value⟩) gl gt hco h.value hfl hg hh h2

/-- C83: deduction keeps dimension, unit, representation and number. -/
theorem C83_deduction (E : Env) (l : QTy) (x : Ext) (h : x.Documented l) (hs : l.rep.floating = true ∨ harmonic E l l = .ok true) :
    deduceExt E x = .ok ⟨l, x.value⟩ := by
  unfold deduceExt
  rw [h.like, ok_bind, C83_construction E l l x h]
  refine ⟨?_, by unfold convertQty; rw [if_pos rfl]⟩
  unfold safeCastable
  rw [show dimEquivalent l.dim l.dim = .ok true from C17_reflexive _, ok_bind, if_pos rfl]
  cases hf : l.rep.floating with
  | true => rw [if_pos rfl]
  | false =>
    rw [if_neg (by simp), if_neg (by simp)]
    rcases hs with hs | hs
    · rw [hf] at hs; cases hs
    · exact hs

/-- C83: whatever the traits are, what is accepted has all four members, a unit of the dimension, an equivalent dimension, and a number that the representation
takes without narrowing. -/
theorem C83_accepts (E : Env) (t : QTy) (x : Ext) (q : Qty) (h : fromExt E t x = .ok q) :
    ∃ d u r n, x.traits = some ⟨some d, some u, some r, some n⟩ ∧ u.ref = d.unit.ref ∧ dimEquivalent t.dim d = .ok true ∧
      (n.floating = true → r.floating = true) ∧ (r.floating = true → t.rep.floating = true) := by
  unfold fromExt at h
  simp only [bind_ok] at h
  obtain ⟨l, hl, b, hb, h⟩ := h
  cases b with
  | false => cases h
  | true =>
    simp only [if_true, bind_ok] at h
    obtain ⟨n, hn, q', hm, -⟩ := h
    unfold Ext.like at hl
    split at hl
    · rename_i d u r m hlike hx
      split at hl
      · rename_i hu
        obtain rfl := Except.ok.inj hl
        unfold Ext.numberRep at hn
        rw [hx] at hn
        cases m with
        | none => cases hn
        | some m =>
          simp only [Except.ok.injEq] at hn
          subst hn
          refine ⟨d, u, r, m, hx, hu, ?_, ?_, ?_⟩
          · unfold safeCastable at hb
            simp only [bind_ok] at hb
            obtain ⟨e, he, hb⟩ := hb
            cases e with
            | false => cases hb
            | true => exact he
          · intro hf
            unfold mkQty at hm
            split at hm
            · rename_i hc
              rcases hc with hc | hc
              · exact hc
              · exact absurd hf hc
            · cases hm
          · intro hf
            unfold safeCastable at hb
            simp only [bind_ok] at hb
            obtain ⟨e, he, hb⟩ := hb
            cases e with
            | false => cases hb
            | true =>
              rw [if_pos rfl] at hb
              split at hb
              · assumption
              · simp at hb
      · cases hl
    · cases hl

/-- C83, finding: the concept `QuantityLike` does not ask for a unit of the dimension, nor for a number that converts without narrowing: such types are
quantity-like, and no quantity can be constructed from them. -/
theorem C83_like_useless (x : Ext) (d : Dim) (u : MUnit) (r n : Rep) (hx : x.traits = some ⟨some d, some u, some r, some n⟩)
    (h : u.ref ≠ d.unit.ref ∨ (n.floating = true ∧ r.floating = false)) :
    x.quantityLike = true ∧ ∀ E t q, fromExt E t x ≠ .ok q := by
  refine ⟨by simp [Ext.quantityLike, hx], fun E t q hq => ?_⟩
  obtain ⟨d', u', r', n', h1, h2, -, h3, -⟩ := C83_accepts E t x q hq
  rw [hx] at h1
  simp only [Option.some.injEq, LikeTraits.mk.injEq] at h1
  obtain ⟨rfl, rfl, rfl, rfl⟩ := h1
  rcases h with h | ⟨h4, h5⟩
  · exact h h2
  · rw [h3 h4] at h5; cases h5

/-! ### Points -/

/-- The specialization provides what the documentation asks for (src/core/include/units/customization_points.h:88-99): an origin, a unit and a representation, and a
quantity-like value; and nothing else. -/
structure ExtPoint.Documented (p : ExtPoint) (o : Origin) (l : QTy) (x : Ext) : Prop where
  traits : p.traits = some ⟨none, some o, some l.unit, some l.rep, some x⟩
  relative : x.Documented l
  dim : o.dim = l.dim

/-- C83, finding: a point type whose traits are as documented is not point-like, and no point can be constructed from it; the concept asks for a member
`dimension` that the documentation replaces by `origin`. -/
theorem C83_documented_point (p : ExtPoint) (o : Origin) (l : QTy) (x : Ext) (h : p.Documented o l x) (hb : p.byHand = false) :
    p.pointLike = false ∧ (∀ E R t q, fromExtPoint E R t p ≠ .ok q) ∧ ∀ E R q, deduceExtPoint E R p ≠ .ok q := by
  have hp : p.pointLike = false := by simp [ExtPoint.pointLike, hb, h.traits]
  refine ⟨hp, fun E R t q hq => ?_, fun E R q hq => ?_⟩
  · unfold fromExtPoint at hq; rw [hp] at hq; cases hq
  · unfold deduceExtPoint at hq; rw [hp] at hq; cases hq

/-- What the constructor needs: an origin and a value, and that the concept holds. -/
structure ExtPoint.Usable (p : ExtPoint) (o : Origin) (x : Ext) : Prop where
  like : p.pointLike = true
  traits : ∃ d u r, p.traits = some ⟨d, some o, u, r, some x⟩

theorem fromExtPoint_eq_ok {E : Env} {R : Rebinds} {t : PTy} {p : ExtPoint} {o : Origin} {x : Ext} (h : p.Usable o x) {y : Pt} :
    fromExtPoint E R t p = .ok y ↔ originEquivalent R t.origin o = .ok true ∧ ∃ q, fromExt E t.qty x = .ok q ∧ y = ⟨t, q.num⟩ := by
  obtain ⟨d, u, r, ht⟩ := h.traits
  unfold fromExtPoint
  rw [h.like, ht]
  simp only [bind_ok]
  constructor
  · rintro ⟨b, hb, hc⟩
    cases b with
    | false => cases hc
    | true =>
      simp only [if_true, bind_ok, Except.ok.injEq] at hc
      obtain ⟨q, hq, rfl⟩ := hc
      exact ⟨hb, q, hq, rfl⟩
  · rintro ⟨h1, q, hq, rfl⟩
    refine ⟨true, h1, ?_⟩
    simp [hq, ok_bind]

/-- C83: what is accepted has an origin equivalent to that of the type, and lies where the value of the object says; the members `dimension`, `unit` and `rep` of the
traits have no influence on this. -/
theorem C83_point_partial (E : Env) (R : Rebinds) (t : PTy) (p : ExtPoint) (y : Pt) (h : fromExtPoint E R t p = .ok y) :
    p.pointLike = true ∧ ∃ o x q, p.Usable o x ∧ originEquivalent R t.origin o = .ok true ∧ fromExt E t.qty x = .ok q ∧ y = ⟨t, q.num⟩ ∧
      ∀ p' : ExtPoint, p'.Usable o x → fromExtPoint E R t p' = .ok y := by
  have hu : ∃ o x, p.Usable o x := by
    unfold fromExtPoint at h
    split at h
    · rename_i d o u r x hp ht
      exact ⟨o, x, hp, d, u, r, ht⟩
    · cases h
  obtain ⟨o, x, hu⟩ := hu
  obtain ⟨h1, q, hq, rfl⟩ := (fromExtPoint_eq_ok hu).1 h
  exact ⟨hu.like, o, x, q, hu, h1, hq, rfl, fun p' hp' => (fromExtPoint_eq_ok hp').2 ⟨h1, q, hq, rfl⟩⟩

/-- C83: and its position is the amount of the value. -/
theorem C83_point_position (E : Env) (R : Rebinds) (β : String → ℝ) (hβ : Sizes β) (t : PTy) (l : QTy) (o : Origin) (x : Ext) (p : ExtPoint) (y : Pt)
    (hp : p.Usable o x) (h : x.Documented l) (gl : l.Good E) (gt : t.qty.Good E) (hco : Coherent β l.dim t.origin.dim)
    (hfl : t.rep.floating = true → FlExact E.fl) (hg : CastGuard E t.qty ⟨l, x.value⟩) (hh : Holds β t.qty ((x.value.q : ℝ) * l.size β))
    (hy : fromExtPoint E R t p = .ok y) : y.ty = t ∧ y.pos β = (x.value.q : ℝ) * l.size β := by
  obtain ⟨-, q, hq, rfl⟩ := (fromExtPoint_eq_ok hp).1 hy
  obtain ⟨h1, -, h3⟩ := C83_amount E β hβ t.qty l x h q gl gt hco hfl hg hh hq
  refine ⟨rfl, ?_⟩
  rw [← h3]
  unfold Pt.pos Pt.rel Qty.amount
  rw [h1]

/-- C83: with a member `dimension` besides the documented ones, a point can be deduced: it has the origin, unit and representation of the traits and the number of the
value. -/
theorem C83_point_deduction (E : Env) (R : Rebinds) (p : ExtPoint) (o : Origin) (l : QTy) (x : Ext) (d : Dim)
    (ht : p.traits = some ⟨some d, some o, some l.unit, some l.rep, some x⟩) (h : x.Documented l) (ho : o.dim = l.dim)
    (hs : l.rep.floating = true ∨ harmonic E l l = .ok true) : deduceExtPoint E R p = .ok ⟨⟨o, l.unit, l.rep⟩, x.value⟩ := by
  have hx : x.quantityLike = true := by simp [Ext.quantityLike, h.traits]
  have hl : p.pointLike = true := by simp [ExtPoint.pointLike, ht, hx]
  have hu : p.Usable o x := ⟨hl, _, _, _, ht⟩
  have hq : (⟨o, l.unit, l.rep⟩ : PTy).qty = l := by cases l; simp only [PTy.qty] at *; rw [ho]
  have hd := C83_deduction E l x h hs
  unfold deduceExt at hd
  rw [h.like, ok_bind] at hd
  unfold deduceExtPoint
  rw [hl, ht]
  simp only
  rw [if_pos (by rw [ho]; exact h.unitOf), fromExtPoint_eq_ok hu]
  refine ⟨by unfold originEquivalent; rw [if_pos rfl], _, by rw [hq]; exact hd, rfl⟩

/-- C83: a type is quantity-like only if its traits have every documented member; a point type is point-like, unless the concept is specialized by hand, only if in
addition to the others it has a dimension and its value is quantity-like. -/
theorem C83_concepts (x : Ext) (p : ExtPoint) :
    (x.quantityLike = true ↔ ∃ d u r n, x.traits = some ⟨some d, some u, some r, some n⟩) ∧
    (p.byHand = false → (p.pointLike = true ↔ ∃ d o u r y n d' u' r', p.traits = some ⟨some d, o, some u, some r, some y⟩ ∧
      y.traits = some ⟨some d', some u', some r', some n⟩)) := by
  have key : ∀ x : Ext, x.quantityLike = true ↔ ∃ d u r n, x.traits = some ⟨some d, some u, some r, some n⟩ := by
    rintro ⟨_ | ⟨_ | d, _ | u, _ | r, _ | n⟩, v⟩ <;> simp [Ext.quantityLike]
  refine ⟨key x, fun hb => ?_⟩
  unfold ExtPoint.pointLike
  rw [hb]
  obtain ⟨_ | ⟨_ | d, o, _ | u, _ | r, _ | y⟩, b⟩ := p <;> simp only [Bool.false_or] <;> try simp
  rw [key y]
  exact ⟨fun ⟨d, u, r, n, h⟩ => ⟨n, d, u, r, h⟩, fun ⟨n, d, u, r, h⟩ => ⟨d, u, r, n, h⟩⟩

/-! ### `std::chrono` -/

/-- C83: the durations and time points of `std::chrono` are such objects; for time points this rests on the specialization of `is_quantity_point_like` by hand, without
which they would be rejected. -/
theorem C83_chrono (E : Env) (hE : E.OK) (R : Rebinds) (t : QTy) (s : PTy) (d : Duration) (p : TimePoint) :
    (∀ x, d.ext E = .ok x → fromExt E t x = fromDuration E t d ∧ deduceExt E x = deduceDuration E d) ∧
    (∀ x, p.ext E true = .ok x → fromExtPoint E R s x = fromTimePoint E R s p) ∧
    ∀ x, p.ext E false = .ok x → ∀ y, fromExtPoint E R s x ≠ .ok y := by
  have key : ∀ (d : Duration) (t : QTy) (x : Ext), d.ext E = .ok x → x.like = d.like E ∧ fromExt E t x = fromDuration E t d := by
    intro d t x hx
    unfold Duration.ext at hx
    simp only [bind_ok, Except.ok.injEq] at hx
    obtain ⟨u, hu, rfl⟩ := hx
    have href : u.ref = (Dim.base siTime).unit.ref := by
      unfold Duration.unit at hu
      simp only [bind_ok] at hu
      obtain ⟨r, -, hu⟩ := hu
      exact (downcastUnit_eq_ok hE.units hu).2.1
    have hl : Ext.like ⟨some ⟨some (.base siTime), some u, some d.rep, some d.rep⟩, d.count⟩ = d.like E := by
      unfold Duration.like
      rw [hu]
      simp only [Ext.like, Ext.quantityLike, Option.isSome_some, Bool.and_self]
      rw [if_pos href]
      rfl
    refine ⟨hl, ?_⟩
    unfold fromExt fromDuration
    rw [hl]
    rfl
  refine ⟨fun x hx => ⟨(key d t x hx).2, ?_⟩, fun x hx => ?_, fun x hx y hy => ?_⟩
  · unfold deduceExt deduceDuration
    rw [(key d t x hx).1]
    congr 1
    funext l
    exact (key d l x hx).2
  · unfold TimePoint.ext at hx
    simp only [bind_ok, Except.ok.injEq] at hx
    obtain ⟨u, hu, x', hx', rfl⟩ := hx
    unfold fromExtPoint fromTimePoint
    simp only [ExtPoint.pointLike, Bool.true_or, (key p.since s.qty x' hx').2]
  · unfold TimePoint.ext at hx
    simp only [bind_ok, Except.ok.injEq] at hx
    obtain ⟨u, hu, x', hx', rfl⟩ := hx
    unfold fromExtPoint at hy
    simp [ExtPoint.pointLike] at hy

/-! ### Concrete cases -/

/-- A length of another library, in kilometres as integers; the same with a floating-point number, and with a unit of time. -/
def exLength : Ext := ⟨some ⟨some (.base exL), some exKm, some (.int .i32), some (.int .i32)⟩, .i 7⟩
def exLengthDouble : Ext := ⟨some ⟨some (.base exL), some exKm, some (.int .i32), some (.flt .f64)⟩, .f 7⟩
def exLengthSecond : Ext := ⟨some ⟨some (.base exL), some siSecond, some (.int .i32), some (.int .i32)⟩, .i 7⟩

/-- An origin, a place of another library with the documented traits, and one with a dimension besides. -/
def exShore : Origin := ⟨"sea_level", .base exL⟩
def exPlace : ExtPoint := ⟨some ⟨none, some exShore, some exKm, some (.int .i32), some exLength⟩, false⟩
def exPlaceDim : ExtPoint := ⟨some ⟨some (.base exL), some exShore, some exKm, some (.int .i32), some exLength⟩, false⟩

example : exLength.Documented (exKms (.int .i32)) ∧ exPlace.Documented exShore (exKms (.int .i32)) exLength ∧ exPlaceDim.Usable exShore exLength :=
  ⟨⟨rfl, by decide, _, rfl, by decide⟩, ⟨rfl, ⟨rfl, by decide, _, rfl, by decide⟩, rfl⟩, rfl, _, _, _, rfl⟩

example : deduceExt exEnv exLength = .ok ⟨exKms (.int .i32), .i 7⟩ ∧ harmonic exEnv (exKms (.int .i32)) (exKms (.int .i32)) = .ok true ∧
    exLengthDouble.quantityLike = true ∧ fromExt exEnv (exKms (.int .i32)) exLengthDouble = .error .rejected ∧
    exLengthSecond.quantityLike = true ∧ fromExt exEnv (exKms (.int .i32)) exLengthSecond = .error .rejected ∧
    deduceExtPoint exEnv exNoRebind exPlace = .error .rejected ∧
    deduceExtPoint exEnv exNoRebind exPlaceDim = .ok ⟨⟨exShore, exKm, .int .i32⟩, .i 7⟩ := by
  decide +kernel

end Verif
