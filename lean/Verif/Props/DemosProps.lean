import Verif.Demos
import Verif.ProgramsLemmas
import Mathlib.Tactic.NormNum

/-!
# C92: the remaining example programs

With exact floating point arithmetic, as in `Verif.Programs`.
-/

namespace Verif

open Systems Demos

set_option maxRecDepth 100000

/-- The units of the programs are those of the shipped systems. -/
theorem C92_units : ∀ u ∈ demoUnits, ∃ row ∈ unitTable, row.ent.unit = u := by
  have h : demoUnits.map some = [171, 170, 166, 157, 155, 152, 144, 134, 543, 535, 505, 497, 520, 359, 193, 161, 159, 530, 117, 58, 522, 122, 113, 119, 1, 120,
      2, 118, 124, 116, 123, 6, 5, 4, 3, 112, 121].map fun i => unitTable[i]?.map (·.ent.unit) := by kernel_rfl
  intro u hu
  have hu' : some u ∈ demoUnits.map some := List.mem_map_of_mem hu
  rw [h, List.mem_map] at hu'
  obtain ⟨i, -, hi⟩ := hu'
  rw [Option.map_eq_some_iff] at hi
  obtain ⟨row, hr, rfl⟩ := hi
  exact ⟨row, List.mem_of_getElem? hr, rfl⟩

/-! ### Casts -/

/-- `demoEnv` with its components in sight. -/
abbrev Demos.dE : Env := ⟨compileEst rnd53, demoDims, demoUnitReg, fun _ x => x⟩

/-- The factor of a cast. -/
def Demos.factor (d : Dim) (u : MUnit) (d' : Dim) (u' : MUnit) : C (ℚ × Bool) := do
  let c ← castRatio dE.est d u d' u'
  .ok (c.val, decide (c.den ≠ 0))

theorem Demos.castD {d d' : Dim} {u u' : MUnit} {r : Rep} {f : FltTy} {k : ℚ} (hd : dimEquivalent d' d = .ok true) (hk : factor d u d' u' = .ok (k, true)) {v : Num}
    (hv : v.Typed r) : quantityCast dE ⟨d', u', .flt f⟩ ⟨⟨d, u, r⟩, v⟩ = .ok ⟨⟨d', u', .flt f⟩, .f (v.q * k)⟩ := by
  simp only [factor, bind_ok, Except.ok.injEq, Prod.mk.injEq, decide_eq_true_eq] at hk
  obtain ⟨c, hc, rfl, h0⟩ := hk
  simp only [quantityCast, hd, ok_bind, hc, if_true]
  rw [castNum_fok _ _ h0 hv, ok_bind]

/-- A quantity of a dimension and a unit, of any representation. -/
structure Demos.Given (d : Dim) (u : MUnit) (q : Qty) : Prop where
  dim : q.ty.dim = d
  unit : q.ty.unit = u
  typed : q.num.Typed q.ty.rep

theorem Demos.convD {d d' : Dim} {u u' : MUnit} {f : FltTy} {k : ℚ} (hd : dimEquivalent d' d = .ok true) (hk : factor d u d' u' = .ok (k, true))
    (h1 : u = u' → k = 1) {q : Qty} (hq : Given d u q) : convertQty dE ⟨d', u', .flt f⟩ q = .ok ⟨⟨d', u', .flt f⟩, .f (q.num.q * k)⟩ := by
  obtain ⟨⟨qd, qu, r⟩, v⟩ := q
  obtain ⟨rfl, rfl, hv⟩ := hq
  unfold convertQty
  split
  · rename_i h
    simp only [QTy.mk.injEq] at h
    obtain ⟨rfl, rfl, rfl⟩ := h
    rw [h1 rfl, mul_one]
    cases v with
    | f x => rfl
    | i x => obtain ⟨t, h, _⟩ := hv; cases h
  · simp only [safeCastable, hd, ok_bind, if_true, Rep.floating]
    exact castD hd hk hv

theorem Demos.lineD {t0 t1 t2 : QTy} {f0 f1 f2 : FltTy} {k1 k2 : ℚ} (h0 : t0.rep = .flt f0) (h1 : t1.rep = .flt f1) (h2 : t2.rep = .flt f2)
    (hd1 : dimEquivalent t1.dim t0.dim = .ok true) (hk1 : factor t0.dim t0.unit t1.dim t1.unit = .ok (k1, true))
    (hd2 : dimEquivalent t2.dim t0.dim = .ok true) (hk2 : factor t0.dim t0.unit t2.dim t2.unit = .ok (k2, true)) (x : ℚ) :
    fmtLine dE t1 t2 ⟨t0, .f x⟩ = .ok (⟨t0, .f x⟩, ⟨t1, .f (x * k1)⟩, ⟨t2, .f (x * k2)⟩) := by
  obtain ⟨d0, u0, r0⟩ := t0; obtain ⟨d1, u1, r1⟩ := t1; obtain ⟨d2, u2, r2⟩ := t2
  subst h0 h1 h2
  have hv : (Num.f x).Typed (.flt f0) := ⟨f0, rfl⟩
  simp only [fmtLine, quantityCastBy, castTarget, ok_bind, castD hd1 hk1 hv, castD hd2 hk2 hv]
  rfl

/-! ### Custom systems -/

/-- The yards of `fps` are not convertible to kilometres: `static_assert(!castable_to<…>)`, whatever the representation and the number. -/
theorem C92_custom_rejected (E : Env) (r : Rep) (v : Num) : (do let t ← fpsYards r; toOwnKilometres E t v) = .error .rejected := by kernel_rfl

/-- The foot of `si::fps`, which is the unit of its dimension. -/
def Demos.ownFoot : MUnit :=
  ⟨.named "si::fps::foot", ⟨381, 125, -1⟩, "si::metre", [.scaled ⟨381, 125, -1⟩ "si::metre"], true, "ft", none⟩
/-- The yard of `si::fps`. -/
def Demos.ownYard : MUnit :=
  ⟨.named "si::fps::yard", ⟨1143, 125, -1⟩, "si::metre", [.scaled ⟨1143, 125, -1⟩ "si::metre"], true, "yd", none⟩
/-- The kilometre of the program. -/
def Demos.ownKm : MUnit := ⟨.named "si::kilometre", ⟨1, 1, 3⟩, "si::metre", [.scaled ⟨1, 1, 3⟩ "si::metre"], true, "km", none⟩

/-- The yards of `si::fps` are: 0.0009144 km each. -/
theorem C92_custom_conversion (x : ℚ) : (do let t ← siFpsYards (.flt .f64); toOwnKilometres demoEnv t (.f x)) =
    .ok ⟨⟨.base ⟨"si::fps::dim_length", "L", ownFoot⟩, ownKm, .flt .f64⟩, .f (x * (9144 / 10000000))⟩ := by
  have ht : siFpsYards (.flt .f64) = .ok ⟨.base ⟨"si::fps::dim_length", "L", ownFoot⟩, ownYard, .flt .f64⟩ := by decide +kernel
  have hk : ownKilometre.eval = .ok ownKm := by decide +kernel
  simp only [ht, ok_bind, toOwnKilometres, hk, quantityCastBy, castTarget]
  rw [if_pos (by decide +kernel), ok_bind]
  exact castD (by decide +kernel) (by decide +kernel) ⟨_, rfl⟩

/-- The definitions of the units introduce what is printed as the answer to "what is your ratio": 3 feet, and 0.9144 metres. -/
theorem C92_custom_ratios : (fpsYard.eval.map fun u : MUnit => (u.ratio.val, u.ref)) = .ok (3, "fps::foot") ∧
    ((do let c ← footRatio; (siFpsYard c).eval).map fun u : MUnit => (u.ratio.val, u.ref)) = .ok (9144 / 10000, "si::metre") := by
  constructor <;> decide +kernel

/-- A square yard is nine square feet in both systems: the number for the areas, in the coherent unit of the unknown dimension (square feet). -/
theorem C92_custom_areas (x y : ℚ) :
    (∃ d, (do let t ← fpsYards (.flt .f64); yardArea demoEnv t (.f x) (.f y)) = .ok ⟨⟨.unknown d, unknownCoherentUnit, .flt .f64⟩, .f (x * y * 9)⟩) ∧
    (∃ d, (do let t ← siFpsYards (.flt .f64); yardArea demoEnv t (.f x) (.f y)) = .ok ⟨⟨.unknown d, unknownCoherentUnit, .flt .f64⟩, .f (x * y * 9)⟩) := by
  refine ⟨⟨[⟨⟨"fps::dim_length", "L", ⟨.named "fps::foot", ⟨1, 1, 0⟩, "fps::foot", [.scaled ⟨1, 1, 0⟩ "fps::foot"], true, "ft", none⟩⟩, 2, 1⟩], ?_⟩,
    ⟨[⟨⟨"si::fps::dim_length", "L", ownFoot⟩, 2, 1⟩], ?_⟩⟩
  · kernel_rfl
  · kernel_rfl

/-! ### An unknown dimension -/

/-- The product of a speed and a length, an unknown dimension. -/
def Demos.tempTy (r : Rep) : QTy := ⟨.unknown [⟨b_isq_si_dim_length, 2, 1⟩, ⟨b_isq_si_dim_time, -1, 1⟩], unknownCoherentUnit, r⟩

theorem Demos.divE {t1 t2 t : QTy} (ha : t1.rep.arith t2.rep = t.rep) (h : refDivide dE t1.dim t1.unit t2.dim t2.unit = .ok (t.dim, t.unit))
    {v w z : Num} (hn : numOp dE.fl .div t1.rep t2.rep v w = .ok z) : divQty dE ⟨t1, v⟩ ⟨t2, w⟩ = .ok ⟨t, z⟩ := by
  obtain ⟨d, u, r⟩ := t
  subst ha
  simp only [divQty, h, ok_bind, hn]

theorem Demos.mulE {t1 t2 t : QTy} (ha : t1.rep.arith t2.rep = t.rep) (h : refMultiply dE t1.dim t1.unit t2.dim t2.unit = .ok (t.dim, t.unit))
    {v w z : Num} (hn : numOp dE.fl .mul t1.rep t2.rep v w = .ok z) : mulQty dE ⟨t1, v⟩ ⟨t2, w⟩ = .ok ⟨t, z⟩ := by
  obtain ⟨d, u, r⟩ := t
  subst ha
  simp only [mulQty, h, ok_bind, hn]

/-- With a floating point representation the program computes `d / t * a / b * c` in metres. -/
theorem C92_unknown_dimension (f : FltTy) (d t a b c : ℚ) (ht : t ≠ 0) (hb : b ≠ 0) :
    unknownDimension demoEnv (.flt f) (.f d) (.f t) (.f a) (.f b) (.f c) = .ok (⟨Demos.speedTy (.flt f), .f (d / t)⟩, ⟨tempTy (.flt f), .f (d / t * a)⟩,
      ⟨Demos.speedTy (.flt f), .f (d / t * a / b)⟩, ⟨lenTy (.flt f), .f (d / t * a / b * c)⟩) := by
  have ha : (Rep.flt f).arith (.flt f) = .flt f := by cases f <;> rfl
  have hm (x y : ℚ) : numOp dE.fl .mul (.flt f) (.flt f) (.f x) (.f y) = .ok (.f (x * y)) := by
    simp only [numOp, ha, convNum, if_true, sameOp, fltOp, ok_bind]
  have hd (x y : ℚ) (h : y ≠ 0) : numOp dE.fl .div (.flt f) (.flt f) (.f x) (.f y) = .ok (.f (x / y)) := by
    simp only [numOp, ha, convNum, if_true, sameOp, fltOp, ok_bind, if_neg h]
  show unknownDimension dE _ _ _ _ _ _ = _
  unfold unknownDimension
  rw [divE (t := Demos.speedTy (.flt f)) ha (by kernel_rfl) (hd d t ht), ok_bind, mulE (t := tempTy (.flt f)) ha (by kernel_rfl) (hm _ a), ok_bind,
    divE (t := Demos.speedTy (.flt f)) ha (by kernel_rfl) (hd _ b hb), ok_bind, mulE (t := lenTy (.flt f)) ha (by kernel_rfl) (hm _ c), ok_bind]

/-- With integers (`int` in the version with references, `std::int64_t` in that with literals) the quotients are truncated.  For constants that are not
negative and products that fit, the printed distance is `d / t * a / b * c` with rounded down quotients: never more than the exact distance, and less by
up to the two truncations. -/
theorem C92_unknown_dimension_int {T : IntTy} (hT : T = .i32 ∨ T = .i64) {d t a b c : ℤ} (hd : 0 ≤ d) (ht : 0 < t) (ha : 0 ≤ a) (hb : 0 < b) (hc : 0 ≤ c)
    (hdT : T.In d) (h1 : T.In (d / t * a)) (h2 : T.In (d / t * a / b * c)) :
    (∃ v1 temp1 v2, unknownDimension demoEnv (.int T) (.i d) (.i t) (.i a) (.i b) (.i c) =
      .ok (v1, temp1, v2, ⟨lenTy (.int T), .i (d / t * a / b * c)⟩)) ∧
    ((d / t * a / b * c : ℤ) : ℚ) ≤ (d : ℚ) / t * a / b * c ∧ (d : ℚ) / t * a / b * c ≤ (d / t * a / b * c : ℤ) + ((a : ℚ) / b + 1) * c := by
  have hA : (Rep.int T).arith (.int T) = .int T := by rcases hT with rfl | rfl <;> rfl
  have hok {x : ℤ} (hx : T.In x) : T.arith x = .ok x := by
    rcases hT with rfl | rfl <;> simp_all [IntTy.arith, IntTy.signed]
  have hm {x y : ℤ} (h : T.In (x * y)) : numOp dE.fl .mul (.int T) (.int T) (.i x) (.i y) = .ok (.i (x * y)) := by
    simp only [numOp, hA, convNum, if_true, sameOp, intOp, ok_bind, hok h]
  have hq {x y : ℤ} (hx : 0 ≤ x) (hy : 0 < y) (h : T.In x) : T.In (x / y) := by
    have h3 : 0 ≤ x / y := Int.ediv_nonneg hx hy.le
    have h4 : x / y ≤ x := Int.ediv_le_self _ hx
    unfold IntTy.In at h ⊢
    have h5 : T.lo ≤ 0 := by rcases hT with rfl | rfl <;> decide
    omega
  have hv {x y : ℤ} (hx : 0 ≤ x) (hy : 0 < y) (h : T.In x) : numOp dE.fl .div (.int T) (.int T) (.i x) (.i y) = .ok (.i (x / y)) := by
    simp only [numOp, hA, convNum, if_true, sameOp, intOp, ok_bind, if_neg hy.ne', Int.tdiv_eq_ediv_of_nonneg hx, hok (hq hx hy h)]
  have p1 : 0 ≤ d / t := Int.ediv_nonneg hd ht.le
  have p2 : 0 ≤ d / t * a := Int.mul_nonneg p1 ha
  refine ⟨⟨⟨Demos.speedTy (.int T), .i (d / t)⟩, ⟨tempTy (.int T), .i (d / t * a)⟩, ⟨Demos.speedTy (.int T), .i (d / t * a / b)⟩, ?_⟩, ?_⟩
  · show unknownDimension dE _ _ _ _ _ _ = _
    unfold unknownDimension
    rw [divE (t := Demos.speedTy (.int T)) hA (by kernel_rfl) (hv hd ht hdT), ok_bind, mulE (t := tempTy (.int T)) hA (by kernel_rfl) (hm h1), ok_bind,
      divE (t := Demos.speedTy (.int T)) hA (by kernel_rfl) (hv p2 hb h1), ok_bind, mulE (t := lenTy (.int T)) hA (by kernel_rfl) (hm h2), ok_bind]
  · have qt : (0 : ℚ) < t := by exact_mod_cast ht
    have qb : (0 : ℚ) < b := by exact_mod_cast hb
    have qa : (0 : ℚ) ≤ a := by exact_mod_cast ha
    have qc : (0 : ℚ) ≤ c := by exact_mod_cast hc
    have lo {x y : ℤ} (hy : 0 < y) : ((x / y : ℤ) : ℚ) ≤ (x : ℚ) / y := by
      have hy' : (0 : ℚ) < y := by exact_mod_cast hy
      rw [le_div_iff₀ hy']
      exact_mod_cast Int.ediv_mul_le x hy.ne'
    have hi {x y : ℤ} (hy : 0 < y) : (x : ℚ) / y ≤ ((x / y : ℤ) : ℚ) + 1 := by
      have hy' : (0 : ℚ) < y := by exact_mod_cast hy
      rw [div_le_iff₀ hy']
      have := (Int.lt_ediv_add_one_mul_self x hy).le
      exact_mod_cast this
    have e1 := lo (x := d) ht
    have e2 := hi (x := d) ht
    have e3 := lo (x := d / t * a) hb
    have e4 := hi (x := d / t * a) hb
    push_cast at e3 e4 ⊢
    constructor
    · apply mul_le_mul_of_nonneg_right _ qc
      refine e3.trans ?_
      gcongr
    · rw [← add_mul]
      apply mul_le_mul_of_nonneg_right _ qc
      calc (d : ℚ) / t * a / b ≤ (((d / t : ℤ) : ℚ) + 1) * a / b := by gcongr
        _ = ((d / t : ℤ) : ℚ) * a / b + a / b := by ring
        _ ≤ _ := by linarith

example : IntTy.i32.In 123 ∧ IntTy.i32.In (123 / 10 * 50) ∧ IntTy.i32.In (123 / 10 * 50 / 100 * 60) := by decide

/-- The three versions of the program, which are to be equivalent, print different distances: 360 m with references and literals, 369 m with aliases. -/
theorem C92_unknown_dimension_versions :
    (unknownDimension demoEnv (.int .i32) (.i 123) (.i 10) (.i 50) (.i 100) (.i 60)).map (fun r => r.2.2.2.num) = .ok (.i 360) ∧
    (unknownDimension demoEnv (.int .i64) (.i 123) (.i 10) (.i 50) (.i 100) (.i 60)).map (fun r => r.2.2.2.num) = .ok (.i 360) ∧
    (unknownDimension demoEnv (.flt .f64) (.f 123) (.f 10) (.f 50) (.f 100) (.f 60)).map (fun r => r.2.2.2.num) = .ok (.f 369) := by
  refine ⟨?_, ?_, ?_⟩ <;> decide +kernel

/-! ### Angles -/

/-- Energy by torque is an angle in radians: the quotient of the numbers. -/
theorem C92_angle (e τ : ℚ) (h : τ ≠ 0) : angleOf demoEnv (.flt .f64) (.f e) (.f τ) = .ok ⟨⟨d_dim_angle, b_dim_angle.unit, .flt .f64⟩, .f (e / τ)⟩ := by
  have hr : torqueRef dE = .ok ⟨d_isq_si_dim_torque, d_isq_si_dim_torque.unit⟩ := by kernel_rfl
  have hn (d : Dim) (u : MUnit) (x : ℚ) : numTimesRef dE (.flt .f64) (.f x) ⟨d, u⟩ = .ok ⟨⟨d, u, .flt .f64⟩, .f x⟩ := by
    simp [numTimesRef, mkQty, convNum, Rep.floating]
  show angleOf dE _ _ _ = _
  unfold angleOf
  rw [hr, ok_bind, hn, ok_bind, hn, ok_bind]
  refine divE rfl (by kernel_rfl) ?_
  simp only [numOp, Rep.arith, convNum, sameOp, fltOp]
  simp [h]

/-! ### Hello -/

/-- Kilometres by hours as literals: a truncated quotient in kilometres per hour; in metres per second it is divided by 3.6.  Miles by hours: the quotient,
0.44704 metres per second each, and truncated for `int`. -/
theorem C92_hello {n km h1 : ℤ} {mi h2 : ℚ} (hh : 0 < h1) (hkm : IntTy.i64.In km) (hne : h2 ≠ 0)
    (hv : IntTy.i32.In (truncQ (mi / h2 * (44704 / 100000)))) :
    hello demoEnv (.i n) (.i km) (.i h1) (.f mi) (.f h2) = .ok {
      v1 := ⟨⟨d_isq_si_dim_speed, u_kilometre_per_hour, .int .i32⟩, .i n⟩
      v3 := ⟨⟨d_isq_si_dim_speed, u_kilometre_per_hour, .int .i64⟩, .i (km.tdiv h1)⟩
      v4 := ⟨⟨d_isq_si_dim_speed, u_international_mile_per_hour, .flt .f64⟩, .f (mi / h2)⟩
      v5 := ⟨Demos.speedTy (.flt .f64), .f (km.tdiv h1 * (10 / 36))⟩
      v6 := ⟨Demos.speedTy (.flt .f64), .f (mi / h2 * (44704 / 100000))⟩
      v7 := ⟨Demos.speedTy (.int .i32), .i (truncQ (mi / h2 * (44704 / 100000)))⟩ } := by
  have hr : divRef dE ⟨d_isq_si_dim_length, u_kilometre⟩ ⟨d_isq_si_dim_time, u_hour⟩ = .ok ⟨d_isq_si_dim_speed, u_kilometre_per_hour⟩ := by kernel_rfl
  have hin : IntTy.i64.In (km.tdiv h1) := by
    unfold IntTy.In at hkm ⊢
    have h4 : IntTy.i64.lo ≤ 0 ∧ 0 ≤ IntTy.i64.hi := by decide
    rcases le_total 0 km with h | h
    · have := Int.tdiv_nonneg h hh.le
      have := Int.tdiv_le_self h1 h
      omega
    · have e : km.tdiv h1 = -(-km).tdiv h1 := by rw [Int.neg_tdiv, neg_neg]
      have := Int.tdiv_nonneg (neg_nonneg.mpr h) hh.le
      have := Int.tdiv_le_self h1 (neg_nonneg.mpr h)
      omega
  have h3 : divQty dE ⟨⟨d_isq_si_dim_length, u_kilometre, .int .i64⟩, .i km⟩ ⟨⟨d_isq_si_dim_time, u_hour, .int .i64⟩, .i h1⟩ =
      .ok ⟨⟨d_isq_si_dim_speed, u_kilometre_per_hour, .int .i64⟩, .i (km.tdiv h1)⟩ := by
    refine divE rfl (by kernel_rfl) ?_
    have : (Rep.int .i64).arith (.int .i64) = .int .i64 := rfl
    simp only [numOp, this, convNum, if_true, sameOp, intOp, ok_bind, if_neg hh.ne', IntTy.arith, IntTy.signed, if_pos hin]
  have h4 : divQty dE ⟨⟨d_isq_si_dim_length, u_international_mile, .flt .f64⟩, .f mi⟩ ⟨⟨d_isq_si_dim_time, u_hour, .flt .f64⟩, .f h2⟩ =
      .ok ⟨⟨d_isq_si_dim_speed, u_international_mile_per_hour, .flt .f64⟩, .f (mi / h2)⟩ := by
    refine divE rfl (by kernel_rfl) ?_
    simp only [numOp, Rep.arith, convNum, sameOp, fltOp]
    simp [hne]
  have h5 : quantityCast dE (Demos.speedTy (.flt .f64)) ⟨⟨d_isq_si_dim_speed, u_kilometre_per_hour, .int .i64⟩, .i (km.tdiv h1)⟩ =
      .ok ⟨Demos.speedTy (.flt .f64), .f (km.tdiv h1 * (10 / 36))⟩ := castD (by decide +kernel) (by decide +kernel) ⟨_, rfl, hin⟩
  have h6 : quantityCast dE (Demos.speedTy (.flt .f64)) ⟨⟨d_isq_si_dim_speed, u_international_mile_per_hour, .flt .f64⟩, .f (mi / h2)⟩ =
      .ok ⟨Demos.speedTy (.flt .f64), .f (mi / h2 * (44704 / 100000))⟩ := castD (by decide +kernel) (by decide +kernel) ⟨_, rfl⟩
  have h7 : quantityCast dE (Demos.speedTy (.int .i32)) ⟨Demos.speedTy (.flt .f64), .f (mi / h2 * (44704 / 100000))⟩ =
      .ok ⟨Demos.speedTy (.int .i32), .i (truncQ (mi / h2 * (44704 / 100000)))⟩ := by
    generalize mi / h2 * (44704 / 100000) = z at hv
    have e1 : dimEquivalent d_isq_si_dim_speed d_isq_si_dim_speed = .ok true := by decide +kernel
    have e2 : castRatio dE.est d_isq_si_dim_speed d_isq_si_dim_speed.unit d_isq_si_dim_speed d_isq_si_dim_speed.unit = .ok Ratio.one := by decide +kernel
    have e3 : castRep (.flt .f64) (.int .i32) = .flt .f64 := by decide
    have e4 : Ratio.one.val = 1 := by norm_num [Ratio.val, Ratio.one]
    simp only [quantityCast, Demos.speedTy, e1, ok_bind, if_true, e2, castNum, e3, convNum, castFlt_ok .f64 (c := Ratio.one) (by decide), e4, mul_one, reduceCtorEq,
      if_false, if_pos hv]
  show hello dE _ _ _ _ _ = _
  have h1' : numTimesRef dE (.int .i32) (.i n) ⟨d_isq_si_dim_speed, u_kilometre_per_hour⟩ =
      .ok ⟨⟨d_isq_si_dim_speed, u_kilometre_per_hour, .int .i32⟩, .i n⟩ := by simp [numTimesRef, mkQty, convNum, Rep.floating]
  unfold hello
  rw [hr, ok_bind, h1', ok_bind, h3, ok_bind, h4, ok_bind]
  simp only [quantityCastBy, castTarget, ok_bind, h5]
  rw [if_pos (by decide +kernel), ok_bind]
  have h6' := h6
  simp only [Demos.speedTy] at h6' h7 ⊢
  simp only [h6', ok_bind, h7]

/-- The numbers in the comments of the program. -/
example : truncQ ((140 : ℚ) / 2 * (44704 / 100000)) = 31 ∧ ((220 : ℤ).tdiv 2 : ℚ) * (10 / 36) = 275 / 9 ∧ (140 : ℚ) / 2 * (44704 / 100000) = 312928 / 10000 := by
  refine ⟨by decide +kernel, by decide +kernel, by norm_num⟩

/-! ### The response -/

theorem Demos.mapM_ok {α β : Type} {f : α → C β} {g : α → β} {l : List α} (h : ∀ a ∈ l, f a = .ok (g a)) : l.mapM f = .ok (l.map g) := by
  induction l with
  | nil => rfl
  | cons a l ih =>
    rw [List.mapM_cons, h a (by simp), ok_bind, ih fun b hb => h b (by simp [hb])]
    rfl

/-- A metre in each of the units, for the versions whose metre is a `double`: the number divided by the metres in the unit. -/
theorem C92_response (x : ℚ) : response demoEnv (.flt .f64) (.f x) = .ok (responseUnits.map fun u => .f (x / u.ratio.val)) := by
  have h1 : ∀ u ∈ responseUnits, factor d_isq_si_dim_length u_metre d_isq_si_dim_length u = .ok (1 / u.ratio.val, true) ∧
      u.ref = d_isq_si_dim_length.unit.ref := by decide +kernel
  have h2 : dimEquivalent d_isq_si_dim_length d_isq_si_dim_length = .ok true := by decide +kernel
  refine mapM_ok fun u hu => ?_
  obtain ⟨hk, hr⟩ := h1 u hu
  show (do let q ← quantityCastBy dE (.unit u) ⟨lenTy (.flt .f64), .f x⟩; Except.ok q.num) = _
  have ht : castTarget dE (.unit u) (lenTy (.flt .f64)) = .ok ⟨d_isq_si_dim_length, u, .flt .f64⟩ := if_pos hr
  unfold quantityCastBy
  rw [ht, ok_bind, lenTy, castD (v := .f x) (r := .flt .f64) h2 hk ⟨_, rfl⟩, ok_bind]
  simp only [Num.q]
  congr 2
  ring

/-- The version with references declares `constexpr auto meter = 1 * m`, an `int`: it prints 0 for nine of the eighteen units, and a number without any
relation to the length for the ångström (10¹⁰ modulo 2³²).  The other versions print the lengths above. -/
theorem C92_response_int : response demoEnv (.int .i32) (.i 1) =
    .ok ([0, 1410065408, 0, 0, 0, 3, 3, 39, 0, 0, 0, 0, 236, 237, 2834, 2845, 0, 1].map .i) := by decide +kernel

/-! ### Ships -/

/-- A printed line: three quantities of given types. -/
def Demos.line (t0 t1 t2 : QTy) (x y z : ℚ) : Qty × Qty × Qty := (⟨t0, .f x⟩, ⟨t1, .f y⟩, ⟨t2, .f z⟩)

/-- `double` quantities of a dimension and a unit. -/
abbrev Demos.dbl (d : Dim) (u : MUnit) : QTy := ⟨d, u, .flt .f64⟩

/-- The types of the lines: lengths, the mass, the speed, the power, the guns, the shells and the volume. -/
abbrev Demos.lengthLine := line feetTy yardTy (dbl d_isq_si_dim_length u_metre)
abbrev Demos.massLine := line poundTy (dbl d_isq_si_fps_dim_mass u_fps_long_ton) (dbl d_isq_si_dim_mass u_tonne)
abbrev Demos.speedLine := line fpsTy (dbl d_isq_si_fps_dim_speed u_fps_knot) (dbl d_isq_si_dim_speed u_kilometre_per_hour)
abbrev Demos.powerLine := line fpdTy (dbl d_isq_si_fps_dim_power u_fps_horse_power) (dbl d_isq_si_dim_power u_kilowatt)
abbrev Demos.gunsLine := line inchTy inchTy (dbl d_isq_si_dim_length u_millimetre)
abbrev Demos.shellLine := line poundTy (dbl d_isq_si_fps_dim_mass u_fps_long_ton) (dbl d_isq_si_dim_mass u_kilogram)
abbrev Demos.shellSpeedLine := line fpsTy (dbl d_isq_si_fps_dim_speed u_fps_mile_per_hour) (dbl d_isq_si_dim_speed u_kilometre_per_hour)
abbrev Demos.volumeLine := line (dbl d_isq_si_fps_dim_volume d_isq_si_fps_dim_volume.unit) (dbl d_isq_si_dim_volume d_isq_si_dim_volume.unit)
  (dbl d_isq_si_dim_volume u_litre)

/-- What is printed for a ship with these numbers in its members: feet, feet, feet, feet per second, pounds, inches, pounds, feet per second and foot-poundals
per second; `w` is the density of water in pounds by cubic foot.  A foot is 0.3048 m, a pound 0.45359237 kg, a knot of the system 5/3 ft/s, a horsepower
550 foot-pounds-force per second, with the 32.174049 ft/s² of the library. -/
theorem Demos.printed (l d b s m g sm ss p w : ℚ) (hw : w ≠ 0) :
    printDetails dE (.f w) ⟨⟨feetTy, .f l⟩, ⟨feetTy, .f d⟩, ⟨feetTy, .f b⟩, ⟨fpsTy, .f s⟩, ⟨poundTy, .f m⟩, ⟨inchTy, .f g⟩, ⟨poundTy, .f sm⟩, ⟨fpsTy, .f ss⟩,
      ⟨fpdTy, .f p⟩⟩ = .ok [
        lengthLine l (l * (1 / 3)) (l * (3048 / 10000)), lengthLine d (d * (1 / 3)) (d * (3048 / 10000)), lengthLine b (b * (1 / 3)) (b * (3048 / 10000)),
        massLine m (m * (1 / 2240)) (m * (45359237 / 100000000000)), speedLine s (s * (3 / 5)) (s * (3048 / 10000 * (36 / 10))),
        powerLine p (p * (1 / (550 * (32174049 / 1000000)))) (p * (3048 / 10000 * (3048 / 10000) * (45359237 / 100000000) / 1000)),
        gunsLine g (g * 1) (g * (254 / 10)), shellLine sm (sm * (1 / 2240)) (sm * (45359237 / 100000000)),
        shellSpeedLine ss (ss * (3600 / 5280)) (ss * (3048 / 10000 * (36 / 10))),
        volumeLine (m / w) (m / w * (3048 / 10000 * (3048 / 10000) * (3048 / 10000))) (m / w * (3048 / 10 * (3048 / 10000) * (3048 / 10000)))] := by
  have hr : densityRef dE = .ok ⟨d_isq_si_fps_dim_density, d_isq_si_fps_dim_density.unit⟩ := by kernel_rfl
  have hn : numTimesRef dE (.flt .f64) (.f w) ⟨d_isq_si_fps_dim_density, d_isq_si_fps_dim_density.unit⟩ =
      .ok ⟨dbl d_isq_si_fps_dim_density d_isq_si_fps_dim_density.unit, .f w⟩ := by simp [numTimesRef, mkQty, convNum, Rep.floating]
  have hv : divQty dE ⟨poundTy, .f m⟩ ⟨dbl d_isq_si_fps_dim_density d_isq_si_fps_dim_density.unit, .f w⟩ =
      .ok ⟨dbl d_isq_si_fps_dim_volume d_isq_si_fps_dim_volume.unit, .f (m / w)⟩ := by
    refine divE rfl (by kernel_rfl) ?_
    simp only [numOp, poundTy, Rep.arith, convNum, sameOp, fltOp]
    simp [hw]
  have hl (x : ℚ) := lineD (t0 := feetTy) (t1 := yardTy) (t2 := dbl d_isq_si_dim_length u_metre) (k1 := 1 / 3) (k2 := 3048 / 10000) rfl rfl rfl
    (by decide +kernel) (by decide +kernel) (by decide +kernel) (by decide +kernel) x
  have hm (x : ℚ) := lineD (t0 := poundTy) (t1 := dbl d_isq_si_fps_dim_mass u_fps_long_ton) (t2 := dbl d_isq_si_dim_mass u_tonne) (k1 := 1 / 2240)
    (k2 := 45359237 / 100000000000) rfl rfl rfl (by decide +kernel) (by decide +kernel) (by decide +kernel) (by decide +kernel) x
  have hs (x : ℚ) := lineD (t0 := fpsTy) (t1 := dbl d_isq_si_fps_dim_speed u_fps_knot) (t2 := dbl d_isq_si_dim_speed u_kilometre_per_hour) (k1 := 3 / 5)
    (k2 := 3048 / 10000 * (36 / 10)) rfl rfl rfl (by decide +kernel) (by decide +kernel) (by decide +kernel) (by decide +kernel) x
  have hp (x : ℚ) := lineD (t0 := fpdTy) (t1 := dbl d_isq_si_fps_dim_power u_fps_horse_power) (t2 := dbl d_isq_si_dim_power u_kilowatt)
    (k1 := 1 / (550 * (32174049 / 1000000))) (k2 := 3048 / 10000 * (3048 / 10000) * (45359237 / 100000000) / 1000) rfl rfl rfl
    (by decide +kernel) (by decide +kernel) (by decide +kernel) (by decide +kernel) x
  have hg (x : ℚ) := lineD (t0 := inchTy) (t1 := inchTy) (t2 := dbl d_isq_si_dim_length u_millimetre) (k1 := 1) (k2 := 254 / 10) rfl rfl rfl
    (by decide +kernel) (by decide +kernel) (by decide +kernel) (by decide +kernel) x
  have hsm (x : ℚ) := lineD (t0 := poundTy) (t1 := dbl d_isq_si_fps_dim_mass u_fps_long_ton) (t2 := dbl d_isq_si_dim_mass u_kilogram) (k1 := 1 / 2240)
    (k2 := 45359237 / 100000000) rfl rfl rfl (by decide +kernel) (by decide +kernel) (by decide +kernel) (by decide +kernel) x
  have hss (x : ℚ) := lineD (t0 := fpsTy) (t1 := dbl d_isq_si_fps_dim_speed u_fps_mile_per_hour) (t2 := dbl d_isq_si_dim_speed u_kilometre_per_hour)
    (k1 := 3600 / 5280) (k2 := 3048 / 10000 * (36 / 10)) rfl rfl rfl (by decide +kernel) (by decide +kernel) (by decide +kernel) (by decide +kernel) x
  have hvl (x : ℚ) := lineD (t0 := dbl d_isq_si_fps_dim_volume d_isq_si_fps_dim_volume.unit) (t1 := dbl d_isq_si_dim_volume d_isq_si_dim_volume.unit)
    (t2 := dbl d_isq_si_dim_volume u_litre) (k1 := 3048 / 10000 * (3048 / 10000) * (3048 / 10000)) (k2 := 3048 / 10 * (3048 / 10000) * (3048 / 10000)) rfl rfl rfl
    (by decide +kernel) (by decide +kernel) (by decide +kernel) (by decide +kernel) x
  simp only [printDetails, hr, ok_bind, hn, siTy, hl, hm, hs, hp, hg, hsm, hss, hv, hvl, line]

/-- A ship given in metric units, as the first one: metres, metres, metres, kilometres per hour, tonnes, millimetres, kilograms, metres per second and
kilowatts, of any representations.  The metric columns show what was given; a pound is 0.45359237 kg and a foot 0.3048 m in the others. -/
theorem C92_ship_metric {l d b s m g sm ss p : Qty} (hl : Given d_isq_si_dim_length u_metre l) (hd : Given d_isq_si_dim_length u_metre d)
    (hb : Given d_isq_si_dim_length u_metre b) (hs : Given d_isq_si_dim_speed u_kilometre_per_hour s) (hm : Given d_isq_si_dim_mass u_tonne m)
    (hg : Given d_isq_si_dim_length u_millimetre g) (hsm : Given d_isq_si_dim_mass u_kilogram sm)
    (hss : Given d_isq_si_dim_speed d_isq_si_dim_speed.unit ss) (hp : Given d_isq_si_dim_power u_kilowatt p) :
    (do let ship ← mkShip demoEnv l d b s m g sm ss p; printDetails demoEnv (.f (624 / 10)) ship) = .ok [
        lengthLine (l.num.q / 0.3048) (l.num.q / 0.9144) l.num.q, lengthLine (d.num.q / 0.3048) (d.num.q / 0.9144) d.num.q,
        lengthLine (b.num.q / 0.3048) (b.num.q / 0.9144) b.num.q, massLine (m.num.q * 1000 / 0.45359237) (m.num.q * 1000 / 0.45359237 / 2240) m.num.q,
        speedLine (s.num.q / 3.6 / 0.3048) (s.num.q / 3.6 / 0.3048 * 3 / 5) s.num.q,
        powerLine (p.num.q * 1000 / (0.3048 ^ 2 * 0.45359237)) (p.num.q * 1000 / (0.3048 ^ 2 * 0.45359237) / (550 * 32.174049)) p.num.q,
        gunsLine (g.num.q / 25.4) (g.num.q / 25.4) g.num.q, shellLine (sm.num.q / 0.45359237) (sm.num.q / 0.45359237 / 2240) sm.num.q,
        shellSpeedLine (ss.num.q / 0.3048) (ss.num.q / 0.3048 / 5280 * 3600) (ss.num.q * 3.6),
        volumeLine (m.num.q * 1000 / 0.45359237 / 62.4) (m.num.q * 1000 / 0.45359237 / 62.4 * 0.3048 ^ 3)
          (m.num.q * 1000 / 0.45359237 / 62.4 * 0.3048 ^ 3 * 1000)] := by
  have c1 {q : Qty} (h : Given d_isq_si_dim_length u_metre q) := convD (d' := d_isq_si_fps_dim_length) (u' := u_fps_foot) (f := .f64) (k := 10000 / 3048)
    (by decide +kernel) (by decide +kernel) (fun h => absurd h (by decide +kernel)) h
  have c2 := convD (d' := d_isq_si_fps_dim_speed) (u' := d_isq_si_fps_dim_speed.unit) (f := .f64) (k := 10 / 36 * (10000 / 3048))
    (by decide +kernel) (by decide +kernel) (fun h => absurd h (by decide +kernel)) hs
  have c3 := convD (d' := d_isq_si_fps_dim_mass) (u' := u_fps_pound) (f := .f64) (k := 100000000000 / 45359237)
    (by decide +kernel) (by decide +kernel) (fun h => absurd h (by decide +kernel)) hm
  have c4 := convD (d' := d_isq_si_fps_dim_length) (u' := u_fps_inch) (f := .f64) (k := 10 / 254)
    (by decide +kernel) (by decide +kernel) (fun h => absurd h (by decide +kernel)) hg
  have c5 := convD (d' := d_isq_si_fps_dim_mass) (u' := u_fps_pound) (f := .f64) (k := 100000000 / 45359237)
    (by decide +kernel) (by decide +kernel) (fun h => absurd h (by decide +kernel)) hsm
  have c6 := convD (d' := d_isq_si_fps_dim_speed) (u' := d_isq_si_fps_dim_speed.unit) (f := .f64) (k := 10000 / 3048)
    (by decide +kernel) (by decide +kernel) (fun h => absurd h (by decide +kernel)) hss
  have c7 := convD (d' := d_isq_si_fps_dim_power) (u' := d_isq_si_fps_dim_power.unit) (f := .f64)
    (k := 1000 * (10000 / 3048) * (10000 / 3048) * (100000000 / 45359237))
    (by decide +kernel) (by decide +kernel) (fun h => absurd h (by decide +kernel)) hp
  have hship : mkShip dE l d b s m g sm ss p = .ok ⟨⟨feetTy, .f (l.num.q * (10000 / 3048))⟩, ⟨feetTy, .f (d.num.q * (10000 / 3048))⟩,
      ⟨feetTy, .f (b.num.q * (10000 / 3048))⟩, ⟨fpsTy, .f (s.num.q * (10 / 36 * (10000 / 3048)))⟩, ⟨poundTy, .f (m.num.q * (100000000000 / 45359237))⟩,
      ⟨inchTy, .f (g.num.q * (10 / 254))⟩, ⟨poundTy, .f (sm.num.q * (100000000 / 45359237))⟩, ⟨fpsTy, .f (ss.num.q * (10000 / 3048))⟩,
      ⟨fpdTy, .f (p.num.q * (1000 * (10000 / 3048) * (10000 / 3048) * (100000000 / 45359237)))⟩⟩ := by
    simp only [mkShip, feetTy, fpsTy, poundTy, inchTy, fpdTy, c1 hl, c1 hd, c1 hb, c2, c3, c4, c5, c6, c7, ok_bind]
  show (do let ship ← mkShip dE l d b s m g sm ss p; printDetails dE (.f (624 / 10)) ship) = _
  rw [hship, ok_bind, printed _ _ _ _ _ _ _ _ _ _ (by norm_num)]
  simp only [line, Except.ok.injEq, List.cons.injEq, Prod.mk.injEq, Qty.mk.injEq, Num.f.injEq, true_and, and_true]
  and_intros <;> ring

/-- The first ship, with the numbers of `main`: its constants meet the hypotheses, `int` or `double`. -/
example : Given d_isq_si_dim_length u_metre ⟨⟨d_isq_si_dim_length, u_metre, .int .i32⟩, .i 36⟩ ∧
    Given d_isq_si_dim_power u_kilowatt ⟨⟨d_isq_si_dim_power, u_kilowatt, .flt .f64⟩, .f (11045 / 100)⟩ :=
  ⟨⟨rfl, rfl, .i32, rfl, by decide⟩, ⟨rfl, rfl, .f64, rfl⟩⟩

/-- Feet and inches add up in inches. -/
theorem Demos.feetInches_eq (a b : ℚ) : feetInches dE a b = .ok ⟨inchTy, .f (a * 12 + b)⟩ := by
  have hc : commonQty dE feetTy inchTy (.flt .f64) = .ok inchTy := by decide +kernel
  have h1 := convD (d := d_isq_si_fps_dim_length) (u := u_fps_foot) (d' := d_isq_si_fps_dim_length) (u' := u_fps_inch) (f := .f64) (k := 12)
    (by decide +kernel) (by decide +kernel) (fun h => absurd h (by decide +kernel)) (q := ⟨feetTy, .f a⟩) ⟨rfl, rfl, .f64, rfl⟩
  have h2 : convertQty dE inchTy ⟨inchTy, .f b⟩ = .ok ⟨inchTy, .f b⟩ := if_pos rfl
  have h1' : convertQty dE inchTy ⟨feetTy, .f a⟩ = .ok ⟨inchTy, .f (a * 12)⟩ := h1
  have ha : feetTy.rep.arith inchTy.rep = .flt .f64 := rfl
  simp only [feetInches, addSub, ha, hc, ok_bind, h1', h2]
  simp [numOp, inchTy, Rep.arith, convNum, sameOp, fltOp, mkQty, Rep.floating, ok_bind]

/-- A ship given in feet, feet and inches, knots, long tons, inches, pounds, feet per second and horsepower, as the two others. -/
theorem C92_ship_imperial {l s m g sm ss p : Qty} (a b a' b' : ℚ) (hl : Given d_isq_si_fps_dim_length u_fps_foot l)
    (hs : Given d_isq_si_fps_dim_speed u_fps_knot s) (hm : Given d_isq_si_fps_dim_mass u_fps_long_ton m) (hg : Given d_isq_si_fps_dim_length u_fps_inch g)
    (hsm : Given d_isq_si_fps_dim_mass u_fps_pound sm) (hss : Given d_isq_si_fps_dim_speed d_isq_si_fps_dim_speed.unit ss)
    (hp : Given d_isq_si_fps_dim_power u_fps_horse_power p) :
    (do let d ← feetInches demoEnv a b; let bm ← feetInches demoEnv a' b'
        let ship ← mkShip demoEnv l d bm s m g sm ss p; printDetails demoEnv (.f (624 / 10)) ship) = .ok [
        lengthLine l.num.q (l.num.q / 3) (l.num.q * 0.3048), lengthLine (a + b / 12) ((a + b / 12) / 3) (a * 0.3048 + b * 0.0254),
        lengthLine (a' + b' / 12) ((a' + b' / 12) / 3) (a' * 0.3048 + b' * 0.0254),
        massLine (m.num.q * 2240) m.num.q (m.num.q * 2240 * 0.45359237 / 1000),
        speedLine (s.num.q * 5 / 3) s.num.q (s.num.q * 1.8288),
        powerLine (p.num.q * (550 * 32.174049)) p.num.q (p.num.q * (550 * 32.174049) * (0.3048 ^ 2 * 0.45359237) / 1000),
        gunsLine g.num.q g.num.q (g.num.q * 25.4), shellLine sm.num.q (sm.num.q / 2240) (sm.num.q * 0.45359237),
        shellSpeedLine ss.num.q (ss.num.q / 5280 * 3600) (ss.num.q * 0.3048 * 3.6),
        volumeLine (m.num.q * 2240 / 62.4) (m.num.q * 2240 / 62.4 * 0.3048 ^ 3) (m.num.q * 2240 / 62.4 * 0.3048 ^ 3 * 1000)] := by
  have c0 := convD (d' := d_isq_si_fps_dim_length) (u' := u_fps_foot) (f := .f64) (k := 1) (by decide +kernel) (by decide +kernel) (fun _ => rfl) hl
  have c1 (x : ℚ) := convD (d := d_isq_si_fps_dim_length) (u := u_fps_inch) (d' := d_isq_si_fps_dim_length) (u' := u_fps_foot) (f := .f64) (k := 1 / 12)
    (by decide +kernel) (by decide +kernel) (fun h => absurd h (by decide +kernel)) (q := ⟨inchTy, .f x⟩) ⟨rfl, rfl, .f64, rfl⟩
  have c2 := convD (d' := d_isq_si_fps_dim_speed) (u' := d_isq_si_fps_dim_speed.unit) (f := .f64) (k := 5 / 3)
    (by decide +kernel) (by decide +kernel) (fun h => absurd h (by decide +kernel)) hs
  have c3 := convD (d' := d_isq_si_fps_dim_mass) (u' := u_fps_pound) (f := .f64) (k := 2240)
    (by decide +kernel) (by decide +kernel) (fun h => absurd h (by decide +kernel)) hm
  have c4 := convD (d' := d_isq_si_fps_dim_length) (u' := u_fps_inch) (f := .f64) (k := 1) (by decide +kernel) (by decide +kernel) (fun _ => rfl) hg
  have c5 := convD (d' := d_isq_si_fps_dim_mass) (u' := u_fps_pound) (f := .f64) (k := 1) (by decide +kernel) (by decide +kernel) (fun _ => rfl) hsm
  have c6 := convD (d' := d_isq_si_fps_dim_speed) (u' := d_isq_si_fps_dim_speed.unit) (f := .f64) (k := 1)
    (by decide +kernel) (by decide +kernel) (fun _ => rfl) hss
  have c7 := convD (d' := d_isq_si_fps_dim_power) (u' := d_isq_si_fps_dim_power.unit) (f := .f64) (k := 550 * (32174049 / 1000000))
    (by decide +kernel) (by decide +kernel) (fun h => absurd h (by decide +kernel)) hp
  have hship : mkShip dE l ⟨inchTy, .f (a * 12 + b)⟩ ⟨inchTy, .f (a' * 12 + b')⟩ s m g sm ss p = .ok ⟨⟨feetTy, .f (l.num.q * 1)⟩,
      ⟨feetTy, .f ((a * 12 + b) * (1 / 12))⟩, ⟨feetTy, .f ((a' * 12 + b') * (1 / 12))⟩, ⟨fpsTy, .f (s.num.q * (5 / 3))⟩, ⟨poundTy, .f (m.num.q * 2240)⟩,
      ⟨inchTy, .f (g.num.q * 1)⟩, ⟨poundTy, .f (sm.num.q * 1)⟩, ⟨fpsTy, .f (ss.num.q * 1)⟩, ⟨fpdTy, .f (p.num.q * (550 * (32174049 / 1000000)))⟩⟩ := by
    have c1' (x : ℚ) : convertQty dE feetTy ⟨inchTy, .f x⟩ = .ok ⟨feetTy, .f (x * (1 / 12))⟩ := c1 x
    unfold mkShip
    rw [show convertQty dE feetTy l = _ from c0, ok_bind, c1', ok_bind, c1', ok_bind, show convertQty dE fpsTy s = _ from c2, ok_bind,
      show convertQty dE poundTy m = _ from c3, ok_bind, show convertQty dE inchTy g = _ from c4, ok_bind, show convertQty dE poundTy sm = _ from c5, ok_bind,
      show convertQty dE fpsTy ss = _ from c6, ok_bind, show convertQty dE fpdTy p = _ from c7, ok_bind]
    rfl
  show (do let d ← feetInches dE a b; let bm ← feetInches dE a' b'
           let ship ← mkShip dE l d bm s m g sm ss p; printDetails dE (.f (624 / 10)) ship) = _
  rw [feetInches_eq, ok_bind, feetInches_eq, ok_bind, hship, ok_bind, printed _ _ _ _ _ _ _ _ _ _ (by norm_num)]
  simp only [line, Except.ok.injEq, List.cons.injEq, Prod.mk.injEq, Qty.mk.injEq, Num.f.injEq, true_and, and_true]
  and_intros <;> ring

/-- The speed of the second ship, 33 knots, is printed as 60.3504 km/h; it is 61.116 km/h (a knot is 1.852 km/h). -/
theorem C92_knots : (do
      let v ← convertQty demoEnv fpsTy ⟨⟨d_isq_si_fps_dim_speed, u_fps_knot, .int .i32⟩, .i 33⟩
      let line ← fmtLine demoEnv (dbl d_isq_si_fps_dim_speed u_fps_knot) (dbl d_isq_si_dim_speed u_kilometre_per_hour) v
      Except.ok (line.2.1.num, line.2.2.num)) = .ok (.f 33, .f (603504 / 10000)) ∧ (603504 / 10000 : ℚ) ≠ 33 * 1.852 := by
  refine ⟨by decide +kernel, by norm_num⟩

/-- The power of the first ship is given as `110.45 * kW`, which is printed as less than 150 horsepower (the engines had some 110 450 kW). -/
theorem C92_power : (do
      let p ← convertQty demoEnv fpdTy ⟨⟨d_isq_si_dim_power, u_kilowatt, .flt .f64⟩, .f (11045 / 100)⟩
      let q ← quantityCast demoEnv (dbl d_isq_si_fps_dim_power u_fps_horse_power) p
      Except.ok (decide (148 < q.num.q ∧ q.num.q < 149))) = .ok true := by decide +kernel

end Verif
