import Verif.Props.SystemsProps
import Verif.Props.ArithProps

/-!
# Quantities of the shipped units: C65

The side conditions of C22, C23, C25 and C26 on dimensions and units are discharged for everything that the shipped headers declare, and
amounts are expressed by what the names of the units mean according to the standards.
-/

namespace Verif

open Systems Standards

set_option Elab.async false

namespace Systems

/-- `t` is the type of quantities of the declared dimension `d` in the declared unit `x`, whose name means the amount `a`; units listed as
misdefined or rounded (C57) are left out. -/
structure Uses (S : Sys) (t : QTy) (d : DEnt) (x : Entry) (a : Amount) : Prop where
  dim : ∃ e ∈ S.log, e.ent = .dim d
  mem : x ∈ S.log
  unit : ∃ u, x.ent = .unit u ∧ t.unit = u.unit
  dimEq : t.dim = d.dim
  unitOf : unitOf t.unit t.dim = true
  defined : x.full ∉ misdefined.map (·.1)
  notRounded : x.full ∉ rounded
  meaning : meaning x.scope.code x.name.code = some a

/-- The pair of dimensions for which the common unit is wrong (`C65_cgs_and_fps_areas`). -/
def areaClash (d d' : DEnt) : Prop :=
  (d.name = "units::isq::si::cgs::dim_area" ∧ d'.name = "units::isq::si::fps::dim_area") ∨
    (d.name = "units::isq::si::fps::dim_area" ∧ d'.name = "units::isq::si::cgs::dim_area")

/-- Equivalent dimensions with different references have coherent units of ratio one, but for one pair. -/
def checkOne (l : List DRow) : Bool :=
  l.all fun a => decide (a.dim.unit.ratio = ⟨1, 1, 0⟩) || l.all fun b =>
    decide (a.dim.unit.ref = b.dim.unit.ref) || decide (dimEquivalent a.dim b.dim ≠ .ok true) ||
      (decide (a.full = "units::isq::si::cgs::dim_area") && decide (b.full = "units::isq::si::fps::dim_area"))

theorem checkOne_ok : checkOne dimTable = true := by decide +kernel

theorem checkOne_sound {r r' : DRow} (h : r ∈ dimTable) (h' : r' ∈ dimTable) (hr : r.dim.unit.ref ≠ r'.dim.unit.ref)
    (he : dimEquivalent r.dim r'.dim = .ok true) :
    r.dim.unit.ratio = ⟨1, 1, 0⟩ ∨ (r.full = "units::isq::si::cgs::dim_area" ∧ r'.full = "units::isq::si::fps::dim_area") := by
  have hc := checkOne_ok
  unfold checkOne at hc
  rw [List.all_eq_true] at hc
  have hc := hc r h
  rw [Bool.or_eq_true, decide_eq_true_eq, List.all_eq_true] at hc
  refine hc.imp id fun hc => ?_
  have hc := hc r' h'
  simp only [Bool.or_eq_true, Bool.and_eq_true, decide_eq_true_eq] at hc
  rcases hc with (hc | hc) | hc
  · exact absurd hc hr
  · exact absurd he hc
  · exact hc

section
variable {S : Sys} {t t' : QTy} {d d' : DEnt} {x x' : Entry} {a a' : Amount}

theorem Uses.denote (hS : everything = .ok S) (h : Uses S t d x a) : Systems.denote t.dim t.unit = some a := by
  obtain ⟨e, he, hd⟩ := h.dim
  obtain ⟨u, hu, hu'⟩ := h.unit
  have := h.unitOf
  rw [h.dimEq, hu'] at this
  have := (C57_exact_units S hS x h.mem u hu h.defined h.notRounded e he d hd this).1
  rw [h.dimEq, hu', ← this, h.meaning]

theorem Uses.size (hS : everything = .ok S) (h : Uses S t d x a) : t.size refSizes = (a.factor : ℝ) :=
  denote_size (h.denote hS)

theorem Uses.row (hS : everything = .ok S) (h : Uses S t d x a) : ∃ r ∈ dimTable, r.full = d.name ∧ r.dim = t.dim := by
  obtain ⟨e, he, hd⟩ := h.dim
  exact ⟨_, dim_row hS he hd, rfl, h.dimEq.symm⟩

theorem Uses.good (hS : everything = .ok S) (h : Uses S t d x a) {E : Env} (hE : E.est = est) : t.Good E := by
  obtain ⟨r, hr, -, hd⟩ := h.row hS
  obtain ⟨u, hu, hu'⟩ := h.unit
  have hw : u.unit.WF := checkWF_sound (unit_row hS h.mem hu)
  obtain ⟨g1, g2⟩ := checkDims_sound hr
  have ho := h.unitOf
  simp only [Systems.unitOf, beq_iff_eq] at ho
  rw [hd] at g1 g2
  exact ⟨g1, by rw [hu']; exact hw, ho, by rw [hE]; exact g2⟩

theorem Uses.pos (hS : everything = .ok S) (h : Uses S t d x a) : 0 < a.factor := by
  have := (h.good hS (E := ⟨est, fun _ => none, fun _ _ => none, fun _ x => x⟩) rfl).size_pos refSizes_pos
  rw [h.size hS] at this
  exact_mod_cast this

theorem Uses.coherent (hS : everything = .ok S) (h : Uses S t d x a) (h' : Uses S t' d' x' a') :
    Coherent refSizes t.dim t'.dim := by
  obtain ⟨r, hr, -, hd⟩ := h.row hS
  obtain ⟨r', hr', -, hd'⟩ := h'.row hS
  have k := h.denote hS
  have k' := h'.denote hS
  rw [← hd] at k ⊢
  rw [← hd'] at k' ⊢
  exact checkCoherent_sound hr hr' k k'

theorem Uses.related (hS : everything = .ok S) (h : Uses S t d x a) (h' : Uses S t' d' x' a') (hn : ¬ areaClash d d')
    (he : dimEquivalent t.dim t'.dim = .ok true) : Related refSizes t t' := by
  refine ⟨he, h.coherent hS h', fun hr => ?_⟩
  obtain ⟨r, hr1, n, hd⟩ := h.row hS
  obtain ⟨r', hr1', n', hd'⟩ := h'.row hS
  have he' := C17_symmetric _ _ he
  rw [← hd, ← hd'] at hr he he' ⊢
  have v : (⟨1, 1, 0⟩ : Ratio).val = 1 := by norm_num [Ratio.val]
  constructor
  · rcases checkOne_sound hr1 hr1' hr he with k | k
    · rw [k, v]
    · exact absurd (Or.inl ⟨n ▸ k.1, n' ▸ k.2⟩) hn
  · rcases checkOne_sound hr1' hr1 (Ne.symm hr) he' with k | k
    · rw [k, v]
    · exact absurd (Or.inr ⟨n ▸ k.2, n' ▸ k.1⟩) hn

theorem Uses.amount (hS : everything = .ok S) {q : Qty} (h : Uses S q.ty d x a) :
    q.amount refSizes = ((q.num.q * a.factor : ℚ) : ℝ) := by
  rw [Qty.amount_eq, h.size hS]; push_cast; rfl

/-- Rows of the tables give quantity types. -/
theorem uses_of_rows (hS : everything = .ok S) (n m : String) (dim : Dim) (u : MUnit) (c : Amount) (rep : Rep)
    (hd : (dimTable.any fun r => decide (r.full = n) && decide (r.dim = dim)) = true)
    (hu : (unitTable.any fun r => decide (r.full = m) && decide (r.ent.unit = u) && decide (Standards.meaning r.scope.code r.name.code = some c)) = true)
    (ho : Systems.unitOf u dim = true) (hm : m ∉ misdefined.map (·.1)) (hr : m ∉ rounded) :
    ∃ d x, d.name = n ∧ Uses S ⟨dim, u, rep⟩ d x c := by
  obtain ⟨e, he, d, hd, h⟩ := exists_dim (P := fun r => decide (r.full = n) && decide (r.dim = dim)) hS hd
  obtain ⟨x, hx, v, hv, k⟩ := exists_unit hS (P := fun r => decide (r.full = m) && decide (r.ent.unit = u) &&
    decide (Standards.meaning r.scope.code r.name.code = some c)) hu
  simp only [Bool.and_eq_true, decide_eq_true_eq] at h k
  have kf : x.full = m := k.1.1
  exact ⟨d, x, h.1, ⟨e, he, hd⟩, hx, ⟨v, hv, k.1.2.symm⟩, h.2.symm, ho, by rw [kf]; exact hm, by rw [kf]; exact hr, k.2⟩

end

/-- The type of a unit declared by itself. -/
def exNamed (n : String) (r : Ratio) (ref : String) (named : Bool) (symbol : String) : MUnit :=
  ⟨.named n, r, ref, [.scaled r ref], named, symbol, none⟩

/-- Areas in square centimetres (src/systems/si-cgs/include/units/isq/si/cgs/area.h:38-43). -/
def exCgsArea (rep : Rep) : QTy :=
  ⟨.named ⟨"units::isq::si::cgs::dim_area", [⟨⟨"units::isq::si::cgs::dim_length", "L",
      exNamed "units::isq::si::centimetre" ⟨1, 1, -2⟩ "units::isq::si::metre" true "cm"⟩, 2, 1⟩],
    exNamed "units::isq::si::square_centimetre" ⟨1, 1, -4⟩ "units::isq::si::square_metre" false "cm²"⟩,
    exNamed "units::isq::si::square_centimetre" ⟨1, 1, -4⟩ "units::isq::si::square_metre" false "cm²", rep⟩

/-- Areas in square feet (src/systems/si-fps/include/units/isq/si/fps/area.h:36-42). -/
def exFpsArea (rep : Rep) : QTy :=
  ⟨.named ⟨"units::isq::si::fps::dim_area", [⟨⟨"units::isq::si::fps::dim_length", "L",
      exNamed "units::isq::si::fps::foot" ⟨381, 125, -1⟩ "units::isq::si::metre" true "ft"⟩, 2, 1⟩],
    exNamed "units::isq::si::fps::square_foot" ⟨1, 1, 0⟩ "units::isq::si::fps::square_foot" false ""⟩,
    exNamed "units::isq::si::fps::square_foot" ⟨1, 1, 0⟩ "units::isq::si::fps::square_foot" false "", rep⟩

theorem exCgsArea_uses {S : Sys} (hS : everything = .ok S) (rep : Rep) :
    ∃ d x, d.name = "units::isq::si::cgs::dim_area" ∧ Uses S (exCgsArea rep) d x ⟨1 / 10000, [2, 0, 0, 0, 0, 0, 0, 0, 0, 0, 0]⟩ :=
  uses_of_rows hS _ "units::isq::si::square_centimetre" _ _ _ _ (by decide +kernel) (by decide +kernel) (by decide +kernel) (by decide +kernel)
    (by decide +kernel)

theorem exFpsArea_uses {S : Sys} (hS : everything = .ok S) (rep : Rep) :
    ∃ d x, d.name = "units::isq::si::fps::dim_area" ∧ Uses S (exFpsArea rep) d x ⟨1451610 / 15625000, [2, 0, 0, 0, 0, 0, 0, 0, 0, 0, 0]⟩ :=
  uses_of_rows hS _ "units::isq::si::fps::square_foot" _ _ _ _ (by decide +kernel) (by decide +kernel) (by decide +kernel) (by decide +kernel)
    (by decide +kernel)

/-- Speeds, src/systems/si/include/units/isq/si/speed.h:36-44. -/
def exSpeedDim : Dim :=
  .named ⟨"units::isq::si::dim_speed",
    [⟨⟨"units::isq::si::dim_length", "L", ⟨.named "units::isq::si::metre", ⟨1, 1, 0⟩, "units::isq::si::metre",
      [.scaled ⟨1, 1, 0⟩ "units::isq::si::metre"], true, "m", some "units::isq::si::prefix"⟩⟩, 1, 1⟩,
     ⟨⟨"units::isq::si::dim_time", "T", ⟨.named "units::isq::si::second", ⟨1, 1, 0⟩, "units::isq::si::second",
      [.scaled ⟨1, 1, 0⟩ "units::isq::si::second"], true, "s", some "units::isq::si::prefix"⟩⟩, -1, 1⟩],
    exNamed "units::isq::si::metre_per_second" ⟨1, 1, 0⟩ "units::isq::si::metre_per_second" false ""⟩

/-- Miles per hour. -/
def exMph (rep : Rep) : QTy :=
  ⟨exSpeedDim, exNamed "units::isq::si::international::mile_per_hour" ⟨1397, 3125, 0⟩ "units::isq::si::metre_per_second" false "mi/h", rep⟩

/-- Kilometres per hour. -/
def exKmh (rep : Rep) : QTy :=
  ⟨exSpeedDim, exNamed "units::isq::si::kilometre_per_hour" ⟨1, 36, 1⟩ "units::isq::si::metre_per_second" false "km/h", rep⟩

theorem exMph_uses {S : Sys} (hS : everything = .ok S) (rep : Rep) :
    ∃ d x, d.name = "units::isq::si::dim_speed" ∧ Uses S (exMph rep) d x ⟨1397 / 3125, [1, 0, -1, 0, 0, 0, 0, 0, 0, 0, 0]⟩ :=
  uses_of_rows hS _ "units::isq::si::international::mile_per_hour" _ _ _ _ (by decide +kernel) (by decide +kernel) (by decide +kernel)
    (by decide +kernel) (by decide +kernel)

theorem exKmh_uses {S : Sys} (hS : everything = .ok S) (rep : Rep) :
    ∃ d x, d.name = "units::isq::si::dim_speed" ∧ Uses S (exKmh rep) d x ⟨5 / 18, [1, 0, -1, 0, 0, 0, 0, 0, 0, 0, 0]⟩ :=
  uses_of_rows hS _ "units::isq::si::kilometre_per_hour" _ _ _ _ (by decide +kernel) (by decide +kernel) (by decide +kernel)
    (by decide +kernel) (by decide +kernel)

/-- Nothing registered, no rounding. -/
def shEnv : Env := ⟨est, fun _ => none, fun _ _ => none, fun _ x => x⟩

theorem shEnv_ok : shEnv.OK := ⟨fun a b h => (by cases h), fun a b c h => (by cases h)⟩

end Systems

/-! ### C65 -/

variable (S : Sys) (hS : everything = .ok S) (E : Env) (hE : E.OK) (hest : E.est = est) (d d' : DEnt) (x y : Entry) (a b : Amount)
include hS hest

/-- C65: an implicit conversion between declared units keeps the amount: the number times what the name of the unit means.  For integral
targets the number is exact unless it does not fit the target type.  Partial: units listed in C57 are left out, unsigned 64-bit
intermediate results must not wrap. -/
theorem C65_conversion_partial (q r : Qty) (t : QTy) (hq : q.num.Typed q.ty.rep) (ux : Uses S q.ty d x a) (uy : Uses S t d' y b)
    (h : convertQty E t q = .ok r) :
    r.ty = t ∧
    (∀ ty, t.rep = .int ty → CastGuard E t q →
      ∃ n : ℤ, q.num.q * a.factor = n * b.factor ∧ r.num = .i (ty.wrap n)) ∧
    (t.rep.floating = true → FlExact E.fl → r.num.q * b.factor = q.num.q * a.factor) := by
  have g1 := ux.good hS hest
  have g2 := uy.good hS hest
  have hc := ux.coherent hS uy
  have hty : r.ty = t := by
    rcases convertQty_cases h with ⟨he, rfl⟩ | ⟨-, -, hc⟩
    · exact he
    · obtain ⟨-, c, v, -, -, rfl⟩ := quantityCast_eq_ok hc; rfl
  refine ⟨hty, fun ty ht hg => ?_, fun ht hfl => ?_⟩
  · obtain ⟨-, -, n, hn, hr, -⟩ := C22_implicit_conversion_exact_partial E refSizes refSizes_pos t q r ty g1 g2 hc hq ht hg h
    refine ⟨n, ?_, hr⟩
    rw [ux.amount hS, uy.size hS] at hn
    exact_mod_cast hn
  · obtain ⟨-, he⟩ := C22_implicit_conversion_float_partial E refSizes refSizes_pos t q r g1 g2 hc hq ht hfl h
    rw [ux.amount hS, Uses.amount (d := d') (x := y) (a := b) hS (by rw [hty]; exact uy)] at he
    exact_mod_cast he

omit hS hest in
/-- 60 mi/h are 96.56064 km/h. -/
example : (∃ S, everything = .ok S ∧ (∃ d x a, Uses S (exMph (.int .i64)) d x a) ∧ ∃ d x a, Uses S (exKmh (.flt .f64)) d x a) ∧
    shEnv.OK ∧ shEnv.est = est ∧ FlExact shEnv.fl ∧
    convertQty shEnv (exKmh (.flt .f64)) ⟨exMph (.int .i64), .i 60⟩ = .ok ⟨exKmh (.flt .f64), .f (9656064 / 100000)⟩ := by
  obtain ⟨S, hS⟩ := everything_loads
  obtain ⟨d, x, -, h⟩ := exMph_uses hS (.int .i64)
  obtain ⟨d', x', -, h'⟩ := exKmh_uses hS (.flt .f64)
  exact ⟨⟨S, hS, ⟨d, x, _, h⟩, d', x', _, h'⟩, shEnv_ok, rfl, fun _ _ => rfl, by decide +kernel⟩

/-- C65: a cast between declared units with integral representations truncates the amount once. -/
theorem C65_cast_partial (q r : Qty) (t : QTy) (s z : IntTy) (hs : q.ty.rep = .int s) (hz : t.rep = .int z)
    (hq : q.num.Typed q.ty.rep) (ux : Uses S q.ty d x a) (uy : Uses S t d' y b)
    (hg : CastGuard E t q) (h : quantityCast E t q = .ok r) :
    r.ty = t ∧ r.num = .i (z.wrap (truncQ (q.num.q * a.factor / b.factor))) := by
  obtain ⟨h1, h2, -⟩ := C23_truncates_once_partial E refSizes refSizes_pos t q r s z (ux.good hS hest) (uy.good hS hest) (ux.coherent hS uy)
    hs hz hq hg h
  refine ⟨h1, ?_⟩
  rw [h2, ux.amount hS, uy.size hS]
  have : truncR (((q.num.q * a.factor : ℚ) : ℝ) / (b.factor : ℝ)) = truncQ (q.num.q * a.factor / b.factor) := by
    have : ((q.num.q * a.factor : ℚ) : ℝ) / (b.factor : ℝ) = ((q.num.q * a.factor / b.factor : ℚ) : ℝ) := by push_cast; rfl
    rw [this]
    unfold truncR truncQ
    simp only [Rat.floor_cast, Rat.ceil_cast, Rat.cast_nonneg]
  rw [this]

omit hS hest in
/-- 60 mi/h are 96 whole km/h; the guard concerns unsigned types only. -/
example : CastGuard shEnv (exKmh (.int .i64)) ⟨exMph (.int .i32), .i 60⟩ ∧
    quantityCast shEnv (exKmh (.int .i64)) ⟨exMph (.int .i32), .i 60⟩ = .ok ⟨exKmh (.int .i64), .i 96⟩ :=
  ⟨fun c v _ _ _ h => absurd h (by decide), by decide +kernel⟩

include hE

/-- C65: comparing quantities of declared units compares the amounts the names of the units mean. -/
theorem C65_compare_partial (p q : Qty) (hp : p.num.Typed p.ty.rep) (hq : q.num.Typed q.ty.rep) (ux : Uses S p.ty d x a)
    (uy : Uses S q.ty d' y b) (hn : ¬ areaClash d d') (hf : CmpFits E refSizes p q) :
    (∀ o, compareQty E p q = .ok o → o = compare (p.num.q * a.factor) (q.num.q * b.factor)) ∧
    (∀ e, eqQty E p q = .ok e → (e = true ↔ p.num.q * a.factor = q.num.q * b.factor)) := by
  have g1 : p.Good E := ⟨ux.good hS hest, hp⟩
  have g2 : q.Good E := ⟨uy.good hS hest, hq⟩
  constructor
  · intro o h
    have heq : dimEquivalent p.ty.dim q.ty.dim = .ok true := by
      unfold compareQty at h
      split at h
      swap
      · cases h
      simp only [bind_ok] at h
      obtain ⟨t, ht, -⟩ := h
      unfold commonQty at ht
      simp only [bind_ok] at ht
      obtain ⟨b, hb, ht⟩ := ht
      cases b with
      | false => cases ht
      | true => exact C17_symmetric _ _ hb
    obtain ⟨h1, h2, h3⟩ := C26_compare_partial E hE refSizes refSizes_pos p q o g1 g2 (ux.related hS uy hn heq) hf h
    rw [ux.amount hS, uy.amount hS] at h1 h2 h3
    symm
    cases o with
    | lt => exact compare_lt_iff_lt.mpr (by exact_mod_cast h1.mp rfl)
    | eq => exact compare_eq_iff_eq.mpr (by exact_mod_cast h2.mp rfl)
    | gt => exact compare_gt_iff_gt.mpr (by exact_mod_cast h3.mp rfl)
  · intro e h
    have heq : dimEquivalent p.ty.dim q.ty.dim = .ok true := by
      unfold eqQty at h
      simp only [bind_ok] at h
      obtain ⟨t, ht, -⟩ := h
      unfold commonQty at ht
      simp only [bind_ok] at ht
      obtain ⟨b, hb, ht⟩ := ht
      cases b with
      | false => cases ht
      | true => exact C17_symmetric _ _ hb
    rw [C26_eq_partial E hE refSizes refSizes_pos p q e g1 g2 (ux.related hS uy hn heq) hf h, ux.amount hS, uy.amount hS]
    exact_mod_cast Iff.rfl

omit hS hest hE in
/-- 60 mi/h are more than 96 km/h. -/
example : CmpFits shEnv refSizes ⟨exMph (.int .i64), .i 60⟩ ⟨exKmh (.flt .f64), .f 96⟩ ∧
    compareQty shEnv ⟨exMph (.int .i64), .i 60⟩ ⟨exKmh (.flt .f64), .f 96⟩ = .ok .gt ∧
    eqQty shEnv ⟨exMph (.int .i64), .i 60⟩ ⟨exKmh (.flt .f64), .f 96⟩ = .ok false := by
  have key : ∀ t, cmpType shEnv (exMph (.int .i64)) (exKmh (.flt .f64)) = .ok t → t.rep = .flt .f64 := by
    intro t h
    unfold cmpType commonQty at h
    simp only [bind_ok] at h
    obtain ⟨b, -, h⟩ := h
    cases b with
    | false => cases h
    | true =>
      simp only [if_true, bind_ok, Except.ok.injEq] at h
      obtain ⟨⟨d, u⟩, -, rfl⟩ := h
      rfl
  refine ⟨⟨fun t h => ⟨fun ty he => ?_, fun c v _ _ hf => ?_⟩, fun t h => ⟨fun ty he => ?_, fun c v _ _ hf => ?_⟩, fun _ _ _ => rfl⟩,
    by decide +kernel, by decide +kernel⟩ <;> have := key t h <;> simp_all [Rep.floating]

/-- C65: sums and differences of quantities of declared units are exact: the result (whose unit is the greatest of which both
units are multiples) stands for the sum of the amounts. -/
theorem C65_sum_partial (op : BinOp) (hop : op = .add ∨ op = .sub) (p q r : Qty) (hp : p.num.Typed p.ty.rep) (hq : q.num.Typed q.ty.rep)
    (ux : Uses S p.ty d x a) (uy : Uses S q.ty d' y b) (hn : ¬ areaClash d d') (h : addSub E op p q = .ok r)
    (hf : SumFits E refSizes op p q r) :
    r.amount refSizes = ((if op = .add then p.num.q * a.factor + q.num.q * b.factor else p.num.q * a.factor - q.num.q * b.factor : ℚ) : ℝ) ∧
    IsCommonSize (a.factor : ℝ) (b.factor : ℝ) (r.ty.size refSizes) ∧
    (∀ f z c, Uses S r.ty f z c →
      r.num.q * c.factor = if op = .add then p.num.q * a.factor + q.num.q * b.factor else p.num.q * a.factor - q.num.q * b.factor) := by
  have g1 : p.Good E := ⟨ux.good hS hest, hp⟩
  have g2 : q.Good E := ⟨uy.good hS hest, hq⟩
  have heq : dimEquivalent p.ty.dim q.ty.dim = .ok true := by
    unfold addSub at h
    simp only [bind_ok] at h
    obtain ⟨t, ht, -⟩ := h
    unfold commonQty at ht
    simp only [bind_ok] at ht
    obtain ⟨b, hb, ht⟩ := ht
    cases b with
    | false => cases ht
    | true => exact C17_symmetric _ _ hb
  have hr := ux.related hS uy hn heq
  have key : r.amount refSizes =
      ((if op = .add then p.num.q * a.factor + q.num.q * b.factor else p.num.q * a.factor - q.num.q * b.factor : ℚ) : ℝ) ∧
      IsCommonSize (a.factor : ℝ) (b.factor : ℝ) (r.ty.size refSizes) := by
    rw [← ux.size hS, ← uy.size hS]
    rcases hop with rfl | rfl
    · obtain ⟨-, -, hc, he⟩ := C25_add_exact_partial E hE refSizes refSizes_pos p q r g1 g2 hr h
      refine ⟨?_, hc⟩
      rw [he hf, ux.amount hS, uy.amount hS]; simp
    · obtain ⟨-, -, hc, he⟩ := C25_sub_exact_partial E hE refSizes refSizes_pos p q r g1 g2 hr h
      refine ⟨?_, hc⟩
      rw [he hf, ux.amount hS, uy.amount hS]; simp
  refine ⟨key.1, key.2, fun f z c hz => ?_⟩
  have := key.1
  rw [hz.amount hS] at this
  exact_mod_cast this

omit hS hest hE in
/-- The sum of a mile per hour and a kilometre per hour, 40771 times 1/56250 m/s. -/
example : ∃ r, addSub shEnv .add ⟨exMph (.int .i64), .i 1⟩ ⟨exKmh (.flt .f64), .f 1⟩ = .ok r ∧ r.num = .f 40771 ∧
    SumFits shEnv refSizes .add ⟨exMph (.int .i64), .i 1⟩ ⟨exKmh (.flt .f64), .f 1⟩ r := by
  refine ⟨⟨⟨exSpeedDim, ⟨.scaled ⟨1, 5625, -1⟩ "units::isq::si::metre_per_second", ⟨1, 5625, -1⟩, "units::isq::si::metre_per_second", [], false, "",
    none⟩, .flt .f64⟩, .f 40771⟩, by decide +kernel, rfl, fun _ _ _ => rfl, fun _ _ _ _ h => (by cases h), fun _ _ _ _ h => (by cases h),
    fun _ h => (by cases h), fun _ h => (by cases h), fun _ h => (by cases h)⟩

omit hS in
/-- The common unit of an area in square centimetres and one in square feet is the square centimetre, of which a square foot is not a
multiple. -/
theorem exArea_sum_rejected (v w : Num) (r : Qty) : addSub E .add ⟨exCgsArea (.int .i64), v⟩ ⟨exFpsArea (.int .i64), w⟩ ≠ .ok r := by
  intro h
  unfold addSub at h
  simp only [bind_ok] at h
  obtain ⟨t, ht, x, hx, y, hy, -⟩ := h
  have ht : ∃ u : MUnit, u.ratio = ⟨1, 1, -4⟩ ∧ t.dim = (exCgsArea (.int .i64)).dim ∧ t.unit = u ∧ t.rep = .int .i64 := by
    unfold commonQty at ht
    simp only [bind_ok] at ht
    obtain ⟨b, hb, ht⟩ := ht
    cases b with
    | false => cases ht
    | true =>
      simp only [if_true, bind_ok, Except.ok.injEq] at ht
      obtain ⟨⟨d, u⟩, hd, rfl⟩ := ht
      rw [hest] at hd
      unfold commonUnit at hd
      rw [if_neg (by decide +kernel), if_neg (by decide +kernel)] at hd
      have e1 : (exCgsArea (.int .i64)).dim.baseUnitsRatio est = .ok ⟨1, 1, -4⟩ := by decide +kernel
      have e2 : (exFpsArea (.int .i64)).dim.baseUnitsRatio est = .ok ⟨145161, 15625, -2⟩ := by decide +kernel
      have e3 : Ratio.mul ⟨1, 1, -4⟩ (exCgsArea (.int .i64)).unit.ratio = .ok ⟨1, 1, -8⟩ := by decide +kernel
      have e4 : Ratio.mul ⟨145161, 15625, -2⟩ (exFpsArea (.int .i64)).unit.ratio = .ok ⟨145161, 15625, -2⟩ := by decide +kernel
      have e5 : Ratio.common ⟨1, 1, -8⟩ ⟨145161, 15625, -2⟩ = .ok ⟨1, 1, -8⟩ := by decide +kernel
      have e6 : Ratio.div ⟨1, 1, -8⟩ ⟨1, 1, -4⟩ = .ok ⟨1, 1, -4⟩ := by decide +kernel
      simp only [e1, e2, e3, e4, e5, ok_bind, bind_ok, Except.ok.injEq, Prod.mk.injEq] at hd
      obtain ⟨b, hb, x, hx, u', hu', h1, rfl⟩ := hd
      have hb : (exCgsArea (.int .i64)).dim.baseUnitsRatio est = .ok b := hb
      have hu' : downcastUnit E.units (exCgsArea (.int .i64)).dim x = .ok u' := hu'
      have h1 : (exCgsArea (.int .i64)).dim = d := h1
      rw [e1, Except.ok.injEq] at hb
      subst hb
      rw [e6, Except.ok.injEq] at hx
      subst hx
      refine ⟨u', ?_, h1.symm, rfl, rfl⟩
      unfold downcastUnit at hu'
      simp only [bind_ok] at hu'
      obtain ⟨s, hs, hu'⟩ := hu'
      split at hu'
      · rename_i u'' hreg
        simp only [Except.ok.injEq] at hu'
        subst hu'
        exact (hE.units _ _ _ hreg).1
      · simp only [Except.ok.injEq] at hu'
        subst hu'
        rw [(scaledUnit_eq_ok.mp hs).2]
  obtain ⟨u, hu, h1, h2, h3⟩ := ht
  obtain ⟨td, tu, tr⟩ := t
  simp only at h1 h2 h3
  subst h1; subst h2; subst h3
  rcases convertQty_cases hy with ⟨he, -⟩ | ⟨-, hs, -⟩
  · have := congrArg QTy.dim he
    have : (exFpsArea (.int .i64)).dim = (exCgsArea (.int .i64)).dim := this
    exact absurd this (by decide +kernel)
  · unfold safeCastable at hs
    have e1 : dimEquivalent (exCgsArea (.int .i64)).dim (exFpsArea (.int .i64)).dim = .ok true := by decide +kernel
    simp only [e1, ok_bind, if_true] at hs
    rw [if_neg (by decide), if_neg (by decide)] at hs
    unfold harmonic at hs
    rw [hest] at hs
    have e2 : quantityRatio est (exFpsArea (.int .i64)).dim (exFpsArea (.int .i64)).unit = .ok ⟨145161, 15625, -2⟩ := by decide +kernel
    have e3 : quantityRatio est (exCgsArea (.int .i64)).dim tu = .ok ⟨1, 1, -4⟩ := by
      have e4 : (exCgsArea (.int .i64)).dim.baseUnitsRatio est = .ok ⟨1, 1, -4⟩ := by decide +kernel
      have e5 : Ratio.mul ⟨1, 1, -4⟩ ⟨1, 1, -4⟩ = .ok ⟨1, 1, -8⟩ := by decide +kernel
      have e6 : Ratio.div ⟨1, 1, -8⟩ (exCgsArea (.int .i64)).dim.unit.ratio = .ok ⟨1, 1, -4⟩ := by decide +kernel
      unfold quantityRatio
      show (do let b ← (exCgsArea (.int .i64)).dim.baseUnitsRatio est
               let x ← Ratio.mul b tu.ratio
               Ratio.div x (exCgsArea (.int .i64)).dim.unit.ratio) = _
      rw [hu, e4, ok_bind, e5, ok_bind, e6]
    have e7 : (do let x ← Ratio.div ⟨145161, 15625, -2⟩ ⟨1, 1, -4⟩; Ratio.isIntegral x) = .ok false := by decide +kernel
    simp only [e2, e3, ok_bind] at hs
    have hs := e7.symm.trans hs
    cases hs

/-- C65 does not hold for the areas of the CGS and FPS systems: although the dimensions are equivalent, whole numbers of square
centimetres and square feet cannot be added.  (With the operands the other way round the sum exists, in a unit sixteen times finer than
necessary.) -/
theorem C65_cgs_and_fps_areas : ∃ d d' x y a b, Uses S (exCgsArea (.int .i64)) d x a ∧ Uses S (exFpsArea (.int .i64)) d' y b ∧ areaClash d d' ∧
    dimEquivalent (exCgsArea (.int .i64)).dim (exFpsArea (.int .i64)).dim = .ok true ∧
    ∀ v w r, addSub E .add ⟨exCgsArea (.int .i64), v⟩ ⟨exFpsArea (.int .i64), w⟩ ≠ .ok r := by
  obtain ⟨d, x, h1, h⟩ := exCgsArea_uses hS (.int .i64)
  obtain ⟨d', y, h1', h'⟩ := exFpsArea_uses hS (.int .i64)
  exact ⟨d, d', x, y, _, _, h, h', Or.inl ⟨h1, h1'⟩, by decide +kernel, exArea_sum_rejected E hE hest⟩

end Verif
