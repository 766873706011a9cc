import Verif.Programs
import Verif.GlideLemmas
import Mathlib.Tactic.FieldSimp
import Mathlib.Tactic.Linarith

/-!
# The small example programs on numbers

The operators of the example programs, each on its own types, as operations on the numbers.
-/

namespace Verif

set_option maxRecDepth 100000

/-- `progEnv` with its components in sight. -/
abbrev pE : Env := ⟨compileEst rnd53, progDims, progUnits, fun _ x => x⟩

/-- The type of a product. -/
def mulTyP (a b : QTy) : QTy := match refMultiply pE a.dim a.unit b.dim b.unit with
  | .ok x => ⟨x.1, x.2, a.rep.arith b.rep⟩
  | .error _ => a

/-- The type of a quotient. -/
def divTyP (a b : QTy) : QTy := match refDivide pE a.dim a.unit b.dim b.unit with
  | .ok x => ⟨x.1, x.2, a.rep.arith b.rep⟩
  | .error _ => a

/-- A quotient of floating point quantities. -/
theorem divP {t1 t2 t : QTy} {f1 f2 f : FltTy} (h1 : t1.rep = .flt f1) (h2 : t2.rep = .flt f2) (h3 : t.rep = .flt f)
    (ha : (Rep.flt f1).arith (.flt f2) = .flt f) (h : refDivide pE t1.dim t1.unit t2.dim t2.unit = .ok (t.dim, t.unit))
    (x y : ℚ) (hy : y ≠ 0) : divQty pE ⟨t1, .f x⟩ ⟨t2, .f y⟩ = .ok ⟨t, .f (x / y)⟩ := by
  obtain ⟨d, u, r⟩ := t
  subst h3
  have hn : numOp pE.fl .div (.flt f1) (.flt f2) (.f x) (.f y) = .ok (.f (x / y)) := by
    simp only [numOp, ha]
    cases f1 <;> cases f2 <;> cases f <;> simp_all [convNum, sameOp, fltOp, Rep.arith]
  simp only [divQty, h, h1, h2, ok_bind, hn, ha]

/-! ### The box -/

/-- A literal in millimetres (`long double`). -/
def lmm (x : ℚ) : Qty := ⟨⟨.base siLength, siMillimetre, .flt .f80⟩, .f x⟩
/-- Metres. -/
def metres (x : ℚ) : Qty := ⟨boxLen, .f x⟩
/-- A literal of a density. -/
def ldens (x : ℚ) : Qty := ⟨⟨.named siDensity, siDensity.coherent, .flt .f80⟩, .f x⟩
/-- A literal of a mass. -/
def lmass (x : ℚ) : Qty := ⟨⟨.base siMass, siKilogram, .flt .f80⟩, .f x⟩
/-- A literal of a time. -/
def ltime (x : ℚ) : Qty := ⟨⟨.base siTime, siSecond, .flt .f80⟩, .f x⟩

theorem p_mm (x : ℚ) : convertQty pE boxLen (lmm x) = .ok ⟨boxLen, .f (x / 1000)⟩ := by kernel_rfl
theorem p_len (x : ℚ) : convertQty pE boxLen ⟨boxLen, .f x⟩ = .ok ⟨boxLen, .f x⟩ := by kernel_rfl
theorem p_ll (x y : ℚ) : mulQty pE ⟨boxLen, .f x⟩ ⟨boxLen, .f y⟩ = .ok ⟨boxArea, .f (x * y)⟩ := by kernel_rfl
theorem p_area (x : ℚ) : convertQty pE boxArea ⟨boxArea, .f x⟩ = .ok ⟨boxArea, .f x⟩ := by kernel_rfl
theorem p_al (x y : ℚ) : mulQty pE ⟨boxArea, .f x⟩ ⟨boxLen, .f y⟩ = .ok ⟨boxVol, .f (x * y)⟩ := by kernel_rfl
theorem p_la (x y : ℚ) : mulQty pE ⟨boxLen, .f x⟩ ⟨boxArea, .f y⟩ = .ok ⟨boxVol, .f (x * y)⟩ := by kernel_rfl
theorem p_vol (x : ℚ) : convertQty pE boxVol ⟨boxVol, .f x⟩ = .ok ⟨boxVol, .f x⟩ := by kernel_rfl
theorem p_dv (x y : ℚ) : mulQty pE ⟨boxDens, .f x⟩ ⟨boxVol, .f y⟩ = .ok ⟨boxMass, .f (x * y)⟩ := by kernel_rfl
theorem p_mass (x : ℚ) : convertQty pE boxMass ⟨boxMass, .f x⟩ = .ok ⟨boxMass, .f x⟩ := by kernel_rfl
theorem p_lmass (x : ℚ) : convertQty pE boxMass (lmass x) = .ok ⟨boxMass, .f x⟩ :=
  (show _ = Except.ok (⟨boxMass, .f (x * 1)⟩ : Qty) by kernel_rfl).trans (by rw [mul_one])
theorem p_mg (x : ℚ) : mulQty pE ⟨boxMass, .f x⟩ boxG = .ok ⟨boxForce, .f (x * (980665 / 100000))⟩ := by kernel_rfl
theorem p_force (x : ℚ) : convertQty pE boxForce ⟨boxForce, .f x⟩ = .ok ⟨boxForce, .f x⟩ := by kernel_rfl
/-- Metres times kilograms. -/
def lmTy : QTy := mulTyP boxLen boxMass
theorem p_lm (x y : ℚ) : mulQty pE ⟨boxLen, .f x⟩ ⟨boxMass, .f y⟩ = .ok ⟨lmTy, .f (x * y)⟩ := by kernel_rfl
theorem p_lmg (x : ℚ) : mulQty pE ⟨lmTy, .f x⟩ boxG = .ok ⟨jouleTy, .f (x * (980665 / 100000))⟩ := by kernel_rfl
theorem p_level (x y : ℚ) (hy : y ≠ 0) : divQty pE ⟨jouleTy, .f x⟩ ⟨boxForce, .f y⟩ = .ok ⟨boxLen, .f (x / y)⟩ :=
  divP rfl rfl rfl rfl (by kernel_rfl) x y hy
theorem p_sub (x y : ℚ) : addSub pE .sub ⟨boxLen, .f x⟩ ⟨boxLen, .f y⟩ = .ok ⟨boxLen, .f (x - y)⟩ := by kernel_rfl
theorem p_ldens (x : ℚ) : convertQty pE boxDens (ldens x) = .ok ⟨boxDens, .f x⟩ :=
  (show _ = Except.ok (⟨boxDens, .f (x * 1)⟩ : Qty) by kernel_rfl).trans (by rw [mul_one])
theorem p_cmp (x : ℚ) : compareQty pE ⟨boxDens, .f x⟩ airDensity = .ok (numCompare (.f x) (.f (1225 / 1000))) := by kernel_rfl
/-- A number. -/
def oneTy : QTy := ⟨.named dimOne, unitOne, .flt .f64⟩
theorem p_part (x y : ℚ) (hy : y ≠ 0) : divQty pE ⟨boxLen, .f x⟩ ⟨boxLen, .f y⟩ = .ok ⟨oneTy, .f (x / y)⟩ :=
  divP rfl rfl rfl rfl (by kernel_rfl) x y hy
/-- A percentage. -/
def percentTy : QTy := ⟨.named dimOne, unitPercent, .flt .f64⟩
theorem p_percent (x : ℚ) : quantityCast pE ⟨oneTy.dim, unitPercent, oneTy.rep⟩ ⟨oneTy, .f x⟩ = .ok ⟨percentTy, .f (x * 100)⟩ := by kernel_rfl
/-- Kilograms by seconds: a dimension without a name. -/
def flowTy : QTy := { divTyP (lmass 0).ty (ltime 0).ty with rep := .flt .f80 }
theorem p_flow (x y : ℚ) (hy : y ≠ 0) : divQty pE (lmass x) (ltime y) = .ok ⟨flowTy, .f (x / y)⟩ :=
  divP rfl rfl rfl rfl (by kernel_rfl) x y hy
/-- Metres per second, `long double`. -/
def riseTy : QTy := ⟨.named siSpeed, siMps, .flt .f80⟩
theorem p_rise (x y : ℚ) (hy : y ≠ 0) : divQty pE ⟨boxLen, .f x⟩ (ltime y) = .ok ⟨riseTy, .f (x / y)⟩ :=
  divP rfl rfl rfl rfl (by kernel_rfl) x y hy
theorem p_more (x : ℚ) : addSubNum pE .sub ⟨oneTy, .f x⟩ (.int .i32) (.i 1) = .ok ⟨oneTy, .f (x - 1)⟩ := by kernel_rfl
theorem p_left (x y : ℚ) : mulQty pE ⟨oneTy, .f x⟩ (ltime y) = .ok (ltime (x * y)) := by kernel_rfl

/-! ### Total energy -/

/-- The functions of `<cmath>` on the arguments that matter: squares, and roots of squares. -/
structure Libm.Squares (L : Libm) : Prop where
  pow : ∀ f x, L.pow f x 2 = .ok (x ^ 2)
  sqrt : ∀ f x, 0 ≤ x → L.sqrt f (x ^ 2) = .ok x

/-- A unit without a name. -/
def scaledU (r : Ratio) (ref : String) : MUnit := ⟨.scaled r ref, r, ref, [], false, "", none⟩

/-- The square of a speed. -/
def speed2Ty : QTy := ⟨.unknown [⟨siLength, 2, 1⟩, ⟨siTime, -2, 1⟩], scaledU Ratio.one "unknown_coherent_unit", .flt .f64⟩
/-- The square of an energy. -/
def energy2 : Dim := .unknown [⟨siLength, 4, 1⟩, ⟨siMass, 2, 1⟩, ⟨siTime, -4, 1⟩]
/-- Square gigaelectronvolts. -/
def gev2Ty : QTy := ⟨energy2, scaledU ⟨641742491633892489, 25, -36⟩ "unknown_coherent_unit", .flt .f80⟩
/-- Square joules. -/
def joule2Ty : QTy := ⟨energy2, scaledU Ratio.one "unknown_coherent_unit", .flt .f64⟩
/-- Momentum as written in the program: gigaelectronvolts by metres per second. -/
def gevPTy : QTy := ⟨.named siMomentum, scaledU ⟨801088317, 5, -18⟩ "units::isq::si::kilogram_metre_per_second", .flt .f80⟩
/-- Mass as written in the program: gigaelectronvolts by the square of a speed. -/
def gevMTy : QTy := ⟨.base siMass, scaledU ⟨801088317, 5, -15⟩ "units::isq::si::gram", .flt .f80⟩

/-- A product of floating point quantities. -/
theorem mulP {t1 t2 t : QTy} {f1 f2 f : FltTy} (h1 : t1.rep = .flt f1) (h2 : t2.rep = .flt f2) (h3 : t.rep = .flt f)
    (ha : (Rep.flt f1).arith (.flt f2) = .flt f) (h : refMultiply pE t1.dim t1.unit t2.dim t2.unit = .ok (t.dim, t.unit))
    (x y : ℚ) : mulQty pE ⟨t1, .f x⟩ ⟨t2, .f y⟩ = .ok ⟨t, .f (x * y)⟩ := by
  obtain ⟨d, u, r⟩ := t
  subst h3
  have hn : numOp pE.fl .mul (.flt f1) (.flt f2) (.f x) (.f y) = .ok (.f (x * y)) := by
    simp only [numOp, ha]
    cases f1 <;> cases f2 <;> cases f <;> simp_all [convNum, sameOp, fltOp, Rep.arith]
  simp only [mulQty, h, h1, h2, ok_bind, hn, ha]

/-- A square, with the functions of `<cmath>` given. -/
theorem squareP {L : Libm} (hL : L.Squares) {t t' : QTy} {f : FltTy} {p : Ratio} (h1 : t.rep = .flt f) (h2 : t'.rep = .flt f) (hf : f ≠ .f32)
    (hd : dimPow pE.dims t.dim 2 1 = .ok t'.dim) (hp : powR pE.est 2 1 t.unit.ratio = .ok p) (hu : downcastUnit pE.units t'.dim p = .ok t'.unit) (x : ℚ) :
    square pE L ⟨t, .f x⟩ = .ok ⟨t', .f (x ^ 2)⟩ := by
  obtain ⟨d, u, r⟩ := t'
  subst h2
  have e : powQty pE L 2 1 ⟨t, .f x⟩ = .ok (.inr ⟨⟨d, u, .flt f⟩, .f (x ^ 2)⟩) := by
    unfold powQty
    rw [if_neg (by decide), if_neg (by decide)]
    simp only [hd, hp, hu, ok_bind, h1]
    cases f
    · exact absurd rfl hf
    all_goals simp [libmPow, Rep.libm2, convNum, fltOp, Num.q, hL.pow, ok_bind]
  simp only [square, e, ok_bind]

/-- A root, with the functions of `<cmath>` given. -/
theorem sqrtP {L : Libm} (hL : L.Squares) {t t' : QTy} {f : FltTy} {p : Ratio} (h1 : t.rep = .flt f) (h2 : t'.rep = .flt f)
    (hd : dimPow pE.dims t.dim 1 2 = .ok t'.dim) (hp : sqrtR pE.est t.unit.ratio = .ok p) (hu : downcastUnit pE.units t'.dim p = .ok t'.unit)
    {x y : ℚ} (hx : 0 ≤ x) (hy : y = x ^ 2) : sqrtQty pE L ⟨t, .f y⟩ = .ok ⟨t', .f x⟩ := by
  obtain ⟨d, u, r⟩ := t'
  subst h2 hy
  simp only [sqrtQty, hd, hp, hu, ok_bind, h1, libm1, Rep.libm]
  simp [convNum, Num.q, hL.sqrt f x hx, ok_bind]

theorem fpow10Loop_ok (f : FltTy) (k : Nat) (x : ℚ) :
    fpow10Loop (fun _ y => y) f .div k x = .ok (x / 10 ^ k) ∧ fpow10Loop (fun _ y => y) f .mul k x = .ok (x * 10 ^ k) := by
  induction k generalizing x with
  | zero => simp [fpow10Loop]
  | succ k ih =>
    simp only [fpow10Loop, fltOp, ok_bind, ih, if_neg (show ¬(10 : ℚ) = 0 by norm_num)]
    constructor <;> congr 1 <;> rw [pow_succ]
    · field_simp
    · ring

theorem fpow10_ok (f : FltTy) (e : Int) : fpow10 (fun _ y => y) f e = .ok ((10 : ℚ) ^ e) := by
  unfold fpow10
  split
  · rename_i he; rw [he]; rfl
  · split
    · obtain ⟨k, hk⟩ : ∃ k : Nat, e = -(k : Int) := ⟨e.natAbs, by omega⟩
      subst hk; rw [(fpow10Loop_ok f _ _).1]; simp
    · obtain ⟨k, hk⟩ : ∃ k : Nat, e = (k : Int) := ⟨e.natAbs, by omega⟩
      subst hk; rw [(fpow10Loop_ok f _ _).2]; simp

theorem castFlt_ok (f : FltTy) {c : Ratio} (hc : c.den ≠ 0) (v : ℚ) : castFlt (fun _ y => y) f c v = .ok (v * c.val) := by
  have h : ((c.den : Int) : ℚ) ≠ 0 := by exact_mod_cast hc
  simp only [castFlt, fpow10_ok, ok_bind, fltOp, if_neg h]
  congr 1; rw [Ratio.val]; ring

theorem convNum_fok (r : Rep) (f : FltTy) {v : Num} (hv : v.Typed r) : convNum (fun _ y => y) r (.flt f) v = .ok (.f v.q) := by
  cases r <;> cases v <;> simp_all [convNum, Num.Typed, Num.q]

theorem castNum_fok (s : Rep) (f : FltTy) {c : Ratio} (hc : c.den ≠ 0) {v : Num} (hv : v.Typed s) :
    castNum (fun _ y => y) s (.flt f) c v = .ok (.f (v.q * c.val)) := by
  obtain ⟨g, hg⟩ := castRep_flt (a := s) (b := .flt f) (.inr rfl)
  simp only [castNum, hg, convNum_fok s g hv, ok_bind, castFlt_ok g hc]
  exact convNum_fok (.flt g) f (v := .f _) (by simp [Num.Typed])

/-- A cast to a floating point quantity. -/
theorem castP {t t' : QTy} {f : FltTy} {c : Ratio} (h2 : t'.rep = .flt f) (hd : dimEquivalent t'.dim t.dim = .ok true)
    (hc : castRatio pE.est t.dim t.unit t'.dim t'.unit = .ok c) (hc0 : c.den ≠ 0) {v : Num} (hv : v.Typed t.rep) :
    quantityCast pE t' ⟨t, v⟩ = .ok ⟨t', .f (v.q * c.val)⟩ := by
  simp only [quantityCast, hd, ok_bind, hc, if_true, h2]
  rw [castNum_fok _ _ hc0 hv, ok_bind]

/-- A conversion to a floating point quantity of another type. -/
theorem convP {t t' : QTy} {f : FltTy} {c : Ratio} (hne : t ≠ t') (h2 : t'.rep = .flt f) (hd : dimEquivalent t'.dim t.dim = .ok true)
    (hc : castRatio pE.est t.dim t.unit t'.dim t'.unit = .ok c) (hc0 : c.den ≠ 0) {v : Num} (hv : v.Typed t.rep) :
    convertQty pE t' ⟨t, v⟩ = .ok ⟨t', .f (v.q * c.val)⟩ := by
  simp only [convertQty, if_neg hne, safeCastable, hd, ok_bind, if_true, h2, Rep.floating]
  exact castP h2 hd hc hc0 hv

/-- The sum of floating point quantities of one type. -/
theorem addP {t : QTy} {f : FltTy} (h1 : t.rep = .flt f) (ha : (Rep.flt f).arith (.flt f) = .flt f) (hc : commonQty pE t t (.flt f) = .ok t) (x y : ℚ) :
    addSub pE .add ⟨t, .f x⟩ ⟨t, .f y⟩ = .ok ⟨t, .f (x + y)⟩ := by
  simp only [addSub, h1, ha, hc, ok_bind, convertQty, if_true, mkQty]
  have hn : numOp pE.fl .add (.flt f) (.flt f) (.f x) (.f y) = .ok (.f (x + y)) := by
    simp only [numOp, ha, convNum, if_true, sameOp, fltOp, ok_bind]
  simp [hn, ok_bind, convNum, Rep.floating]

section
variable {L : Libm} (hL : L.Squares)
include hL

theorem e_cc (x : ℚ) : square pE L ⟨lightTy, .f x⟩ = .ok ⟨speed2Ty, .f (x ^ 2)⟩ :=
  squareP hL (p := Ratio.one) rfl rfl (by decide) (by decide +kernel) (by decide +kernel) (by decide +kernel) x
theorem e_gev2 (x : ℚ) : square pE L ⟨gevTy, .f x⟩ = .ok ⟨gev2Ty, .f (x ^ 2)⟩ :=
  squareP hL (p := ⟨641742491633892489, 25, -36⟩) rfl rfl (by decide) (by decide +kernel) (by decide +kernel) (by decide +kernel) x
theorem e_j2 (x : ℚ) : square pE L ⟨jouleTy, .f x⟩ = .ok ⟨joule2Ty, .f (x ^ 2)⟩ :=
  squareP hL (p := Ratio.one) rfl rfl (by decide) (by decide +kernel) (by decide +kernel) (by decide +kernel) x
theorem e_rgev {x y : ℚ} (hx : 0 ≤ x) (hy : y = x ^ 2) : sqrtQty pE L ⟨gev2Ty, .f y⟩ = .ok ⟨gevTy, .f x⟩ :=
  sqrtP hL (p := ⟨801088317, 5, -18⟩) rfl rfl (by decide +kernel) (by decide +kernel) (by decide +kernel) hx hy
theorem e_rj {x y : ℚ} (hx : 0 ≤ x) (hy : y = x ^ 2) : sqrtQty pE L ⟨joule2Ty, .f y⟩ = .ok ⟨jouleTy, .f x⟩ :=
  sqrtP hL (p := Ratio.one) rfl rfl (by decide +kernel) (by decide +kernel) (by decide +kernel) hx hy
end

theorem e_p (x y : ℚ) (hy : y ≠ 0) : divQty pE ⟨gevTy, .f x⟩ ⟨lightTy, .f y⟩ = .ok ⟨gevPTy, .f (x / y)⟩ := divP rfl rfl rfl rfl (by decide +kernel) x y hy
theorem e_m (x y : ℚ) (hy : y ≠ 0) : divQty pE ⟨gevTy, .f x⟩ ⟨speed2Ty, .f y⟩ = .ok ⟨gevMTy, .f (x / y)⟩ := divP rfl rfl rfl rfl (by decide +kernel) x y hy
theorem e_pc (x y : ℚ) : mulQty pE ⟨gevPTy, .f x⟩ ⟨lightTy, .f y⟩ = .ok ⟨gevTy, .f (x * y)⟩ := mulP rfl rfl rfl rfl (by decide +kernel) x y
theorem e_mc (x y : ℚ) : mulQty pE ⟨gevMTy, .f x⟩ ⟨speed2Ty, .f y⟩ = .ok ⟨gevTy, .f (x * y)⟩ := mulP rfl rfl rfl rfl (by decide +kernel) x y
theorem e_jpc (x y : ℚ) : mulQty pE ⟨momentumTy, .f x⟩ ⟨lightTy, .f y⟩ = .ok ⟨jouleTy, .f (x * y)⟩ := mulP rfl rfl rfl rfl (by decide +kernel) x y
theorem e_jmc (x y : ℚ) : mulQty pE ⟨boxMass, .f x⟩ ⟨speed2Ty, .f y⟩ = .ok ⟨jouleTy, .f (x * y)⟩ := mulP rfl rfl rfl rfl (by decide +kernel) x y

theorem e_add (x y : ℚ) : addSub pE .add ⟨gev2Ty, .f x⟩ ⟨gev2Ty, .f y⟩ = .ok ⟨gev2Ty, .f (x + y)⟩ := addP rfl rfl (by decide +kernel) x y
theorem e_jadd (x y : ℚ) : addSub pE .add ⟨joule2Ty, .f x⟩ ⟨joule2Ty, .f y⟩ = .ok ⟨joule2Ty, .f (x + y)⟩ := addP rfl rfl (by decide +kernel) x y
theorem e_psi (x : ℚ) : convertQty pE momentumTy ⟨gevPTy, .f x⟩ = .ok ⟨momentumTy, .f (x * (801088317 / 5 / 10 ^ 18))⟩ := by
  rw [convP (c := ⟨801088317, 5, -18⟩) (by decide) rfl (by decide +kernel) (by decide +kernel) (by decide) (by simp [gevPTy, Num.Typed])]
  norm_num [Ratio.val, Num.q]
theorem e_msi (x : ℚ) : convertQty pE boxMass ⟨gevMTy, .f x⟩ = .ok ⟨boxMass, .f (x * (801088317 / 5 / 10 ^ 18))⟩ := by
  rw [convP (c := ⟨801088317, 5, -18⟩) (by decide) rfl (by decide +kernel) (by decide +kernel) (by decide) (by simp [gevMTy, Num.Typed])]
  norm_num [Ratio.val, Num.q]
theorem e_j (x : ℚ) : convertQty pE jouleTy ⟨jouleTy, .f x⟩ = .ok ⟨jouleTy, .f x⟩ := by rw [convertQty, if_pos rfl]
theorem e_gj (x : ℚ) : quantityCast pE ⟨.named siEnergy, siGeV, .flt .f64⟩ ⟨jouleTy, .f x⟩ =
    .ok ⟨⟨.named siEnergy, siGeV, .flt .f64⟩, .f (x / (801088317 / 5 / 10 ^ 18))⟩ := by
  rw [castP (c := ⟨5, 801088317, 18⟩) (f := .f64) rfl (by decide +kernel) (by decide +kernel) (by decide) (by simp [jouleTy, Num.Typed])]
  congr 3
  norm_num [Ratio.val, Num.q]
  ring

/-! ### Natural units -/

/-- Energy in natural units. -/
def natETy : QTy := ⟨.named natEnergy, natGeV, .flt .f64⟩
/-- Its square. -/
def natE2Ty : QTy := ⟨.unknown [⟨natLength, 4, 1⟩, ⟨natMass, 2, 1⟩, ⟨natTime, -4, 1⟩], scaledU ⟨1, 1, 18⟩ "unknown_coherent_unit", .flt .f64⟩
/-- Momentum in natural units. -/
def natPTy : QTy := ⟨.named natMomentum, natGeV, .flt .f64⟩
/-- Mass in natural units. -/
def natMTy : QTy := ⟨.base natMass, natGeV, .flt .f64⟩
/-- Speed in natural units. -/
def natCTy : QTy := ⟨.named natSpeed, unitOne, .flt .f64⟩
/-- Its square. -/
def natC2Ty : QTy := ⟨.unknown [⟨natLength, 2, 1⟩, ⟨natTime, -2, 1⟩], scaledU Ratio.one "unknown_coherent_unit", .flt .f64⟩

section
variable {L : Libm} (hL : L.Squares)
include hL
theorem n_cc (x : ℚ) : square pE L ⟨natCTy, .f x⟩ = .ok ⟨natC2Ty, .f (x ^ 2)⟩ :=
  squareP hL (p := Ratio.one) rfl rfl (by decide) (by decide +kernel) (by decide +kernel) (by decide +kernel) x
theorem n_e2 (x : ℚ) : square pE L ⟨natETy, .f x⟩ = .ok ⟨natE2Ty, .f (x ^ 2)⟩ :=
  squareP hL (p := ⟨1, 1, 18⟩) rfl rfl (by decide) (by decide +kernel) (by decide +kernel) (by decide +kernel) x
theorem n_r {x y : ℚ} (hx : 0 ≤ x) (hy : y = x ^ 2) : sqrtQty pE L ⟨natE2Ty, .f y⟩ = .ok ⟨natETy, .f x⟩ :=
  sqrtP hL (p := ⟨1, 1, 9⟩) rfl rfl (by decide +kernel) (by decide +kernel) (by decide +kernel) hx hy
end
theorem n_pc (x y : ℚ) : mulQty pE ⟨natPTy, .f x⟩ ⟨natCTy, .f y⟩ = .ok ⟨natETy, .f (x * y)⟩ := mulP rfl rfl rfl rfl (by decide +kernel) x y
theorem n_mc (x y : ℚ) : mulQty pE ⟨natMTy, .f x⟩ ⟨natC2Ty, .f y⟩ = .ok ⟨natETy, .f (x * y)⟩ := mulP rfl rfl rfl rfl (by decide +kernel) x y
theorem n_add (x y : ℚ) : addSub pE .add ⟨natE2Ty, .f x⟩ ⟨natE2Ty, .f y⟩ = .ok ⟨natE2Ty, .f (x + y)⟩ := addP rfl rfl (by decide +kernel) x y

/-! ### The capacitor -/

theorem numOp_fok {r1 r2 : Rep} {f : FltTy} (ha : r1.arith r2 = .flt f) {v w : Num} (hv : v.Typed r1) (hw : w.Typed r2) (op : BinOp) :
    numOp (fun _ y => y) op r1 r2 v w = (do let z ← fltOp (fun _ y => y) f op v.q w.q; .ok (.f z)) := by
  simp only [numOp, ha, convNum_fok _ _ hv, convNum_fok _ _ hw, ok_bind, sameOp]

/-- `long double` milliseconds. -/
def msLTy : QTy := ⟨.base siTime, siMillisecond, .flt .f80⟩
/-- A `long double` number. -/
def oneLTy : QTy := ⟨.named dimOne, unitOne, .flt .f80⟩
/-- `long double` voltages. -/
def voltLTy (u : MUnit) : QTy := ⟨.named siVoltage, u, .flt .f80⟩

theorem arith64 {x : Int} (h0 : -2 ^ 63 ≤ x) (h1 : x < 2 ^ 63) : IntTy.i64.arith x = .ok x := by
  unfold IntTy.arith
  rw [if_pos (by decide), if_pos ⟨by norm_num [IntTy.lo, IntTy.bits, IntTy.signed]; omega, by norm_num [IntTy.hi, IntTy.bits, IntTy.signed]; omega⟩]

theorem c_neg {i : Int} (h0 : 0 ≤ i) (h1 : i < 2 ^ 63) : negQty ⟨msTy, .i i⟩ = .ok ⟨msTy, .i (-i)⟩ := by
  simp only [negQty, numNeg, msTy, show IntTy.i64.promote = .i64 by decide, arith64 (x := -i) (by omega) (by omega), ok_bind, Rep.promote]
theorem c_rc (r c : ℚ) : mulQty pE (capR r) (capC c) = .ok ⟨msLTy, .f (r * c)⟩ := mulP rfl rfl rfl rfl (by decide +kernel) r c
theorem c_div {n : Int} (hn : IntTy.i64.In n) {y : ℚ} (hy : y ≠ 0) : divQty pE ⟨msTy, .i n⟩ ⟨msLTy, .f y⟩ = .ok ⟨oneLTy, .f (n / y)⟩ := by
  simp only [divQty, show refDivide pE msTy.dim msTy.unit msLTy.dim msLTy.unit = .ok (oneLTy.dim, oneLTy.unit) by decide +kernel, ok_bind]
  rw [numOp_fok (f := .f80) (by decide) (by simpa [Num.Typed, msTy] using hn) (by simp [Num.Typed, msLTy])]
  simp [fltOp, Num.q, hy, ok_bind, msTy, msLTy, oneLTy, Rep.arith]
theorem c_exp {L : Libm} {x e : ℚ} (hL : L.exp .f80 x = .ok e) : expQty pE L ⟨oneLTy, .f x⟩ = .ok ⟨oneLTy, .f e⟩ := by
  have hc : ∀ x, quantityCast pE oneLTy ⟨oneLTy, .f x⟩ = .ok ⟨oneLTy, .f x⟩ := fun x => by
    rw [castP (c := Ratio.one) (f := .f80) rfl (by decide +kernel) (by decide +kernel) (by decide) (by simp [oneLTy, Num.Typed])]
    norm_num [Ratio.val, Num.q, Ratio.one]
  unfold expQty
  rw [if_pos (by rfl)]
  have := hc x
  unfold oneLTy at this ⊢
  simp only [this, ok_bind, libm1, Rep.libm, convNum, if_true, Num.q, hL, mkQty, Rep.floating, true_or]
  exact hc e
theorem c_v (x y : ℚ) : mulQty pE (capV x) ⟨oneLTy, .f y⟩ = .ok ⟨voltLTy siVoltage.coherent, .f (x * y)⟩ :=
  mulP rfl rfl rfl rfl (by decide +kernel) x y

/-- Comparison with a floating point type as the common one. -/
theorem compareP {t1 t2 t : QTy} (hw : t1.rep.threeWay t2.rep = true)
    (hc : commonQty pE t1 t2 (t1.rep.common t2.rep) = .ok t) {v w : Num} {x y : ℚ} (hx : convertQty pE t ⟨t1, v⟩ = .ok ⟨t, .f x⟩)
    (hy : convertQty pE t ⟨t2, w⟩ = .ok ⟨t, .f y⟩) : compareQty pE ⟨t1, v⟩ ⟨t2, w⟩ = .ok (numCompare (.f x) (.f y)) := by
  simp only [compareQty, hw, if_true, hc, ok_bind, hx, hy]

theorem c_cmp (x : ℚ) :
    compareQty pE ⟨voltLTy siVoltage.coherent, .f x⟩ (voltLit siVoltage.coherent) = .ok (numCompare (.f (x)) (.f 1)) ∧
    compareQty pE ⟨voltLTy siVoltage.coherent, .f x⟩ (voltLit siMillivolt) = .ok (numCompare (.f (x * 10 ^ 3)) (.f 1)) ∧
    compareQty pE ⟨voltLTy siVoltage.coherent, .f x⟩ (voltLit siMicrovolt) = .ok (numCompare (.f (x * 10 ^ 6)) (.f 1)) ∧
    compareQty pE ⟨voltLTy siVoltage.coherent, .f x⟩ (voltLit siNanovolt) = .ok (numCompare (.f (x * 10 ^ 9)) (.f 1)) := by
  have one : ∀ u, castRatio pE.est (.named siVoltage) u (.named siVoltage) u = .ok Ratio.one →
      dimEquivalent (.named siVoltage) (.named siVoltage) = .ok true →
      convertQty pE (voltLTy u) (voltLit u) = .ok ⟨voltLTy u, .f 1⟩ := fun u h1 h2 => by
    unfold voltLit
    rw [convP (c := Ratio.one) (f := .f80) (by unfold voltLTy; simp) rfl h2 h1 (by decide) (by simp only [Num.Typed]; exact ⟨_, rfl, by decide⟩)]
    norm_num [Ratio.val, Num.q, Ratio.one]
  refine ⟨compareP (t := voltLTy siVoltage.coherent) (by decide) (by decide +kernel) (by rw [convertQty, if_pos rfl]) (one _ (by decide +kernel) (by decide +kernel)),
    compareP (t := voltLTy siMillivolt) (by decide) (by decide +kernel) ?_ (one _ (by decide +kernel) (by decide +kernel)),
    compareP (t := voltLTy siMicrovolt) (by decide) (by decide +kernel) ?_ (one _ (by decide +kernel) (by decide +kernel)),
    compareP (t := voltLTy siNanovolt) (by decide) (by decide +kernel) ?_ (one _ (by decide +kernel) (by decide +kernel))⟩
  · rw [convP (c := ⟨1, 1, 3⟩) (f := .f80) (by decide) rfl (by decide +kernel) (by decide +kernel) (by decide) (by simp [voltLTy, Num.Typed])]
    norm_num [Ratio.val, Num.q]
  · rw [convP (c := ⟨1, 1, 6⟩) (f := .f80) (by decide) rfl (by decide +kernel) (by decide +kernel) (by decide) (by simp [voltLTy, Num.Typed])]
    norm_num [Ratio.val, Num.q]
  · rw [convP (c := ⟨1, 1, 9⟩) (f := .f80) (by decide) rfl (by decide +kernel) (by decide +kernel) (by decide) (by simp [voltLTy, Num.Typed])]
    norm_num [Ratio.val, Num.q]

theorem c_cast (x : ℚ) :
    quantityCast pE (voltLTy siMillivolt) ⟨voltLTy siVoltage.coherent, .f x⟩ = .ok ⟨voltLTy siMillivolt, .f (x * 10 ^ 3)⟩ ∧
    quantityCast pE (voltLTy siMicrovolt) ⟨voltLTy siVoltage.coherent, .f x⟩ = .ok ⟨voltLTy siMicrovolt, .f (x * 10 ^ 6)⟩ ∧
    quantityCast pE (voltLTy siNanovolt) ⟨voltLTy siVoltage.coherent, .f x⟩ = .ok ⟨voltLTy siNanovolt, .f (x * 10 ^ 9)⟩ ∧
    quantityCast pE (voltLTy siPicovolt) ⟨voltLTy siVoltage.coherent, .f x⟩ = .ok ⟨voltLTy siPicovolt, .f (x * 10 ^ 12)⟩ := by
  refine ⟨?_, ?_, ?_, ?_⟩
  · rw [castP (c := ⟨1, 1, 3⟩) (f := .f80) rfl (by decide +kernel) (by decide +kernel) (by decide) (by simp [voltLTy, Num.Typed])]
    norm_num [Ratio.val, Num.q]
  · rw [castP (c := ⟨1, 1, 6⟩) (f := .f80) rfl (by decide +kernel) (by decide +kernel) (by decide) (by simp [voltLTy, Num.Typed])]
    norm_num [Ratio.val, Num.q]
  · rw [castP (c := ⟨1, 1, 9⟩) (f := .f80) rfl (by decide +kernel) (by decide +kernel) (by decide) (by simp [voltLTy, Num.Typed])]
    norm_num [Ratio.val, Num.q]
  · rw [castP (c := ⟨1, 1, 12⟩) (f := .f80) rfl (by decide +kernel) (by decide +kernel) (by decide) (by simp [voltLTy, Num.Typed])]
    norm_num [Ratio.val, Num.q]

theorem c_le (i n : Int) : compareQty pE ⟨msTy, .i i⟩ ⟨msTy, .i n⟩ = .ok (if i < n then .lt else if i = n then .eq else .gt) := by
  simp only [compareQty, show msTy.rep.threeWay msTy.rep = true by decide, if_true, show commonQty pE msTy msTy (msTy.rep.common msTy.rep) = .ok msTy by decide +kernel,
    ok_bind, convertQty, numCompare, Num.q, Int.cast_lt, Int.cast_inj]
theorem c_inc {i : Int} (h0 : 0 ≤ i) (h1 : i + 1 < 2 ^ 63) : incDec pE .add ⟨msTy, .i i⟩ = .ok ⟨msTy, .i (i + 1)⟩ := by
  have e : numOp (fun _ y => y) .add (.int .i64) (.int .i32) (.i i) (.i 1) = .ok (.i (i + 1)) := by
    simp only [numOp, show (Rep.int .i64).arith (.int .i32) = .int .i64 by decide, convNum, if_true, ok_bind, reduceCtorEq, Rep.int.injEq, if_false,
      show IntTy.i64.wrap 1 = 1 by decide, sameOp, intOp, arith64 (x := i + 1) (by omega) h1]
  simp only [incDec, msTy, compound, e, ok_bind, show (Rep.int .i64).arith (.int .i32) = .int .i64 by decide, convNum, if_true]

/-! ### Average speed -/

/-- An integral literal in kilometres. -/
def kmI (d : Int) : Qty := ⟨⟨.base siLength, siKilometre, .int .i64⟩, .i d⟩
/-- An integral literal in hours. -/
def hI (t : Int) : Qty := ⟨⟨.base siTime, siHr, .int .i64⟩, .i t⟩
/-- An integral literal in miles. -/
def miI (d : Int) : Qty := ⟨⟨.base siLength, siMile, .int .i64⟩, .i d⟩
/-- A literal in kilometres. -/
def kmL (d : ℚ) : Qty := ⟨⟨.base siLength, siKilometre, .flt .f80⟩, .f d⟩
/-- A literal in hours. -/
def hL (t : ℚ) : Qty := ⟨⟨.base siTime, siHr, .flt .f80⟩, .f t⟩
/-- A literal in miles. -/
def miL (d : ℚ) : Qty := ⟨⟨.base siLength, siMile, .flt .f80⟩, .f d⟩
/-- Metres in an `int`. -/
def mI32 : QTy := ⟨.base siLength, siMetre, .int .i32⟩
/-- Seconds in an `int`. -/
def sI32 : QTy := ⟨.base siTime, siSecond, .int .i32⟩
/-- Metres per second in an `int`. -/
def mpsI32 : QTy := ⟨.named siSpeed, siMps, .int .i32⟩
/-- Speeds. -/
def speedTy (u : MUnit) (r : Rep) : QTy := ⟨.named siSpeed, u, r⟩

theorem wrap32 {x : Int} (h0 : -2 ^ 31 ≤ x) (h1 : x < 2 ^ 31) : IntTy.i32.wrap x = x :=
  IntTy.wrap_of_in ⟨by norm_num [IntTy.lo, IntTy.bits, IntTy.signed]; omega, by norm_num [IntTy.hi, IntTy.bits, IntTy.signed]; omega⟩

theorem arith32 {x : Int} (h0 : -2 ^ 31 ≤ x) (h1 : x < 2 ^ 31) : IntTy.i32.arith x = .ok x := by
  unfold IntTy.arith
  rw [if_pos (by decide), if_pos ⟨by norm_num [IntTy.lo, IntTy.bits, IntTy.signed]; omega, by norm_num [IntTy.hi, IntTy.bits, IntTy.signed]; omega⟩]

/-- A conversion between integral quantities by a whole factor. -/
theorem convI32 {t t' : QTy} {n k : Int} {c : Ratio} (hne : t ≠ t') (h1 : t.rep = .int .i64) (h2 : t'.rep = .int .i32) (hd : dimEquivalent t'.dim t.dim = .ok true)
    (hh : harmonic pE t t' = .ok true) (hc : castRatio pE.est t.dim t.unit t'.dim t'.unit = .ok c) (he : 0 < c.exp) (hden : c.den = 1)
    (hk : (do let p ← ipow10 c.exp; intOp .i64 .mul (IntTy.i64.wrap c.num) (IntTy.i64.wrap p)) = .ok k) (hr : -2 ^ 63 ≤ n * k) (hr' : n * k < 2 ^ 63) :
    convertQty pE t' ⟨t, .i n⟩ = .ok ⟨t', .i (IntTy.i32.wrap (n * k))⟩ := by
  simp only [convertQty, if_neg hne, safeCastable, hd, ok_bind, if_true, h2, h1, Rep.floating, hh, quantityCast, hc]
  have : castNum (fun _ y => y) (.int .i64) (.int .i32) c (.i n) = .ok (.i (IntTy.i32.wrap (n * k))) := by
    simp only [castNum, show castRep (.int .i64) (.int .i32) = .int .i64 by decide, convNum, if_true, ok_bind, castInt, if_pos he, hden]
    rw [bind_ok] at hk
    obtain ⟨p, hp, hk⟩ := hk
    rw [hp, ok_bind, hk, ok_bind]
    simp only [intOp, arith64 hr hr', ok_bind]
    rw [show IntTy.i64.wrap 1 = 1 by decide, if_neg (by decide), Int.tdiv_one, arith64 hr hr', ok_bind]
    simp
  simp only [this, ok_bind, Bool.false_eq_true, if_false, if_true]

theorem a_km {d : Int} (h0 : -2 ^ 63 ≤ d * 1000) (h1 : d * 1000 < 2 ^ 63) : convertQty pE mI32 (kmI d) = .ok ⟨mI32, .i (IntTy.i32.wrap (d * 1000))⟩ :=
  convI32 (c := ⟨1, 1, 3⟩) (by decide) rfl rfl (by decide +kernel) (by decide +kernel) (by decide +kernel) (by decide) (by decide) (by decide +kernel) h0 h1
theorem a_h {t : Int} (h0 : -2 ^ 63 ≤ t * 3600) (h1 : t * 3600 < 2 ^ 63) : convertQty pE sI32 (hI t) = .ok ⟨sI32, .i (IntTy.i32.wrap (t * 3600))⟩ :=
  convI32 (c := ⟨36, 1, 2⟩) (by decide) rfl rfl (by decide +kernel) (by decide +kernel) (by decide +kernel) (by decide) (by decide) (by decide +kernel) h0 h1

/-- A quotient of integral quantities. -/
theorem divI {t1 t2 t : QTy} {i : IntTy} (h1 : t1.rep = .int i) (h2 : t2.rep = .int i) (h3 : t.rep = .int i)
    (ha : (Rep.int i).arith (.int i) = .int i) (h : refDivide pE t1.dim t1.unit t2.dim t2.unit = .ok (t.dim, t.unit))
    {x y : Int} (hy : y ≠ 0) (hr : i.arith (x.tdiv y) = .ok (x.tdiv y)) : divQty pE ⟨t1, .i x⟩ ⟨t2, .i y⟩ = .ok ⟨t, .i (x.tdiv y)⟩ := by
  obtain ⟨d, u, r⟩ := t
  subst h3
  simp only [divQty, h, h1, h2, ok_bind, ha, numOp, convNum, if_true, sameOp, intOp, if_neg hy, hr]

theorem a_div {x y : Int} (hy : 0 < y) (h0 : 0 ≤ x) (h1 : x < 2 ^ 31) : divQty pE ⟨mI32, .i x⟩ ⟨sI32, .i y⟩ = .ok ⟨mpsI32, .i (x.tdiv y)⟩ :=
  divI (i := .i32) rfl rfl rfl (by decide) (by decide +kernel) hy.ne' (arith32 (by have := Int.tdiv_nonneg h0 hy.le; omega) (by
    have := Int.tdiv_le_self y h0; omega))
theorem a_mps (x : Int) : convertQty pE mpsI32 ⟨mpsI32, .i x⟩ = .ok ⟨mpsI32, .i x⟩ := by rw [convertQty, if_pos rfl]
theorem a_kmh {d t : Int} (ht : 0 < t) (h0 : 0 ≤ d) (h1 : d < 2 ^ 63) : divQty pE (kmI d) (hI t) = .ok ⟨speedTy siKmh (.int .i64), .i (d.tdiv t)⟩ :=
  divI (i := .i64) rfl rfl rfl (by decide) (by decide +kernel) ht.ne' (arith64 (by have := Int.tdiv_nonneg h0 ht.le; omega) (by
    have := Int.tdiv_le_self t h0; omega))
theorem a_mih {d t : Int} (ht : 0 < t) (h0 : 0 ≤ d) (h1 : d < 2 ^ 63) : divQty pE (miI d) (hI t) = .ok ⟨speedTy siMph (.int .i64), .i (d.tdiv t)⟩ :=
  divI (i := .i64) rfl rfl rfl (by decide) (by decide +kernel) ht.ne' (arith64 (by have := Int.tdiv_nonneg h0 ht.le; omega) (by
    have := Int.tdiv_le_self t h0; omega))
theorem a_kmhL (d : ℚ) {t : ℚ} (ht : t ≠ 0) : divQty pE (kmL d) (hL t) = .ok ⟨speedTy siKmh (.flt .f80), .f (d / t)⟩ :=
  divP rfl rfl rfl rfl (by decide +kernel) d t ht
theorem a_mihL (d : ℚ) {t : ℚ} (ht : t ≠ 0) : divQty pE (miL d) (hL t) = .ok ⟨speedTy siMph (.flt .f80), .f (d / t)⟩ :=
  divP rfl rfl rfl rfl (by decide +kernel) d t ht
theorem a_metres {d : Int} (hd : IntTy.i64.In d) : convertQty pE boxLen (kmI d) = .ok ⟨boxLen, .f (d * 1000)⟩ := by
  unfold kmI
  rw [convP (c := ⟨1, 1, 3⟩) (f := .f64) (by decide) rfl (by decide +kernel) (by decide +kernel) (by decide) (by simpa [Num.Typed] using hd)]
  norm_num [Ratio.val, Num.q]
theorem a_metresL (d : ℚ) : convertQty pE boxLen (kmL d) = .ok ⟨boxLen, .f (d * 1000)⟩ := by
  unfold kmL
  rw [convP (c := ⟨1, 1, 3⟩) (f := .f64) (by decide) rfl (by decide +kernel) (by decide +kernel) (by decide) (by simp [Num.Typed])]
  norm_num [Ratio.val, Num.q]
theorem a_miles {d : Int} (hd : IntTy.i64.In d) : convertQty pE boxLen (miI d) = .ok ⟨boxLen, .f (d * (1609344 / 1000))⟩ := by
  unfold miI
  rw [convP (c := ⟨25146, 15625, 3⟩) (f := .f64) (by decide) rfl (by decide +kernel) (by decide +kernel) (by decide) (by simpa [Num.Typed] using hd)]
  norm_num [Ratio.val, Num.q]
theorem a_milesL (d : ℚ) : convertQty pE boxLen (miL d) = .ok ⟨boxLen, .f (d * (1609344 / 1000))⟩ := by
  unfold miL
  rw [convP (c := ⟨25146, 15625, 3⟩) (f := .f64) (by decide) rfl (by decide +kernel) (by decide +kernel) (by decide) (by simp [Num.Typed])]
  norm_num [Ratio.val, Num.q]
theorem a_sec {t : Int} (ht : IntTy.i64.In t) : convertQty pE durationTy (hI t) = .ok ⟨durationTy, .f (t * 3600)⟩ := by
  unfold hI
  rw [convP (c := ⟨36, 1, 2⟩) (f := .f64) (by decide) rfl (by decide +kernel) (by decide +kernel) (by decide) (by simpa [Num.Typed] using ht)]
  norm_num [Ratio.val, Num.q]
theorem a_secL (t : ℚ) : convertQty pE durationTy (hL t) = .ok ⟨durationTy, .f (t * 3600)⟩ := by
  unfold hL
  rw [convP (c := ⟨36, 1, 2⟩) (f := .f64) (by decide) rfl (by decide +kernel) (by decide +kernel) (by decide) (by simp [Num.Typed])]
  norm_num [Ratio.val, Num.q]
theorem a_mpsF (x : ℚ) {y : ℚ} (hy : y ≠ 0) : divQty pE ⟨boxLen, .f x⟩ ⟨durationTy, .f y⟩ = .ok ⟨lightTy, .f (x / y)⟩ :=
  divP rfl rfl rfl rfl (by decide +kernel) x y hy
theorem a_mpsc (x : ℚ) : convertQty pE lightTy ⟨lightTy, .f x⟩ = .ok ⟨lightTy, .f x⟩ := by rw [convertQty, if_pos rfl]

/-- The printed speed, from metres per second, kilometres per hour and miles per hour. -/
theorem a_print {r : Rep} {v : Num} (hv : v.Typed r) :
    printedSpeed pE ⟨speedTy siMps r, v⟩ = .ok ⟨speedTy siKmh (.flt .f64), .f (v.q * (18 / 5))⟩ ∧
    printedSpeed pE ⟨speedTy siKmh r, v⟩ = .ok ⟨speedTy siKmh (.flt .f64), .f v.q⟩ ∧
    printedSpeed pE ⟨speedTy siMph r, v⟩ = .ok ⟨speedTy siKmh (.flt .f64), .f (v.q * (1609344 / 1000000))⟩ := by
  unfold printedSpeed
  refine ⟨?_, ?_, ?_⟩
  · rw [castP (c := ⟨36, 1, -1⟩) (f := .f64) rfl (show dimEquivalent (.named siSpeed) (.named siSpeed) = _ by decide +kernel) (show castRatio pE.est (.named siSpeed) siMps (.named siSpeed) siKmh = _ by decide +kernel) (by decide) hv]
    norm_num [Ratio.val, speedTy]
  · rw [castP (c := Ratio.one) (f := .f64) rfl (show dimEquivalent (.named siSpeed) (.named siSpeed) = _ by decide +kernel) (show castRatio pE.est (.named siSpeed) siKmh (.named siSpeed) siKmh = _ by decide +kernel) (by decide) hv]
    norm_num [Ratio.val, speedTy, Ratio.one]
  · rw [castP (c := ⟨50292, 3125, -1⟩) (f := .f64) rfl (show dimEquivalent (.named siSpeed) (.named siSpeed) = _ by decide +kernel) (show castRatio pE.est (.named siSpeed) siMph (.named siSpeed) siKmh = _ by decide +kernel) (by decide) hv]
    norm_num [Ratio.val, speedTy]

end Verif
