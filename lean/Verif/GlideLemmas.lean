import Verif.Glide
import Lean.Elab.Tactic.Basic
import Mathlib.Tactic.NormNum

/-!
# The glide computer on numbers

The operators of the glide computer, each on its own types, as operations on the numbers; then its functions.
-/

namespace Verif

open Lean Elab Tactic Meta in
/-- Closes an equation by reflexivity; only the kernel checks it. -/
elab "kernel_rfl" : tactic => do
  let g ← getMainGoal
  match (← instantiateMVars (← g.getType)).eq? with
  | some (α, a, _) => g.assign (mkApp2 (mkConst ``Eq.refl [← getLevel α]) α a)
  | none => throwError "not an equation"

/-! ### Values of the types of the program -/

/-- A height in metres. -/
def hgt (x : ℚ) : Kd := ⟨heightTy, .f x⟩
/-- A distance in kilometres. -/
def dst (x : ℚ) : Kd := ⟨distanceTy, .f x⟩
/-- An altitude in metres. -/
def alt (x : ℚ) : Pk := ⟨altitudeTy, .f x⟩
/-- A velocity in kilometres per hour. -/
def vel (x : ℚ) : Kd := ⟨velocityTy, .f x⟩
/-- A rate of climb in metres per second. -/
def roc (x : ℚ) : Kd := ⟨rateTy, .f x⟩
/-- A duration in seconds. -/
def dur (x : ℚ) : Qty := ⟨durationTy, .f x⟩
/-- A time stamp in seconds. -/
def tim (x : ℚ) : Pt := ⟨timestampTy, .f x⟩
/-- A point of a polar. -/
def pol (v c : ℚ) : Polar := ⟨vel v, roc c⟩

/-- A point of a flight in numbers: seconds, metres, the leg, kilometres. -/
structure QPt where
  ts : ℚ
  alt : ℚ
  leg : Nat
  dist : ℚ

/-- The flight point with these numbers. -/
def QPt.fp (p : QPt) : FlightPoint := ⟨tim p.ts, Verif.alt p.alt, p.leg, dst p.dist⟩

/-! ### Operators -/

abbrev gE : Env := ⟨fun _ v => Nat.sqrt v.toNat, glideDims, glideUnits, fun _ x => x⟩

abbrev gR : Rebinds := fun _ _ => none

def uOf (x : C (Dim × MUnit)) : QTy := match x with | .ok x => ⟨x.1, x.2, .flt .f64⟩ | .error _ => durationTy
def qTyOf (x : C Qty) : QTy := match x with | .ok x => x.ty | .error _ => durationTy
def divTy (a b : QTy) : QTy := uOf (refDivide gE a.dim a.unit b.dim b.unit)

theorem divNum (x y : ℚ) (hy : y ≠ 0) : numOp gE.fl .div (.flt .f64) (.flt .f64) (.f x) (.f y) = .ok (.f (x / y)) := by
  simp [numOp, Rep.arith, convNum, sameOp, fltOp, hy]

theorem divF {t1 t2 t : QTy} (h1 : t1.rep = .flt .f64) (h2 : t2.rep = .flt .f64) (h : refDivide gE t1.dim t1.unit t2.dim t2.unit = .ok (t.dim, t.unit))
    (h3 : t.rep = .flt .f64) (x y : ℚ) (hy : y ≠ 0) : divQty gE ⟨t1, .f x⟩ ⟨t2, .f y⟩ = .ok ⟨t, .f (x / y)⟩ := by
  obtain ⟨d, u, r⟩ := t
  subst h3
  simp only [divQty, h, h1, h2, ok_bind, divNum x y hy]
  rfl

theorem g_neg (c : ℚ) : negKind gE (roc c) = .ok (roc (-c)) := by kernel_rfl
theorem g_subAlt (x y : ℚ) : subPks gE gR (alt x) (alt y) = .ok (hgt (x - y)) := by kernel_rfl
theorem g_addAlt (x y : ℚ) : addSubPk gE glidePKinds .add (alt x) (hgt y) = .ok (alt (x + y)) := by kernel_rfl
theorem g_subDst (x y : ℚ) : addSubKind gE .sub (dst x) (dst y) = .ok (dst (x - y)) := by kernel_rfl
theorem g_addDst (x y : ℚ) : addSubKind gE .add (dst x) (dst y) = .ok (dst (x + y)) := by kernel_rfl
theorem g_subHgt (x y : ℚ) : addSubKind gE .sub (hgt x) (hgt y) = .ok (hgt (x - y)) := by kernel_rfl
theorem g_addRoc (x y : ℚ) : addSubKind gE .add (roc x) (roc y) = .ok (roc (x + y)) := by kernel_rfl
theorem g_cmpHgt (x y : ℚ) : compareKinds gE (hgt x) (hgt y) = .ok (numCompare (.f x) (.f y)) := by kernel_rfl
theorem g_cmpDst (x y : ℚ) : compareKinds gE (dst x) (dst y) = .ok (numCompare (.f x) (.f y)) := by kernel_rfl
theorem g_asgHgt (x y : ℚ) : assignKind gE .sub (hgt x) (hgt y) = .ok (hgt (x - y)) := by kernel_rfl
theorem g_addTim (x y : ℚ) : addSubPoint gE gR .add (tim x) (dur y) = .ok (tim (x + y)) := by kernel_rfl
theorem g_cvHgt (x : ℚ) : convertKind gE heightTy (hgt x) = .ok (hgt x) := by kernel_rfl
theorem g_cvDst (x : ℚ) : convertKind gE distanceTy (dst x) = .ok (dst x) := by kernel_rfl
theorem g_cvRoc (x : ℚ) : convertKind gE rateTy (roc x) = .ok (roc x) := by kernel_rfl
theorem g_cvAlt (x : ℚ) : convertPk gE gR altitudeTy (alt x) = .ok (alt x) := by kernel_rfl
theorem g_cvTim (x : ℚ) : convertPoint gE gR timestampTy (tim x) = .ok (tim x) := by kernel_rfl

/-- The type of the glide ratio. -/
def ratioTy : QTy := divTy velocityTy.qty rateTy.qty
theorem ratioTy_eq : refDivide gE velocityTy.qty.dim velocityTy.qty.unit rateTy.qty.dim rateTy.qty.unit = .ok (ratioTy.dim, ratioTy.unit) := by kernel_rfl
/-- Kilometres by kilometres. -/
def ddTy : QTy := divTy distanceTy.qty distanceTy.qty
theorem ddTy_eq : refDivide gE distanceTy.qty.dim distanceTy.qty.unit distanceTy.qty.dim distanceTy.qty.unit = .ok (ddTy.dim, ddTy.unit) := by kernel_rfl
def ddK (z : ℚ) : Kd := ⟨⟨downcastKind glideKinds "horizontal_kind" ddTy.dim, ddTy.unit, .flt .f64⟩, .f z⟩
theorem g_ddK (z : ℚ) : downcastedKind gE glideKinds "horizontal_kind" ⟨ddTy, .f z⟩ = .ok (ddK z) := by kernel_rfl
theorem g_terr (x z : ℚ) : mulDivKindQty gE glideKinds true (hgt x) (ddK z).common = .ok (hgt (x * z)) := by kernel_rfl
/-- Metres by kilometres. -/
def hdTy : QTy := divTy heightTy.qty distanceTy.qty
theorem hdTy_eq : refDivide gE heightTy.qty.dim heightTy.qty.unit distanceTy.qty.dim distanceTy.qty.unit = .ok (hdTy.dim, hdTy.unit) := by kernel_rfl
def riTy : QTy := qTyOf (recipQty gE (.int .i32) (.i 1) ⟨ratioTy, .f 1⟩)
def mTy : QTy := qTyOf (addSub gE .sub ⟨hdTy, .f 1⟩ ⟨riTy, .f 1⟩)
theorem g_slope (a b : ℚ) : addSub gE .sub ⟨hdTy, .f a⟩ ⟨riTy, .f b⟩ = .ok ⟨mTy, .f (a - b * 3600)⟩ := by kernel_rfl
def xTy : QTy := divTy heightTy.qty mTy
theorem xTy_eq : refDivide gE heightTy.qty.dim heightTy.qty.unit mTy.dim mTy.unit = .ok (xTy.dim, xTy.unit) := by kernel_rfl
theorem g_dist (x : ℚ) : constructKind gE distanceTy ⟨xTy, .f x⟩ = .ok (dst x) := by kernel_rfl
def fTy : QTy := divTy distanceTy.qty ratioTy
theorem fTy_eq : refDivide gE distanceTy.qty.dim distanceTy.qty.unit ratioTy.dim ratioTy.unit = .ok (fTy.dim, fTy.unit) := by kernel_rfl
theorem g_height (x : ℚ) : constructKind gE heightTy ⟨fTy, .f x⟩ = .ok (hgt (x * 3600)) := by kernel_rfl
def tTy : QTy := divTy heightTy.qty rateTy.qty
theorem tTy_eq : refDivide gE heightTy.qty.dim heightTy.qty.unit rateTy.qty.dim rateTy.qty.unit = .ok (tTy.dim, tTy.unit) := by kernel_rfl
def tK (z : ℚ) : Kd := ⟨⟨downcastKind glideKinds "vertical_kind" tTy.dim, tTy.unit, .flt .f64⟩, .f z⟩
theorem g_tK (z : ℚ) : downcastedKind gE glideKinds "vertical_kind" ⟨tTy, .f z⟩ = .ok (tK z) := by kernel_rfl
theorem g_tDur (z : ℚ) : convertQty gE durationTy (tK z).common = .ok (dur z) := by kernel_rfl
def lvTy : QTy := divTy distanceTy.qty velocityTy.qty
theorem lvTy_eq : refDivide gE distanceTy.qty.dim distanceTy.qty.unit velocityTy.qty.dim velocityTy.qty.unit = .ok (lvTy.dim, lvTy.unit) := by kernel_rfl
theorem g_lvDur (z : ℚ) : convertQty gE durationTy ⟨lvTy, .f z⟩ = .ok (dur (z * 3600)) := by kernel_rfl

def powTy (t : QTy) : QTy :=
  uOf (do let d ← dimPow gE.dims t.dim 2 1; let p ← powR gE.est 2 1 t.unit.ratio; let u ← downcastUnit gE.units d p; .ok (d, u))
def sTy : QTy := qTyOf (addSub gE .add ⟨powTy distanceTy.qty, .f 1⟩ ⟨powTy heightTy.qty, .f 1⟩)
def rTy : QTy := uOf (do let d ← dimPow gE.dims sTy.dim 1 2; let p ← sqrtR gE.est sTy.unit.ratio; let u ← downcastUnit gE.units d p; .ok (d, u))

theorem g_sq (a b : ℚ) : addSub gE .add ⟨powTy distanceTy.qty, .f a⟩ ⟨powTy heightTy.qty, .f b⟩ = .ok ⟨sTy, .f (a * 1000000 + b)⟩ := by
  have h : addSub gE .add ⟨powTy distanceTy.qty, .f a⟩ ⟨powTy heightTy.qty, .f b⟩
      = .ok ⟨sTy, .f (a * (((1 : ℤ) : ℚ) * (1 * 10 * 10 * 10 * 10 * 10 * 10) / ((1 : ℤ) : ℚ)) + b)⟩ := by kernel_rfl
  rw [h]; norm_num

theorem g_root (z : ℚ) : convertQty gE distanceTy.qty ⟨rTy, .f z⟩ = .ok (dst (z * (1 / 1000))).common := by kernel_rfl

theorem g_powD (L : Libm) (hp : ∀ x, L.pow .f64 x 2 = .ok (x ^ 2)) (x : ℚ) : powQty gE L 2 1 (dst x).common = .ok (.inr ⟨powTy distanceTy.qty, .f (x ^ 2)⟩) := by
  have h : powQty gE L 2 1 (dst x).common =
    ((L.pow .f64 x (2 / 1) >>= fun y => .ok (Num.f y)) >>= fun y => .ok (.inr ⟨powTy distanceTy.qty, y⟩)) := by kernel_rfl
  rw [h, show (2 / 1 : ℚ) = 2 by norm_num, hp]; rfl

theorem g_powH (L : Libm) (hp : ∀ x, L.pow .f64 x 2 = .ok (x ^ 2)) (x : ℚ) : powQty gE L 2 1 (hgt x).common = .ok (.inr ⟨powTy heightTy.qty, .f (x ^ 2)⟩) := by
  have h : powQty gE L 2 1 (hgt x).common =
    ((L.pow .f64 x (2 / 1) >>= fun y => .ok (Num.f y)) >>= fun y => .ok (.inr ⟨powTy heightTy.qty, y⟩)) := by kernel_rfl
  rw [h, show (2 / 1 : ℚ) = 2 by norm_num, hp]; rfl

theorem g_sqrt (L : Libm) {x s : ℚ} (hs : L.sqrt .f64 x = .ok s) : sqrtQty gE L ⟨sTy, .f x⟩ = .ok ⟨rTy, .f s⟩ := by
  have h : sqrtQty gE L ⟨sTy, .f x⟩ = ((L.sqrt .f64 x >>= fun y => .ok (Num.f y)) >>= fun y => .ok ⟨rTy, y⟩) := by kernel_rfl
  rw [h, hs]; rfl

theorem g_recip (x : ℚ) (hx : x ≠ 0) : recipQty gE (.int .i32) (.i 1) ⟨ratioTy, .f x⟩ = .ok ⟨riTy, .f (1 / x)⟩ := by
  have h : recipQty gE (.int .i32) (.i 1) ⟨ratioTy, .f x⟩
      = ((fltOp gE.fl .f64 .div ((1 : ℤ) : ℚ) x >>= fun z => .ok (Num.f z)) >>= fun z => .ok ⟨riTy, z⟩) := by kernel_rfl
  rw [h]; simp [fltOp, hx]

/-! ### Functions -/

theorem prog_env (L : Libm) : (glideProg L).env = gE := rfl
theorem prog_rebinds (L : Libm) : (glideProg L).rebinds = gR := rfl
theorem prog_kinds (L : Libm) : (glideProg L).kinds = glideKinds := rfl
theorem prog_pkinds (L : Libm) : (glideProg L).pkinds = glidePKinds := rfl
theorem prog_libm (L : Libm) : (glideProg L).libm = L := rfl

section
variable (L : Libm)

theorem q_ratio {v c : ℚ} (hc : c ≠ 0) : glideRatio (glideProg L) (pol v c) = .ok ⟨ratioTy, .f (v / -c)⟩ := by
  have h : divKinds (glideProg L) (vel v) (roc (-c)) = divQty gE ⟨velocityTy.qty, .f v⟩ ⟨rateTy.qty, .f (-c)⟩ := by kernel_rfl
  simp only [glideRatio, prog_env, pol, g_neg, ok_bind, h]
  exact divF (by kernel_rfl) (by kernel_rfl) ratioTy_eq (by kernel_rfl) _ _ (neg_ne_zero.mpr hc)

theorem q_divDst (x y : ℚ) (hy : y ≠ 0) : mulDivKinds gE glideKinds false (dst x) (dst y) = .ok (ddK (x / y)) := by
  have h : mulDivKinds gE glideKinds false (dst x) (dst y)
      = (divQty gE ⟨distanceTy.qty, .f x⟩ ⟨distanceTy.qty, .f y⟩ >>= fun r => downcastedKind gE glideKinds "horizontal_kind" r) := by kernel_rfl
  rw [h, divF (by kernel_rfl) (by kernel_rfl) ddTy_eq (by kernel_rfl) _ _ hy]
  exact g_ddK _

theorem q_divRoc (x y : ℚ) (hy : y ≠ 0) : mulDivKinds gE glideKinds false (hgt x) (roc y) = .ok (tK (x / y)) := by
  have h : mulDivKinds gE glideKinds false (hgt x) (roc y)
      = (divQty gE ⟨heightTy.qty, .f x⟩ ⟨rateTy.qty, .f y⟩ >>= fun r => downcastedKind gE glideKinds "vertical_kind" r) := by kernel_rfl
  rw [h, divF (by kernel_rfl) (by kernel_rfl) tTy_eq (by kernel_rfl) _ _ hy]
  exact g_tK _

/-- The altitude of the terrain on a leg. -/
theorem q_terrain {t : Task} {p : QPt} {a b l o : ℚ} (hl : t.legs[p.leg]? = some ⟨alt a, alt b, dst l⟩) (ho : t.offset p.leg = .ok (dst o)) (h0 : l ≠ 0) :
    terrainLevel (glideProg L) t p.fp = .ok (alt (a + (b - a) * ((p.dist - o) / l))) := by
  have hl' : t.legs[p.fp.leg]? = some ⟨alt a, alt b, dst l⟩ := hl
  have ho' : t.offset p.fp.leg = .ok (dst o) := ho
  simp only [terrainLevel, hl', ho', prog_env, prog_rebinds, prog_kinds, prog_pkinds, g_subAlt, ok_bind, g_cvHgt]
  simp only [QPt.fp, g_subDst, ok_bind, q_divDst _ _ h0, g_terr, g_addAlt, g_cvAlt]

theorem q_length3d (hp : ∀ x, L.pow .f64 x 2 = .ok (x ^ 2)) {d h s : ℚ} (hs : L.sqrt .f64 (d ^ 2 * 1000000 + h ^ 2) = .ok s) :
    length3d (glideProg L) (dst d) (hgt h) = .ok (dst (s * (1 / 1000))).common := by
  simp only [length3d, prog_env, prog_libm, g_powD L hp, g_powH L hp, ok_bind, g_sq, g_sqrt L hs, g_root]

theorem q_glideDist {t : Task} {p : QPt} {v c m g f l : ℚ} (hv : v ≠ 0) (hc : c ≠ 0) (hf : t.finish = .ok (alt f)) (ht : t.length = dst l)
    (hl : l - p.dist ≠ 0) (hm : (g - f) / (l - p.dist) - 1 / (v / -c) * 3600 ≠ 0) :
    glideDistance (glideProg L) p.fp (pol v c) t (hgt m) (alt g) = .ok (dst ((g + m - p.alt) / ((g - f) / (l - p.dist) - 1 / (v / -c) * 3600))) := by
  have h : ∀ x y, divKinds (glideProg L) (hgt x) (dst y) = divQty gE ⟨heightTy.qty, .f x⟩ ⟨distanceTy.qty, .f y⟩ := fun x y => by kernel_rfl
  have h2 : v / -c ≠ 0 := div_ne_zero hv (neg_ne_zero.mpr hc)
  have h3 : ∀ x y, y ≠ 0 → divQty gE (hgt x).common ⟨mTy, .f y⟩ = .ok ⟨xTy, .f (x / y)⟩ := fun x y hy => divF (by kernel_rfl) (by kernel_rfl) xTy_eq (by kernel_rfl) x y hy
  simp only [glideDistance, prog_env, prog_rebinds, prog_pkinds, ht, hf, QPt.fp, g_subDst, ok_bind, g_addAlt, g_subAlt, h,
    divF (by kernel_rfl) (by kernel_rfl) hdTy_eq (by kernel_rfl) _ _ hl, q_ratio L hc, g_recip _ h2, g_slope, h3 _ _ hm, g_dist]

theorem q_advance (p : QPt) (d a x : ℚ) (i : Nat) : advanceTo (glideProg L) p.fp (dur d) (alt a) i (dst x) = .ok (QPt.fp ⟨p.ts + d, a, i, x⟩) := by
  simp only [advanceTo, prog_env, prog_rebinds, QPt.fp, g_addTim, g_cvTim, g_cvAlt, g_cvDst, ok_bind]

theorem q_tow (p : QPt) {h w : ℚ} (hw : w ≠ 0) : tow (glideProg L) p.fp ⟨hgt h, roc w⟩ = .ok (QPt.fp ⟨p.ts + h / w, p.alt + h, p.leg, p.dist⟩) := by
  have e1 : p.fp.alt = alt p.alt := rfl
  have e2 : p.fp.dist = dst p.dist := rfl
  have e3 : p.fp.leg = p.leg := rfl
  simp only [tow, prog_env, prog_pkinds, prog_kinds, q_divRoc _ _ hw, ok_bind, g_tDur, e1, e2, e3, g_addAlt, q_advance]

theorem numCompare_lt (x y : ℚ) : numCompare (.f x) (.f y) = .lt ↔ x < y := by
  have h : numCompare (.f x) (.f y) = if x < y then .lt else if x = y then .eq else .gt := rfl
  rw [h]
  by_cases h1 : x < y
  · simp [h1]
  · by_cases h2 : x = y <;> simp [h1, h2]

theorem numCompare_gt (x y : ℚ) : numCompare (.f x) (.f y) = .gt ↔ y < x := by
  have h : numCompare (.f x) (.f y) = if x < y then .lt else if x = y then .eq else .gt := rfl
  rw [h]
  by_cases h1 : x < y
  · simp [h1, h1.le]
  · by_cases h2 : x = y
    · simp [h2]
    · simp only [h1, h2, if_false, true_iff]; exact lt_of_le_of_ne (not_lt.mp h1) (Ne.symm h2)

theorem q_circle {t : Task} {p : QPt} {v c cb th T g : ℚ} (hg : terrainLevel (glideProg L) t p.fp = .ok (alt g)) (hr : th + c ≠ 0) :
    circle (glideProg L) p.fp (pol v c) ⟨hgt cb, roc th⟩ t (hgt T) =
      .ok (QPt.fp ⟨p.ts + min T (cb - (p.alt - g)) / (th + c), p.alt + min T (cb - (p.alt - g)), p.leg, p.dist⟩, hgt (T - min T (cb - (p.alt - g)))) := by
  have e1 : p.fp.alt = alt p.alt := rfl
  have e2 : p.fp.dist = dst p.dist := rfl
  have e3 : p.fp.leg = p.leg := rfl
  have e4 : (if numCompare (.f T) (.f (cb - (p.alt - g))) = .lt then hgt T else hgt (cb - (p.alt - g))) = hgt (min T (cb - (p.alt - g))) := by
    simp only [numCompare_lt]
    split <;> rename_i h
    · rw [min_eq_left h.le]
    · rw [min_eq_right (not_lt.mp h)]
  simp only [circle, hg, ok_bind, agl, prog_env, prog_rebinds, prog_pkinds, prog_kinds, e1, e2, e3, g_subAlt, g_cvHgt, g_subHgt, g_cmpHgt, e4, pol, g_addRoc, g_cvRoc,
    q_divRoc _ _ hr, g_tDur, g_addAlt, q_advance, g_asgHgt]

theorem q_glide (hp : ∀ x, L.pow .f64 x 2 = .ok (x ^ 2)) {t : Task} {p : QPt} {v c m g f l x s : ℚ} {i : Nat}
    (hg : terrainLevel (glideProg L) t p.fp = .ok (alt g)) (hv : v ≠ 0) (hc : c ≠ 0) (hf : t.finish = .ok (alt f)) (ht : t.length = dst l)
    (hl : l - p.dist ≠ 0) (hm : (g - f) / (l - p.dist) - 1 / (v / -c) * 3600 ≠ 0)
    (hx : x = (g + m - p.alt) / ((g - f) / (l - p.dist) - 1 / (v / -c) * 3600)) (hs : L.sqrt .f64 (x ^ 2 * 1000000 + (p.alt - (g + m)) ^ 2) = .ok s)
    (hi : legIndex (glideProg L) t.totals (dst (p.dist + x)) = .ok i) :
    glide (glideProg L) p.fp (pol v c) t (hgt m) = .ok (QPt.fp ⟨p.ts + s * (1 / 1000) / v * 3600, g + m, i, p.dist + x⟩) := by
  have e1 : p.fp.alt = alt p.alt := rfl
  have e2 : p.fp.dist = dst p.dist := rfl
  have e6 : (pol v c).v = vel v := rfl
  have e5 : ∀ a, divQty gE (dst a).common (vel v).common = .ok ⟨lvTy, .f (a / v)⟩ := fun a => divF (by kernel_rfl) (by kernel_rfl) lvTy_eq (by kernel_rfl) a v hv
  have hd := q_glideDist L (m := m) hv hc hf ht hl hm
  rw [← hx] at hd
  simp only [glide, hg, ok_bind, hd, prog_env, prog_rebinds, prog_pkinds, e1, e2, g_addDst, g_addAlt, g_subAlt, g_cvHgt,
    q_length3d L hp hs, e6, e5, g_lvDur, hi, q_advance]

theorem q_final (hp : ∀ x, L.pow .f64 x 2 = .ok (x ^ 2)) {t : Task} {p : QPt} {v c f l s : ℚ} (hv : v ≠ 0) (hf : t.finish = .ok (alt f)) (ht : t.length = dst l)
    (hs : L.sqrt .f64 ((l - p.dist) ^ 2 * 1000000 + (p.alt - f) ^ 2) = .ok s) :
    finalGlide (glideProg L) p.fp (pol v c) t = .ok (QPt.fp ⟨p.ts + s * (1 / 1000) / v * 3600, f, t.legs.length - 1, p.dist + (l - p.dist)⟩) := by
  have e1 : p.fp.alt = alt p.alt := rfl
  have e2 : p.fp.dist = dst p.dist := rfl
  have e6 : (pol v c).v = vel v := rfl
  have e5 : ∀ a, divQty gE (dst a).common (vel v).common = .ok ⟨lvTy, .f (a / v)⟩ := fun a => divF (by kernel_rfl) (by kernel_rfl) lvTy_eq (by kernel_rfl) a v hv
  simp only [finalGlide, ok_bind, hf, ht, prog_env, prog_rebinds, e1, e2, g_subDst, g_addDst, g_subAlt, g_cvHgt, g_cvDst,
    q_length3d L hp hs, e6, e5, g_lvDur, q_advance]

theorem q_toGain {t : Task} {p : QPt} {v c f l : ℚ} (hv : v ≠ 0) (hc : c ≠ 0) (hf : t.finish = .ok (alt f)) (ht : t.length = dst l) :
    heightToGain (glideProg L) p.fp (pol v c) t = .ok (hgt (f + l / (v / -c) * 3600 - p.alt)) := by
  have e1 : p.fp.alt = alt p.alt := rfl
  have h2 : v / -c ≠ 0 := div_ne_zero hv (neg_ne_zero.mpr hc)
  have h3 : divQty gE (dst l).common ⟨ratioTy, .f (v / -c)⟩ = .ok ⟨fTy, .f (l / (v / -c))⟩ := divF (by kernel_rfl) (by kernel_rfl) fTy_eq (by kernel_rfl) l _ h2
  simp only [heightToGain, ok_bind, hf, ht, prog_env, prog_rebinds, prog_pkinds, q_ratio L hc, h3, g_height, g_addAlt, g_cvAlt, e1, g_subAlt, g_cvHgt]

theorem q_more (T : ℚ) : compareKinds gE (hgt T) ⟨heightTy, .f 0⟩ = .ok (numCompare (.f T) (.f 0)) := g_cmpHgt T 0

/-! ### Tasks -/

/-- The sums of the lengths, from a given one. -/
def sumsFrom : ℚ → List ℚ → List ℚ
  | _, [] => []
  | a, l :: ls => (a + l) :: sumsFrom (a + l) ls

theorem sumsFrom_length (a : ℚ) (ls : List ℚ) : (sumsFrom a ls).length = ls.length := by
  induction ls generalizing a with
  | nil => rfl
  | cons l ls ih => simp [sumsFrom, ih]

theorem sumsFrom_get (a : ℚ) (ls : List ℚ) (i : Nat) (h : i < ls.length) : (sumsFrom a ls)[i]? = some (a + (ls.take (i + 1)).sum) := by
  induction ls generalizing a i with
  | nil => simp at h
  | cons l ls ih =>
    cases i with
    | zero => simp [sumsFrom]
    | succ i => simp [sumsFrom, ih (a + l) i (by simpa using h), add_assoc]

theorem sums_last (l : ℚ) (ls : List ℚ) : (l :: sumsFrom l ls).getLast? = some (l + ls.sum) := by
  induction ls generalizing l with
  | nil => simp [sumsFrom]
  | cons x ls ih => rw [sumsFrom, List.getLast?_cons_cons, ih, List.sum_cons, add_assoc]

theorem q_totals (a : ℚ) (legs : List Leg) (ls : List ℚ) (h : legs.map Leg.length = ls.map dst) :
    makeTotals (glideProg L) (dst a) legs = .ok ((sumsFrom a ls).map dst) := by
  induction legs generalizing a ls with
  | nil => cases ls with
    | nil => rfl
    | cons l ls => simp at h
  | cons x legs ih =>
    cases ls with
    | nil => simp at h
    | cons l ls =>
      simp only [List.map_cons, List.cons.injEq] at h
      simp only [makeTotals, h.1, prog_env, g_addDst, ok_bind, g_cvDst, ih (a + l) ls h.2, sumsFrom, List.map_cons]

theorem makeLegs_length (as : List Pk) (ls : List Kd) (h : as.length = ls.length + 1) : (makeLegs as ls).length = ls.length ∧ (makeLegs as ls).map Leg.length = ls := by
  induction ls generalizing as with
  | nil => cases as with
    | nil => simp at h
    | cons a as => cases as <;> simp [makeLegs]
  | cons l ls ih =>
    match as, h with
    | a :: b :: as, h =>
      have := ih (b :: as) (by simpa using h)
      simp [makeLegs, this]

theorem makeLegs_get (as : List Pk) (ls : List Kd) (i : Nat) (a b : Pk) (l : Kd) (ha : as[i]? = some a) (hb : as[i + 1]? = some b) (hl : ls[i]? = some l) :
    (makeLegs as ls)[i]? = some ⟨a, b, l⟩ := by
  induction i generalizing as ls with
  | zero =>
    rcases as with _ | ⟨x, _ | ⟨y, as⟩⟩
    · simp at ha
    · simp at hb
    · rcases ls with _ | ⟨z, ls⟩
      · simp at hl
      · rw [List.getElem?_cons_zero, Option.some.injEq] at ha hl
        rw [List.getElem?_cons_succ, List.getElem?_cons_zero, Option.some.injEq] at hb
        subst ha hb hl
        rfl
  | succ i ih =>
    rcases as with _ | ⟨x, _ | ⟨y, as⟩⟩
    · simp at ha
    · simp at hb
    · rcases ls with _ | ⟨z, ls⟩
      · simp at hl
      · rw [List.getElem?_cons_succ] at ha hb hl
        rw [makeLegs, List.getElem?_cons_succ]
        exact ih (y :: as) ls ha hb hl

/-- What a task knows: the legs between given altitudes with given lengths. -/
structure TaskOf (t : Task) (as ls : List ℚ) : Prop where
  start : t.alts = as.map alt
  total : t.length = dst ls.sum
  totals : t.totals = (sumsFrom 0 ls).map dst
  count : t.legs.length = ls.length
  legs : ∀ i a b l, as[i]? = some a → as[i + 1]? = some b → ls[i]? = some l → t.legs[i]? = some ⟨alt a, alt b, dst l⟩
  offset : ∀ i, i ≤ ls.length → t.offset i = .ok (dst (ls.take i).sum)

theorem makeTask_spec (as ls : List ℚ) (hne : ls ≠ []) (hlen : as.length = ls.length + 1) :
    ∃ t, makeTask (glideProg L) (as.map alt) (ls.map dst) = .ok t ∧ TaskOf t as ls := by
  obtain ⟨l, ls, rfl⟩ := List.exists_cons_of_ne_nil hne
  have h1 := makeLegs_length (as.map alt) ((l :: ls).map dst) (by simpa using hlen)
  match as, hlen with
  | a :: b :: as, hlen =>
    have h2 := q_totals L l (makeLegs (alt b :: as.map alt) (ls.map dst)) ls (by
      have := makeLegs_length (alt b :: as.map alt) (ls.map dst) (by simpa using hlen)
      rw [this.2])
    have hs : sumsFrom 0 (l :: ls) = l :: sumsFrom l ls := by simp [sumsFrom]
    have hgl : ((l :: sumsFrom l ls).map dst).getLast (by simp) = dst (l :: ls).sum := by
      rw [List.getLast_map, Option.some.inj ((List.getLast?_eq_some_getLast (by simp)).symm.trans (sums_last l ls)), List.sum_cons]
    refine ⟨⟨(a :: b :: as).map alt, makeLegs ((a :: b :: as).map alt) ((l :: ls).map dst), (l :: sumsFrom l ls).map dst, ((l :: sumsFrom l ls).map dst).getLast (by simp)⟩, ?_, rfl, hgl, by rw [hs],
      by simpa using h1.1, ?_, ?_⟩
    · simp only [makeTask, List.map_cons, makeLegs, h2, ok_bind]
    · intro i x y z hx hy hz
      exact makeLegs_get _ _ i _ _ _ (by rw [List.getElem?_map, hx]; rfl) (by rw [List.getElem?_map, hy]; rfl) (by rw [List.getElem?_map, hz]; rfl)
    · intro i hi
      cases i with
      | zero => rfl
      | succ i =>
        have := sumsFrom_get 0 (l :: ls) i (by omega)
        rw [hs] at this
        simp only [Task.offset, Nat.succ_ne_zero, if_false, Nat.add_sub_cancel, List.getElem?_map, this, Option.map_some, zero_add]

theorem q_legIndex (xs : List ℚ) (d : ℚ) : legIndex (glideProg L) (xs.map dst) (dst d) = .ok (xs.findIdx fun x => decide (d ≤ x)) := by
  induction xs with
  | nil => rfl
  | cons x xs ih =>
    simp only [List.map_cons, legIndex, prog_env, g_cmpDst, ok_bind, numCompare_lt, List.findIdx_cons, ih]
    by_cases h : x < d
    · simp [h, not_le.mpr h]
    · simp [h, not_lt.mp h]

end

end Verif
