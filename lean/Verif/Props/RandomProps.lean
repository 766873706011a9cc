import Verif.Random
import Verif.QuantityLemmas
import Verif.Props.RefProps

/-!
# Property C52: random distributions of quantities

Specification: what the standard distribution with the numbers as parameters does, `stdDraws`.
-/

namespace Verif

/-- Several draws from a distribution of the standard library. -/
def stdDraws {G : Type} (D : StdDist G) : Nat → D.State → G → List Num × D.State × G
  | 0, s, g => ([], s, g)
  | n + 1, s, g =>
    let r := D.draw s g
    let r' := stdDraws D n r.2.1 r.2.2
    (r.1 :: r'.1, r'.2)

/-- C52: for every engine, state and number of draws the quantities drawn have the numbers drawn from the standard distribution, and the state of
distribution and engine is the same. -/
theorem C52_draws {G : Type} (E : Env) (t : QTy) (D : StdDist G) (n : Nat) (s : D.State) (g : G) :
    distDraws E t D n s g = .ok ((stdDraws D n s g).1.map (⟨t, ·⟩), (stdDraws D n s g).2) := by
  induction n generalizing s g with
  | zero => rfl
  | succ n ih =>
    unfold distDraws distDraw
    simp only [mkQty_self, ok_bind, ih, stdDraws, List.map_cons]

/-- The numbers of constructor arguments of the types of the parameters. -/
def DArg.num : DArg → Num
  | .qty q => q.num
  | .plain x => x

/-- The arguments fit the parameters; the quantities are of type `t`. -/
def Fits (t : QTy) : List (String × DParKind) → List DArg → Prop
  | [], [] => True
  | (_, .qty) :: ps, .qty q :: as => q.ty = t ∧ Fits t ps as
  | (_, .plain) :: ps, .plain _ :: as => Fits t ps as
  | _, _ => False

theorem baseArgs_fits (E : Env) (t : QTy) : ∀ (ps : List (String × DParKind)) (as : List DArg), Fits t ps as →
    baseArgs E t ps as = .ok (as.map DArg.num)
  | [], [], _ => rfl
  | (_, .qty) :: ps, .qty q :: as, h => by
    unfold baseArgs convertQty
    rw [if_pos h.1, ok_bind, baseArgs_fits E t ps as h.2, ok_bind]
    rfl
  | (_, .plain) :: ps, .plain x :: as, h => by
    unfold baseArgs
    rw [baseArgs_fits E t ps as h, ok_bind]
    rfl
  | [], _ :: _, h => absurd h (by simp [Fits])
  | (_, .qty) :: _, [], h => absurd h (by simp [Fits])
  | (_, .plain) :: _, [], h => absurd h (by simp [Fits])
  | (_, .qty) :: _, .plain _ :: _, h => absurd h (by simp [Fits])
  | (_, .plain) :: _, .qty _ :: _, h => absurd h (by simp [Fits])

/-- C52: a distribution constructed from quantities of its type is the standard distribution constructed from their numbers, for every class of the header. -/
theorem C52_constructed {G : Type} (E : Env) (t : QTy) (D : StdDist G) (c : DistClass) (_ : c ∈ distClasses) (as : List DArg)
    (hr : repOk c.req t.rep = true) (h : Fits t c.params as) : distCtor E t D c as = .ok (D.ctor (as.map DArg.num)) := by
  unfold distCtor
  rw [if_pos hr, baseArgs_fits E t _ as h, ok_bind]

theorem fits_get {t : QTy} : ∀ {ps : List (String × DParKind)} {as : List DArg}, Fits t ps as → ∀ {i : Nat} {a : DArg}, as[i]? = some a →
    ∃ nm k, ps[i]? = some (nm, k) ∧ ((k = .qty ∧ ∃ x, a = .qty ⟨t, x⟩) ∨ (k = .plain ∧ ∃ x, a = .plain x))
  | [], [], _, i, a, ha => by simp at ha
  | (nm, .qty) :: ps, .qty q :: as, h, 0, a, ha => by
    simp only [List.getElem?_cons_zero, Option.some.injEq] at ha
    refine ⟨nm, .qty, rfl, Or.inl ⟨rfl, q.num, ?_⟩⟩
    rw [← ha, ← h.1]
  | (nm, .qty) :: ps, .qty q :: as, h, i + 1, a, ha => by
    simp only [List.getElem?_cons_succ] at ha ⊢
    exact fits_get h.2 ha
  | (nm, .plain) :: ps, .plain x :: as, h, 0, a, ha => by
    simp only [List.getElem?_cons_zero, Option.some.injEq] at ha
    exact ⟨nm, .plain, rfl, Or.inr ⟨rfl, x, ha.symm⟩⟩
  | (nm, .plain) :: ps, .plain x :: as, h, i + 1, a, ha => by
    simp only [List.getElem?_cons_succ] at ha ⊢
    exact fits_get (ps := ps) (as := as) h ha
  | [], _ :: _, h, _, _, _ => absurd h (by simp [Fits])
  | (_, .qty) :: _, [], h, _, _, _ => absurd h (by simp [Fits])
  | (_, .plain) :: _, [], h, _, _, _ => absurd h (by simp [Fits])
  | (_, .qty) :: _, .plain _ :: _, h, _, _, _ => absurd h (by simp [Fits])
  | (_, .plain) :: _, .qty _ :: _, h, _, _, _ => absurd h (by simp [Fits])

/-- C52: the parameters are reported back as they were given, provided the standard distribution reports its numbers back. -/
theorem C52_params {G : Type} (E : Env) (t : QTy) (D : StdDist G) (c : DistClass) (_ : c ∈ distClasses) (as : List DArg)
    (h : Fits t c.params as) (hstd : ∀ xs, D.params (D.ctor xs) = xs) (i : Nat) (a : DArg) (ha : as[i]? = some a) :
    distParam E t D c (D.ctor (as.map DArg.num)) i = .ok a := by
  obtain ⟨nm, k, hp, hk⟩ := fits_get h ha
  unfold distParam
  rw [hstd, hp, List.getElem?_map, ha]
  rcases hk with ⟨rfl, x, rfl⟩ | ⟨rfl, x, rfl⟩
  · simp only [Option.map_some, DArg.num, mkQty_self, ok_bind]
  · simp only [Option.map_some, DArg.num]

/-- C52: the limits are those of the standard distribution. -/
theorem C52_limits {G : Type} (E : Env) (t : QTy) (D : StdDist G) (s : D.State) :
    distMin E t D s = .ok ⟨t, D.min s⟩ ∧ distMax E t D s = .ok ⟨t, D.max s⟩ := ⟨mkQty_self, mkQty_self⟩

/-- A simple distribution: it counts from its first parameter. -/
def countDist : StdDist Unit :=
  ⟨List Num × Nat, ([.i 0], 0), fun xs => (xs, 0), fun s => s.1, fun s _ => (.i ((s.1.headD (.i 0)).q.floor + s.2), (s.1, s.2 + 1), ()),
    fun s => s.1.headD (.i 0), fun s => s.1.getLastD (.i 0)⟩

/-- The hypotheses are met by every class, and an argument in another unit is converted. -/
example : (∀ c ∈ distClasses, repOk c.req (.int .i32) = true ∨ repOk c.req (.flt .f64) = true) ∧
    (∀ c ∈ distClasses, Fits (exMetres (.flt .f64)) c.params
      (c.params.map fun p => match p.2 with | .qty => .qty ⟨exMetres (.flt .f64), .f 1⟩ | .plain => .plain (.f (1 / 2)))) := by
  refine ⟨by decide, ?_⟩
  intro c hc
  simp only [distClasses, List.mem_cons, List.not_mem_nil, or_false] at hc
  rcases hc with rfl | rfl | rfl | rfl | rfl | rfl | rfl | rfl | rfl | rfl | rfl | rfl | rfl | rfl | rfl | rfl <;> simp [Fits]

example : baseArgs exEnv (exMetres (.int .i64)) [("a", .qty), ("b", .qty)]
      [.qty ⟨exKms (.int .i64), .i 2⟩, .qty ⟨exMetres (.int .i64), .i 2500⟩] = .ok [.i 2000, .i 2500] ∧
    (distDraws exEnv (exMetres (.int .i64)) countDist 2 ([.i 2000, .i 2500], 0) ()).toOption.map (·.1) =
      some [⟨exMetres (.int .i64), .i 2000⟩, ⟨exMetres (.int .i64), .i 2001⟩] := by decide +kernel

/-! ## Piecewise distributions -/

theorem iQtyToRep_self (E : Env) (t : QTy) : ∀ (l : List Qty), (∀ q ∈ l, q.ty = t) → iQtyToRep E t l = .ok (l.map (·.num))
  | [], _ => rfl
  | q :: l, h => by
    unfold iQtyToRep
    rw [h q (by simp), convNum_self, ok_bind, iQtyToRep_self E t l (fun x hx => h x (by simp [hx])), ok_bind]
    rfl

/-- C52: intervals given as quantities of the type of the distribution are handed over as their numbers and reported back. -/
theorem C52_intervals (E : Env) (t : QTy) (l : List Qty) (h : ∀ q ∈ l, q.ty = t) :
    iQtyToRep E t l = .ok (l.map (·.num)) ∧ blQtyToRep l = l.map (·.num) ∧ distIntervals E t (l.map (·.num)) = .ok l := by
  refine ⟨iQtyToRep_self E t l h, rfl, ?_⟩
  induction l with
  | nil => rfl
  | cons q l ih =>
    simp only [List.map_cons, distIntervals, mkQty_self, ok_bind]
    rw [ih (fun x hx => h x (by simp [hx])), ok_bind]
    congr 2
    rw [← h q (by simp)]

/-- C52 fails for intervals given by iterators over quantities of another unit: their numbers are taken as they are (one kilometre becomes one metre). -/
theorem C52_intervals_other_unit (E : Env) : ∃ t q, q.ty.dim = t.dim ∧ q.ty.unit.ratio.val = 1000 * t.unit.ratio.val ∧
    iQtyToRep E t [q] = .ok [.f 1] ∧ q.num = .f 1 := by
  refine ⟨exMetres (.flt .f64), ⟨exKms (.flt .f64), .f 1⟩, rfl, ?_, rfl, rfl⟩
  decide +kernel

/-- C52: the weights of `piecewise_linear_distribution` and of the constructors from a number of intervals are the values of the function. -/
theorem C52_weights (E : Env) (t : QTy) (fw : Qty → ℚ) (l : List Qty) (x : Num) :
    fwBlPwl fw l = l.map fw ∧ fwOfRep E t fw x = .ok (fw ⟨t, x⟩) := by
  refine ⟨rfl, ?_⟩
  unfold fwOfRep
  rw [mkQty_self, ok_bind]

theorem pairSums_affine (fl : Rounding) (f : FltTy) (hfl : ∀ x, fl f x = x) (a b : ℚ) : ∀ l : List ℚ,
    pairSums fl f (l.map fun x => a * x + b) = (stdPwcWeights (fun x => a * x + b) l).map (2 * ·)
  | [] => rfl
  | [_] => rfl
  | x :: y :: l => by
    have := pairSums_affine fl f hfl a b (y :: l)
    simp only [List.map_cons, pairSums, stdPwcWeights] at this ⊢
    rw [this, hfl]
    congr 1
    ring

/-- C52, partial: for an affine function the weights of `piecewise_constant_distribution` from a list of quantities are twice the standard ones (so the same
distribution) followed by an unused zero.  Missing for the full claim: other functions (`C52_pwc_weights_wrong`) and the empty list (`C52_pwc_empty`). -/
theorem C52_pwc_weights_partial (fl : Rounding) (f : FltTy) (hfl : ∀ x, fl f x = x) (t : QTy) (a b : ℚ) (xs : List ℚ) (hxs : xs ≠ []) :
    fwBlPwc fl f (fun q => a * q.num.q + b) (xs.map fun x => ⟨t, .f x⟩) =
      .ok ((stdPwcWeights (fun x => a * x + b) xs).map (2 * ·) ++ [0]) := by
  unfold fwBlPwc
  rw [if_neg (by simpa using hxs), List.map_map, ← pairSums_affine fl f hfl]
  rfl

example : fwBlPwc (fun _ x => x) .f64 (fun q => 3 * q.num.q + 1) ([0, 1, 2].map fun x => ⟨exMetres (.flt .f64), .f x⟩) = .ok [5, 11, 0] ∧
    stdPwcWeights (fun x => 3 * x + 1) [0, 1, 2] = [5 / 2, 11 / 2] := by decide +kernel

/-- C52 fails for other functions: with `x²` on `0, 1, 2` the two intervals get the weights 1 : 5, not 1 : 9. -/
theorem C52_pwc_weights_wrong (t : QTy) :
    fwBlPwc (fun _ x => x) .f64 (fun q => q.num.q ^ 2) ([0, 1, 2].map fun x => ⟨t, .f x⟩) = .ok [1, 5, 0] ∧
    stdPwcWeights (fun x => x ^ 2) [0, 1, 2] = [1 / 4, 9 / 4] ∧ ∀ c : ℚ, [1, 5] ≠ [c * (1 / 4), c * (9 / 4)] := by
  refine ⟨?_, by decide +kernel, ?_⟩
  · unfold fwBlPwc
    rw [if_neg (by simp)]
    simp [pairSums, Num.q]
    norm_num
  · intro c h
    simp only [List.cons.injEq, and_true] at h
    linarith [h.1, h.2]

/-- C52 fails for an empty list, for which the standard class is defined: elements of an empty vector are read. -/
theorem C52_pwc_empty (fl : Rounding) (f : FltTy) (fw : Qty → ℚ) : fwBlPwc fl f fw [] = .error .precondition := by
  unfold fwBlPwc; rw [if_pos rfl]

end Verif
