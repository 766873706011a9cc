import Verif.IeeeSpeed
import Verif.Props.IeeeLinearProps
import Verif.Props.IeeeBoxProps

/-!
# C101: average speeds and conversion factors in IEEE floating point
-/

namespace Verif

open FltTy

set_option maxRecDepth 100000

/-! ### One as a factor -/

theorem one_mul_in {f : FltTy} {x : FVal} (h : x.In f) : (FVal.fin false 1).mul f x = x := by
  rcases x with ⟨s, q⟩ | s | _
  · show FVal.round f (false != s) (1 * q) = _
    rw [one_mul, show (false != s) = s by cases s <;> rfl]
    unfold FVal.round
    rw [h.2]
  · cases s <;> rfl
  · rfl

theorem mul_one_in {f : FltTy} {x : FVal} (h : x.In f) : x.mul f (.fin false 1) = x := by rw [FVal.mul_comm, one_mul_in h]

theorem div_mem {f : FltTy} {x y : FVal} (hx : x.In f) (hy : y.In f) : (x.div f y).In f := by
  rcases x with ⟨s, a⟩ | s | _ <;> rcases y with ⟨t, b⟩ | t | _ <;> try exact trivial
  · dsimp only [FVal.div]
    by_cases h : b = 0
    · rw [if_pos h]; split_ifs <;> exact trivial
    · rw [if_neg h]; exact round_in (div_nonneg hx.1 hy.1)
  · exact zero_in _

theorem mul_mem {f : FltTy} {x y : FVal} (hx : x.In f) (hy : y.In f) : (x.mul f y).In f := by
  rcases x with ⟨s, a⟩ | s | _ <;> rcases y with ⟨t, b⟩ | t | _ <;> try exact trivial
  · exact round_in (mul_nonneg hx.1 hy.1)
  · dsimp only [FVal.mul]; split_ifs <;> exact trivial
  · dsimp only [FVal.mul]; split_ifs <;> exact trivial

theorem ofInt_mem (f : FltTy) (z : Int) : (FVal.ofInt f z).In f := round_in (abs_nonneg _)

theorem fpow10_mem (f : FltTy) (e : Int) : (fpow10I f e).In f := by
  have go : ∀ (step : FVal → FVal → FVal) (_ : ∀ x y, x.In f → y.In f → (step x y).In f) (n : ℕ) (x : FVal), x.In f → (fpow10LoopI step (FVal.ofInt f 10) n x).In f := by
    intro step hs n
    induction n with
    | zero => intro x hx; exact hx
    | succ n ih => intro x hx; exact ih _ (hs _ _ hx (ofInt_mem f 10))
  unfold fpow10I
  split_ifs
  · exact ofInt_mem f 1
  · exact go _ (fun _ _ => div_mem) _ _ (ofInt_mem f 1)
  · exact go _ (fun _ _ => mul_mem) _ _ (ofInt_mem f 1)

/-- Hours in doubles. -/
def hr64Ty : QTy := ⟨.base siTime, siHr, .flt .f64⟩
/-- Miles in doubles. -/
def mi64Ty : QTy := ⟨.base siLength, siMile, .flt .f64⟩
/-- Speeds in doubles. -/
def sp64Ty (u : MUnit) : QTy := ⟨.named siSpeed, u, .flt .f64⟩
/-- The factor from metres per second to kilometres per hour. -/
def f36 : FVal := .fin false (8106479329266893 / 2 ^ 51)
/-- The factor from miles to metres. -/
def fMile : FVal := .fin false (1769492441091539 / 2 ^ 40)
/-- The factor from miles per hour to kilometres per hour. -/
def fMph : FVal := .fin false (7247841038710945 / 2 ^ 52)

theorem s_hr (x : FVal) : convertQtyI pE durationTy ⟨hr64Ty, .f x⟩ = .ok ⟨durationTy, .f (x.mul .f64 (.fin false (3600 : ℕ)))⟩ :=
  convPI (c := ⟨36, 1, 2⟩) (by decide) rfl rfl (by decide +kernel) (by decide +kernel) (castNumI_factor (by decide +kernel) x)
theorem s_mi (x : FVal) : convertQtyI pE boxLen ⟨mi64Ty, .f x⟩ = .ok ⟨boxLen, .f (x.mul .f64 fMile)⟩ :=
  convPI (c := ⟨25146, 15625, 3⟩) (by decide) rfl rfl (by decide +kernel) (by decide +kernel) (castNumI_factor (by decide +kernel) x)
theorem s_mps (x y : FVal) : divQtyI pE ⟨boxLen, .f x⟩ ⟨durationTy, .f y⟩ = .ok ⟨lightTy, .f (x.div .f64 y)⟩ := divPI rfl rfl rfl (by decide +kernel) x y
theorem s_kmh (x y : FVal) : divQtyI pE ⟨km64Ty, .f x⟩ ⟨hr64Ty, .f y⟩ = .ok ⟨sp64Ty siKmh, .f (x.div .f64 y)⟩ := divPI rfl rfl rfl (by decide +kernel) x y
theorem s_mph (x y : FVal) : divQtyI pE ⟨mi64Ty, .f x⟩ ⟨hr64Ty, .f y⟩ = .ok ⟨sp64Ty siMph, .f (x.div .f64 y)⟩ := divPI rfl rfl rfl (by decide +kernel) x y
theorem s_p1 (x : FVal) : printedSpeedI pE ⟨lightTy, .f x⟩ = .ok ⟨sp64Ty siKmh, .f (x.mul .f64 f36)⟩ :=
  castPI (c := ⟨36, 1, -1⟩) rfl rfl (by decide +kernel) (by decide +kernel) (castNumI_factor (by decide +kernel) x)
theorem s_p2 (x : FVal) : printedSpeedI pE ⟨sp64Ty siKmh, .f x⟩ = .ok ⟨sp64Ty siKmh, .f (x.mul .f64 (.fin false 1))⟩ :=
  castPI (c := ⟨1, 1, 0⟩) rfl rfl (by decide +kernel) (by decide +kernel) (castNumI_factor (by decide +kernel) x)
theorem s_p3 (x : FVal) : printedSpeedI pE ⟨sp64Ty siMph, .f x⟩ = .ok ⟨sp64Ty siKmh, .f (x.mul .f64 fMph)⟩ :=
  castPI (c := ⟨50292, 3125, -1⟩) rfl rfl (by decide +kernel) (by decide +kernel) (castNumI_factor (by decide +kernel) x)

theorem nat_got {n : ℕ} (h1 : 1 ≤ n) (h2 : n ≤ 2 ^ 12) (h3 : FltTy.f64.rndMag n = some (n : ℚ)) : Got (1 / 2 ^ 53) 0 12 (n : ℝ) (.fin false n) := by
  have h1' : (1 : ℝ) ≤ n := by exact_mod_cast h1
  have h2' : (n : ℝ) ≤ 2 ^ 12 := by exact_mod_cast h2
  have := got_exact (j := 12) u_le (by norm_num) (F := (n : ℚ)) (by positivity) h3 (by
    unfold Bd
    rw [Rat.cast_natCast, abs_of_pos (by linarith)]
    exact ⟨le_trans (by norm_num) h1', h2'⟩)
  rwa [Rat.cast_natCast] at this

theorem factor_got {F : ℚ} {X : ℝ} {k : ℕ} (h0 : 1 ≤ F) (h3 : FltTy.f64.rndMag F = some F) (X0 : X ≠ 0) (hl : (1 - 1 / 2 ^ 53) ^ k ≤ (F : ℝ) / X) (hr : (F : ℝ) / X ≤ ((1 - 1 / 2 ^ 53) ^ k)⁻¹)
    (hX : 1 ≤ X) (hX' : X ≤ 2 ^ 12) : Got (1 / 2 ^ 53) k 12 X (.fin false F) := by
  refine ⟨trivial, ⟨by linarith, h3⟩, ⟨(F : ℝ) / X, ?_, hl, hr⟩, .inr ?_⟩
  · show (F : ℝ) = _
    field_simp
  · unfold Bd
    rw [abs_of_pos (by linarith)]
    exact ⟨le_trans (by norm_num) hX, hX'⟩

theorem f36_got : Got (1 / 2 ^ 53) 1 12 (18 / 5) f36 :=
  factor_got (by norm_num) (by decide +kernel) (by norm_num) (by push_cast; norm_num) (by push_cast; norm_num) (by norm_num) (by norm_num)
theorem fMile_got : Got (1 / 2 ^ 53) 1 12 (1609344 / 1000) fMile :=
  factor_got (by norm_num) (by decide +kernel) (by norm_num) (by push_cast; norm_num) (by push_cast; norm_num) (by norm_num) (by norm_num)
theorem fMph_got : Got (1 / 2 ^ 53) 2 12 (1609344 / 1000000) fMph :=
  factor_got (by norm_num) (by decide +kernel) (by norm_num) (by push_cast; norm_num) (by push_cast; norm_num) (by norm_num) (by norm_num)

/-- What is printed is `X` kilometres per hour with an error of at most `c * 2 ^ -53`. -/
def PrintedKmh (c : ℕ) (X : ℝ) (r : C QtyI) : Prop :=
  ∃ v, r = .ok ⟨⟨.named siSpeed, siKmh, .flt .f64⟩, .f v⟩ ∧ v.Finite ∧ |(v.q : ℝ) - X| ≤ c / 2 ^ 53 * |X|

theorem Got.kmh {k j : ℕ} {X Y : ℝ} {v : FVal} (h : Got (1 / 2 ^ 53) k j X v) (hk : k ≤ 200) (e : X = Y) : PrintedKmh (2 * k) Y (.ok ⟨sp64Ty siKmh, .f v⟩) := by
  subst e
  refine ⟨v, rfl, h.finite, (h.err u_le (by norm_num) hk).trans (le_of_eq ?_)⟩
  push_cast
  ring

/-- C101: the function with metres and seconds, from kilometres or miles and hours. -/
theorem C101_fixed {d t : FVal} (hd : MidZero d) (ht : Mid t) :
    PrintedKmh 10 (d.q / t.q) (fixedDoubleI progEnv ⟨km64Ty, .f d⟩ ⟨hr64Ty, .f t⟩ >>= printedSpeedI progEnv) ∧
    PrintedKmh 12 (d.q * (1609344 / 1000000) / t.q) (fixedDoubleI progEnv ⟨mi64Ty, .f d⟩ ⟨hr64Ty, .f t⟩ >>= printedSpeedI progEnv) := by
  have hδ : (1 / 2 ^ 53 : ℝ) ≤ 1 / 400 := by norm_num
  have t0 := ht.ne
  have gd := hd.got u_le hδ
  have gk := gd.mul u_le hδ (nat_got (n := 1000) (by norm_num) (by norm_num) (by decide +kernel)) (by norm_num) (by norm_num)
  have gm := gd.mul u_le hδ fMile_got (by norm_num) (by norm_num)
  have gt := ht.got98.mul u_le hδ (nat_got (n := 3600) (by norm_num) (by norm_num) (by decide +kernel)) (by norm_num) (by norm_num)
  have t1 : (t.q : ℝ) * ((3600 : ℕ) : ℝ) ≠ 0 := mul_ne_zero t0 (by norm_num)
  have vk := (gk.div u_le hδ gt t1 (by norm_num) (by norm_num)).mul u_le hδ f36_got (by norm_num) (by norm_num)
  have vm := (gm.div u_le hδ gt t1 (by norm_num) (by norm_num)).mul u_le hδ f36_got (by norm_num) (by norm_num)
  have same : ∀ x : FVal, convertQtyI pE lightTy ⟨lightTy, .f x⟩ = .ok ⟨lightTy, .f x⟩ := fun x => convertQtyI_self pE ⟨lightTy, .f x⟩
  change PrintedKmh _ _ (fixedDoubleI pE _ _ >>= printedSpeedI pE) ∧ PrintedKmh _ _ (fixedDoubleI pE _ _ >>= printedSpeedI pE)
  constructor
  · rw [fixedDoubleI, show convertQtyI pE boxLen ⟨km64Ty, .f d⟩ = _ from km_metre d, ok_bind, s_hr, ok_bind, s_mps, ok_bind, same, ok_bind, s_p1]
    exact vk.kmh (by norm_num) (by push_cast; field_simp; ring)
  · rw [fixedDoubleI, s_mi, ok_bind, s_hr, ok_bind, s_mps, ok_bind, same, ok_bind, s_p1]
    exact vm.kmh (by norm_num) (by push_cast; field_simp; ring)

/-- C101: the functions that keep the units: from kilometres and hours, what is printed is the quotient of the numbers as the processor computes it, whatever these numbers are. -/
theorem C101_deduced {d t : FVal} (hd : d.In .f64) (ht : t.In .f64) :
    (siAvgI progEnv ⟨km64Ty, .f d⟩ ⟨hr64Ty, .f t⟩ >>= printedSpeedI progEnv) = .ok ⟨⟨.named siSpeed, siKmh, .flt .f64⟩, .f (d.div .f64 t)⟩ ∧
    (avgSpeedI progEnv ⟨km64Ty, .f d⟩ ⟨hr64Ty, .f t⟩ >>= printedSpeedI progEnv) = .ok ⟨⟨.named siSpeed, siKmh, .flt .f64⟩, .f (d.div .f64 t)⟩ := by
  have hi := div_mem hd ht
  change (siAvgI pE _ _ >>= printedSpeedI pE) = _ ∧ (avgSpeedI pE _ _ >>= printedSpeedI pE) = _
  constructor
  · rw [siAvgI, if_pos ⟨rfl, rfl⟩, s_kmh, ok_bind, s_p2, mul_one_in hi]; rfl
  · rw [avgSpeedI, s_kmh, ok_bind, s_p2, mul_one_in hi]; rfl

/-- C101: with the quotient of the numbers, the error is that of one division. -/
theorem C101_deduced_error {d t : FVal} (hd : MidZero d) (ht : Mid t) :
    PrintedKmh 2 (d.q / t.q) (siAvgI progEnv ⟨km64Ty, .f d⟩ ⟨hr64Ty, .f t⟩ >>= printedSpeedI progEnv) ∧
    PrintedKmh 8 (d.q * (1609344 / 1000000) / t.q) (siAvgI progEnv ⟨mi64Ty, .f d⟩ ⟨hr64Ty, .f t⟩ >>= printedSpeedI progEnv) ∧
    PrintedKmh 8 (d.q * (1609344 / 1000000) / t.q) (avgSpeedI progEnv ⟨mi64Ty, .f d⟩ ⟨hr64Ty, .f t⟩ >>= printedSpeedI progEnv) := by
  have hδ : (1 / 2 ^ 53 : ℝ) ≤ 1 / 400 := by norm_num
  have g := (hd.got u_le hδ).div u_le hδ ht.got98 ht.ne (by norm_num) (by norm_num)
  have m := g.mul u_le hδ fMph_got (by norm_num) (by norm_num)
  have t0 := ht.ne
  have e : (d.q : ℝ) / t.q * (1609344 / 1000000) = d.q * (1609344 / 1000000) / t.q := by ring
  rw [(C101_deduced hd.within ht.within).1]
  refine ⟨g.kmh (by norm_num) rfl, ?_, ?_⟩
  · change PrintedKmh _ _ (siAvgI pE _ _ >>= printedSpeedI pE)
    rw [siAvgI, if_pos ⟨rfl, rfl⟩, s_mph, ok_bind, s_p3]
    exact m.kmh (by norm_num) e
  · change PrintedKmh _ _ (avgSpeedI pE _ _ >>= printedSpeedI pE)
    rw [avgSpeedI, s_mph, ok_bind, s_p3]
    exact m.kmh (by norm_num) e

/-! ### Conversion factors -/

theorem castRep_same (f : FltTy) : castRep (.flt f) (.flt f) = .flt f := by cases f <;> rfl

theorem castNumI_same (f : FltTy) (c : Ratio) (x : FVal) : castNumI (.flt f) (.flt f) c (.f x) = .ok (.f (castFltI f c x)) := by
  unfold castNumI
  rw [castRep_same]
  unfold convI
  rw [if_pos rfl, ok_bind]
  dsimp only
  rw [if_pos rfl]

theorem one_round (f : FltTy) : FVal.ofInt f 1 = .fin false 1 := by
  cases f <;> decide +kernel

/-- C101: converting a quantity multiplies its number by the conversion factor, to the last bit, for all numbers of the type with infinities and not-a-number, all units and
dimensions, and all three floating point types; and there is a conversion factor where there is a conversion. -/
theorem C101_conversion_factor (E : Env) (f : FltTy) {target source : QTy} (ht : target.rep = .flt f) (hs : source.rep = .flt f) {x : FVal} (hx : x.In f) {r : QtyI}
    (hd : dimEquivalent source.dim target.dim = .ok true) (hr : convertQtyI E target ⟨source, .f x⟩ = .ok r) :
    ∃ k, conversionFactorI E target source = .ok (.f k) ∧ k.In f ∧ r = ⟨target, .f (x.mul f k)⟩ := by
  obtain ⟨td, tu, tr⟩ := target
  obtain ⟨sd, su, sr⟩ := source
  dsimp only at ht hs hd
  subst ht hs
  have rep : (Rep.flt f).common (.flt f) = .flt f := if_pos rfl
  have one : convI (.int .i32) (.flt f) (.i 1) = .ok (.f (.fin false 1)) := by
    unfold convI
    rw [if_neg (by simp)]
    show Except.ok (FNum.f (FVal.ofInt f 1)) = _
    rw [one_round]
  unfold conversionFactorI
  dsimp only
  rw [hd, ok_bind, if_pos rfl, rep, one, ok_bind]
  rcases convertQtyI_cases hr with ⟨h, rfl⟩ | ⟨h, h2, h3⟩
  · dsimp only at h
    rw [h]
    refine ⟨.fin false 1, ?_, one_in, ?_⟩
    · rw [show convertQtyI E _ ⟨⟨td, tu, .flt f⟩, .f (.fin false 1)⟩ = _ from convertQtyI_self E ⟨⟨td, tu, .flt f⟩, .f (.fin false 1)⟩]
      rfl
    · rw [mul_one_in hx]
  · dsimp only at h h2
    unfold quantityCastI at h3
    dsimp only at h3
    rw [h2, ok_bind, if_pos rfl] at h3
    obtain ⟨c, hc, h3⟩ := bind_ok.1 h3
    rw [castNumI_same, ok_bind] at h3
    cases h3
    have m := div_mem (mul_mem (ofInt_mem f c.num) (fpow10_mem f c.exp)) (ofInt_mem f c.den)
    refine ⟨_, ?_, m, rfl⟩
    have : convertQtyI E ⟨td, tu, .flt f⟩ ⟨⟨sd, su, .flt f⟩, .f (.fin false 1)⟩ = .ok ⟨⟨td, tu, .flt f⟩, .f (castFltI f c (.fin false 1))⟩ := by
      unfold convertQtyI
      rw [if_neg h]
      unfold safeCastable quantityCastI
      dsimp only
      rw [h2]
      simp only [Rep.floating, if_true, ok_bind, hc, castNumI_same]
    rw [this, ok_bind]
    unfold castFltI
    rw [one_mul_in m]


/-! ### Cases -/

theorem mid_nat {n : ℕ} (h0 : 1 ≤ n) (h1 : n ≤ 2 ^ 50) (h : FltTy.f64.rndMag n = some (n : ℚ)) : Mid (.fin false n) := by
  have a : (1 : ℚ) ≤ n := by exact_mod_cast h0
  have m := mz_nat h0 h1 h
  have ne : (FVal.fin false (n : ℚ)).q ≠ 0 := by
    show (n : ℚ) ≠ 0
    linarith
  exact ⟨m.finite, m.within, (m.size.resolve_left ne).1, (m.size.resolve_left ne).2⟩

/-- The program: 220 km and 140 miles in two hours. -/
example : PrintedKmh 10 110 (fixedDoubleI progEnv ⟨km64Ty, .f (.fin false (220 : ℕ))⟩ ⟨hr64Ty, .f (.fin false (2 : ℕ))⟩ >>= printedSpeedI progEnv) ∧
    PrintedKmh 8 (140 * (1609344 / 1000000) / 2) (avgSpeedI progEnv ⟨mi64Ty, .f (.fin false (140 : ℕ))⟩ ⟨hr64Ty, .f (.fin false (2 : ℕ))⟩ >>= printedSpeedI progEnv) := by
  have h2 : Mid (.fin false (2 : ℕ)) := mid_nat (by norm_num) (by norm_num) (by decide +kernel)
  have a := (C101_fixed (d := .fin false (220 : ℕ)) (mz_nat (by norm_num) (by norm_num) (by decide +kernel)) h2).1
  have b := (C101_deduced_error (d := .fin false (140 : ℕ)) (mz_nat (by norm_num) (by norm_num) (by decide +kernel)) h2).2.2
  refine ⟨?_, ?_⟩
  · convert a using 1; norm_num [FVal.q]
  · convert b using 1; norm_num [FVal.q]

/-- No distance in no time. -/
example : (avgSpeedI progEnv ⟨km64Ty, .f (.fin false 0)⟩ ⟨hr64Ty, .f (.fin false 0)⟩ >>= printedSpeedI progEnv) = .ok ⟨⟨.named siSpeed, siKmh, .flt .f64⟩, .f .nan⟩ :=
  (C101_deduced (zero_in false) (zero_in false)).2

/-- The program: `lengthB.number() == lengthA.number() * conversion_factor(lengthB, lengthA)`. -/
example : ∃ k, conversionFactorI progEnv mm64Ty boxLen = .ok (.f k) ∧ k.In .f64 ∧ (⟨mm64Ty, .f (.fin false 2000)⟩ : QtyI) = ⟨mm64Ty, .f ((FVal.fin false 2).mul .f64 k)⟩ :=
  C101_conversion_factor progEnv .f64 (target := mm64Ty) (source := boxLen) rfl rfl (x := .fin false 2) ⟨by norm_num, by decide +kernel⟩ (by decide +kernel) (by decide +kernel)

/-! ### Centimetres -/

/-- Centimetres of the CGS system in doubles. -/
def cm64Ty : QTy := ⟨.base cgsLength, siCentimetre, .flt .f64⟩
/-- The factor from centimetres to metres. -/
def fCm : FVal := .fin false (5764607523034235 / 2 ^ 59)
/-- The factor from centimetres per hour to kilometres per hour. -/
def fCmh : FVal := .fin false (5902958103587057 / 2 ^ 69)
/-- The type of centimetres divided by hours. -/
def cmh64Ty : QTy := divTyP cm64Ty hr64Ty

theorem s_cm (x : FVal) : convertQtyI pE boxLen ⟨cm64Ty, .f x⟩ = .ok ⟨boxLen, .f (x.mul .f64 fCm)⟩ :=
  convPI (c := ⟨1, 1, -2⟩) (by decide) rfl rfl (by decide +kernel) (by decide +kernel) (castNumI_factor (by decide +kernel) x)
theorem s_cmh (x y : FVal) : divQtyI pE ⟨cm64Ty, .f x⟩ ⟨hr64Ty, .f y⟩ = .ok ⟨cmh64Ty, .f (x.div .f64 y)⟩ := divPI rfl rfl (by decide +kernel) (by decide +kernel) x y
theorem s_p4 (x : FVal) : printedSpeedI pE ⟨cmh64Ty, .f x⟩ = .ok ⟨sp64Ty siKmh, .f (x.mul .f64 fCmh)⟩ :=
  castPI (c := ⟨1, 1, -5⟩) (by decide +kernel) rfl (by decide +kernel) (by decide +kernel) (castNumI_factor (by decide +kernel) x)

theorem part_got {F : ℚ} {X : ℝ} {k : ℕ} (h0 : 0 ≤ F) (h3 : FltTy.f64.rndMag F = some F) (hl : (1 - 1 / 2 ^ 53) ^ k ≤ (F : ℝ) / X) (hr : (F : ℝ) / X ≤ ((1 - 1 / 2 ^ 53) ^ k)⁻¹)
    (hX : 1 / 2 ^ 20 ≤ X) (hX' : X ≤ 1) : Got (1 / 2 ^ 53) k 20 X (.fin false F) := by
  have X0 : 0 < X := lt_of_lt_of_le (by norm_num) hX
  refine ⟨trivial, ⟨h0, h3⟩, ⟨(F : ℝ) / X, ?_, hl, hr⟩, .inr ?_⟩
  · show (F : ℝ) = _
    field_simp
  · unfold Bd
    rw [abs_of_pos X0]
    exact ⟨hX, hX'.trans (by norm_num)⟩

theorem fCm_got : Got (1 / 2 ^ 53) 1 20 (1 / 100) fCm :=
  part_got (by norm_num) (by decide +kernel) (by push_cast; norm_num) (by push_cast; norm_num) (by norm_num) (by norm_num)
theorem fCmh_got : Got (1 / 2 ^ 53) 1 20 (1 / 100000) fCmh :=
  part_got (by norm_num) (by decide +kernel) (by push_cast; norm_num) (by push_cast; norm_num) (by norm_num) (by norm_num)

/-- C101: from centimetres of the CGS system; the function for quantities of the SI does not take them. -/
theorem C101_cgs {d t : FVal} (hd : MidZero d) (ht : Mid t) :
    PrintedKmh 12 (d.q / 100000 / t.q) (fixedDoubleI progEnv ⟨cm64Ty, .f d⟩ ⟨hr64Ty, .f t⟩ >>= printedSpeedI progEnv) ∧
    PrintedKmh 6 (d.q / 100000 / t.q) (avgSpeedI progEnv ⟨cm64Ty, .f d⟩ ⟨hr64Ty, .f t⟩ >>= printedSpeedI progEnv) ∧
    siAvgI progEnv ⟨cm64Ty, .f d⟩ ⟨hr64Ty, .f t⟩ = .error .rejected := by
  have hδ : (1 / 2 ^ 53 : ℝ) ≤ 1 / 400 := by norm_num
  have t0 := ht.ne
  have gd := hd.got u_le hδ
  have gc := gd.mul u_le hδ fCm_got (by norm_num) (by norm_num)
  have gt := ht.got98.mul u_le hδ (nat_got (n := 3600) (by norm_num) (by norm_num) (by decide +kernel)) (by norm_num) (by norm_num)
  have t1 : (t.q : ℝ) * ((3600 : ℕ) : ℝ) ≠ 0 := mul_ne_zero t0 (by norm_num)
  have v := (gc.div u_le hδ gt t1 (by norm_num) (by norm_num)).mul u_le hδ f36_got (by norm_num) (by norm_num)
  have w := (gd.div u_le hδ ht.got98 t0 (by norm_num) (by norm_num)).mul u_le hδ fCmh_got (by norm_num) (by norm_num)
  have same : ∀ x : FVal, convertQtyI pE lightTy ⟨lightTy, .f x⟩ = .ok ⟨lightTy, .f x⟩ := fun x => convertQtyI_self pE ⟨lightTy, .f x⟩
  refine ⟨?_, ?_, ?_⟩
  · change PrintedKmh _ _ (fixedDoubleI pE _ _ >>= printedSpeedI pE)
    rw [fixedDoubleI, s_cm, ok_bind, s_hr, ok_bind, s_mps, ok_bind, same, ok_bind, s_p1]
    exact v.kmh (by norm_num) (by push_cast; field_simp; ring)
  · change PrintedKmh _ _ (avgSpeedI pE _ _ >>= printedSpeedI pE)
    rw [avgSpeedI, s_cmh, ok_bind, s_p4]
    exact w.kmh (by norm_num) (by field_simp)
  · exact if_neg (show ¬((Dim.base cgsLength) = .base siLength ∧ (Dim.base siTime) = .base siTime) by decide)

/-- 220 km in centimetres. -/
example : PrintedKmh 6 110 (avgSpeedI progEnv ⟨cm64Ty, .f (.fin false (22000000 : ℕ))⟩ ⟨hr64Ty, .f (.fin false (2 : ℕ))⟩ >>= printedSpeedI progEnv) := by
  have a := (C101_cgs (d := .fin false (22000000 : ℕ)) (t := .fin false (2 : ℕ)) (mz_nat (by norm_num) (by norm_num) (by decide +kernel)) (mid_nat (by norm_num) (by norm_num) (by decide +kernel))).2.1
  convert a using 1; norm_num [FVal.q]

/-! ### Integers -/

/-- Kilometres, miles and hours in integers. -/
def kmITy (i : IntTy) : QTy := ⟨.base siLength, siKilometre, .int i⟩
def miITy (i : IntTy) : QTy := ⟨.base siLength, siMile, .int i⟩
def hrITy (i : IntTy) : QTy := ⟨.base siTime, siHr, .int i⟩

theorem conv_int {E : Env} {s t : QTy} {i : IntTy} {c : Ratio} {F : ℚ} (z : ℤ) (hi : castRep (.int i) (.flt .f64) = .flt .f64) (h1 : s.rep = .int i) (h2 : t.rep = .flt .f64)
    (hd : dimEquivalent t.dim s.dim = .ok true) (hc : castRatio E.est s.dim s.unit t.dim t.unit = .ok c) (hF : castFactorI c = .fin false F) :
    convertQtyI E t ⟨s, .i z⟩ = .ok ⟨t, .f ((FVal.ofInt .f64 z).mul .f64 (.fin false F))⟩ := by
  have ne : s ≠ t := fun e => by rw [e, h2] at h1; cases h1
  have n : castNumI (.int i) (.flt .f64) c (.i z) = .ok (.f ((FVal.ofInt .f64 z).mul .f64 (.fin false F))) := by
    rw [← hF]
    unfold castNumI
    rw [hi]
    rfl
  simp only [convertQtyI, if_neg ne, safeCastable, hd, ok_bind, if_true, h2, Rep.floating, quantityCastI, hc, h1, n]

theorem castRep_intF64 (i : IntTy) : castRep (.int i) (.flt .f64) = .flt .f64 := by cases i <;> rfl

/-- C101: the function with metres and seconds takes quantities of integers, too. -/
theorem C101_int (i j : IntTy) {d t : ℤ} (hd : |d| ≤ 2 ^ 31) (ht : |t| ≤ 2 ^ 31) (h0 : t ≠ 0) :
    PrintedKmh 10 (d / t) (fixedDoubleI progEnv ⟨kmITy i, .i d⟩ ⟨hrITy j, .i t⟩ >>= printedSpeedI progEnv) ∧
    PrintedKmh 12 (d * (1609344 / 1000000) / t) (fixedDoubleI progEnv ⟨miITy i, .i d⟩ ⟨hrITy j, .i t⟩ >>= printedSpeedI progEnv) := by
  have hδ : (1 / 2 ^ 53 : ℝ) ≤ 1 / 400 := by norm_num
  have t0 : (t : ℝ) ≠ 0 := by exact_mod_cast h0
  have gd := k_int u_le hδ hd
  have gk := gd.mul u_le hδ (nat_got (n := 1000) (by norm_num) (by norm_num) (by decide +kernel)) (by norm_num) (by norm_num)
  have gm := gd.mul u_le hδ fMile_got (by norm_num) (by norm_num)
  have gt := (k_int u_le hδ ht).mul u_le hδ (nat_got (n := 3600) (by norm_num) (by norm_num) (by decide +kernel)) (by norm_num) (by norm_num)
  have t1 : (t : ℝ) * ((3600 : ℕ) : ℝ) ≠ 0 := mul_ne_zero t0 (by norm_num)
  have vk := (gk.div u_le hδ gt t1 (by norm_num) (by norm_num)).mul u_le hδ f36_got (by norm_num) (by norm_num)
  have vm := (gm.div u_le hδ gt t1 (by norm_num) (by norm_num)).mul u_le hδ f36_got (by norm_num) (by norm_num)
  have same : ∀ x : FVal, convertQtyI pE lightTy ⟨lightTy, .f x⟩ = .ok ⟨lightTy, .f x⟩ := fun x => convertQtyI_self pE ⟨lightTy, .f x⟩
  have ck : convertQtyI pE boxLen ⟨kmITy i, .i d⟩ = .ok ⟨boxLen, .f ((FVal.ofInt .f64 d).mul .f64 (.fin false (1000 : ℕ)))⟩ :=
    conv_int (c := ⟨1, 1, 3⟩) d (castRep_intF64 i) rfl rfl (show dimEquivalent (.base siLength) (.base siLength) = _ by decide +kernel)
      (show castRatio pE.est (.base siLength) siKilometre (.base siLength) siMetre = _ by decide +kernel) (by decide +kernel)
  have cm : convertQtyI pE boxLen ⟨miITy i, .i d⟩ = .ok ⟨boxLen, .f ((FVal.ofInt .f64 d).mul .f64 fMile)⟩ :=
    conv_int (c := ⟨25146, 15625, 3⟩) d (castRep_intF64 i) rfl rfl (show dimEquivalent (.base siLength) (.base siLength) = _ by decide +kernel)
      (show castRatio pE.est (.base siLength) siMile (.base siLength) siMetre = _ by decide +kernel) (by decide +kernel)
  have ch : convertQtyI pE durationTy ⟨hrITy j, .i t⟩ = .ok ⟨durationTy, .f ((FVal.ofInt .f64 t).mul .f64 (.fin false (3600 : ℕ)))⟩ :=
    conv_int (c := ⟨36, 1, 2⟩) t (castRep_intF64 j) rfl rfl (show dimEquivalent (.base siTime) (.base siTime) = _ by decide +kernel)
      (show castRatio pE.est (.base siTime) siHr (.base siTime) siSecond = _ by decide +kernel) (by decide +kernel)
  change PrintedKmh _ _ (fixedDoubleI pE _ _ >>= printedSpeedI pE) ∧ PrintedKmh _ _ (fixedDoubleI pE _ _ >>= printedSpeedI pE)
  constructor
  · rw [fixedDoubleI, ck, ok_bind, ch, ok_bind, s_mps, ok_bind, same, ok_bind, s_p1]
    exact vk.kmh (by norm_num) (by push_cast; field_simp; ring)
  · rw [fixedDoubleI, cm, ok_bind, ch, ok_bind, s_mps, ok_bind, same, ok_bind, s_p1]
    exact vm.kmh (by norm_num) (by push_cast; field_simp; ring)

/-- 140 miles in two hours as `int`. -/
example : PrintedKmh 12 ((140 : ℤ) * (1609344 / 1000000) / (2 : ℤ)) (fixedDoubleI progEnv ⟨miITy .i32, .i 140⟩ ⟨hrITy .i32, .i 2⟩ >>= printedSpeedI progEnv) :=
  (C101_int .i32 .i32 (d := 140) (t := 2) (by norm_num) (by norm_num) (by norm_num)).2

/-- C101: the functions of the program do not agree on the 220 km in two hours of the program: the one with metres and seconds gives more than 110 km/h. -/
theorem C101_agree_wrong :
    (fixedDoubleI progEnv ⟨km64Ty, .f (.fin false 220)⟩ ⟨hr64Ty, .f (.fin false 2)⟩ >>= printedSpeedI progEnv) = .ok ⟨⟨.named siSpeed, siKmh, .flt .f64⟩, .f (.fin false (110 + 1 / 2 ^ 46))⟩ ∧
    (siAvgI progEnv ⟨km64Ty, .f (.fin false 220)⟩ ⟨hr64Ty, .f (.fin false 2)⟩ >>= printedSpeedI progEnv) = .ok ⟨⟨.named siSpeed, siKmh, .flt .f64⟩, .f (.fin false 110)⟩ := by
  constructor <;> decide +kernel

/-- C101: the conversion factors of the two directions are not inverse to each other: those between miles per hour and kilometres per hour do not give one. -/
theorem C101_inverse_wrong : ∃ k l, conversionFactorI progEnv (sp64Ty siKmh) (sp64Ty siMph) = .ok (.f k) ∧ conversionFactorI progEnv (sp64Ty siMph) (sp64Ty siKmh) = .ok (.f l) ∧
    k.mul .f64 l ≠ .fin false 1 :=
  ⟨fMph, .fin false (1399203534909409 / 2 ^ 51), by decide +kernel, by decide +kernel, by decide +kernel⟩


end Verif
