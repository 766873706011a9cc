import Verif.DimLemmas

/-! # Properties C13 (derived dimensions), C14 (products), C15 (powers) and C16 (several systems)

The specification vocabulary is `Dim.exp d b`, the exponent of the base dimension `b` in `d`, and
`recipeExp`, the exponent a recipe denotes.  `Separated P` says that the base dimensions in `P` are told
apart by their symbols, which is how the library documents base dimensions of one system.
-/

namespace Verif

/-! ### Dimensions used in the examples -/

/-- Example base dimension `L` with unit metre. -/
def exL : BaseDim := ⟨"si::dim_length", "L", ⟨.named "metre", Ratio.one, "metre", [], true, "m", some "si"⟩⟩
/-- Example base dimension `T` with unit second. -/
def exT : BaseDim := ⟨"si::dim_time", "T", ⟨.named "second", Ratio.one, "second", [], true, "s", some "si"⟩⟩
/-- Example base dimension `L` of another system, with unit centimetre. -/
def exLcgs : BaseDim := ⟨"cgs::dim_length", "L", ⟨.named "centimetre", ⟨1, 1, -2⟩, "metre", [], true, "cm", none⟩⟩
/-- Example derived dimensions. -/
def exArea : NamedDim := ⟨"dim_area", [⟨exL, 2, 1⟩], unknownCoherentUnit⟩
def exSpeed : NamedDim := ⟨"dim_speed", [⟨exL, 1, 1⟩, ⟨exT, -1, 1⟩], unknownCoherentUnit⟩
def exAccel : NamedDim := ⟨"dim_acceleration", [⟨exL, 1, 1⟩, ⟨exT, -2, 1⟩], unknownCoherentUnit⟩
def exRadius : NamedDim := ⟨"dim_radius", [⟨exL, 1, 1⟩], unknownCoherentUnit⟩
/-- The registry after these definitions. -/
def exReg : DimReg := fun es => [exArea, exSpeed, exAccel].find? fun n => n.exps = es

theorem exReg_ok : exReg.OK := by
  intro es n h
  simpa using List.find?_some h

/-- The base dimensions of the example system. -/
def ExBase (b : BaseDim) : Prop := b = exL ∨ b = exT

theorem exBase_separated : Separated ExBase := by
  rintro a b (rfl | rfl) (rfl | rfl) h
  · rfl
  · exact absurd h (by decide)
  · exact absurd h (by decide)
  · rfl

theorem noTen_of {x : ℚ} {n d : Int} (hx : x = (n : ℚ) / d) (hd : 0 < d)
    (hc : Nat.Coprime n.natAbs d.natAbs) (h1 : ¬ (10 : Int) ∣ n) (h2 : ¬ (10 : Int) ∣ d) : NoTen x := by
  subst hx
  refine ⟨?_, ?_⟩
  · rw [Rat.num_div_eq_of_coprime hd hc]; exact h1
  · rw [Rat.den_div_eq_of_coprime hd hc]; exact h2

/-! ## C13 -/

/-- C13: in the dimension made of a recipe, every base dimension has exactly the sum of the exponents
contributed by the recipe's items.  Partial: every multiplication of a nested exponent must be free of
powers of ten (`RecipeItem.Exact`), see `C13_nested_power_of_ten_lost`. -/
theorem C13_exponents_sum_partial (recipe : List RecipeItem) (es : List Exp)
    (h : makeDimension recipe = .ok es) (hx : ∀ i ∈ recipe, i.Exact) (b : BaseDim) :
    expOf es b = recipeExp recipe b := by
  unfold makeDimension at h
  simp only [bind_ok] at h
  obtain ⟨u, hu, hn⟩ := h
  rw [normalizeExps_expOf hn b, (dimUnpack_spec hu hx).1 b]

/-- C13, without any restriction for recipes that mention only base dimensions. -/
theorem C13_base_recipe_sum (items : List Exp) (es : List Exp)
    (h : makeDimension (items.map fun e => ⟨.base e.dim, e.num, e.den⟩) = .ok es) (b : BaseDim) :
    expOf es b = ((items.filter fun e => e.dim = b).map fun e => (e.num : ℚ) / e.den).sum := by
  unfold makeDimension at h
  simp only [bind_ok] at h
  obtain ⟨u, hu, hn⟩ := h
  rw [normalizeExps_expOf hn b]
  have : u = items := by
    clear hn
    induction items generalizing u with
    | nil => simpa [dimUnpack] using hu.symm
    | cons e items ih =>
      simp only [List.map_cons, dimUnpack, bind_ok, Except.ok.injEq] at hu
      obtain ⟨tl, htl, rfl⟩ := hu
      rw [ih tl htl]; rfl
  rw [this]; rfl

example : makeDimension (([⟨exL, 1, 1⟩, ⟨exT, -1, 1⟩, ⟨exL, 1, 2⟩, ⟨exT, 1, 1⟩] : List Exp).map
    fun e => ⟨.base e.dim, e.num, e.den⟩) = .ok [⟨exL, 3, 2⟩] := by decide +kernel

/-- C13: the dimension made of a recipe is in canonical form: exponents in lowest terms, none zero, one
per base dimension, in the order of the symbols.  Partial: as above, and the base dimensions involved
have different symbols. -/
theorem C13_canonical_partial (P : BaseDim → Prop) (hP : Separated P) (recipe : List RecipeItem)
    (es : List Exp) (h : makeDimension recipe = .ok es) (hx : ∀ i ∈ recipe, i.Exact)
    (hp : ∀ i ∈ recipe, ∀ l, i.dim.exps = .ok l → ∀ e ∈ l, P e.dim) :
    (∀ e ∈ es, 0 < e.den ∧ Int.gcd e.num e.den = 1 ∧ e.num ≠ 0) ∧
      es.Pairwise fun a b => a.dim.symbol < b.dim.symbol := by
  unfold makeDimension at h
  simp only [bind_ok] at h
  obtain ⟨u, hu, hn⟩ := h
  obtain ⟨-, s2, s3⟩ := dimUnpack_spec hu hx
  have hperm := TypeList.sort_perm expLess u
  obtain ⟨c, -⟩ := consolidate_canon hP hn (TypeList.sort_ordered expLess_weak u)
    (fun e he => by
      obtain ⟨i, hi, l, hl, e0, h0, h1⟩ := s3 e (hperm.mem_iff.mp he)
      rw [← h1]; exact hp i hi l hl e0 h0)
    (fun e he => s2 e (hperm.mem_iff.mp he))
  exact ⟨fun e he => ⟨(c.reduced e he).den_pos, (c.reduced e he).coprime, (c.reduced e he).num_ne⟩, c.strict⟩

/-- C13: two recipes denoting the same product of powers of base dimensions make the same dimension,
whatever their order, grouping and nesting.  Partial: as above. -/
theorem C13_recipe_independent_partial (P : BaseDim → Prop) (hP : Separated P)
    (r1 r2 : List RecipeItem) (es1 es2 : List Exp)
    (h1 : makeDimension r1 = .ok es1) (h2 : makeDimension r2 = .ok es2)
    (hx1 : ∀ i ∈ r1, i.Exact) (hx2 : ∀ i ∈ r2, i.Exact)
    (hp : ∀ i ∈ r1 ++ r2, ∀ l, i.dim.exps = .ok l → ∀ e ∈ l, P e.dim)
    (heq : ∀ b, recipeExp r1 b = recipeExp r2 b) : es1 = es2 := by
  have c1 := C13_canonical_partial P hP r1 es1 h1 hx1 fun i hi => hp i (by simp [hi])
  have c2 := C13_canonical_partial P hP r2 es2 h2 hx2 fun i hi => hp i (by simp [hi])
  refine Canon.ext ⟨fun e he => ⟨(c1.1 e he).1, (c1.1 e he).2.1, (c1.1 e he).2.2⟩, c1.2⟩
    ⟨fun e he => ⟨(c2.1 e he).1, (c2.1 e he).2.1, (c2.1 e he).2.2⟩, c2.2⟩ fun b => ?_
  rw [C13_exponents_sum_partial r1 es1 h1 hx1, C13_exponents_sum_partial r2 es2 h2 hx2, heq]

/-- The recipes `T^-1 · speed` and `L · T^-2` of acceleration. -/
def exRecipe1 : List RecipeItem := [⟨.base exT, -1, 1⟩, ⟨.named exSpeed, 1, 1⟩]
def exRecipe2 : List RecipeItem := [⟨.base exL, 1, 1⟩, ⟨.base exT, -2, 1⟩]

theorem exRecipe_exact : ∀ i ∈ exRecipe1 ++ exRecipe2, i.Exact := by
  intro i hi
  simp only [exRecipe1, exRecipe2, List.cons_append, List.nil_append, List.mem_cons, List.not_mem_nil, or_false] at hi
  rcases hi with rfl | rfl | rfl | rfl
  · exact ⟨fun b hb => ⟨by norm_num, by norm_num, by norm_num⟩, by decide, fun h => absurd rfl (h _)⟩
  · refine ⟨fun b hb => by simp at hb, by decide, fun _ es hes => ?_⟩
    simp only [Dim.exps, Except.ok.injEq, exSpeed] at hes
    subst hes
    refine ⟨noTen_of (n := 1) (d := 1) rfl (by decide) (by decide) (by decide) (by decide), ?_⟩
    intro e he
    simp only [List.mem_cons, List.not_mem_nil, or_false] at he
    rcases he with rfl | rfl
    · exact ⟨by decide, by decide, noTen_of (n := 1) (d := 1) rfl (by decide) (by decide) (by decide) (by decide),
        noTen_of (n := 1) (d := 1) (by simp [Exp.q]) (by decide) (by decide) (by decide) (by decide)⟩
    · exact ⟨by decide, by decide, noTen_of (n := -1) (d := 1) rfl (by decide) (by decide) (by decide) (by decide),
        noTen_of (n := -1) (d := 1) (by simp [Exp.q]) (by decide) (by decide) (by decide) (by decide)⟩
  · exact ⟨fun b hb => ⟨by norm_num, by norm_num, by norm_num⟩, by decide, fun h => absurd rfl (h _)⟩
  · exact ⟨fun b hb => ⟨by norm_num, by norm_num, by norm_num⟩, by decide, fun h => absurd rfl (h _)⟩

example : makeDimension exRecipe1 = .ok exAccel.exps ∧ makeDimension exRecipe2 = .ok exAccel.exps ∧
    (∀ i ∈ exRecipe1 ++ exRecipe2, ∀ l, i.dim.exps = .ok l → ∀ e ∈ l, ExBase e.dim) := by
  refine ⟨by decide +kernel, by decide +kernel, ?_⟩
  intro i hi l hl e he
  simp only [exRecipe1, exRecipe2, List.cons_append, List.nil_append, List.mem_cons, List.not_mem_nil, or_false] at hi
  rcases hi with rfl | rfl | rfl | rfl <;>
  · simp only [Dim.exps, Except.ok.injEq, exSpeed] at hl
    subst hl
    simp only [List.mem_cons, List.not_mem_nil, or_false] at he
    rcases he with rfl | rfl <;> simp [ExBase]

/-- The unchanged code violates the claim: the fifth power of an area, nested in a recipe, is
recorded as the first power of the length (the power of ten of the product is dropped). -/
theorem C13_nested_power_of_ten_lost :
    makeDimension [⟨.named exArea, 5, 1⟩] = .ok [⟨exL, 1, 1⟩] ∧
      recipeExp [⟨.named exArea, 5, 1⟩] exL = 10 := by
  refine ⟨by decide +kernel, ?_⟩
  simp [recipeExp, Dim.exp, exArea, expOf, Exp.q]; norm_num

/-- The unchanged code violates the claim: a single exponent is never normalised, so `L^0` and `L^(2/4)`
stay as written. -/
theorem C13_single_exponent_kept :
    makeDimension [⟨.base exL, 0, 1⟩] = .ok [⟨exL, 0, 1⟩] ∧
      makeDimension [⟨.base exL, 2, 4⟩] = .ok [⟨exL, 2, 4⟩] ∧
      makeDimension [⟨.base exL, 1, 2⟩] = .ok [⟨exL, 1, 2⟩] := by decide +kernel

/-! ## C14 -/

/-- C14: the dimension of a product has for every base dimension the sum of the operands' exponents. -/
theorem C14_multiply_exponents (Γ : DimReg) (hΓ : Γ.OK) (d1 d2 d : Dim)
    (h : dimMultiply Γ d1 d2 = .ok d) (b : BaseDim) : d.exp b = d1.exp b + d2.exp b :=
  dimMultiply_exp hΓ h b

example : dimMultiply exReg (.named exSpeed) (.base exT) = .ok (.base exL) := by decide +kernel

/-- C14: the dimension of a quotient has for every base dimension the difference of the exponents. -/
theorem C14_divide_exponents (Γ : DimReg) (hΓ : Γ.OK) (d1 d2 d : Dim)
    (h : dimDivide Γ d1 d2 = .ok d) (b : BaseDim) : d.exp b = d1.exp b - d2.exp b :=
  dimDivide_exp hΓ h b

example : dimDivide exReg (.named exSpeed) (.base exT) = .ok (.named exAccel) := by decide +kernel

/-- C14: products of dimensions in normal form over separated base dimensions are in normal form; so are
quotients.  (Base dimensions and registered derived dimensions are in normal form: `base_normal`,
`named_normal`.) -/
theorem C14_results_normal_partial (Γ : DimReg) (hΓ : Γ.OK) (P : BaseDim → Prop) (hP : Separated P)
    (d1 d2 d : Dim) (h1 : d1.Normal Γ P) (h2 : d2.Normal Γ P)
    (h : dimMultiply Γ d1 d2 = .ok d ∨ dimDivide Γ d1 d2 = .ok d) : d.Normal Γ P := by
  rcases h with h | h
  · exact dimMultiply_normal hΓ hP h1 h2 h
  · unfold dimDivide at h
    simp only [bind_ok] at h
    obtain ⟨i, hi, hm⟩ := h
    exact dimMultiply_normal hΓ hP h1 (dimInvert_normal hΓ h2 hi) hm

theorem base_normal (Γ : DimReg) {P : BaseDim → Prop} {b : BaseDim} (hb : P b) : (Dim.base b).Normal Γ P :=
  ⟨[⟨b, 1, 1⟩], Canon.singleton ⟨by simp, by simp, by simp⟩, by simpa using hb, rfl⟩

theorem named_normal {Γ : DimReg} {P : BaseDim → Prop} {n : NamedDim} (hn : Γ n.exps = some n)
    (hc : Canon n.exps) (hp : ∀ e ∈ n.exps, P e.dim) (hne : ∀ b, n.exps ≠ [⟨b, 1, 1⟩]) :
    (Dim.named n).Normal Γ P := by
  refine ⟨n.exps, hc, hp, ?_⟩
  rcases toDimension_cases Γ n.exps with ⟨b, h, -⟩ | ⟨-, h⟩
  · exact absurd h (hne b)
  · rw [h]; unfold downcastDim; rw [hn]

theorem exSpeed_normal : (Dim.named exSpeed).Normal exReg ExBase := by
  refine named_normal (by decide +kernel) ⟨?_, by decide +kernel⟩ ?_ (by simp [exSpeed])
  · intro e he
    simp only [exSpeed, List.mem_cons, List.not_mem_nil, or_false] at he
    rcases he with rfl | rfl <;> exact ⟨by decide, by decide, by decide⟩
  · intro e he
    simp only [exSpeed, List.mem_cons, List.not_mem_nil, or_false] at he
    rcases he with rfl | rfl <;> simp [ExBase]

/-- C14: multiplication of dimensions is commutative, including which products are accepted.  Partial:
for base dimensions told apart by their symbols; for others see `C16_order_dependent`. -/
theorem C14_multiply_comm_partial (Γ : DimReg) (hΓ : Γ.OK) (P : BaseDim → Prop) (hP : Separated P)
    (d1 d2 : Dim) (h1 : d1.Normal Γ P) (h2 : d2.Normal Γ P) :
    dimMultiply Γ d1 d2 = dimMultiply Γ d2 d1 := by
  obtain ⟨l, cl, pl, rfl⟩ := h1
  obtain ⟨r, cr, pr, rfl⟩ := h2
  rw [dimMultiply_eq_merge hΓ hP cl cr pl pr, dimMultiply_eq_merge hΓ hP cr cl pr pl,
    mergeDim_comm hP cl cr pl pr]

example : exReg.OK ∧ Separated ExBase ∧ (Dim.named exSpeed).Normal exReg ExBase ∧
    (Dim.base exT).Normal exReg ExBase ∧
    dimMultiply exReg (.named exSpeed) (.named exSpeed) = .ok (.unknown [⟨exL, 2, 1⟩, ⟨exT, -2, 1⟩]) :=
  ⟨exReg_ok, exBase_separated, exSpeed_normal, base_normal _ (Or.inr rfl), by decide +kernel⟩

/-- C14: multiplication of dimensions is associative. -/
theorem C14_multiply_assoc_partial (Γ : DimReg) (hΓ : Γ.OK) (P : BaseDim → Prop) (hP : Separated P)
    (d1 d2 d3 d12 d23 x y : Dim) (h1 : d1.Normal Γ P) (h2 : d2.Normal Γ P) (h3 : d3.Normal Γ P)
    (h12 : dimMultiply Γ d1 d2 = .ok d12) (hx : dimMultiply Γ d12 d3 = .ok x)
    (h23 : dimMultiply Γ d2 d3 = .ok d23) (hy : dimMultiply Γ d1 d23 = .ok y) : x = y := by
  have n12 := dimMultiply_normal hΓ hP h1 h2 h12
  have n23 := dimMultiply_normal hΓ hP h2 h3 h23
  refine Dim.Normal.ext hΓ (dimMultiply_normal hΓ hP n12 h3 hx) (dimMultiply_normal hΓ hP h1 n23 hy)
    fun b => ?_
  rw [dimMultiply_exp hΓ hx, dimMultiply_exp hΓ hy, dimMultiply_exp hΓ h12, dimMultiply_exp hΓ h23]
  ring

example : dimMultiply exReg (.named exSpeed) (.base exT) = .ok (.base exL) ∧
    dimMultiply exReg (.base exL) (.base exL) = .ok (.named exArea) ∧
    dimMultiply exReg (.base exT) (.base exL) = .ok (.unknown [⟨exL, 1, 1⟩, ⟨exT, 1, 1⟩]) ∧
    dimMultiply exReg (.named exSpeed) (.unknown [⟨exL, 1, 1⟩, ⟨exT, 1, 1⟩]) = .ok (.named exArea) := by
  decide +kernel

/-- C14: dividing a dimension by itself gives the dimension without exponents (dimensionless). -/
theorem C14_divide_self_partial (Γ : DimReg) (hΓ : Γ.OK) (P : BaseDim → Prop) (hP : Separated P)
    (d x : Dim) (hd : d.Normal Γ P) (h : dimDivide Γ d d = .ok x) : x = downcastDim Γ [] := by
  have nx := C14_results_normal_partial Γ hΓ P hP d d x hd hd (Or.inr h)
  refine Dim.Normal.ext hΓ (Q := P) nx ⟨[], Canon.nil, by simp, rfl⟩ fun b => ?_
  rw [dimDivide_exp hΓ h, downcastDim_exp hΓ, expOf_nil, sub_self]

example : dimDivide exReg (.named exSpeed) (.named exSpeed) = .ok (.unknown []) := by decide +kernel

/-- C14: the dimension without exponents is neutral; the product is always accepted. -/
theorem C14_one_neutral_partial (Γ : DimReg) (hΓ : Γ.OK) (P : BaseDim → Prop) (hP : Separated P)
    (d : Dim) (hd : d.Normal Γ P) :
    dimMultiply Γ d (downcastDim Γ []) = .ok d ∧ dimMultiply Γ (downcastDim Γ []) d = .ok d := by
  obtain ⟨l, cl, pl, rfl⟩ := hd
  have key : dimMultiply Γ (toDimension Γ l) (toDimension Γ []) = .ok (toDimension Γ l) := by
    rw [dimMultiply_eq_merge hΓ hP cl Canon.nil pl (by simp)]
    unfold mergeDim
    rw [TypeList.mergeSorted_nil_right, consolidate_strict cl.strict, ok_bind]
  have e : toDimension Γ [] = downcastDim Γ [] := rfl
  refine ⟨by rw [← e]; exact key, ?_⟩
  rw [← e, dimMultiply_eq_merge hΓ hP Canon.nil cl (by simp) pl]
  unfold mergeDim
  rw [TypeList.mergeSorted_nil_left, consolidate_strict cl.strict, ok_bind]

example : dimMultiply exReg (.named exSpeed) (.unknown []) = .ok (.named exSpeed) := by decide +kernel

/-- The hypothesis that a derived dimension is not a base dimension to the power one is needed: for such
an alias dimension one is not neutral, the product is the base dimension. -/
theorem C14_alias_of_base_not_neutral :
    ∃ n : NamedDim, ∃ Γ : DimReg, Γ.OK ∧ Γ n.exps = some n ∧ Canon n.exps ∧
      dimMultiply Γ (.named n) (downcastDim Γ []) = .ok (.base exL) := by
  refine ⟨exRadius, fun es => if es = [⟨exL, 1, 1⟩] then some exRadius else none, ?_, by decide +kernel,
    Canon.singleton ⟨by decide, by decide, by decide⟩, by decide +kernel⟩
  intro es n h
  simp only at h
  split at h
  · rename_i he; simp only [Option.some.injEq] at h; rw [← h, he]; rfl
  · cases h

/-! ## C15 -/

/-- C15: raising to the power `num/den` multiplies every exponent by `num/den`.  Partial: for derived
dimensions no power of ten may appear in the products (`PowExact`), see `C15_pow_ten_lost`. -/
theorem C15_pow_exponents_partial (Γ : DimReg) (hΓ : Γ.OK) (d d' : Dim) (num den : Int)
    (h : dimPow Γ d num den = .ok d') (hx : (∀ b, d ≠ .base b) → PowExact d num den) (b : BaseDim) :
    d'.exp b = ((num : ℚ) / den) * d.exp b :=
  dimPow_exp hΓ h hx b

theorem exSpeed_pow (n : Int) (hi : I64 n) (h2 : ¬ (10 : Int) ∣ n) : PowExact (.named exSpeed) n 1 := by
  have hn : ¬ (10 : Int) ∣ -n := by rwa [dvd_neg]
  refine ⟨⟨hi, by decide⟩, noTen_of (n := n) (d := 1) (by simp) (by decide) (by simp) h2 (by decide), ?_⟩
  intro es hes e he
  simp only [Dim.exps, Except.ok.injEq, exSpeed] at hes
  subst hes
  simp only [List.mem_cons, List.not_mem_nil, or_false] at he
  rcases he with rfl | rfl
  · exact ⟨by decide, by decide, noTen_of (n := 1) (d := 1) rfl (by decide) (by decide) (by decide) (by decide),
      noTen_of (n := n) (d := 1) (by simp [Exp.q]) (by decide) (by simp) h2 (by decide)⟩
  · exact ⟨by decide, by decide, noTen_of (n := -1) (d := 1) rfl (by decide) (by decide) (by decide) (by decide),
      noTen_of (n := -n) (d := 1) (by simp [Exp.q]) (by decide) (by simp) hn (by decide)⟩

example : PowExact (.named exSpeed) 2 1 ∧
    dimPow exReg (.named exSpeed) 2 1 = .ok (.unknown [⟨exL, 2, 1⟩, ⟨exT, -2, 1⟩]) :=
  ⟨exSpeed_pow 2 (by decide) (by decide), by decide +kernel⟩

/-- C15: powers of base dimensions are right without restriction, for every power. -/
theorem C15_pow_base (Γ : DimReg) (hΓ : Γ.OK) (c b : BaseDim) (num den : Int) :
    ∃ d', dimPow Γ (.base c) num den = .ok d' ∧ d'.exp b = if c = b then (num : ℚ) / den else 0 := by
  have hok : ∃ d', dimPow Γ (.base c) num den = .ok d' := by
    unfold dimPow
    split <;> rename_i h
    · split <;> exact ⟨_, rfl⟩
    · exact absurd rfl (h c)
  obtain ⟨d', h⟩ := hok
  refine ⟨d', h, ?_⟩
  rw [dimPow_exp hΓ h (fun h => absurd rfl (h c))]
  simp [Dim.exp]

/-- C15: integral powers agree with repeated multiplication: the type of `pow<n+1>(q)` is the type of
`pow<n>(q) * q`. -/
theorem C15_pow_succ_partial (Γ : DimReg) (hΓ : Γ.OK) (P : BaseDim → Prop) (hP : Separated P)
    (d dn ds x : Dim) (n : Int) (hn : 0 < n) (hd : d.Normal Γ P)
    (h : dimPow Γ d n 1 = .ok dn) (h' : dimPow Γ d (n + 1) 1 = .ok ds) (hm : dimMultiply Γ dn d = .ok x)
    (hx : (∀ b, d ≠ .base b) → PowExact d n 1 ∧ PowExact d (n + 1) 1) : x = ds := by
  have n1 := dimPow_normal hΓ hd h (fun hb => (hx hb).1) hn (by decide) (by simp)
  have n2 := dimPow_normal hΓ hd h' (fun hb => (hx hb).2) (by omega) (by decide) (by simp)
  refine Dim.Normal.ext hΓ (dimMultiply_normal hΓ hP n1 hd hm) n2 fun b => ?_
  rw [dimMultiply_exp hΓ hm, dimPow_exp hΓ h (fun hb => (hx hb).1), dimPow_exp hΓ h' (fun hb => (hx hb).2)]
  push_cast; ring

example : (Dim.named exSpeed).Normal exReg ExBase ∧ PowExact (.named exSpeed) 2 1 ∧
    PowExact (.named exSpeed) 3 1 ∧
    dimPow exReg (.named exSpeed) 3 1 = .ok (.unknown [⟨exL, 3, 1⟩, ⟨exT, -3, 1⟩]) :=
  ⟨exSpeed_normal, exSpeed_pow 2 (by decide) (by decide),
    exSpeed_pow 3 (by decide) (by decide), by decide +kernel⟩

/-- C15: `pow<den, num>` undoes `pow<num, den>`: the original dimension type comes back. -/
theorem C15_pow_root_partial (Γ : DimReg) (hΓ : Γ.OK) (P : BaseDim → Prop)
    (d x y : Dim) (num den : Int) (hn : 0 < num) (hden : 0 < den) (hc : Int.gcd num den = 1)
    (hd : d.Normal Γ P) (h : dimPow Γ d num den = .ok x) (h' : dimPow Γ x den num = .ok y)
    (hx : (∀ b, d ≠ .base b) → PowExact d num den) (hy : (∀ b, x ≠ .base b) → PowExact x den num) :
    y = d := by
  have n1 := dimPow_normal hΓ hd h hx hn hden hc
  have n2 := dimPow_normal hΓ n1 h' hy hden hn (by rw [Int.gcd_comm]; exact hc)
  refine Dim.Normal.ext hΓ n2 hd fun b => ?_
  rw [dimPow_exp hΓ h' hy, dimPow_exp hΓ h hx]
  have : (num : ℚ) ≠ 0 := by exact_mod_cast hn.ne'
  have : (den : ℚ) ≠ 0 := by exact_mod_cast hden.ne'
  field_simp

example : dimPow exReg (.base exL) 2 1 = .ok (.named exArea) ∧
    dimPow exReg (.named exArea) 1 2 = .ok (.base exL) := by decide +kernel

/-- The unchanged code violates the claim: the tenth power of a speed is recorded as the first power, the
fifth power of an area as a length to the power one. -/
theorem C15_pow_ten_lost :
    dimPow exReg (.named exSpeed) 10 1 = .ok (.named exSpeed) ∧
      dimPow exReg (.named exArea) 5 1 = .ok (.unknown [⟨exL, 1, 1⟩]) ∧
      (10 : ℚ) / 1 * (Dim.named exSpeed).exp exL ≠ (Dim.named exSpeed).exp exL := by
  refine ⟨by decide +kernel, by decide +kernel, ?_⟩
  have : (Dim.named exSpeed).exp exL = 1 := by
    have hne : exT ≠ exL := by decide
    simp [Dim.exp, exSpeed, expOf_cons, expOf_nil, Exp.q, hne]
  rw [this]; norm_num

/-- The unchanged code does not simplify the power of a base dimension: `pow<2,4>` and `pow<1,2>` of a
length have the same exponent but are different types. -/
theorem C15_pow_fraction_not_reduced :
    dimPow exReg (.base exL) 2 4 = .ok (.unknown [⟨exL, 2, 4⟩]) ∧
      dimPow exReg (.base exL) 1 2 = .ok (.unknown [⟨exL, 1, 2⟩]) := by decide +kernel

/-! ## C16 -/

/-- C16: also when base dimensions of several systems share a symbol, the product has the right exponent
of each of them. -/
theorem C16_exponents (Γ : DimReg) (hΓ : Γ.OK) (d1 d2 x y : Dim) (b : BaseDim)
    (h : dimMultiply Γ d1 d2 = .ok x) (h' : dimMultiply Γ d2 d1 = .ok y) :
    x.exp b = d1.exp b + d2.exp b ∧ x.exp b = y.exp b := by
  refine ⟨dimMultiply_exp hΓ h b, ?_⟩
  rw [dimMultiply_exp hΓ h b, dimMultiply_exp hΓ h' b, add_comm]

example : exL.symbol = exLcgs.symbol ∧ exL ≠ exLcgs ∧
    dimMultiply exReg (.base exL) (.base exLcgs) = .ok (.unknown [⟨exLcgs, 1, 1⟩, ⟨exL, 1, 1⟩]) := by
  decide +kernel

/-- The unchanged code violates the claim: the type of the product of an SI length and a CGS length
depends on the order of the factors (the comparison of base dimensions compares a unit symbol with itself),
and exponents of one base dimension are left unmerged. -/
theorem C16_order_dependent :
    dimMultiply exReg (.base exL) (.base exLcgs) ≠ dimMultiply exReg (.base exLcgs) (.base exL) ∧
    (dimMultiply exReg (.base exL) (.base exLcgs) >>= fun x => dimMultiply exReg x (.base exLcgs)) ≠
      (dimMultiply exReg (.base exLcgs) (.base exLcgs) >>= fun x => dimMultiply exReg (.base exL) x) ∧
    ∃ x, (dimMultiply exReg (.base exLcgs) (.base exL) >>= fun x => dimMultiply exReg x (.base exLcgs)) =
      .ok (.unknown x) ∧ (x.filter fun e => e.dim = exLcgs).length = 2 := by
  refine ⟨by decide +kernel, by decide +kernel, ?_⟩
  exact ⟨[⟨exLcgs, 1, 1⟩, ⟨exL, 1, 1⟩, ⟨exLcgs, 1, 1⟩], by decide +kernel, by decide +kernel⟩

end Verif
