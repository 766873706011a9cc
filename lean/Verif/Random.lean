import Verif.Quantity

/-!
# `units/random.h`: random distributions of quantities

A distribution of the standard library is a parameter: its state, its constructors, its accessors and how a number is drawn
are arbitrary functions (`StdDist`); what is modelled is how the classes of `units/random.h`, which derive from the standard ones,
translate between quantities and numbers.
-/

namespace Verif

/-- A distribution of the standard library with random number engines of type `G` ([rand.req.dist]), the base class of the classes of
src/core/include/units/random.h:74-482. -/
structure StdDist (G : Type) where
  State : Type
  /-- the constructor without parameters -/
  dflt : State
  /-- the constructor from the parameters -/
  ctor : List Num → State
  /-- the accessors of the parameters -/
  params : State → List Num
  /-- `operator()` -/
  draw : State → G → Num × State × G
  min : State → Num
  max : State → Num

/-- What a constructor parameter is: a quantity `const Q&`, or a number (`double` or `const rep&`). -/
inductive DParKind where
  | qty | plain
deriving DecidableEq, Repr

/-- The constraint on `Q::rep`. -/
inductive RepReq where
  | integral | floating
deriving DecidableEq, Repr

/-- A class of src/core/include/units/random.h. -/
structure DistClass where
  name : String
  req : RepReq
  params : List (String × DParKind)
deriving DecidableEq, Repr

/-- The classes with numeric parameters, src/core/include/units/random.h:74-365. -/
def distClasses : List DistClass :=
  [⟨"uniform_int_distribution", .integral, [("a", .qty), ("b", .qty)]⟩,                -- lines 74-92
   ⟨"uniform_real_distribution", .floating, [("a", .qty), ("b", .qty)]⟩,               -- 94-112
   ⟨"binomial_distribution", .integral, [("t", .qty), ("p", .plain)]⟩,                 -- 114-131
   ⟨"negative_binomial_distribution", .integral, [("k", .qty), ("p", .plain)]⟩,        -- 133-150
   ⟨"geometric_distribution", .integral, [("p", .plain)]⟩,                             -- 152-167
   ⟨"poisson_distribution", .integral, [("mean", .plain)]⟩,                            -- 169-184
   ⟨"exponential_distribution", .floating, [("lambda", .plain)]⟩,                      -- 186-201
   ⟨"gamma_distribution", .floating, [("alpha", .plain), ("beta", .plain)]⟩,           -- 203-218
   ⟨"weibull_distribution", .floating, [("a", .plain), ("b", .plain)]⟩,                -- 220-235
   ⟨"extreme_value_distribution", .floating, [("a", .qty), ("b", .plain)]⟩,            -- 237-254
   ⟨"normal_distribution", .floating, [("mean", .qty), ("stddev", .qty)]⟩,             -- 256-274
   ⟨"lognormal_distribution", .floating, [("m", .qty), ("s", .qty)]⟩,                  -- 276-294
   ⟨"chi_squared_distribution", .floating, [("n", .plain)]⟩,                           -- 296-311
   ⟨"cauchy_distribution", .floating, [("a", .qty), ("b", .qty)]⟩,                     -- 313-331
   ⟨"fisher_f_distribution", .floating, [("m", .plain), ("n", .plain)]⟩,               -- 333-348
   ⟨"student_t_distribution", .floating, [("n", .plain)]⟩]                             -- 350-365

/-- A constructor argument. -/
inductive DArg where
  | qty (q : Qty)
  | plain (x : Num)

/-- `requires std::integral<typename Q::rep>` or `requires std::floating_point<typename Q::rep>`, src/core/include/units/random.h:75 and so on. -/
def repOk (req : RepReq) (r : Rep) : Bool :=
  match req with
  | .integral => !r.floating
  | .floating => r.floating

/-- The numbers handed to the constructor of the standard distribution: `a.number()` for a quantity, which is first converted to `Q`
when it has another type, src/core/include/units/random.h:82 and so on. -/
def baseArgs (E : Env) (t : QTy) : List (String × DParKind) → List DArg → C (List Num)
  | [], [] => .ok []
  | (_, .qty) :: ps, .qty q :: as => do
    let x ← convertQty E t q
    let xs ← baseArgs E t ps as
    .ok (x.num :: xs)
  | (_, .plain) :: ps, .plain x :: as => do
    let xs ← baseArgs E t ps as
    .ok (x :: xs)
  | _, _ => .error .rejected

/-- The constructor from the parameters, src/core/include/units/random.h:82 and so on. -/
def distCtor {G : Type} (E : Env) (t : QTy) (D : StdDist G) (c : DistClass) (as : List DArg) : C D.State :=
  if repOk c.req t.rep then do
    let xs ← baseArgs E t c.params as
    .ok (D.ctor xs)
  else .error .rejected

/-- `operator()`: `Q(base::operator()(g))`, src/core/include/units/random.h:84-85 and so on. -/
def distDraw {G : Type} (E : Env) (t : QTy) (D : StdDist G) (s : D.State) (g : G) : C (Qty × D.State × G) := do
  let r := D.draw s g
  let q ← mkQty E t t.rep r.1
  .ok (q, r.2.1, r.2.2)

/-- `min`, src/core/include/units/random.h:90 and so on. -/
def distMin {G : Type} (E : Env) (t : QTy) (D : StdDist G) (s : D.State) : C Qty := mkQty E t t.rep (D.min s)

/-- `max`, src/core/include/units/random.h:91 and so on. -/
def distMax {G : Type} (E : Env) (t : QTy) (D : StdDist G) (s : D.State) : C Qty := mkQty E t t.rep (D.max s)

/-- The accessor of the `i`-th parameter, which is a quantity: `Q(base::a())`, src/core/include/units/random.h:87-88 and so on.  The accessors of numeric
parameters are inherited. -/
def distParam {G : Type} (E : Env) (t : QTy) (D : StdDist G) (c : DistClass) (s : D.State) (i : Nat) : C DArg :=
  match c.params[i]?, (D.params s)[i]? with
  | some (_, .qty), some x => do
    let q ← mkQty E t t.rep x
    .ok (.qty q)
  | some (_, .plain), some x => .ok (.plain x)
  | _, _ => .error .rejected

/-- Several draws, one after the other. -/
def distDraws {G : Type} (E : Env) (t : QTy) (D : StdDist G) : Nat → D.State → G → C (List Qty × D.State × G)
  | 0, s, g => .ok ([], s, g)
  | n + 1, s, g => do
    let (q, s', g') ← distDraw E t D s g
    let (qs, s'', g'') ← distDraws E t D n s' g'
    .ok (q :: qs, s'', g'')

/-! ## Piecewise distributions -/

/-- `detail::i_qty_to_rep`, src/core/include/units/random.h:32-39: `itr->number()` for each element.  The iterators are of any type: the
elements need not be of type `Q`; their numbers are converted to `Q::rep` by `push_back`. -/
def iQtyToRep (E : Env) (t : QTy) : List Qty → C (List Num)
  | [] => .ok []
  | q :: qs => do
    let x ← convNum E.fl q.ty.rep t.rep q.num
    let xs ← iQtyToRep E t qs
    .ok (x :: xs)

/-- `detail::bl_qty_to_rep`, src/core/include/units/random.h:41-48. -/
def blQtyToRep (bl : List Qty) : List Num := bl.map (·.num)

/-- The loop of `detail::fw_bl_pwc`, src/core/include/units/random.h:59: the sums of neighbours; `f` is the floating point type. -/
def pairSums (fl : Rounding) (f : FltTy) : List ℚ → List ℚ
  | a :: b :: l => fl f (a + b) :: pairSums fl f (b :: l)
  | _ => []

/-- `detail::fw_bl_pwc`, src/core/include/units/random.h:50-62.  For an empty list `bl.size() - 1` is the largest `size_t` and elements of an empty vector are
read. -/
def fwBlPwc (fl : Rounding) (f : FltTy) (fw : Qty → ℚ) (bl : List Qty) : C (List ℚ) :=
  if bl = [] then .error .precondition
  else .ok (pairSums fl f (bl.map fw) ++ [0])

/-- `detail::fw_bl_pwl`, src/core/include/units/random.h:64-71. -/
def fwBlPwl (fw : Qty → ℚ) (bl : List Qty) : List ℚ := bl.map fw

/-- The standard library's weights for `piecewise_constant_distribution(initializer_list bl, fw)` ([rand.dist.samp.pconst]/6): the values of `fw` in the
middle of the intervals.  Base class of src/core/include/units/random.h:394. -/
def stdPwcWeights (fw : ℚ → ℚ) : List ℚ → List ℚ
  | a :: b :: l => fw ((a + b) / 2) :: stdPwcWeights fw (b :: l)
  | _ => []

/-- `intervals()`, src/core/include/units/random.h:424-431 and 469-476. -/
def distIntervals (E : Env) (t : QTy) : List Num → C (List Qty)
  | [] => .ok []
  | x :: xs => do
    let q ← mkQty E t t.rep x
    let qs ← distIntervals E t xs
    .ok (q :: qs)

/-- The function handed to the standard constructor from a number of intervals, `[fw](rep val) { return fw(Q(val)); }`, src/core/include/units/random.h:416-419 and
461-464. -/
def fwOfRep (E : Env) (t : QTy) (fw : Qty → ℚ) (x : Num) : C ℚ := do
  let q ← mkQty E t t.rep x
  .ok (fw q)

end Verif
