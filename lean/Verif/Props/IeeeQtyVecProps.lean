import Verif.IeeeQtyVec
import Verif.Props.IeeeLinearProps

/-!
# C105: quantities of vectors and vectors of quantities
-/

namespace Verif

open FltTy

set_option maxRecDepth 100000

/-- The elements of a quantity of a vector. -/
def VecQtyI.elements (q : VecQtyI) : List QtyI := q.nums.map fun x => ⟨q.ty, .f x⟩

theorem map_bind {α β γ : Type} (x : C α) (f : α → C β) (g : β → γ) : (x >>= f).map g = x >>= fun a => (f a).map g := by
  cases x <;> rfl

/-- The function a conversion applies to the number. -/
def convFn (E : Env) (src dst : QTy) : C (FVal → FVal) :=
  if src = dst then .ok id
  else do
    let safe ← safeCastable E src dst
    if safe then do
      let eqv ← dimEquivalent dst.dim src.dim
      if eqv then do
        let c ← castRatio E.est src.dim src.unit dst.dim dst.unit
        .ok (castFltI .f64 c)
      else .error .rejected
    else .error .rejected

theorem convFn_qty (E : Env) {a t : QTy} (ha : a.rep = .flt .f64) (ht : t.rep = .flt .f64) (x : FVal) :
    convertQtyI E t ⟨a, .f x⟩ = (convFn E a t).map fun g => ⟨t, .f (g x)⟩ := by
  unfold convertQtyI convFn
  by_cases h : a = t
  · rw [if_pos h, if_pos h, h]; rfl
  · rw [if_neg h, if_neg h, map_bind]
    refine congrArg _ (funext fun s => ?_)
    cases s
    · rfl
    · rw [if_pos rfl, if_pos rfl, map_bind]
      unfold quantityCastI
      refine congrArg _ (funext fun s => ?_)
      cases s
      · rfl
      · rw [if_pos rfl, if_pos rfl, map_bind]
        refine congrArg _ (funext fun c => ?_)
        dsimp only
        rw [ha, ht]
        rfl

theorem convFn_vec (E : Env) {a t : QTy} (xs : List FVal) :
    convertVecQtyI E t ⟨a, xs⟩ = (convFn E a t).map fun g => ⟨t, xs.map g⟩ := by
  unfold convertVecQtyI convFn
  by_cases h : a = t
  · rw [if_pos h, if_pos h, h]; show _ = Except.ok (VecQtyI.mk t (xs.map id)); rw [List.map_id]
  · rw [if_neg h, if_neg h, map_bind]
    refine congrArg _ (funext fun s => ?_)
    cases s
    · rfl
    · rw [if_pos rfl, if_pos rfl, map_bind]
      unfold castVecQtyI
      refine congrArg _ (funext fun s => ?_)
      cases s
      · rfl
      · rw [if_pos rfl, if_pos rfl, map_bind]
        rfl

theorem vec_arith {a b : QTy} (ha : a.rep = .flt .f64) (hb : b.rep = .flt .f64) : a.rep.arith b.rep = .flt .f64 := by rw [ha, hb]; rfl

/-- C105: the elements of a converted quantity of a vector are the converted elements, to the last bit, whatever the numbers are; the one conversion compiles when the other does. -/
theorem C105_convert (E : Env) {a t : QTy} (ha : a.rep = .flt .f64) (ht : t.rep = .flt .f64) {xs : List FVal} (h0 : xs ≠ []) :
    (convertVecQtyI E t ⟨a, xs⟩).map VecQtyI.elements = convVecI E t (vecOfQtyI a xs) := by
  rw [convFn_vec]
  unfold convVecI vecOfQtyI
  cases h : convFn E a t with
  | error e =>
    cases xs with
    | nil => exact absurd rfl h0
    | cons x xs =>
      rw [List.map_cons, List.mapM_cons, convFn_qty E ha ht, h]
      rfl
  | ok g =>
    clear h0
    show Except.ok ((xs.map g).map _) = _
    induction xs with
    | nil => rfl
    | cons x xs ih =>
      rw [List.map_cons, List.map_cons, List.map_cons, List.mapM_cons, ← ih, convFn_qty E ha ht, h]
      rfl

/-- C105: the elements of a sum or difference of quantities of vectors, of the same or of different units, are the sums or differences of the elements, to the last bit. -/
theorem C105_add (E : Env) (sub : Bool) {a b : QTy} (ha : a.rep = .flt .f64) (hb : b.rep = .flt .f64) {xs ys : List FVal} (h0 : xs ≠ []) (h0' : ys ≠ []) :
    (addVecQtyI E sub ⟨a, xs⟩ ⟨b, ys⟩).map VecQtyI.elements = addVecI E sub (vecOfQtyI a xs) (vecOfQtyI b ys) := by
  have one : ∀ x y, addSubI E sub ⟨a, .f x⟩ ⟨b, .f y⟩ = commonQty E a b (.flt .f64) >>= fun t => convFn E a t >>= fun g => convFn E b t >>= fun k =>
      .ok ⟨t, .f (if sub then (g x).sub .f64 (k y) else (g x).add .f64 (k y))⟩ := by
    intro x y
    unfold addSubI
    dsimp only
    rw [vec_arith ha hb]
    cases h : commonQty E a b (.flt .f64) with
    | error e => rfl
    | ok t =>
      have ht := commonQty_rep h
      rw [ok_bind, ok_bind, convFn_qty E ha ht, convFn_qty E hb ht]
      cases convFn E a t with
      | error e => rfl
      | ok g =>
        cases convFn E b t with
        | error e => rfl
        | ok k =>
          show (addSubNumI t.rep sub (.f (g x)) (.f (k y)) >>= _) = _
          rw [ht]; rfl
  have bad : ∀ e, (∀ x y, addSubI E sub ⟨a, .f x⟩ ⟨b, .f y⟩ = .error e) → addVecI E sub (vecOfQtyI a xs) (vecOfQtyI b ys) = .error e := by
    intro e h
    cases xs with
    | nil => exact absurd rfl h0
    | cons x xs =>
      cases ys with
      | nil => exact absurd rfl h0'
      | cons y ys =>
        show (addSubI E sub ⟨a, .f x⟩ ⟨b, .f y⟩ >>= _) = _
        rw [h]; rfl
  unfold addVecQtyI
  dsimp only
  rw [vec_arith ha hb]
  cases h : commonQty E a b (.flt .f64) with
  | error e => rw [bad e fun x y => by rw [one, h]; rfl]; rfl
  | ok t =>
    rw [ok_bind, convFn_vec, convFn_vec]
    cases h1 : convFn E a t with
    | error e => rw [bad e fun x y => by rw [one, h, ok_bind, h1]; rfl]; rfl
    | ok g =>
      cases h2 : convFn E b t with
      | error e => rw [bad e fun x y => by rw [one, h, ok_bind, h1, ok_bind, h2]; rfl]; rfl
      | ok k =>
        have two : ∀ x y, addSubI E sub ⟨a, .f x⟩ ⟨b, .f y⟩ = .ok ⟨t, .f (if sub then (g x).sub .f64 (k y) else (g x).add .f64 (k y))⟩ := fun x y => by
          rw [one, h, ok_bind, h1, ok_bind, h2]; rfl
        clear bad one h0 h0'
        show ((zipC _ (xs.map g) (ys.map k) >>= fun z => Except.ok (VecQtyI.mk t z)).map VecQtyI.elements) = _
        unfold addVecI vecOfQtyI
        induction xs generalizing ys with
        | nil => cases ys <;> rfl
        | cons x xs ih =>
          cases ys with
          | nil => rfl
          | cons y ys =>
            rw [List.map_cons, List.map_cons, List.map_cons, List.map_cons, zipC, zipC, two, ok_bind, ok_bind, ← ih]
            cases zipC (fun p q => Except.ok (if sub = true then FVal.sub f64 p q else FVal.add f64 p q)) (List.map g xs) (List.map k ys) <;> rfl

/-- C105: the product of two quantities of vectors is the product of the vectors of their elements, to the last bit; the one compiles when the other does. -/
theorem C105_dot (E : Env) {a b : QTy} (ha : a.rep = .flt .f64) (hb : b.rep = .flt .f64) {xs ys : List FVal} (h0 : xs ≠ []) (h0' : ys ≠ []) :
    mulVecQtyI E ⟨a, xs⟩ ⟨b, ys⟩ = dotQtyI E (vecOfQtyI a xs) (vecOfQtyI b ys) := by
  cases xs with
  | nil => exact absurd rfl h0
  | cons x xs =>
    cases ys with
    | nil => exact absurd rfl h0'
    | cons y ys =>
      unfold mulVecQtyI
      dsimp only
      cases h : refMultiply E a.dim a.unit b.dim b.unit with
      | error e =>
        show _ = (mulQtyI E ⟨a, .f x⟩ ⟨b, .f y⟩ >>= _)
        unfold mulQtyI
        dsimp only
        rw [h]; rfl
      | ok p =>
        have ht : ProdTy E a b ⟨p.1, p.2, .flt .f64⟩ := ⟨ha, hb, rfl, h⟩
        show _ = (mulQtyI E ⟨a, .f x⟩ ⟨b, .f y⟩ >>= fun p => dotFrom _ _ p (vecOfQtyI a xs) (vecOfQtyI b ys))
        rw [ht.run, ok_bind]
        show (dotFrom _ _ (x.mul .f64 y) xs ys >>= fun z => Except.ok (QtyI.mk ⟨p.1, p.2, .flt .f64⟩ (.f z))) = _
        clear h0 h0'
        generalize x.mul .f64 y = s
        induction xs generalizing ys s with
        | nil => cases ys <;> rfl
        | cons x xs ih =>
          cases ys with
          | nil => rfl
          | cons y ys =>
            show _ = (mulQtyI E ⟨a, .f x⟩ ⟨b, .f y⟩ >>= fun p => addSubI E false _ p >>= fun s => dotFrom _ _ s (vecOfQtyI a xs) (vecOfQtyI b ys))
            rw [ht.run, ok_bind, addSubI_self E false _ .f64 rfl, ok_bind]
            exact ih _ _

/-- C105: so is that of a quantity and a quantity of a vector. -/
theorem C105_scale (E : Env) {a b : QTy} (ha : a.rep = .flt .f64) (hb : b.rep = .flt .f64) (x : FVal) {ys : List FVal} (h0 : ys ≠ []) :
    (scaleVecQtyI E a x ⟨b, ys⟩).map VecQtyI.elements = scaleVecI E ⟨a, .f x⟩ (vecOfQtyI b ys) := by
  unfold scaleVecQtyI scaleVecI vecOfQtyI
  dsimp only
  cases h : refMultiply E a.dim a.unit b.dim b.unit with
  | error e =>
    cases ys with
    | nil => exact absurd rfl h0
    | cons y ys =>
      rw [List.map_cons, List.map_cons, List.mapM_cons]
      unfold mulQtyI
      dsimp only
      rw [h]; rfl
  | ok p =>
    have ht : ProdTy E a b ⟨p.1, p.2, .flt .f64⟩ := ⟨ha, hb, rfl, h⟩
    clear h0
    show Except.ok ((ys.map _).map _) = _
    induction ys with
    | nil => rfl
    | cons y ys ih =>
      rw [List.map_cons, List.map_cons, List.map_cons, List.mapM_cons, ← ih, ht.run]
      rfl

/-- C105: and that of an integer and a quantity of a vector. -/
theorem C105_number {t : QTy} (ht : t.rep = .flt .f64) (i : IntTy) (n : ℤ) (ys : List FVal) :
    numVecI (.int i) (.i n) (vecOfQtyI t ys) = .ok (intVecQtyI n ⟨t, ys⟩).elements := by
  have one : ∀ y, scaleQtyLeftI (.int i) (.i n) ⟨t, .f y⟩ = .ok ⟨t, .f ((FVal.ofInt .f64 n).mul .f64 y)⟩ := by
    intro y
    obtain ⟨d, u, r⟩ := t
    dsimp only at ht
    subst ht
    cases i <;> rfl
  unfold numVecI vecOfQtyI
  induction ys with
  | nil => rfl
  | cons y ys ih =>
    rw [List.map_cons, List.mapM_cons, one, ih]
    rfl

/-- C105: the error of the product of two quantities of vectors. -/
theorem C105_dot_error {E : Env} {a b t : QTy} (ht : ProdTy E a b t) {xs ys : List FVal} (hl : xs.length = ys.length) (h0 : xs ≠ []) (hn : xs.length ≤ 2 ^ 52)
    (hx : ∀ x ∈ xs, MidZero x) (hy : ∀ y ∈ ys, MidZero y) :
    ∃ r, mulVecQtyI E ⟨a, xs⟩ ⟨b, ys⟩ = .ok ⟨t, .f r⟩ ∧ r.Finite ∧ r.In .f64 ∧
      |(r.q : ℝ) - dotR xs ys| ≤ ((1 + 1 / 2 ^ 53) ^ xs.length - 1) * dotAbs xs ys := by
  rw [C105_dot E ht.ra ht.rb h0 (by rintro rfl; exact h0 (List.length_eq_zero_iff.1 hl))]
  exact C100_dot ht hl h0 hn hx hy

/-- Several products of quantities of vectors of the same types. -/
theorem dots_eq (E : Env) {a b : QTy} (ha : a.rep = .flt .f64) (hb : b.rep = .flt .f64) {l : List (List FVal × List FVal)} (h0 : l ≠ []) (h : ∀ p ∈ l, p.1 ≠ [] ∧ p.2 ≠ []) :
    ((refMultiply E a.dim a.unit b.dim b.unit >>= fun p => l.mapM (fun q => dotNumI q.1 q.2) >>= fun z => Except.ok (VecQtyI.mk ⟨p.1, p.2, .flt .f64⟩ z)).map VecQtyI.elements) =
      l.mapM fun q => dotQtyI E (vecOfQtyI a q.1) (vecOfQtyI b q.2) := by
  have one : ∀ p ∈ l, dotQtyI E (vecOfQtyI a p.1) (vecOfQtyI b p.2) =
      refMultiply E a.dim a.unit b.dim b.unit >>= fun r => dotNumI p.1 p.2 >>= fun z => Except.ok (QtyI.mk ⟨r.1, r.2, .flt .f64⟩ (.f z)) := fun p hp => by
    rw [← C105_dot E ha hb (h p hp).1 (h p hp).2]; rfl
  cases e : refMultiply E a.dim a.unit b.dim b.unit with
  | error e' =>
    cases l with
    | nil => exact absurd rfl h0
    | cons p l =>
      rw [List.mapM_cons, List.mapM_cons, one p (List.mem_cons_self ..), e]
      rfl
  | ok r =>
    rw [ok_bind]
    rw [e] at one
    clear h0 h
    induction l with
    | nil => rfl
    | cons p l ih =>
      rw [List.mapM_cons, List.mapM_cons, one p (List.mem_cons_self ..), ok_bind, ← ih fun q hq => one q (List.mem_cons_of_mem _ hq)]
      cases dotNumI p.1 p.2 with
      | error e => rfl
      | ok z => cases List.mapM (fun q : List FVal × List FVal => dotNumI q.1 q.2) l <;> rfl

/-- C105: the elements of a quantity of a matrix times a quantity of a vector are those of the matrix of quantities times the vector of quantities, to the last bit. -/
theorem C105_matrix_vector (E : Env) {a b : QTy} (ha : a.rep = .flt .f64) (hb : b.rep = .flt .f64) {m : List (List FVal)} {v : List FVal} (h0 : m ≠ []) (h1 : ∀ row ∈ m, row ≠ []) (hv : v ≠ []) :
    (mulMatVecQtyI E a m ⟨b, v⟩).map VecQtyI.elements = matVecI E (m.map (vecOfQtyI a)) (vecOfQtyI b v) := by
  have := dots_eq E ha hb (l := m.map fun row => (row, v)) (fun e => h0 (List.map_eq_nil_iff.1 e)) (by
    intro p hp
    obtain ⟨row, hr, rfl⟩ := List.mem_map.mp hp
    exact ⟨h1 row hr, hv⟩)
  simp only [List.mapM_map] at this
  unfold matVecI
  rw [List.mapM_map]
  exact this

/-- C105: and so for a quantity of a vector times a quantity of a matrix with rows of one length. -/
theorem C105_vector_matrix (E : Env) {a b : QTy} (ha : a.rep = .flt .f64) (hb : b.rep = .flt .f64) {n : ℕ} {v : List FVal} {m : List (List FVal)} (hn : n ≠ 0) (h0 : m ≠ [])
    (h1 : ∀ row ∈ m, row.length = n) (hv : v ≠ []) :
    (mulVecMatQtyI E n ⟨a, v⟩ b m).map VecQtyI.elements = vecMatI E n (vecOfQtyI a v) (m.map (vecOfQtyI b)) := by
  have cols : matColumns n m = (List.range n).map fun j => column j m := by
    unfold matColumns
    refine List.map_congr_left fun j hj => ?_
    have hj' := List.mem_range.mp hj
    clear h0
    induction m with
    | nil => rfl
    | cons row m ih =>
      have l := h1 row (List.mem_cons_self ..)
      have e : row[j]? = some (row.getD j .nan) := by
        rw [List.getD_eq_getElem?_getD, List.getElem?_eq_getElem (by omega)]
        rfl
      rw [List.filterMap_cons, e]
      show _ :: _ = _ :: _
      congr 1
      exact ih fun r hr => h1 r (List.mem_cons_of_mem _ hr)
  have := dots_eq E ha hb (l := (List.range n).map fun j => (v, column j m)) (fun e => hn (List.range_eq_nil.1 (List.map_eq_nil_iff.1 e))) (by
    intro p hp
    obtain ⟨j, hj, rfl⟩ := List.mem_map.mp hp
    exact ⟨hv, fun e => h0 (List.map_eq_nil_iff.1 e)⟩)
  simp only [List.mapM_map] at this
  unfold vecMatI mulVecMatQtyI
  rw [columns_eq b h1, cols]
  simp only [List.mapM_map]
  exact this

/-- The elements of a quantity of a matrix, by rows. -/
def MatQtyI.elements (q : MatQtyI) : List (List QtyI) := q.rows.map fun row => row.map fun x => ⟨q.ty, .f x⟩

theorem convFn_mat (E : Env) {a t : QTy} (m : List (List FVal)) :
    convertMatQtyI E t ⟨a, m⟩ = (convFn E a t).map fun g => ⟨t, m.map (List.map g)⟩ := by
  unfold convertMatQtyI convFn
  by_cases h : a = t
  · rw [if_pos h, if_pos h, h]; show _ = Except.ok (MatQtyI.mk t (m.map (List.map id))); rw [List.map_id_fun, List.map_id]
  · rw [if_neg h, if_neg h, map_bind]
    refine congrArg _ (funext fun s => ?_)
    cases s
    · rfl
    · rw [if_pos rfl, if_pos rfl, map_bind]
      refine congrArg _ (funext fun s => ?_)
      cases s
      · rfl
      · rw [if_pos rfl, if_pos rfl, map_bind]
        rfl

/-- What a sum of quantities of vectors is when the conversions are known. -/
theorem add_known (E : Env) (sub : Bool) {a b t : QTy} (ha : a.rep = .flt .f64) (hb : b.rep = .flt .f64) {g k : FVal → FVal} (hc : commonQty E a b (.flt .f64) = .ok t)
    (hg : convFn E a t = .ok g) (hk : convFn E b t = .ok k) (xs ys : List FVal) :
    addVecQtyI E sub ⟨a, xs⟩ ⟨b, ys⟩ = zipC (fun p q => .ok (if sub then p.sub .f64 q else p.add .f64 q)) (xs.map g) (ys.map k) >>= fun z => .ok ⟨t, z⟩ := by
  unfold addVecQtyI
  dsimp only
  rw [vec_arith ha hb, hc, ok_bind, convFn_vec, convFn_vec, hg, hk]
  rfl

/-- C105: the rows of a sum or difference of quantities of matrices are the sums or differences of the rows, to the last bit. -/
theorem C105_matrix_add (E : Env) (sub : Bool) {a b : QTy} (ha : a.rep = .flt .f64) (hb : b.rep = .flt .f64) {m m' : List (List FVal)} (h0 : m ≠ []) (h0' : m' ≠ [])
    (h1 : ∀ row ∈ m, row ≠ []) (h1' : ∀ row ∈ m', row ≠ []) :
    (addMatQtyI E sub ⟨a, m⟩ ⟨b, m'⟩).map MatQtyI.elements = zipC (addVecI E sub) (m.map (vecOfQtyI a)) (m'.map (vecOfQtyI b)) := by
  have bad : ∀ e, (∀ xs ys, addVecQtyI E sub ⟨a, xs⟩ ⟨b, ys⟩ = .error e) → zipC (addVecI E sub) (m.map (vecOfQtyI a)) (m'.map (vecOfQtyI b)) = .error e := by
    intro e h
    cases m with
    | nil => exact absurd rfl h0
    | cons x m =>
      cases m' with
      | nil => exact absurd rfl h0'
      | cons y m' =>
        rw [List.map_cons, List.map_cons, zipC, ← C105_add E sub ha hb (h1 x (List.mem_cons_self ..)) (h1' y (List.mem_cons_self ..)), h]
        rfl
  unfold addMatQtyI
  dsimp only
  rw [vec_arith ha hb]
  cases h : commonQty E a b (.flt .f64) with
  | error e => rw [bad e fun x y => by unfold addVecQtyI; dsimp only; rw [vec_arith ha hb, h]; rfl]; rfl
  | ok t =>
    rw [ok_bind, convFn_mat, convFn_mat]
    cases hg : convFn E a t with
    | error e => rw [bad e fun x y => by unfold addVecQtyI; dsimp only; rw [vec_arith ha hb, h, ok_bind, convFn_vec, hg]; rfl]; rfl
    | ok g =>
      cases hk : convFn E b t with
      | error e => rw [bad e fun x y => by unfold addVecQtyI; dsimp only; rw [vec_arith ha hb, h, ok_bind, convFn_vec, hg, convFn_vec, hk]; rfl]; rfl
      | ok k =>
        clear bad h0 h0'
        show ((zipC _ (m.map (List.map g)) (m'.map (List.map k)) >>= fun z => Except.ok (MatQtyI.mk t z)).map MatQtyI.elements) = _
        induction m generalizing m' with
        | nil => cases m' <;> rfl
        | cons x m ih =>
          cases m' with
          | nil => rfl
          | cons y m' =>
            rw [List.map_cons, List.map_cons, List.map_cons, List.map_cons, zipC, zipC,
              ← C105_add E sub ha hb (h1 x (List.mem_cons_self ..)) (h1' y (List.mem_cons_self ..)), add_known E sub ha hb h hg hk,
              ← ih (fun r hr => h1 r (List.mem_cons_of_mem _ hr)) fun r hr => h1' r (List.mem_cons_of_mem _ hr)]
            cases zipC (fun p q => Except.ok (if sub = true then FVal.sub f64 p q else FVal.add f64 p q)) (List.map g x) (List.map k y) with
            | error e => rfl
            | ok z =>
              cases zipC (zipC fun p q => Except.ok (if sub = true then FVal.sub f64 p q else FVal.add f64 p q)) (List.map (List.map g) m) (List.map (List.map k) m') <;> rfl

/-- C105: the rows of a quantity times a quantity of a matrix, and of an integer times it, are those of the rows, to the last bit. -/
theorem C105_matrix_scale (E : Env) {a b : QTy} (ha : a.rep = .flt .f64) (hb : b.rep = .flt .f64) (x : FVal) (i : IntTy) (n : ℤ) {m : List (List FVal)} (h0 : m ≠ []) (h1 : ∀ row ∈ m, row ≠ []) :
    (scaleMatQtyI E a x ⟨b, m⟩).map MatQtyI.elements = (m.map (vecOfQtyI b)).mapM (scaleVecI E ⟨a, .f x⟩) ∧
    (m.map (vecOfQtyI b)).mapM (numVecI (.int i) (.i n)) = .ok (intMatQtyI n ⟨b, m⟩).elements := by
  constructor
  · unfold scaleMatQtyI
    dsimp only
    have one : ∀ row ∈ m, scaleVecI E ⟨a, .f x⟩ (vecOfQtyI b row) = (refMultiply E a.dim a.unit b.dim b.unit >>= fun p =>
        Except.ok (VecQtyI.mk ⟨p.1, p.2, .flt .f64⟩ (row.map fun y => x.mul .f64 y))).map VecQtyI.elements := fun row hr => by
      rw [← C105_scale E ha hb x (h1 row hr)]; rfl
    cases h : refMultiply E a.dim a.unit b.dim b.unit with
    | error e =>
      cases m with
      | nil => exact absurd rfl h0
      | cons y m =>
        rw [List.map_cons, List.map_cons, List.mapM_cons, one y (List.mem_cons_self ..), h]
        rfl
    | ok p =>
      rw [h] at one
      clear h0 h1
      show Except.ok ((m.map _).map _) = _
      induction m with
      | nil => rfl
      | cons y m ih =>
        rw [List.map_cons, List.map_cons, List.map_cons, List.mapM_cons, ← ih fun r hr => one r (List.mem_cons_of_mem _ hr), one y (List.mem_cons_self ..)]
        rfl
  · clear h0 h1
    induction m with
    | nil => rfl
    | cons y m ih =>
      rw [List.map_cons, List.mapM_cons, C105_number hb, ih]
      rfl

/-! ### The program -/

/-- `v + t`, `t[m]`, `v * u`, `2. * N * u` and `2 * u` of the program. -/
example : addVecQtyI progEnv false ⟨boxLen, [.fin false 1, .fin false 2, .fin false 3]⟩ ⟨km64Ty, [.fin false 3, .fin false 2, .fin false 1]⟩ =
      .ok ⟨boxLen, [.fin false 3001, .fin false 2002, .fin false 1003]⟩ ∧
    castVecQtyI progEnv boxLen ⟨km64Ty, [.fin false 3, .fin false 2, .fin false 1]⟩ = .ok ⟨boxLen, [.fin false 3000, .fin false 2000, .fin false 1000]⟩ ∧
    mulVecQtyI progEnv ⟨boxForce, [.fin false 1, .fin false 2, .fin false 3]⟩ ⟨boxLen, [.fin false 3, .fin false 2, .fin false 1]⟩ = .ok ⟨jouleTy, .f (.fin false 10)⟩ ∧
    scaleVecQtyI progEnv boxForce (.fin false 2) ⟨boxLen, [.fin false 3, .fin false 2, .fin false 1]⟩ = .ok ⟨jouleTy, [.fin false 6, .fin false 4, .fin false 2]⟩ ∧
    intVecQtyI 2 ⟨boxLen, [.fin false 3, .fin false 2, .fin false 1]⟩ = ⟨boxLen, [.fin false 6, .fin false 4, .fin false 2]⟩ := by
  refine ⟨?_, ?_, ?_, ?_, ?_⟩ <;> decide +kernel

/-- The product of the program, of vectors with an infinity and a not-a-number, and of vectors of different lengths. -/
example : mulVecQtyI progEnv ⟨boxForce, [.inf false, .fin false 2]⟩ ⟨boxLen, [.fin false 3, .nan]⟩ =
      dotQtyI progEnv (vecOfQtyI boxForce [.inf false, .fin false 2]) (vecOfQtyI boxLen [.fin false 3, .nan]) ∧
    mulVecQtyI progEnv ⟨boxForce, [.fin false 1, .fin false 2]⟩ ⟨boxLen, [.fin false 3]⟩ = .error .rejected ∧
    addVecQtyI progEnv false ⟨boxForce, [.fin false 1]⟩ ⟨boxLen, [.fin false 3]⟩ = .error .rejected :=
  ⟨C105_dot progEnv rfl rfl (by simp) (by simp), by decide +kernel, by decide +kernel⟩

example : (addVecQtyI progEnv true ⟨boxLen, [.fin false 1]⟩ ⟨km64Ty, [.fin false 3]⟩).map VecQtyI.elements = .ok [⟨boxLen, .f (.fin true 2999)⟩] ∧
    (convertVecQtyI progEnv boxLen ⟨km64Ty, [.fin false 3]⟩).map VecQtyI.elements = .ok [⟨boxLen, .f (.fin false 3000)⟩] ∧
    (scaleVecQtyI progEnv boxLen (.fin false 2) ⟨boxLen, [.fin false 3]⟩).map VecQtyI.elements = .ok [⟨boxArea, .f (.fin false 6)⟩] ∧
    numVecI (.int .i32) (.i 2) (vecOfQtyI boxLen [.fin false 3]) = .ok [⟨boxLen, .f (.fin false 6)⟩] := by
  rw [C105_add progEnv true rfl rfl (by simp) (by simp), C105_convert progEnv rfl rfl (by simp), C105_scale progEnv rfl rfl _ (by simp), C105_number rfl]
  refine ⟨?_, ?_, ?_, ?_⟩ <;> decide +kernel

example : ∃ r, mulVecQtyI progEnv ⟨boxForce, [.fin false (1 : ℕ), .fin false (2 : ℕ)]⟩ ⟨boxLen, [.fin false (3 : ℕ), .fin false (2 : ℕ)]⟩ = .ok ⟨jouleTy, .f r⟩ ∧ r.Finite := by
  have m : ∀ n : ℕ, n = 1 ∨ n = 2 ∨ n = 3 → MidZero (.fin false (n : ℕ)) := by
    rintro n (rfl | rfl | rfl) <;> exact mz_nat (by norm_num) (by norm_num) (by decide +kernel)
  obtain ⟨r, h, f, -⟩ := C105_dot_error newton_metre (xs := [.fin false (1 : ℕ), .fin false (2 : ℕ)]) (ys := [.fin false (3 : ℕ), .fin false (2 : ℕ)]) rfl (by simp) (by norm_num)
    (by intro x hx; simp only [List.mem_cons, List.not_mem_nil, or_false] at hx; rcases hx with rfl | rfl <;> exact m _ (by simp))
    (by intro x hx; simp only [List.mem_cons, List.not_mem_nil, or_false] at hx; rcases hx with rfl | rfl <;> exact m _ (by simp))
  exact ⟨r, h, f⟩

/-- The matrix of the program times its vector, and the vector of forces times the matrix. -/
example : mulMatVecQtyI progEnv boxLen [[.fin false 1, .fin false 2, .fin false 3], [.fin false 4, .fin false 5, .fin false 6], [.fin false 7, .fin false 8, .fin false 9]]
      ⟨boxLen, [.fin false 3, .fin false 2, .fin false 1]⟩ = .ok ⟨boxArea, [.fin false 10, .fin false 28, .fin false 46]⟩ ∧
    mulVecMatQtyI progEnv 3 ⟨boxForce, [.fin false 1, .fin false 2, .fin false 3]⟩ boxLen
      [[.fin false 1, .fin false 2, .fin false 3], [.fin false 4, .fin false 5, .fin false 6], [.fin false 7, .fin false 8, .fin false 9]] =
        .ok ⟨jouleTy, [.fin false 30, .fin false 36, .fin false 42]⟩ := by
  refine ⟨?_, ?_⟩ <;> decide +kernel

example : (mulMatVecQtyI progEnv boxLen [[.fin false 1, .fin false 2]] ⟨boxLen, [.fin false 3, .fin false 2]⟩).map VecQtyI.elements = .ok [⟨boxArea, .f (.fin false 7)⟩] ∧
    (mulVecMatQtyI progEnv 2 ⟨boxForce, [.fin false 3]⟩ boxLen [[.fin false 1, .fin false 2]]).map VecQtyI.elements = .ok [⟨jouleTy, .f (.fin false 3)⟩, ⟨jouleTy, .f (.fin false 6)⟩] := by
  rw [C105_matrix_vector progEnv rfl rfl (by simp) (by simp) (by simp), C105_vector_matrix progEnv rfl rfl (by simp) (by simp) (by simp) (by simp)]
  refine ⟨?_, ?_⟩ <;> decide +kernel

/-- Sums of matrices in metres and kilometres, and multiples. -/
example : addMatQtyI progEnv false ⟨boxLen, [[.fin false 1, .fin false 2], [.fin false 4, .fin false 5]]⟩ ⟨km64Ty, [[.fin false 3, .fin false 2], [.fin false 3, .fin false 2]]⟩ =
      .ok ⟨boxLen, [[.fin false 3001, .fin false 2002], [.fin false 3004, .fin false 2005]]⟩ ∧
    scaleMatQtyI progEnv boxForce (.fin false 2) ⟨boxLen, [[.fin false 1, .fin false 2]]⟩ = .ok ⟨jouleTy, [[.fin false 2, .fin false 4]]⟩ ∧
    intMatQtyI 2 ⟨boxLen, [[.fin false 1, .fin false 2]]⟩ = ⟨boxLen, [[.fin false 2, .fin false 4]]⟩ := by
  refine ⟨?_, ?_, ?_⟩ <;> decide +kernel

example : (addMatQtyI progEnv true ⟨boxLen, [[.fin false 1], [.fin false 4]]⟩ ⟨km64Ty, [[.fin false 3], [.fin false 3]]⟩).map MatQtyI.elements =
      .ok [[⟨boxLen, .f (.fin true 2999)⟩], [⟨boxLen, .f (.fin true 2996)⟩]] ∧
    (scaleMatQtyI progEnv boxLen (.fin false 2) ⟨boxLen, [[.fin false 3]]⟩).map MatQtyI.elements = .ok [[⟨boxArea, .f (.fin false 6)⟩]] := by
  rw [C105_matrix_add progEnv true rfl rfl (by simp) (by simp) (by simp) (by simp), (C105_matrix_scale progEnv rfl rfl _ .i32 2 (by simp) (by simp)).1]
  refine ⟨?_, ?_⟩ <;> decide +kernel

end Verif
