import Verif.SystemsSpec

/-!
# Rows of the tables of what the shipped headers declare

`Verif/SystemsTable.lean` lists what loading all shipped headers declares; `Verif/SystemsLoad.lean` shows that the list is right.  The tables are only a means to
build the state of the translation unit once and for all: properties are stated for the state itself.
-/

namespace Verif.Systems

/-- A unit: the position of the header, the innermost namespace, the name there, and the unit. -/
structure URow where
  header : Nat
  scope : Nm
  name : Nm
  ent : UEnt
deriving DecidableEq

/-- A dimension. -/
structure DRow where
  header : Nat
  scope : Nm
  name : Nm
  full : String
  dim : Dim
deriving DecidableEq

/-- A prefix. -/
structure PRow where
  header : Nat
  scope : Nm
  name : Nm
  pre : MPrefix
  ascii : String
deriving DecidableEq

/-- A literal, a reference (`inline constexpr auto m = reference<…>{}`) or an alias (`using m = …`). -/
inductive TagKind where
  | literal
  | reference
  | rep
deriving DecidableEq

/-- A literal, reference or alias with the names of the dimension and the unit. -/
structure TRow where
  header : Nat
  kind : TagKind
  scope : String
  name : String
  dim : String
  unit : String
deriving DecidableEq

/-- The units of a log. -/
def unitRows : List Entry → List URow
  | [] => []
  | e :: es =>
    match e.ent with
    | .unit u => ⟨e.header, e.scope, e.name, u⟩ :: unitRows es
    | _ => unitRows es

/-- The dimensions of a log. -/
def dimRows : List Entry → List DRow
  | [] => []
  | e :: es =>
    match e.ent with
    | .dim d => ⟨e.header, e.scope, e.name, d.name, d.dim⟩ :: dimRows es
    | _ => dimRows es

/-- The dimensions of a log, with their recipes. -/
def dentRows : List Entry → List DEnt
  | [] => []
  | e :: es =>
    match e.ent with
    | .dim d => d :: dentRows es
    | _ => dentRows es

/-- The prefixes of a log. -/
def prefixRows : List Entry → List PRow
  | [] => []
  | e :: es =>
    match e.ent with
    | .pre p a => ⟨e.header, e.scope, e.name, p, a⟩ :: prefixRows es
    | _ => prefixRows es

/-- The literals, references and aliases of a log. -/
def tagRows : List Entry → List TRow
  | [] => []
  | e :: es =>
    match e.ent with
    | .literal (some (d, u)) (some (d', u')) =>
      ⟨e.header, .literal, e.scope.str, e.name.str, d.name, u.name⟩ :: ⟨e.header, .literal, e.scope.str, e.name.str, d'.name, u'.name⟩ :: tagRows es
    | .literal (some (d, u)) none => ⟨e.header, .literal, e.scope.str, e.name.str, d.name, u.name⟩ :: tagRows es
    | .literal none (some (d, u)) => ⟨e.header, .literal, e.scope.str, e.name.str, d.name, u.name⟩ :: tagRows es
    | .reference d u => ⟨e.header, .reference, e.scope.str, e.name.str, d.name, u.name⟩ :: tagRows es
    | .rep d u => ⟨e.header, .rep, e.scope.str, e.name.str, d.name, u.name⟩ :: tagRows es
    | _ => tagRows es

/-- What is registered for units: name, ratio, reference. -/
def unitDefRow (d : UEnt × Ratio × String) : String × Ratio × String := (d.1.name, d.2.1, d.2.2)

/-- What is registered for dimensions: name and exponents. -/
def dimDefRow (d : DEnt × List Exp) : String × List (String × Int × Int) :=
  (d.1.name, d.2.map fun e => (e.dim.name, e.num, e.den))

theorem mem_unitRows {l : List Entry} {e : Entry} {u : UEnt} (h : e ∈ l) (hu : e.ent = .unit u) :
    ⟨e.header, e.scope, e.name, u⟩ ∈ unitRows l := by
  induction l with
  | nil => simp at h
  | cons a l ih =>
    unfold unitRows
    rcases List.mem_cons.mp h with rfl | h
    · rw [hu]; simp
    · split
      · exact List.mem_cons_of_mem _ (ih h)
      · exact ih h

theorem mem_dimRows {l : List Entry} {e : Entry} {d : DEnt} (h : e ∈ l) (hd : e.ent = .dim d) :
    ⟨e.header, e.scope, e.name, d.name, d.dim⟩ ∈ dimRows l := by
  induction l with
  | nil => simp at h
  | cons a l ih =>
    unfold dimRows
    rcases List.mem_cons.mp h with rfl | h
    · rw [hd]; simp
    · split
      · exact List.mem_cons_of_mem _ (ih h)
      · exact ih h

theorem mem_prefixRows {l : List Entry} {e : Entry} {p : MPrefix} {a : String} (h : e ∈ l) (hp : e.ent = .pre p a) :
    ⟨e.header, e.scope, e.name, p, a⟩ ∈ prefixRows l := by
  induction l with
  | nil => simp at h
  | cons x l ih =>
    unfold prefixRows
    rcases List.mem_cons.mp h with rfl | h
    · rw [hp]; simp
    · split
      · exact List.mem_cons_of_mem _ (ih h)
      · exact ih h

/-- A row of the table of units comes from a unit. -/
theorem of_mem_unitRows {l : List Entry} {r : URow} (h : r ∈ unitRows l) :
    ∃ e ∈ l, e.ent = .unit r.ent ∧ e.header = r.header ∧ e.scope = r.scope ∧ e.name = r.name := by
  induction l with
  | nil => simp [unitRows] at h
  | cons a l ih =>
    unfold unitRows at h
    split at h
    · rename_i u hu
      rcases List.mem_cons.mp h with rfl | h
      · exact ⟨a, by simp, hu, rfl, rfl, rfl⟩
      · obtain ⟨e, he, h⟩ := ih h; exact ⟨e, List.mem_cons_of_mem _ he, h⟩
    · obtain ⟨e, he, h⟩ := ih h; exact ⟨e, List.mem_cons_of_mem _ he, h⟩

/-- A row of the table of dimensions comes from a dimension. -/
theorem of_mem_dimRows {l : List Entry} {r : DRow} (h : r ∈ dimRows l) :
    ∃ e ∈ l, ∃ d, e.ent = .dim d ∧ d.name = r.full ∧ d.dim = r.dim ∧ e.header = r.header ∧ e.scope = r.scope ∧ e.name = r.name := by
  induction l with
  | nil => simp [dimRows] at h
  | cons a l ih =>
    unfold dimRows at h
    split at h
    · rename_i u hu
      rcases List.mem_cons.mp h with rfl | h
      · exact ⟨a, by simp, u, hu, rfl, rfl, rfl, rfl, rfl⟩
      · obtain ⟨e, he, h⟩ := ih h; exact ⟨e, List.mem_cons_of_mem _ he, h⟩
    · obtain ⟨e, he, h⟩ := ih h; exact ⟨e, List.mem_cons_of_mem _ he, h⟩

/-- A row of the table of prefixes comes from a prefix. -/
theorem of_mem_prefixRows {l : List Entry} {r : PRow} (h : r ∈ prefixRows l) :
    ∃ e ∈ l, e.ent = .pre r.pre r.ascii ∧ e.header = r.header ∧ e.scope = r.scope ∧ e.name = r.name := by
  induction l with
  | nil => simp [prefixRows] at h
  | cons a l ih =>
    unfold prefixRows at h
    split at h
    · rename_i p b hp
      rcases List.mem_cons.mp h with rfl | h
      · exact ⟨a, by simp, hp, rfl, rfl, rfl⟩
      · obtain ⟨e, he, h⟩ := ih h; exact ⟨e, List.mem_cons_of_mem _ he, h⟩
    · obtain ⟨e, he, h⟩ := ih h; exact ⟨e, List.mem_cons_of_mem _ he, h⟩

/-- What a literal, a reference or an alias denotes. -/
def Entry.Tagged (e : Entry) : TagKind → DEnt → UEnt → Prop
  | .literal, d, u => ∃ i f, e.ent = .literal i f ∧ (i = some (d, u) ∨ f = some (d, u))
  | .reference, d, u => e.ent = .reference d u
  | .rep, d, u => e.ent = .rep d u

theorem mem_tagRows {l : List Entry} {e : Entry} {k : TagKind} {d : DEnt} {u : UEnt} (h : e ∈ l) (hk : e.Tagged k d u) :
    ⟨e.header, k, e.scope.str, e.name.str, d.name, u.name⟩ ∈ tagRows l := by
  induction l with
  | nil => simp at h
  | cons a l ih =>
    unfold tagRows
    rcases List.mem_cons.mp h with rfl | h
    · cases k with
      | reference => simp only [Entry.Tagged] at hk; rw [hk]; simp
      | rep => simp only [Entry.Tagged] at hk; rw [hk]; simp
      | literal =>
        simp only [Entry.Tagged] at hk
        obtain ⟨i, f, he, hif⟩ := hk
        rw [he]
        rcases hif with rfl | rfl
        · rcases f with _ | ⟨d', u'⟩ <;> simp
        · rcases i with _ | ⟨d', u'⟩ <;> simp
    · have := ih h
      split <;> simp [this]

end Verif.Systems
