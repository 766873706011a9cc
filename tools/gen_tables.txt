import Verif.SystemsRows
open Verif Verif.Systems
/- Writes lean/Verif/SystemsTable.lean: `cd lean; lake env lean --run ../tools/gen_tables.txt > Verif/SystemsTable.lean` -/
def qstr (s : String) : String := s.quote
def nm (n : Nm) : String := "n!" ++ qstr n.str
def int (i : Int) : String := if i < 0 then s!"({i})" else s!"{i}"
def rat (r : Ratio) : String := s!"⟨{int r.num}, {int r.den}, {int r.exp}⟩"
def uid : UnitId → String
  | .scaled r s => s!".scaled {rat r} {qstr s}"
  | .named s => s!".named {qstr s}"
def opt : Option String → String
  | none => "none"
  | some s => s!"some {qstr s}"
def munit (u : MUnit) : String :=
  s!"⟨{uid u.id}, {rat u.ratio}, {qstr u.ref}, [{", ".intercalate (u.bases.map uid)}], {u.named}, {qstr u.symbol}, {opt u.family}⟩"
def ident (s : String) : String := "b_" ++ ((s.replace "::" "_").replace "<>" "").replace "units_" ""
def exp (e : Exp) : String := s!"⟨{ident e.dim.name}, {int e.num}, {int e.den}⟩"
def dimS : Dim → String
  | .base b => s!".base {ident b.name}"
  | .named n => s!".named ⟨{qstr n.name}, [{", ".intercalate (n.exps.map exp)}], {munit n.coherent}⟩"
  | .unknown _ => "?"
def dname : Dim → String
  | .base b => b.name
  | .named n => n.name
  | .unknown _ => "?"
def dident (d : Dim) : String := "d_" ++ ((((dname d).replace "::" "_").replace "<>" "").replace "units_" "")
def item (i : RecipeItem) : String := s!"⟨{dident i.dim}, {int i.num}, {int i.den}⟩"
def dent (d : DEnt) : String := s!"⟨{qstr d.name}, {dident d.dim}, [{", ".intercalate (d.recipe.map item)}], {d.template}⟩"
def bases : List DRow → List BaseDim
  | [] => []
  | r :: rs => match r.dim with
    | .base b => b :: bases rs
    | _ => bases rs
def urow (r : URow) : String := s!"⟨{r.header}, {nm r.scope}, {nm r.name}, ⟨{qstr r.ent.name}, {munit r.ent.unit}, {qstr r.ent.ascii}⟩⟩"
def drow (r : DRow) : String := s!"⟨{r.header}, {nm r.scope}, {nm r.name}, {qstr r.full}, {dident r.dim}⟩"
def prow (r : PRow) : String := s!"⟨{r.header}, {nm r.scope}, {nm r.name}, ⟨{qstr r.pre.family}, {qstr r.pre.symbol}, {rat r.pre.ratio}⟩, {qstr r.ascii}⟩"
def kind : TagKind → String | .literal => ".literal" | .reference => ".reference" | .rep => ".rep"
def trow (r : TRow) : String := s!"⟨{r.header}, {kind r.kind}, {qstr r.scope}, {qstr r.name}, {qstr r.dim}, {qstr r.unit}⟩"
def udef (d : String × Ratio × String) : String := s!"({qstr d.1}, {rat d.2.1}, {qstr d.2.2})"
def ddef (d : String × List (String × Int × Int)) : String :=
  s!"({qstr d.1}, [{", ".intercalate (d.2.map fun e => s!"({qstr e.1}, {int e.2.1}, {int e.2.2})")}])"
def table (doc name ty : String) (rows : List String) : IO Unit := do
  let mut k := 0
  let mut rest := rows
  let mut parts : List String := []
  while !rest.isEmpty do
    let cur := rest.take 40
    rest := rest.drop 40
    IO.println s!"/-- Part {k} of `{name}`. -/\ndef {name}{k} : List ({ty}) := [\n  {",\n  ".intercalate cur}]\n"
    parts := parts ++ [s!"{name}{k}"]
    k := k + 1
  IO.println s!"/-- {doc} -/\ndef {name} : List ({ty}) :=\n  {" ++ (".intercalate parts}{"".pushn ')' (parts.length - 1)}\n"
def main : IO Unit := do
  let .ok S := everything | throw (IO.userError "not loaded")
  IO.println "import Verif.SystemsRows\n\n/-!\n# What the shipped headers declare\n\nWritten by tools/gen_tables.txt from the model; `Verif/SystemsLoad.lean` proves that the tables are right.\n-/\n\nnamespace Verif.Systems\n"
  let mut seen : List String := []
  for b in (bases (dimRows S.log)).reverse do
    if !seen.contains b.name then
      seen := b.name :: seen
      IO.println s!"/-- {b.name} -/\ndef {ident b.name} : BaseDim := ⟨{qstr b.name}, {qstr b.symbol}, {munit b.unit}⟩\n"
  let mut seenD : List String := []
  for r in (dimRows S.log).reverse do
    if !seenD.contains (dident r.dim) then
      seenD := dident r.dim :: seenD
      IO.println s!"/-- {r.full} -/\ndef {dident r.dim} : Dim := {dimS r.dim}\n"
  table "The units, last declared first." "unitTable" "URow" ((unitRows S.log).map urow)
  table "The dimensions, last declared first." "dimTable" "DRow" ((dimRows S.log).map drow)
  table "The dimensions with their recipes, last declared first." "dentTable" "DEnt" ((dentRows S.log).map dent)
  table "The prefixes, last declared first." "prefixTable" "PRow" ((prefixRows S.log).map prow)
  table "The literals, references and aliases, last declared first." "tagTable" "TRow" ((tagRows S.log).map trow)
  table "The units registered for downcasting." "unitDefTable" "String × Ratio × String" ((S.unitDefs.map unitDefRow).map udef)
  table "The dimensions registered for downcasting." "dimDefTable" "String × List (String × Int × Int)" ((S.dimDefs.map dimDefRow).map ddef)
  IO.println "end Verif.Systems"
