import Verif.Model.Search

/-!
# Model of `get_solution`

Source: pyensys/Optimisers/NonAnticipativeRecursiveFunction.py:479-517 (NA).
A DataFrame is the list of its rows.  `print`s are dropped.
-/

namespace Pyensys

/-- A row `[scenario, year, line_index]`, NA:495. -/
abbrev LineRow := Nat × Int × Pos
/-- A row `[scenario, cost]`, NA:500, 504; the cost is `None` if the container lacks the key. -/
abbrev CostRow := Nat × Option Rat

/-- The part of the control graph read by `get_solution`: `nodes_data[node][0].scenarios` (NA:491,
497) and `map_node_to_data_power_system[node]["buses"]["year"].unique()[0]` (NA:492); both lookups
may raise. -/
structure TreeData where
  scenarios : Nat → Except PyErr (List Nat)
  year : Nat → Except PyErr Int

/-- Tables under construction: lines, investment costs, operation costs (NA:482-484). -/
structure Tables where
  lines : List LineRow := []
  investment : List CostRow := []
  operation : List CostRow := []
  deriving DecidableEq, Repr

/-- Loop NA:491-496 over the scenarios of the node. -/
def addScenarioRows (td : TreeData) (node : Nat) (pos : Pos) (acc : List LineRow) :
    List Nat → Except PyErr (List LineRow)
  | [] => .ok acc
  | s :: ss => do
    let y ← td.year node
    addScenarioRows td node pos (acc ++ [(s, y, pos)]) ss

/-- Loop NA:489-496 over the interventions of a node. -/
def addNodeRows (td : TreeData) (node : Nat) : List LineRow → Group → Except PyErr (List LineRow)
  | acc, [] => .ok acc
  | acc, (_, v) :: g =>
    if v.elementType = "line" then do
      let ss ← td.scenarios node
      let acc ← addScenarioRows td node v.position acc ss
      addNodeRows td node acc g
    else addNodeRows td node acc g

/-- `complete_tree.interventions[solution_number][level]` as the object of a `for` loop (NA:489):
`None[...]` and iterating `None` raise TypeError. -/
def recordedGroup (p : Plan) (sol level : Int) : Except PyErr Group :=
  match listGet? p.interventions sol with
  | none => .error .type
  | some s => match listGet? s level with
    | none => .error .type
    | some g => .ok g

/-- Loop NA:487-496 over the nodes of a path. -/
def addPathRows (td : TreeData) (p : Plan) (sol : Int) :
    List LineRow → Path → Except PyErr (List LineRow)
  | acc, [] => .ok acc
  | acc, (level, node) :: r => do
    let g ← recordedGroup p sol level
    let acc ← addNodeRows td node acc g
    addPathRows td p sol acc r

/-- Body of the loop NA:485-505 over the recorded paths; for an empty path `last_node` is -1, which
is no key of `nodes_data`. -/
def addSolution (td : TreeData) (p : Plan) (t : Tables) (kp : Int × Path) : Except PyErr Tables := do
  let lines ← addPathRows td p kp.1 t.lines kp.2
  let ss ← match kp.2.getLast? with
    | none => .error .key
    | some n => td.scenarios n.2
  return {
    lines := lines
    investment := t.investment ++ ss.map (fun s => (s, listGet? p.investmentCosts kp.1))
    operation := t.operation ++ ss.map (fun s => (s, listGet? p.operationCosts kp.1)) }

/-- `drop_duplicates(ignore_index=True)`, NA:511, 514: first occurrences are kept. -/
def dropDuplicates (l : List CostRow) : List CostRow :=
  l.foldl (fun acc r => if acc.contains r then acc else acc ++ [r]) []

/-- order of `sort_values(by=["scenario", "year"])`, NA:510 -/
def lineLe (a b : LineRow) : Bool := a.1 < b.1 || (a.1 == b.1 && decide (a.2.1 ≤ b.2.1))
/-- order of `sort_values(by=["scenario"])`, NA:512, 515 -/
def costLe (a b : CostRow) : Bool := decide (a.1 ≤ b.1)

/-- `get_solution`, NA:479-517, on the recorded complete plan.  Ties of the sort keys are resolved
by a stable sort; no statement below depends on how they are resolved. -/
def getSolution (td : TreeData) (p : Plan) : Except PyErr Tables := do
  let t ← p.graphPaths.foldlM (addSolution td p) {}
  return {
    lines := t.lines.mergeSort lineLe
    investment := (dropDuplicates t.investment).mergeSort costLe
    operation := (dropDuplicates t.operation).mergeSort costLe }

/-- `main_access_function`, GeneralManager.py:10-34, after reading the input: nothing for an
anticipative problem, otherwise search and tables. -/
def accessFunction (nonAnticipative : Bool) (cfg : Cfg) (td : TreeData) (fuel : Nat) :
    Except PyErr (Option Tables) :=
  if !nonAnticipative then .ok none
  else do
    let r ← runSearch cfg fuel
    let t ← getSolution td r.2.complete
    return some t

end Pyensys
