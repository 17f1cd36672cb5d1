import Verif.Model.Graph
import Verif.Model.Network
import Verif.Model.Clustering

/-!
# Model of the averaged data of the nodes

Source: pyensys/Optimisers/ControlGraphsCreator.py:256-318 (CG below).

Simplifications: floats are rationals and no cell is NaN; the column and row labels of the clustered
profile are already parsed (`int(scenario.split(" ")[1])`, `int(year)`, CG:284-294); a data frame is
the list of its rows.
-/

namespace Pyensys

/-- a row of the input table "buses" -/
structure DataRow where
  scenario : Int
  year : Int
  bus : Int
  p : Rat
  q : Rat
  deriving DecidableEq, Repr

/-- a row of the input table "flexible units" -/
structure UnitRow where
  scenario : Int
  year : Int
  bus : Int
  vals : String → Rat

/-- the input table "flexible units": its optional columns and its rows -/
structure UnitTable where
  cols : List String
  rows : List UnitRow

/-- `list(column.unique())`: distinct values in order of first appearance (CG:272, CG:299). -/
def uniqueOf {α : Type} [DecidableEq α] (l : List α) : List α :=
  l.foldl (fun acc b => if b ∈ acc then acc else acc ++ [b]) []

/-- `Series.mean()` of a non-empty column -/
def columnMean (l : List Rat) : Rat := l.sum / l.length

/-- `[scenarios_number[y] for y in node[0].scenarios]`, CG:270 and CG:297. -/
def scenarioNumbers (scenariosNumber : List Int) (scenarios : List Nat) : Except PyErr (List Int) :=
  scenarios.mapM (fun y => match scenariosNumber[y]? with
    | some s => .ok s
    | none => .error .index)

/-- `years_number[node[0].level]`, CG:271. -/
def yearAt (yearsNumber : List Int) (level : Nat) : Except PyErr Int :=
  match yearsNumber[level]? with
  | some y => .ok y
  | none => .error .index

/-- `_adapt_information_buses`, CG:269-282: year of the node and the averaged rows. -/
def nodeBuses (data : List DataRow) (scenariosNumber yearsNumber : List Int) (node : Cluster) :
    Except PyErr (Int × List (BusRow Rat)) := do
  let scn ← scenarioNumbers scenariosNumber node.scenarios
  let year ← yearAt yearsNumber node.level
  let related := data.filter (fun r => r.scenario ∈ scn)
  let related := related.filter (fun r => r.year = year)
  let buses := uniqueOf (related.map (·.bus))
  return (year, buses.map (fun b =>
    let specific := related.filter (fun r => r.bus = b)
    ⟨b, columnMean (specific.map (·.p)), columnMean (specific.map (·.q))⟩))

/-- the ten columns of CG:305-314, in order -/
def unitColumns : List String :=
  ["max_p_mw", "min_p_mw", "max_q_mvar", "min_q_mvar", "cp2_eur_per_mw2", "cp1_eur_per_mw", "cp0_eur",
   "cq2_eur_per_mvar2", "cq1_eur_per_mvar", "cq0_eur"]

/-- `_adapt_information_flexible_units`, CG:296-318: per bus the ten averages, 0 for a column that the
table does not have. -/
def nodeUnits (data : UnitTable) (scenariosNumber yearsNumber : List Int) (node : Cluster) :
    Except PyErr (List (Int × List (String × Rat))) := do
  let scn ← scenarioNumbers scenariosNumber node.scenarios
  let year ← yearAt yearsNumber node.level
  let related := data.rows.filter (fun r => r.scenario ∈ scn)
  let related := related.filter (fun r => r.year = year)
  let buses := uniqueOf (related.map (·.bus))
  return buses.map (fun b =>
    let specific := related.filter (fun r => r.bus = b)
    (b, unitColumns.map (fun c =>
      (c, if c ∈ data.cols then columnMean (specific.map (fun r => r.vals c)) else 0))))

/-- `optimisation_years`, CG:258-259: the sorted copy of the years. -/
def optimisationYears (yearsNumber : List Int) : List Int := yearsNumber.insertionSort (· ≤ ·)

end Pyensys
