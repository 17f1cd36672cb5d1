import Verif.Model.NodeData

/-!
# Model of the demand multipliers computed by the reader from an attest table

Source: pyensys/readers/JSONReader.py:291-323, 497-530 (JR below).

Simplifications: floats are rationals; the apparent power `sqrt(p**2 + q**2)` (JR:310) is an arbitrary
function `mag` of the two powers; scenarios and years are integers and no cell is missing, so that the
branch JR:311-313 is not taken (a missing number is NaN, not None, in a numeric column); the labels
"scenario s" and "year" are kept as the integers from which they are printed and to which they are
parsed back (JR:517-522, CG:284-294).  pandas divides by zero without raising: a multiplier that is
infinite or NaN is `none`.
-/

namespace Pyensys

/-- `_calculate_total_system_apparent_power`, JR:304-314: a loop that adds to 0.0. -/
def systemPower (mag : Rat → Rat → Rat) (data : List DataRow) (scenario year : Int) : Rat :=
  (data.filter (fun r => r.scenario = scenario ∧ r.year = year)).foldl (fun acc r => acc + mag r.p r.q) 0

/-- a row (scenario, year, s_mva) of the table of totals, JR:300-301 -/
structure TotalRow where
  scenario : Int
  year : Int
  s : Rat
  deriving DecidableEq, Repr

/-- `_calculate_total_apparent_power_per_scenario_and_per_year_for_optimisation_profiles`, JR:291-302. -/
def totalsTable (mag : Rat → Rat → Rat) (data : List DataRow) : List TotalRow :=
  let scenarios := uniqueOf (data.map (·.scenario))
  let years := uniqueOf (data.map (·.year))
  scenarios.flatMap (fun s => years.map (fun y => ⟨s, y, systemPower mag data s y⟩))

/-- Python's `min` of a column; `min` of an empty column raises ValueError. -/
def pyMin {α : Type} [LT α] [DecidableRel (α := α) (· < ·)] : List α → Except PyErr α
  | [] => .error .value
  | a :: l => .ok (l.foldl (fun m x => if x < m then x else m) a)

/-- a row with its normalised value (`none`: not finite) -/
structure NormRow where
  scenario : Int
  year : Int
  normalised : Option Rat
  deriving DecidableEq, Repr

/-- `_normalise_system_apparent_power`, JR:316-323.  A table without rows has no column "year", which
raises KeyError. -/
def normalise (t : List TotalRow) : Except PyErr (List NormRow) := do
  if t = [] then throw .key
  let y0 ← pyMin (t.map (·.year))
  let first := (t.filter (fun r => r.year = y0)).map (·.s)
  if (uniqueOf first).length > 1 then throw .value
  let base ← pyMin first
  return t.map (fun r => ⟨r.scenario, r.year, if base = 0 then none else some (r.s / base)⟩)

/-- `float(series)`, JR:514-516: raises TypeError unless the selection has exactly one element. -/
def theValue (t : List NormRow) (scenario year : Int) : Except PyErr (Option Rat) :=
  match (t.filter (fun r => r.year = year ∧ r.scenario = scenario)).map (·.normalised) with
  | [x] => .ok x
  | _ => .error .type

/-- the table of multipliers: labels of the columns and rows, and the values -/
structure Multipliers where
  scenarios : List Int
  years : List Int
  values : List (List (Option Rat))
  deriving DecidableEq, Repr

/-- `_create_optimisation_profiles_based_on_attest_dataframes`, JR:503-530. -/
def readMultipliers (mag : Rat → Rat → Rat) (data : List DataRow) : Except PyErr Multipliers := do
  let t ← normalise (totalsTable mag data)
  let scenarios := uniqueOf (t.map (·.scenario))
  let years := (uniqueOf (t.map (·.year))).insertionSort (· ≤ ·)
  let values ← years.mapM (fun y => scenarios.mapM (fun s => theValue t s y))
  return ⟨scenarios, years, values⟩

end Pyensys
