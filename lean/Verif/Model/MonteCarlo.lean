import Verif.Py
import Mathlib.Analysis.SpecialFunctions.Log.Basic
import Mathlib.Algebra.Order.Floor.Ring

/-!
# Model of the Monte Carlo simulation

Source: pyensys/engines/pyene_Stochastic.py (MC below).

Modelled: the sampled times (MC:36-58), `calculatematrixfailureandrecover` (MC:60-123) and `runmontecarlo`
(MC:125-263), with the network optimisation as an arbitrary function of the demand multiplier and the active elements.

Simplifications: floats are exact; the arrays of times have one entry for each element (which is how they are made,
MC:41-56); a `while` loop has a fuel argument and running out of it stands for a loop that does not end.  Printing
and timing are left out.
-/

namespace Pyensys

/-! ## times -/

/-- a sampled time `math.floor(-mean * math.log(random()))`, MC:47-48; `math.log(0)` raises -/
noncomputable def sampleTime (mean u : ℝ) : Except PyErr Int :=
  if u ≤ 0 then .error .value else .ok ⌊-mean * Real.log u⌋

/-! ## status of the elements -/

/-- the loop `for _ in range(n)` of MC:80-83 and 89-92: `v` is written while there are time steps left -/
def mcFill (total v : Nat) : Nat → List Nat × Nat → List Nat × Nat
  | 0, s => s
  | n + 1, s => mcFill total v n (if s.2 < total then (s.1.set s.2 v, s.2 + 1) else s)

/-- MC:76-83: the time to failure -/
def mcUp (total : Nat) (ttf : Int) (s : List Nat × Nat) : List Nat × Nat :=
  if ttf = 0 then (List.replicate total 1, total) else mcFill total 1 ttf.toNat s

/-- MC:85-92: the time to recover -/
def mcDown (total : Nat) (ttr : Int) (s : List Nat × Nat) : List Nat × Nat :=
  if ttr = 0 then (List.replicate total 1, total) else mcFill total 0 ttr.toNat s

/-- the loop MC:75-92; without fuel it does not end -/
def mcLoop (total : Nat) (ttf ttr : Int) : Nat → List Nat × Nat → Except PyErr (List Nat)
  | 0, _ => .error .recursion
  | fuel + 1, s => if s.2 < total then mcLoop total ttf ttr fuel (mcDown total ttr (mcUp total ttf s)) else .ok s.1

/-- a row of the status matrix, MC:73-92 and 94-113 -/
def mcRow (fuel total : Nat) (t : Int × Int) : Except PyErr (List Nat) :=
  mcLoop total t.1 t.2 fuel (List.replicate total 0, 0)

/-- status of lines and generators, and the hours in which all is intact, MC:115-123 -/
structure McStatus where
  lines : List (List Nat)
  gens : List (List Nat)
  intact : List Nat
  deriving DecidableEq, Repr

/-- the sum of a column -/
def mcColumn (rows : List (List Nat)) (t : Nat) : Nat := (rows.map (fun r => r.getD t 0)).sum

/-- `calculatematrixfailureandrecover`, MC:60-123 -/
def mcMatrix (fuel total : Nat) (lines gens : List (Int × Int)) : Except PyErr McStatus := do
  let l ← lines.mapM (mcRow fuel total)
  let g ← gens.mapM (mcRow fuel total)
  return ⟨l, g, (List.range total).map (fun t =>
    if mcColumn l t = lines.length ∧ mcColumn g t = gens.length then 1 else 0)⟩

/-! ## the simulation -/

/-- what the optimisation reports -/
structure McSolve where
  feasible : Bool
  curtailed : Rat
  thermal : Rat
  objective : Rat
  deriving DecidableEq, Repr

/-- what is stored for a time step -/
structure McHour where
  objective : Rat
  curtailed : Rat
  thermal : Rat
  deriving DecidableEq, Repr

/-- MC:146-169: curtailments are only added if the problem is feasible -/
def mcStore (r : McSolve) : McHour := ⟨r.objective, if r.feasible = true then r.curtailed else 0, if r.feasible = true then r.thermal else 0⟩

/-- the state of the optimisation model: demand multiplier, active generators, active branches -/
structure McModel where
  demand : Rat
  gens : List Bool
  lines : List Bool
  deriving DecidableEq, Repr

/-- MC:139-169: the intact system -/
def mcIntact (solve : McModel → McSolve) (demand : List Rat) : Nat → Nat → McModel → Except PyErr (List McHour × McModel)
  | 0, _, m => .ok ([], m)
  | n + 1, x, m => do
    let d ← pyGet demand x
    let m' : McModel := ⟨d, m.gens, m.lines⟩
    let r ← mcIntact solve demand n (x + 1) m'
    return (mcStore (solve m') :: r.1, r.2)

/-- MC:208-263 for one time step -/
def mcStep (solve : McModel → McSolve) (demand : List Rat) (intact : List McHour) (st : McStatus) (x : Nat) (m : McModel) :
    Except PyErr (McHour × McModel) := do
  let d ← pyGet demand x
  let i ← pyGet st.intact x
  if i = 0 then do
    let gens := st.gens.map (fun r => !(r.getD x 0 == 0))
    let lines := st.lines.map (fun r => !(r.getD x 0 == 0))
    let m' : McModel := ⟨d, gens, lines⟩
    return (mcStore (solve m'), m')
  else do
    let h ← pyGet intact x
    return (h, ⟨d, m.gens, m.lines⟩)

/-- the loop MC:208-263 -/
def mcSteps (solve : McModel → McSolve) (demand : List Rat) (intact : List McHour) (st : McStatus) : Nat → Nat → McModel →
    Except PyErr (List McHour × McModel)
  | 0, _, m => .ok ([], m)
  | n + 1, x, m => do
    let h ← mcStep solve demand intact st x m
    let r ← mcSteps solve demand intact st n (x + 1) h.2
    return (h.1 :: r.1, r.2)

/-- the loop MC:182-263 over the iterations, each with its own status -/
def mcIterations (solve : McModel → McSolve) (demand : List Rat) (intact : List McHour) (total : Nat) : List McStatus → McModel →
    Except PyErr (List McHour)
  | [], _ => .ok []
  | st :: sts, m => do
    let r ← mcSteps solve demand intact st total 0 m
    let rs ← mcIterations solve demand intact total sts r.2
    return r.1 ++ rs

/-- `runmontecarlo`, MC:125-263: `times` are the sampled times of each iteration -/
def runMonteCarlo (solve : McModel → McSolve) (demand : List Rat) (fuel total : Nat)
    (times : List (List (Int × Int) × List (Int × Int))) (m : McModel) : Except PyErr (List McHour) := do
  let r ← mcIntact solve demand total 0 m
  let sts ← times.mapM (fun t => mcMatrix fuel total t.1 t.2)
  mcIterations solve demand r.1 total sts r.2

end Pyensys
