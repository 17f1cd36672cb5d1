import Verif.Model.Coupled
import Verif.Model.Renewables

/-!
# Model of the results that are saved and accumulated after runs with Pyomo, and of the losses of the printed results

Source: pyensys/engines/pyeneO.py (PO below): `Accumulate` PO:535-547, `saveSummary` PO:599-611, `saveResultspyomo` PO:619-699; pyensys/engines/main.py (MA below): `get_AllRES` MA:389-395, `get_OFparts` MA:561-600, `get_HydroMarginal` MA:482-492; pyensys/engines/pyeneN.py (NW below): `printLosses` NW:937-988.

Not modelled: names and types of the columns of the HDF5 tables (single precision), the array `Hydro_Allowance`.  The profiles `Demand_profiles` and `RES_profiles` are those of `srProfiles` (Model/SavedResults.lean).  The number of scenarios is that of the instances (C114_weights).
-/

namespace Pyensys

/-- `get_AllRES`, MA:389-395 -/
def getAllRES (x : ApiData) (v : ApiVals) (a : ResultArgs) (noRES : Nat) : Except PyErr Rat :=
  (List.range noRES).foldlM (addTo (fun xr => getRES x v a noRES xr)) 0

/-- a row of the table of a scenario, PO:676-698 -/
structure SpRow where
  time : Nat
  generation : Rat
  hydropower : Rat
  res : Rat
  spill : Rat
  demand : Rat
  pump : Rat
  loss : Rat
  curtailment : Rat
  deriving DecidableEq, Repr

/-- PO:677-698 for scenario `xs` and period `xt` -/
def spRow (x : ApiData) (v : ApiVals) (noRES xs xt : Nat) : Except PyErr SpRow := do
  let a : ResultArgs := ⟨some [xt], some [xs], true⟩
  let g ← getAllGeneration x v a .conv
  let h ← getAllGeneration x v a .hydro
  let r ← getAllGeneration x v a .res
  let s ← getAllRES x v a noRES
  let d ← getAllDemand x a
  let p ← getAllPumps x v a
  let l ← getAllLoss x
  let c ← getAllCurtailment x v a
  .ok ⟨xt, g, h, r, s, d.1, p, l, c.1⟩

/-- the tables of all scenarios, PO:671-699 -/
def spTables (x : ApiData) (v : ApiVals) (noRES : Nat) : Except PyErr (List (List SpRow)) :=
  (List.range x.noInst).mapM (fun xs => (List.range x.noTime).mapM (spRow x v noRES xs))

/-! ## parts of the objective, accumulated -/

/-- the data and values that the parts of the objective use: costs, curtailment and pumps by instance, element and period -/
structure SpPlan where
  cost : Nat → Nat → Nat → Rat
  fea : Nat → Nat → Nat → Rat
  pump : Nat → Nat → Nat → Rat

/-- the sum of the costs of the units of a class, MA:569-572, 574-577, 580-583 -/
def spCosts (x : ApiData) (s : SpPlan) (c : GenClass) : Rat :=
  ((genPositions x c).map (fun xg => ((List.range x.noInst).map (fun xh =>
    ((List.range x.noTime).map (fun xt => s.cost xh xg xt)).sum * x.ofaux.getD xh 0)).sum)).sum

/-- `get_OFparts`, MA:561-600 with the flags `f` (conventional, RES, hydro, pumps, curtailment) and no further arguments; `value` is `pumps['Value']` -/
def spParts (x : ApiData) (value : Nat → Rat) (penalty : Rat) (s : SpPlan) (f : Nat → Bool) : Rat :=
  (if f 0 = true then spCosts x s .conv else 0) + (if f 1 = true then spCosts x s .res else 0) + (if f 2 = true then spCosts x s .hydro else 0) -
    (if f 3 = true then ((List.range x.noInst).map (fun xh => ((List.range x.sizes.noPump).map (fun xd => value xd * x.base *
      ((List.range x.noTime).map (fun xt => s.pump xh (xd + 1) xt)).sum)).sum * x.ofaux.getD xh 0)).sum else 0) +
    (if f 4 = true then ((List.range x.noInst).map (fun xh => ((List.range x.noTime).map (fun xt =>
      ((List.range x.sizes.noFea).map (fun xf => s.fea xh xf xt)).sum * penalty)).sum * x.ofaux.getD xh 0)).sum else 0)

/-- the accumulated data, PO:29-34 -/
structure SpData where
  cost : List Rat := [0, 0, 0, 0, 0]
  curtailment : Rat := 0
  spill : Rat := 0
  total : Rat := 0
  deriving DecidableEq, Repr

/-- one simulation: data, values, and the plan of costs -/
structure SpRun where
  x : ApiData
  v : ApiVals
  noRES : Nat
  value : Nat → Rat
  penalty : Rat
  plan : SpPlan

/-- `self.data['cost'][x] += EN.get_OFparts(m, aux)`, PO:540-543 -/
def spAddCost (r : SpRun) (cost : List Rat) (k : Nat) : Except PyErr (List Rat) := do
  let c ← npGet cost k
  npSet cost k (c + spParts r.x r.value r.penalty r.plan (fun i => i == k))

/-- `Accumulate`, PO:535-547; `dir2` tells whether `Directory2` is given -/
def spAccumulate (dir2 : Bool) (d : SpData) (r : SpRun) : Except PyErr SpData :=
  if dir2 = false then .ok d
  else do
    let cost ← (List.range 5).foldlM (spAddCost r) d.cost
    let c ← getAllCurtailment r.x r.v {}
    let s ← getAllRES r.x r.v {} r.noRES
    .ok ⟨cost, d.curtailment + c.1, d.spill + s, d.total + spParts r.x r.value r.penalty r.plan (fun _ => true)⟩

/-- `saveResultspyomo`, PO:619-699: the accumulated data and the tables, which are saved if `Directory1` is given -/
def spSave (dir1 dir2 : Bool) (d : SpData) (r : SpRun) : Except PyErr (SpData × Option (List (List SpRow))) := do
  let d ← spAccumulate dir2 d r
  if dir1 = false then .ok (d, none)
  else do
    let t ← spTables r.x r.v r.noRES
    .ok (d, some t)

/-- `saveSummary`, PO:599-611: tests `Directory1` and joins `Directory2` (`os.path.join(None, …)` is a TypeError) -/
def spSummary (dir1 dir2 : Bool) (d : SpData) : Except PyErr (Option SpData) :=
  if dir1 = false then .ok none else if dir2 = false then .error .type else .ok (some d)

/-! ## marginal value of water -/

/-- Python's `int` of a float: the fraction is dropped -/
def pyTruncQ (q : Rat) : Int := if q < 0 then ⌈q⌉ else ⌊q⌋

/-- `get_HydroMarginal`, MA:482-492 -/
def hydroMarginal (dual : Option Rat) : Int :=
  match dual with
  | none => 0
  | some q => -1 * pyTruncQ q

/-! ## losses of the printed results -/

/-- what `printLosses` reads for one period and scenario: the outputs of the generators (MW), the demands of the buses (MW), their `Pd` (which decides which buses have a curtailment variable), the curtailment (MW) by variable (positions beyond the variables are not errors here), the given losses and the flows of the branches -/
structure PlCase where
  gens : List Rat
  demand : List Rat
  pd : List Rat
  curt : Nat → Rat
  given : List Rat
  flows : List Rat

/-- NW:955-973: `LLFea2` is 0 for a bus without variable, and `LLFea1` is not asked -/
def plFullLoss (c : PlCase) : Rat :=
  let a := c.gens.foldl (fun s g => s + g) 0
  let b := (c.demand.zip (feaLoop c.pd 0).1).foldl (fun s q => s - q.1 + c.curt q.2.2) a
  c.given.foldl (fun s l => s - l) b

/-- NW:976-986: losses of each branch if `Loss` is given -/
def plAllocate (c : PlCase) : List Rat :=
  let full := c.flows.foldl (fun s f => s + f) 0
  if 0 < full then (c.flows.zip c.given).map (fun q => plFullLoss c * (|q.1| / full) + q.2) else c.flows.map (fun _ => 0)

end Pyensys
