import Verif.Model.Glpk

/-!
# Model of the results of the GLPK models: the functions `Get...`

Source: pyensys/engines/pyene_Models.py (PM below): 1290-1355 (energy trees), 4056-4344 (networks), with GLPK as solver; pyensys/engines/_glpk.pyx (GW below): `get_col_prim`, `get_row_dual` GW:166-183.

A table is a list of lists, in the order of the indices of the array; `None` is `none`.  Values of the columns are a function `x`, as in Model/Glpk; dual values of the rows a function `y`.
-/

namespace Pyensys

/-- `get_col_prim`, GW:169-172: an unknown name is a KeyError, a column beyond the last ends the program -/
def gPrim (p : GProb) (x : Nat → Rat) (k : GKey) (off : Nat) : Except PyErr Rat :=
  match p.col (k, off) with
  | none => .error .key
  | some n => if n < (p.cols.flatMap (·.2)).length then .ok (x n) else .error .runtime

/-- `row_ids`, GW:75-82: the first row of a group -/
def gRowStart : List GRows → GKey → Option Nat
  | [], _ => none
  | g :: gs, k => if g.key = k then some 0 else (gRowStart gs k).map (· + g.size)

/-- `get_row_dual`, GW:180-183 -/
def gDual (p : GProb) (y : Nat → Rat) (k : GKey) (off : Nat) : Except PyErr Rat :=
  match gRowStart p.rows k with
  | none => .error .key
  | some n => if n + off < (p.rows.map (·.size)).sum then .ok (y (n + off)) else .error .runtime

/-- the loop over the elements of one group, with the factor `self.BaseUnitPower` or 1 -/
def grRow (p : GProb) (x : Nat → Rat) (k : GKey) (n : Nat) (f : Rat) : Except PyErr (List Rat) :=
  (List.range n).mapM (fun (e : Nat) => do
    let v ← gPrim p x k e
    .ok (v * f))

/-- the loops over instances and periods, e.g. PM:4063-4069 -/
def grTimes {α : Type} (c : GnCase) (f : Nat → Nat → Except PyErr α) : Except PyErr (List (List α)) :=
  (List.range c.insts).mapM (fun (i : Nat) => (List.range c.periods).mapM (fun (j : Nat) => f i j))

/-- the loops over instances, periods and contingencies, e.g. PM:4204-4210 -/
def grStates {α : Type} (c : GnCase) (f : Nat → Nat → Nat → Except PyErr α) : Except PyErr (List (List (List α))) :=
  grTimes c (fun i j => (List.range (c.cont + 1)).mapM (fun (k : Nat) => f i j k))

/-- what is only there if a condition holds -/
def grIf {α : Type} (b : Bool) (t : Except PyErr α) : Except PyErr (Option α) :=
  if b = true then do
    let r ← t
    .ok (some r)
  else .ok none

/-- `GetThermalGeneration`, PM:4056-4075 -/
def grThermal (c : GnCase) (p : GProb) (x : Nat → Rat) := grIf (0 < c.conv.length) (grTimes c (fun i j => grRow p x (.thermal, [i, j]) c.conv.length c.base))
/-- `GetRESGeneration`, PM:4077-4096 -/
def grRes (c : GnCase) (p : GProb) (x : Nat → Rat) := grIf (0 < c.res.length) (grTimes c (fun i j => grRow p x (.resGen, [i, j]) c.res.length c.base))
/-- `GetHydroGeneration`, PM:4098-4117 -/
def grHydro (c : GnCase) (p : GProb) (x : Nat → Rat) := grIf (0 < c.hydro.length) (grTimes c (fun i j => grRow p x (.hydroGen, [i, j]) c.hydro.length c.base))
/-- `GetPumpOperation`, PM:4119-4134 -/
def grPumps (c : GnCase) (p : GProb) (x : Nat → Rat) := grIf (0 < c.pumps.length) (grTimes c (fun i j => grRow p x (.pumps, [i, j]) c.pumps.length c.base))
/-- `GetThermalGenerationCost`, PM:4136-4154 -/
def grThermalC (c : GnCase) (p : GProb) (x : Nat → Rat) := grIf (0 < c.conv.length) (grTimes c (fun i j => grRow p x (.thermalCG, [i, j]) c.conv.length 1))
/-- `GetRESGenerationCost`, PM:4156-4174 -/
def grResC (c : GnCase) (p : GProb) (x : Nat → Rat) := grIf (0 < c.res.length) (grTimes c (fun i j => grRow p x (.resCG, [i, j]) c.res.length 1))
/-- `GetHydroGenerationCost`, PM:4176-4194 -/
def grHydroC (c : GnCase) (p : GProb) (x : Nat → Rat) := grIf (0 < c.hydro.length) (grTimes c (fun i j => grRow p x (.hydroCG, [i, j]) c.hydro.length 1))
/-- `GetVoltageAngle`, PM:4196-4216 -/
def grAngle (c : GnCase) (p : GProb) (x : Nat → Rat) := grIf c.opf (grStates c (fun i j k => grRow p x (.angle, [i, j, k]) c.buses.length 1))
/-- `GetLoadCurtailmentNodes`, PM:4218-4239 -/
def grLc (c : GnCase) (p : GProb) (x : Nat → Rat) := grIf (c.opf && c.feas) (grStates c (fun i j k => grRow p x (.lc, [i, j, k]) c.buses.length c.base))
/-- `GetGenerationCurtailmentNodes`, PM:4241-4264 -/
def grGc (c : GnCase) (p : GProb) (x : Nat → Rat) := grIf (c.opf && c.feas) (grStates c (fun i j k => grRow p x (.gc, [i, j, k]) c.buses.length c.base))
/-- `GetActivePowerFlow`, PM:4266-4287 -/
def grFlow (c : GnCase) (p : GProb) (x : Nat → Rat) := grIf c.opf (grStates c (fun i j k => grRow p x (.flow, [i, j, k]) c.branches.length c.base))
/-- `GetActivePowerLosses`, PM:4289-4306 -/
def grLoss (c : GnCase) (p : GProb) (x : Nat → Rat) :=
  grIf (c.opf && c.lossPieces.isSome) (grStates c (fun i j k => grRow p x (.loss, [i, j, k]) c.branches.length c.base))

/-- `GetPartialStorage`, `GetTotalStorage`, `GetInputsTree`, `GetOutputsTree`, PM:1290-1344: one row for each vector -/
def grTree (d : GeData) (p : GProb) (x : Nat → Rat) (t : GTag) : Except PyErr (List (List Rat)) :=
  (List.range d.vectors).mapM (fun (v : Nat) => grRow p x (t, [v]) d.nodes 1)

/-- one row of `GetEnergybalanceDual`, PM:1350-1354: the first entry is 0 -/
def grDualRow (d : GeData) (p : GProb) (y : Nat → Rat) (v : Nat) : Except PyErr (List Rat) := do
  let l ← (List.range (d.nodes - 1)).mapM (fun (n : Nat) => gDual p y (.tb, [v]) n)
  .ok (0 :: l)

/-- `GetEnergybalanceDual`, PM:1346-1355 (there is at least one node) -/
def grDuals (d : GeData) (p : GProb) (y : Nat → Rat) : Except PyErr (List (List Rat)) := (List.range d.vectors).mapM (grDualRow d p y)

end Pyensys
