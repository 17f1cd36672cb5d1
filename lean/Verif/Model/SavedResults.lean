import Verif.Model.GlpkResults

/-!
# Model of the results that are saved and printed after a run with GLPK

Source: pyensys/engines/pyeneO.py (PO below): `saveResultsGLPK` PO:701-959, `SaveDetailedResultsGLPK` PO:961-1180, `printallNetworkResult` PO:1226-1500; pyensys/engines/pyene_Models.py (PM below): `GetLoadCurtailmentSystemED` PM:4308-4321.

Not modelled: names and types of the columns of the HDF5 tables (single precision), the arrays `Hydro_Allowance` and `Hydro_Marginal`, the text that is printed (only the totals are), options of `PrintinScreenOptions` other than their default True.  Numbers are rational.  What `np.empty` leaves in a table is a function `junk`.
-/

namespace Pyensys

/-- the results that the functions `Get...` return, PO:750-765 and 1236-1248 -/
structure SrTables where
  thermal : Option (List (List (List Rat)))
  res : Option (List (List (List Rat)))
  hydro : Option (List (List (List Rat)))
  pumps : Option (List (List (List Rat)))
  lc : Option (List (List (List (List Rat))))
  lcs : Option (List (List Rat))
  gc : Option (List (List (List (List Rat))))
  flow : Option (List (List (List (List Rat))))
  loss : Option (List (List (List (List Rat))))
  deriving DecidableEq

/-- `GetLoadCurtailmentSystemED`, PM:4308-4321 -/
def grLcs (c : GnCase) (p : GProb) (x : Nat → Rat) : Except PyErr (Option (List (List Rat))) :=
  grIf (!c.opf && c.feas) (grTimes c (fun i j => do
    let v ← gPrim p x (.lcs, [i, j]) 0
    .ok (v * c.base)))

/-- PO:750-766: `LoadCurtailment` is that of the nodes (`lc`) if flows and feasibility are on, otherwise that of the system (`lcs`) -/
def srRead (c : GnCase) (p : GProb) (x : Nat → Rat) : Except PyErr SrTables := do
  let thermal ← grThermal c p x
  let res ← grRes c p x
  let hydro ← grHydro c p x
  let pumps ← grPumps c p x
  let lc ← grLc c p x
  let lcs ← grLcs c p x
  let gc ← grGc c p x
  let flow ← grFlow c p x
  let loss ← grLoss c p x
  .ok ⟨thermal, res, hydro, pumps, lc, lcs, gc, flow, loss⟩

/-- one entry of a table that may be `None` (TypeError); IndexError beyond its sizes -/
def srAt3 (t : Option (List (List (List Rat)))) (i j n : Nat) : Except PyErr Rat :=
  match t with
  | none => .error .type
  | some t => match ((t[i]?).bind (fun (r : List (List Rat)) => r[j]?)).bind (fun (r : List Rat) => r[n]?) with
    | none => .error .index
    | some v => .ok v

/-- the same with four indices -/
def srAt4 (t : Option (List (List (List (List Rat))))) (i j k n : Nat) : Except PyErr Rat :=
  match t with
  | none => .error .type
  | some t => match (((t[i]?).bind (fun (r : List (List (List Rat))) => r[j]?)).bind (fun (r : List (List Rat)) => r[k]?)).bind (fun (r : List Rat) => r[n]?) with
    | none => .error .index
    | some v => .ok v

/-- one step of `auxvar += …` -/
def srStep {α : Type} (f : α → Except PyErr Rat) (acc : Rat) (e : α) : Except PyErr Rat := do
  let v ← f e
  .ok (acc + v)

/-- a loop with `auxvar += …` that begins with `acc` -/
def srSum {α : Type} (l : List α) (f : α → Except PyErr Rat) (acc : Rat) : Except PyErr Rat := l.foldlM (srStep f) acc

/-- contingencies and elements in the order of the loops -/
def srPairs (a b : Nat) : List (Nat × Nat) := (List.range a).flatMap (fun k => (List.range b).map (fun n => (k, n)))

/-- the total of one kind of unit, e.g. PO:866-870; 0 if there is no table -/
def srUnits (t : Option (List (List (List Rat)))) (n i j : Nat) : Except PyErr Rat :=
  match t with
  | none => .ok 0
  | some t => srSum (List.range n) (fun e => srAt3 (some t) i j e) 0

/-- demand of a bus in MW, PO:818-827 and 900-910 -/
def srDemand (c : GnCase) (i j : Nat) (b : GnBus) : Rat := b.demand * gnMult c b i j * c.base

/-- PO:776-829: `FullLoss`.  The tables of the curtailment of the units do not exist: NameError as soon as there is a unit -/
def srFullLoss (c : GnCase) (T : SrTables) (i j : Nat) : Except PyErr Rat := do
  let a ← srSum (List.range c.conv.length) (fun e => srAt3 T.thermal i j e) 0
  let a ← srSum (List.range c.res.length) (fun e => srAt3 T.res i j e) a
  let a ← srSum (List.range c.hydro.length) (fun e => srAt3 T.hydro i j e) a
  if 0 < c.conv.length ∨ 0 < c.res.length ∨ 0 < c.hydro.length then .error .name
  else do
    let a ← srSum c.buses.zipIdx (fun b => do
      let cur ← (if c.feas = true then srSum (List.range (c.cont + 1)) (fun k => srAt4 T.lc i j k b.2) 0 else .ok 0)
      .ok (- srDemand c i j b.1 + cur)) a
    .ok (a - (c.branches.map (fun b => b.loss)).sum)

/-- PO:831-841: the losses of one instance and period; only the last contingency is written, and only if something flows -/
def srShare (c : GnCase) (T : SrTables) (junk : Nat → Nat → Nat → Nat → Rat) (i j : Nat) : Except PyErr (List (List Rat)) := do
  let full ← srFullLoss c T i j
  let flow ← srSum (srPairs c.branches.length (c.cont + 1)) (fun q => do
    let v ← srAt4 T.flow i j q.2 q.1
    .ok |v|) 0
  (List.range (c.cont + 1)).mapM (fun (k : Nat) => c.branches.zipIdx.mapM (fun (b : GnBranch × Nat) =>
    if 0 < flow ∧ k = c.cont then do
      let v ← srAt4 T.flow i j k b.2
      .ok (full * (|v| / flow) + b.1.loss)
    else .ok (junk i j k b.2)))

/-- `ActivePowerLosses`, PO:767-847 -/
def srLosses (c : GnCase) (T : SrTables) (junk : Nat → Nat → Nat → Nat → Rat) : Except PyErr (Option (List (List (List (List Rat))))) :=
  if c.opf = true ∧ c.lossPieces.isSome = true then .ok T.loss
  else if c.opf = true ∧ c.loss.isSome = true then do
    let t ← grTimes c (srShare c T junk)
    .ok (some t)
  else .ok (some (List.replicate c.insts (List.replicate c.periods (List.replicate (c.cont + 1) (List.replicate c.branches.length 0)))))

/-- a row of a table `Scenario_..`, PO:849-861 -/
structure SrRow where
  time : Nat
  generation : Rat
  hydropower : Rat
  res : Rat
  demand : Rat
  pump : Rat
  loss : Rat
  curtailment : Rat
  spill : Rat
  genCur : Rat
  resCols : List Rat
  hydroCols : List Rat
  deriving DecidableEq

/-- the columns of the units, PO:944-955; none if there is no table -/
def srCols (t : Option (List (List (List Rat)))) (n i j : Nat) : Except PyErr (List Rat) :=
  match t with
  | none => .ok []
  | some t => (List.range n).mapM (fun (e : Nat) => srAt3 (some t) i j e)

/-- the column `gen_cur`, PO:886-893: `auxvar` is only set to 0 if there is a table -/
def srGenCur (c : GnCase) (T : SrTables) (i j : Nat) (auxvar : Rat) : Except PyErr Rat :=
  match T.gc with
  | none => .ok auxvar
  | some t => srSum (srPairs (c.cont + 1) c.buses.length) (fun q => srAt4 (some t) i j q.1 q.2) 0

/-- the column `loss`, PO:918-923 -/
def srLossSum (c : GnCase) (L : Option (List (List (List (List Rat))))) (i j : Nat) : Except PyErr Rat :=
  if c.lossPieces.isSome = true ∨ c.loss.isSome = true then srSum (srPairs (c.cont + 1) c.branches.length) (fun q => srAt4 L i j q.1 q.2) 0
  else .ok 0

/-- the column `curtailment`, PO:925-933 -/
def srCurtailed (c : GnCase) (T : SrTables) (i j : Nat) : Except PyErr Rat :=
  if c.opf = true then
    match T.lc with
    | none => .ok 0
    | some t => srSum (srPairs (c.cont + 1) c.buses.length) (fun q => srAt4 (some t) i j q.1 q.2) 0
  else
    match T.lcs with
    | none => .ok 0
    | some t => match (t[i]?).bind (fun (r : List Rat) => r[j]?) with
      | none => .error .index
      | some v => .ok (0 + v)

/-- the column `demand`, PO:895-911 -/
def srDemands (c : GnCase) (i j : Nat) : Rat := ((c.buses.filter (fun b => !(b.type == 4))).map (srDemand c i j)).sum

/-- one row, PO:863-957 -/
def srRow (c : GnCase) (T : SrTables) (L : Option (List (List (List (List Rat))))) (i j : Nat) : Except PyErr SrRow := do
  let g ← srUnits T.thermal c.conv.length i j
  let h ← srUnits T.hydro c.hydro.length i j
  let r ← srUnits T.res c.res.length i j
  let gc ← srGenCur c T i j r
  let q ← srUnits T.pumps c.pumps.length i j
  let l ← srLossSum c L i j
  let lc ← srCurtailed c T i j
  let rc ← srCols T.res c.res.length i j
  let hc ← srCols T.hydro c.hydro.length i j
  .ok ⟨j, g, h, r, srDemands c i j, q, l, lc, 0, gc, rc, hc⟩

/-- `saveResultsGLPK`, PO:701-959, with a directory: the tables of the instances -/
def srSave (c : GnCase) (p : GProb) (x : Nat → Rat) (junk : Nat → Nat → Nat → Nat → Rat) : Except PyErr (List (List SrRow)) := do
  let T ← srRead c p x
  let L ← srLosses c T junk
  grTimes c (srRow c T L)

/-- `HDF5aux[xs][xt] = profile[xp] * f`, PO:719 and 728 -/
def srEntry (profile : List Rat) (f : Rat) (n : Nat) : Except PyErr Rat :=
  match profile[n]? with
  | none => .error .index
  | some v => .ok (v * f)

/-- `Demand_profiles` and `RES_profiles`, PO:712-732: `n` rows with `periods` entries, one after the other in the profile -/
def srProfiles (n periods : Nat) (profile : List Rat) (f : Rat) : Except PyErr (List (List Rat)) :=
  (List.range n).mapM (fun (s : Nat) => (List.range periods).mapM (fun (t : Nat) => srEntry profile f (s * periods + t)))

/-! ## totals on the screen -/

/-- a total and its parts by hour, a list with 24 places -/
abbrev SrTally := Rat × List Rat

/-- `total += v; total_hours[xt] += v` -/
def srAdd (s : SrTally) (t : Nat) (v : Rat) : Except PyErr SrTally :=
  match s.2[t]? with
  | none => .error .index
  | some w => .ok (s.1 + v, s.2.set t (w + v))

/-- a loop over elements and periods with a total -/
def srTally {α : Type} (l : List α) (periods : Nat) (f : α → Nat → Except PyErr Rat) : Except PyErr SrTally :=
  l.foldlM (fun (s : SrTally) (e : α) => (List.range periods).foldlM (fun (s : SrTally) (t : Nat) => do
    let v ← f e t
    srAdd s t v) s) (0, List.replicate 24 0)

/-- the totals of one instance, PO:1479-1490 -/
structure SrTotals where
  demand : SrTally
  thermal : SrTally
  res : SrTally
  hydro : SrTally
  curtailment : SrTally
  genCur : SrTally
  deriving DecidableEq

/-- `LoadCurtailment[xh, xt, xco, xn]`, PO:1447-1450: the table of the system has two indices -/
def srPrintLc (c : GnCase) (T : SrTables) (i j : Nat) (q : Nat × Nat) : Except PyErr Rat :=
  if c.feas = false then .ok 0 else if c.opf = true then srAt4 T.lc i j q.2 q.1 else .error .index

/-- one instance of `printallNetworkResult`, PO:1331-1490: the losses, flows and angles are printed before (no failure in what is modelled) -/
def srPrintOne (c : GnCase) (T : SrTables) (i : Nat) : Except PyErr SrTotals := do
  let d ← srTally (c.buses.filter (fun b => !(b.type == 4))) c.periods (fun b t => .ok (srDemand c i t b))
  let g ← srTally (List.range c.conv.length) c.periods (fun e t => srAt3 T.thermal i t e)
  let r ← srTally (List.range c.res.length) c.periods (fun e t => srAt3 T.res i t e)
  let h ← srTally (List.range c.hydro.length) c.periods (fun e t => srAt3 T.hydro i t e)
  let lc ← srTally (srPairs c.buses.length (c.cont + 1)) c.periods (fun q t => srPrintLc c T i t q)
  let gc ← srTally (srPairs c.buses.length (c.cont + 1)) c.periods (fun q t => srAt4 T.gc i t q.2 q.1)
  .ok ⟨d, g, r, h, lc, gc⟩

/-- `printallNetworkResult`, PO:1226-1490: the totals of all instances; the losses are computed as when results are saved -/
def srPrint (c : GnCase) (p : GProb) (x : Nat → Rat) (junk : Nat → Nat → Nat → Nat → Rat) : Except PyErr (List SrTotals) := do
  let T ← srRead c p x
  let _ ← srLosses c T junk
  (List.range c.insts).mapM (srPrintOne c T)

/-- `SaveDetailedResultsGLPK`, PO:961-1180: without a directory it does nothing; otherwise it calls `GetThermalGenerationCurtailmentNodes` (PO:1022), which the models do not have -/
def srDetailed (dir : Bool) : Except PyErr Unit := if dir = false then .ok () else .error .attribute

end Pyensys
