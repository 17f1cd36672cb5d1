import Verif.Model.Energy
import Verif.Model.Commitment
import Verif.Model.CostCurve

/-!
# Model of the coupled energy and network model and of its user interface

Source: pyensys/engines/main.py (MA below), pyensys/engines/pyeneN.py (NW below).

Modelled: the number and the places of the instances of the network model (MA:721-722, 747-790, NW:344-378), the weights of
the instances in the objective (MA:97-110), the link between hydropower and the energy balance (MA:780-784, 225-229,
NW:654-658), the objective (MA:912-930), the user functions that set data (MA:272-284, 724-740, 1094-1125, 1169-1194,
1220-1233) and those that report results (MA:310-660).

Simplifications: floats are rationals; the values of the variables of a solved model are functions of position and period;
positions that are used are checked against the ranges declared, a position outside is a `KeyError` of Pyomo.
-/

namespace Pyensys

/-! ## instances -/

/-- number of instances, MA:721-722 -/
def instances (size : EnSize) (tree : EnTree) : Except PyErr Nat := do
  let t ← npGet tree.time size.periods
  .ok (1 + t.2 - t.1)

/-- `p['pyeneE'][xc]`, MA:786-789: the node of the energy balance of instance `xc` -/
def pyeneE (size : EnSize) (tree : EnTree) (xc : Nat) : Except PyErr Nat := do
  let t ← npGet tree.time size.periods
  .ok (t.1 + xc)

/-- sizes of one instance: branches (with contingencies), buses, branches with losses, generators, pumps, curtailments, and
the numbers of binary, down-time and up-time variables -/
structure InstSizes where
  noBranch : Nat
  noBuses : Nat
  branches : Nat
  noGen : Nat
  noPump : Nat
  noFea : Nat
  noBin : Nat
  noMDT : Nat
  noMUT : Nat
  deriving DecidableEq, Repr

/-- the families of variables -/
inductive VarFamily where
  | flow | volt | loss | gen | cost | pump | fea | bin | mdt | mut'
  deriving DecidableEq, Repr

/-- the number of positions declared for `noh` instances, NW:346-378 -/
def declaredRange (s : InstSizes) (noh : Nat) : VarFamily → Nat
  | .flow => noh * s.noBranch
  | .volt => noh * s.noBuses
  | .loss => noh * s.branches
  | .gen => noh * (s.noGen + 1)
  | .cost => noh * s.noGen
  | .pump => noh * (s.noPump + 1)
  | .fea => noh * s.noFea
  | .bin => noh * (s.noBin + 1)
  | .mdt => noh * (s.noMDT + 1)
  | .mut' => noh * (s.noMUT + 1)

/-- the first position of instance `xc`, MA:757-774; the binary variables and those of minimum times use the offset of the
generators (NW:502-540) -/
def instOffset (s : InstSizes) (xc : Nat) : VarFamily → Nat
  | .flow => xc * s.noBranch
  | .volt => xc * s.noBuses
  | .loss => xc * s.branches
  | .gen => xc * s.noGen
  | .cost => xc * s.noGen
  | .pump => xc * (s.noPump + 1)
  | .fea => xc * s.noFea
  | .bin => xc * s.noGen
  | .mdt => xc * s.noGen
  | .mut' => xc * s.noGen

/-- the number of elements of a family in one instance (pump 0 is the dummy pump, NW:551-553) -/
def familySize (s : InstSizes) : VarFamily → Nat
  | .flow => s.noBranch
  | .volt => s.noBuses
  | .loss => s.branches
  | .gen => s.noGen
  | .cost => s.noGen
  | .pump => s.noPump + 1
  | .fea => s.noFea
  | .bin => s.noBin
  | .mdt => s.noMDT
  | .mut' => s.noMUT

/-- the variable of element `i` of instance `xc`: outside the declared range Pyomo raises a `KeyError` -/
def varPosition (s : InstSizes) (noh : Nat) (f : VarFamily) (xc i : Nat) : Except PyErr Nat :=
  if instOffset s xc f + i < declaredRange s noh f then .ok (instOffset s xc f + i) else .error .key

/-! ## weights of the instances -/

/-- `WghtAgg[xb] *= WghtAgg[xn]`, MA:105 -/
def ofChild (xn : Nat) (w : List Rat) (xb : Nat) : Except PyErr (List Rat) := do
  let c ← npGet w xb
  let p ← npGet w xn
  npSet w xb (c * p)

/-- MA:101-108 for node `xn`; the state is (`WghtAgg`, `OFaux`, `xp`) -/
def ofNode (after : List (Nat × Nat)) (st : List Rat × List Rat × Nat) (xn : Nat) : Except PyErr (List Rat × List Rat × Nat) := do
  let a ← npGet after xn
  if a.1 ≠ 0 then do
    let w ← (List.range' a.1 (a.2 + 1 - a.1)).foldlM (ofChild xn) st.1
    .ok (w, st.2.1, st.2.2)
  else do
    let p ← npGet st.1 xn
    let o ← npSet st.2.1 st.2.2 p
    .ok (st.1, o, st.2.2 + 1)

/-- `_Calculate_OFaux`, MA:97-110 -/
def ofWeights (size : EnSize) (tree : EnTree) (w : EnWeights) : Except PyErr (List Rat) := do
  let n ← instances size tree
  let r ← (List.range size.nodes).foldlM (ofNode tree.after) (w.wght, List.replicate n 1, 0)
  .ok r.2.1

/-! ## hydropower and the energy balance -/

/-- `In_From_EM`, NW:654-658: the energy of hydropower unit `xg` in instance `xh` -/
def inFromEM (gen : Nat → Nat → Rat) (noGen conv : Nat) (weights : List Rat) (noTime : Nat) (base : Rat) (xh xg : Nat) : Rat :=
  ((List.range noTime).map (fun xt => gen (xh * noGen + (conv + xg)) xt * (weights[xt]?).getD 0)).sum * base

/-! ## results -/

/-- the arguments `times` and `scens` and the flag `snapshot`, MA:637-658 -/
structure ResultArgs where
  times : Option (List Nat) := none
  scens : Option (List Nat) := none
  snapshot : Bool := false
  deriving DecidableEq, Repr

/-- `get_timeAndScenario`, MA:637-658: times, weights, scenarios, weights of scenarios -/
def timeAndScenario (noTime noInst : Nat) (weights ofaux : List Rat) (a : ResultArgs) : List Nat × List Rat × List Nat × List Rat :=
  (a.times.getD (List.range noTime),
   if a.snapshot = true then List.replicate noTime 1 else weights,
   a.scens.getD (List.range noInst),
   if a.snapshot = true then List.replicate noInst 1 else ofaux)

/-- `acu += value * auxweight[xt]` -/
def addTime (w : List Rat) (f : Nat → Except PyErr Rat) (acu : Rat) (xt : Nat) : Except PyErr Rat := do
  let v ← f xt
  let ww ← npGet w xt
  .ok (acu + v * ww)

/-- `value += acu*auxOF[xh]` -/
def addScen (times : List Nat) (w ofw : List Rat) (f : Nat → Nat → Except PyErr Rat) (value : Rat) (xh : Nat) : Except PyErr Rat := do
  let acu ← times.foldlM (addTime w (f xh)) 0
  let o ← npGet ofw xh
  .ok (value + acu * o)

/-- the loops of `get_Demand`, `get_Generation`, `get_Pump`, `get_RES` and `get_DemandCurtailment`, MA:383-660: `f xh xt` is the value
of a scenario and a period -/
def collect (noTime noInst : Nat) (weights ofaux : List Rat) (base : Rat) (a : ResultArgs) (f : Nat → Nat → Except PyErr Rat) :
    Except PyErr Rat := do
  let p := timeAndScenario noTime noInst weights ofaux a
  let v ← p.2.2.1.foldlM (addScen p.1 p.2.1 p.2.2.2 f) 0
  .ok (v * base)

/-- the data of the functions that report results: the sizes of an instance, the data of the buses (losses and demand in MW), the
curtailment variables, the load types and the flags `Feasibility` and `Losses` -/
structure ApiData where
  sizes : InstSizes
  noTime : Nat
  noInst : Nat
  weights : List Rat
  ofaux : List Rat
  base : Rat
  noBus : Nat
  busLoss : List Rat
  pd : List Rat
  noDem : Int
  links : List Int
  demand : List Rat
  llFea : List (Nat × Nat)
  loadTypes : List DvLoadType
  resMax : List Rat := []
  resProfiles : List Rat := []
  resLinks : List Int := []
  conv : Nat := 0
  hydro : Nat := 0
  feasibility : Bool := true
  losses : Bool := false
  deriving Repr

/-- the values of the variables of the solved model, by position and period -/
structure ApiVals where
  gen : Nat → Nat → Rat
  pump : Nat → Nat → Rat
  fea : Nat → Nat → Rat

/-- the loop of a function that reports results -/
def ApiData.run (x : ApiData) (a : ResultArgs) (f : Nat → Nat → Except PyErr Rat) : Except PyErr Rat :=
  collect x.noTime x.noInst x.weights x.ofaux x.base a f

/-- the value of a variable of an instance in a period -/
def ApiData.var (x : ApiData) (f : VarFamily) (v : Nat → Nat → Rat) (i xh xt : Nat) : Except PyErr Rat := do
  let p ← varPosition x.sizes x.noInst f xh i
  .ok (v p xt)

/-- `get_Generation`, MA:445-459 -/
def getGeneration (x : ApiData) (v : ApiVals) (a : ResultArgs) (index : Nat) : Except PyErr Rat :=
  x.run a (x.var .gen v.gen index)

/-- the argument of `get_AllGeneration`, MA:347-356 -/
inductive GenClass where
  | all | conv | res | hydro
  deriving DecidableEq, Repr

/-- the positions of the generators of a class, pyeneD.py:1319-1371 -/
def genPositions (x : ApiData) : GenClass → List Nat
  | .all => List.range x.sizes.noGen
  | .conv => List.range x.conv
  | .hydro => List.range' x.conv x.hydro
  | .res => List.range' (x.conv + x.hydro) (x.sizes.noGen - (x.conv + x.hydro))

/-- `value += f` -/
def addTo {α : Type} (f : α → Except PyErr Rat) (value : Rat) (i : α) : Except PyErr Rat := do
  let v ← f i
  .ok (value + v)

/-- `get_AllGeneration`, MA:345-362 -/
def getAllGeneration (x : ApiData) (v : ApiVals) (a : ResultArgs) (c : GenClass) : Except PyErr Rat :=
  (genPositions x c).foldlM (addTo (getGeneration x v a)) 0

/-- `get_Pump`, MA:602-615: pumps are numbered from 1 -/
def getPump (x : ApiData) (v : ApiVals) (a : ResultArgs) (index : Nat) : Except PyErr Rat :=
  x.run a (x.var .pump v.pump index)

/-- `get_AllPumps`, MA:381-387 -/
def getAllPumps (x : ApiData) (v : ApiVals) (a : ResultArgs) : Except PyErr Rat :=
  (List.range x.sizes.noPump).foldlM (addTo (fun xp => getPump x v a (xp + 1))) 0

/-- the demand of bus `xb` (Python position) in a period, MA:405-409: unlike the balance (NW:441-443) the period is always added -/
def busDemand (x : ApiData) (xb : Int) (xh xt : Nat) : Except PyErr Rat := do
  let l ← pyGet x.busLoss xb
  let d ← pyGet x.pd xb
  let off ← (if x.noDem > 0 then do
      let k ← pyGet x.links ((xh * x.noBus : Nat) + (if xb < 0 then xb + x.noBus else xb))
      .ok ((k - 1) * x.noTime)
    else .ok 0 : Except PyErr Int)
  let p ← pyGet x.demand ((xt : Int) + off)
  .ok ((l + d) / x.base * p)

/-- `get_Demand`, MA:397-412: buses are numbered from 1 -/
def getDemand (x : ApiData) (a : ResultArgs) (bus : Int) : Except PyErr Rat :=
  x.run a (busDemand x (bus - 1))

/-- `values[LT] += aux` -/
def addByType (acc : Rat × Rat) (lt : DvLoadType) (v : Rat) : Except PyErr (Rat × Rat) :=
  match lt with
  | .list _ => .error .type
  | .num i => if i = 0 ∨ i = -2 then .ok (acc.1 + v, acc.2) else if i = 1 ∨ i = -1 then .ok (acc.1, acc.2 + v) else .error .index

/-- one bus of `get_AllDemand`, MA:319-323: total and the totals of both load types -/
def demandStep (x : ApiData) (a : ResultArgs) (acc : Rat × Rat × Rat) (xn : Nat) : Except PyErr (Rat × Rat × Rat) := do
  let v ← getDemand x a ((xn : Int) + 1)
  let lt ← pyGet x.loadTypes (xn : Int)
  let vs ← addByType acc.2 lt v
  .ok (acc.1 + v, vs)

/-- `get_AllDemand`, MA:310-325 -/
def getAllDemand (x : ApiData) (a : ResultArgs) : Except PyErr (Rat × Rat × Rat) :=
  (List.range x.noBus).foldlM (demandStep x a) (0, 0, 0)

/-- `get_DemandCurtailment` for a Pyomo model, MA:414-432: buses are numbered from 0 -/
def getCurtailment (x : ApiData) (v : ApiVals) (a : ResultArgs) (bus : Nat) : Except PyErr Rat := do
  let fe ← pyGet x.llFea (bus : Int)
  if fe.1 = 0 then .ok 0
  else if x.feasibility = true then x.run a (x.var .fea v.fea fe.2)
  else .ok 0

/-- one bus of `get_AllDemandCurtailment`, MA:338-340 -/
def curtailStep (x : ApiData) (v : ApiVals) (a : ResultArgs) (acc : Rat × Rat) (xn : Nat) : Except PyErr (Rat × Rat) := do
  let c ← getCurtailment x v a xn
  let lt ← pyGet x.loadTypes (xn : Int)
  addByType acc lt c

/-- `get_AllDemandCurtailment`, MA:327-343 -/
def getAllCurtailment (x : ApiData) (v : ApiVals) (a : ResultArgs) : Except PyErr (Rat × Rat × Rat) := do
  if x.feasibility = true then do
    let vs ← (List.range x.noBus).foldlM (curtailStep x v a) (0, 0)
    .ok (vs.1 + vs.2, vs)
  else .ok (0, 0, 0)

/-- `get_RES`, MA:617-635, for unit `xg = index - 1 ≥ 0`: energy that is not used -/
def getRES (x : ApiData) (v : ApiVals) (a : ResultArgs) (noRES xg : Nat) : Except PyErr Rat :=
  x.run a (fun xh xt => do
    let m ← resLimit x.resLinks x.resProfiles x.resMax x.noTime noRES xg xt xh
    let g ← x.var .gen v.gen (x.conv + x.hydro + xg) xh xt
    .ok (m - g))

/-- `get_Loss`, MA:494-523: whatever was computed, the program ends (`sys.exit('Just stop')`, MA:522; represented by
`runtime`) -/
def getLoss (_ : ApiData) (_ : Nat) : Except PyErr Rat := .error .runtime

/-- `get_AllLoss`, MA:372-379 -/
def getAllLoss (x : ApiData) : Except PyErr Rat :=
  if x.losses = true then (List.range x.sizes.branches).foldlM (addTo (getLoss x)) 0 else .ok 0

/-- `get_NetDemand`, MA:531-549, with the flags for demand, pumps, losses and curtailment: `get_AllDemand` returns a pair, adding
it to a number raises -/
def getNetDemand (x : ApiData) (v : ApiVals) (a : ResultArgs) (demand pumps loss curt : Bool) : Except PyErr Rat := do
  let v0 ← (if demand = true then do
      let _ ← getAllDemand x a
      .error .type
    else .ok 0 : Except PyErr Rat)
  let v1 ← (if pumps = true then getAllPumps x v a else .ok 0 : Except PyErr Rat)
  let v2 ← (if loss = true then getAllLoss x else .ok 0 : Except PyErr Rat)
  let v3 ← (if curt = true then do
      let c ← getAllCurtailment x v a
      .ok c.1
    else .ok 0 : Except PyErr Rat)
  .ok (v0 + v1 + v2 + v3)

/-- `OF_rule`, MA:912-926, without `vHpenalty`: costs, curtailment and pumps by instance, element and period -/
def ofRule (noGen noFea noPump noTime noInst : Nat) (w ofaux : Nat → Rat) (value : Nat → Rat) (base penalty : Rat)
    (cost fea pump : Nat → Nat → Nat → Rat) : Rat :=
  ((List.range noInst).map (fun xh =>
    (((List.range noTime).map (fun xt => (((List.range noGen).map (fun xg => cost xh xg xt)).sum +
        ((List.range noFea).map (fun xf => fea xh xf xt)).sum * penalty) * w xt)).sum -
      ((List.range noPump).map (fun xd => value xd * base *
        ((List.range noTime).map (fun xt => pump xh (xd + 1) xt * w xt)).sum)).sum) * ofaux xh)).sum

/-- `get_OFparts`, MA:561-600, with all flags: the weights of the periods are not used -/
def ofParts (noGen noFea noPump noTime noInst : Nat) (ofaux : Nat → Rat) (value : Nat → Rat) (base penalty : Rat)
    (cost fea pump : Nat → Nat → Nat → Rat) : Rat :=
  ((List.range noGen).map (fun xg => ((List.range noInst).map (fun xh =>
      ((List.range noTime).map (fun xt => cost xh xg xt)).sum * ofaux xh)).sum)).sum -
    ((List.range noInst).map (fun xh => ((List.range noPump).map (fun xd => value xd * base *
      ((List.range noTime).map (fun xt => pump xh (xd + 1) xt)).sum)).sum * ofaux xh)).sum +
    ((List.range noInst).map (fun xh => ((List.range noTime).map (fun xt =>
      ((List.range noFea).map (fun xf => fea xh xf xt)).sum * penalty)).sum * ofaux xh)).sum

/-! ## user functions that set data -/

/-- `np.mean` -/
def npMean (l : List Rat) : Rat := l.sum / l.length

/-- `CheckProfile`, MA:272-284 -/
def checkProfile (noTime : Nat) (value : List Rat) : Except PyErr (List Rat) :=
  if value.length ≠ noTime then
    if noTime = 1 then .ok [npMean value]
    else if noTime = 2 then
      .ok [((pySlice value 0 15).sum + (pySlice value 20 24).sum) / 19, npMean (pySlice value 15 20)]
    else .error .runtime
  else .ok value

/-- assignment to the slice `l[a:b]` of a numpy array: the lengths must agree, except that a single value is repeated -/
def sliceAssign (l : List Rat) (a b : Int) (v : List Rat) : Except PyErr (List Rat) :=
  let i := sliceBound l.length a
  let j := max i (sliceBound l.length b)
  if v.length = j - i then .ok (l.take i ++ v ++ l.drop j)
  else match v with
    | [x] => .ok (l.take i ++ List.replicate (j - i) x ++ l.drop j)
    | _ => .error .value

/-- the profiles created by `initialise`, MA:728-735: ones, overwritten by the values given -/
def initialDemand (noTime noDem : Nat) (given : List Rat) : Except PyErr (List Rat) :=
  if noTime * noDem < given.length then .error .index
  else .ok (given ++ List.replicate (noTime * noDem - given.length) 1)

/-- `set_Demand`, MA:1094-1103 -/
def setDemand (noTime number : Nat) (demand : List Rat) (index : Int) (value : List Rat) : Except PyErr (List Rat) :=
  if index ≤ number then do
    let v ← checkProfile noTime value
    sliceAssign demand ((index - 1) * noTime) (index * noTime) v
  else .ok demand

/-- `Overwrite`, used by `set_RES` at MA:1180-1184: indices, links and profiles -/
structure ResOverwrite where
  idx : List Int := []
  links : List Nat := []
  profs : List (List Rat) := []
  deriving DecidableEq, Repr

/-- the profile used, MA:1179-1184 -/
def resValue (o : ResOverwrite) (index : Int) (value : List Rat) : Except PyErr (List Rat) :=
  match o.idx.findIdx? (· = index) with
  | none => .ok value
  | some k => do
    let l ← npGet o.links k
    npGet o.profs l

/-- the loop MA:1192-1196: `RES[xs] = value[xi]/Base` -/
def resLoop (base : Rat) (value : List Rat) (start : Int) (res : List Rat) (xi : Nat) : Except PyErr (List Rat) := do
  let v ← npGet value xi
  let j : Int := if start + xi < 0 then start + xi + res.length else start + xi
  if j < 0 ∨ (res.length : Int) ≤ j then .error .index else .ok (res.set j.toNat (v / base))

/-- `set_RES`, MA:1169-1196 -/
def setRES (noTime noRES : Nat) (base : Rat) (o : ResOverwrite) (res : List Rat) (index : Int) (value : List Rat) :
    Except PyErr (List Rat) := do
  let value ← resValue o index value
  if index ≤ noRES then do
    let v ← checkProfile noTime value
    let res ← sliceAssign res ((index - 1) * noTime) (index * noTime) v
    (List.range noTime).foldlM (resLoop base v ((index - 1) * noTime)) res
  else .ok res

/-- the argument of `set_GenCoFlag`: a flag or a capacity -/
inductive GenFlag where
  | flag (b : Bool)
  | capacity (v : Rat)
  deriving DecidableEq, Repr

/-- `set_GenCoFlag`, MA:1105-1125: the new maximum (per unit) of a generator with maximum `max` (per unit) -/
def setGenCoFlag (base max : Rat) : GenFlag → Rat
  | .flag true => max / base
  | .flag false => 0
  | .capacity v => v / base

/-- `set_element_status`, MA:1220-1233, for one type of element: `id = none` is Python's `None`, and 0 is false -/
def setStatus (statuses : List Bool) (id : Option Int) (status : Bool) : Except PyErr (List Bool) :=
  match id with
  | none => .error .value
  | some i =>
    if i = 0 then .error .value
    else
      let j : Int := if i < 0 then i + statuses.length else i
      if j < 0 ∨ (statuses.length : Int) ≤ j then .error .index else .ok (statuses.set j.toNat status)

end Pyensys
