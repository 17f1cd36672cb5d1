import Verif.Model.Screening

/-!
# Model of the verification of clusters and of the planning command

Source: pyensys/Optimisers/clusters_verification_function.py:19-250 (CV below), pyensys/cases.py:858-907
(`save_in_jsonW_2`) and 999-1091 (end of `attest_invest`, CA below), pyensys/Optimisers/process_data.py:152-175
(`mult_for_bus`, PD below).

The network read by `from_mpc` (CV:89) is a value `VNet` with what the function changes: loads, line currents and
transformer sizes, and the voltages it reads.  `runopp` (CV:229) is an oracle on networks: whether it converges.
It is a function, i.e. its outcome depends on the network only.

Simplifications: floats are rationals; tables are indexed 0, 1, 2, … as `from_mpc` makes them; the replacement of the
external grid by a generator (CV:140-191) is part of the oracle, being the same for all clusters; a nominal voltage
of 0, which makes numpy return infinity at CV:211, is not considered (division by zero is 0 here); prints are left out.
`np.argsort` (CV:57) is a parameter: any function that returns positions.
-/

namespace Pyensys

/-- a line: position of the bus it starts from, its current limit in kA -/
structure VLine where
  fromBus : Nat
  maxI : Rat
  deriving DecidableEq, Repr

/-- a load: position of its bus, active and reactive power -/
structure VLoad where
  bus : Nat
  p : Rat
  q : Rat
  deriving DecidableEq, Repr

/-- the network of one tree node -/
structure VNet where
  busKv : List Rat
  loads : List VLoad := []
  lines : List VLine
  trafos : List Rat := []
  deriving DecidableEq, Repr

/-! ## upgrades -/

/-- CV:209-211 and 220-221: the new limit of line `l`; `none` if a table has no such row (KeyError) -/
def vUpgradeLine (net : VNet) (l : Nat) (mva : Rat) : Option VNet :=
  match net.lines[l]? with
  | none => none
  | some ln => match net.busKv[ln.fromBus]? with
    | none => none
    | some kv => some { net with
        lines := net.lines.set l { ln with maxI := ln.maxI + mva * 10 ^ 6 / (kv * 10 ^ 3) / 10 ^ 3 } }

/-- CV:226 -/
def vUpgradeTrafo (net : VNet) (t : Nat) (mva : Rat) : Option VNet :=
  match net.trafos[t]? with
  | none => none
  | some sn => some { net with trafos := net.trafos.set t (sn + mva) }

/-- the loop CV:206-211: the network it leaves, and whether it raised -/
def upgradeLines : List Rat → Nat → VNet → VNet × Bool
  | [], _, net => (net, false)
  | mva :: rest, l, net =>
    match vUpgradeLine net l mva with
    | none => (net, true)
    | some net' => upgradeLines rest (l + 1) net'

/-- the loop CV:214-227 with its two counters; `taps` are the remaining entries of `line_tap_vector` -/
def upgradeMixed : List Rat → List Rat → Nat → Nat → VNet → VNet × Bool
  | [], _, _, _, net => (net, false)
  | _ :: _, [], _, _, net => (net, true)
  | mva :: rest, tap :: taps, l, t, net =>
    if tap = 0 then
      match vUpgradeLine net l mva with
      | none => (net, true)
      | some net' => upgradeMixed rest taps (l + 1) t net'
    else
      match vUpgradeTrafo net t mva with
      | none => (net, true)
      | some net' => upgradeMixed rest taps l (t + 1) net'

/-- CV:205-227 -/
def applyCluster (taps : List Rat) (net : VNet) (c : List Rat) : VNet × Bool :=
  if net.trafos.length = 0 then upgradeLines c 0 net else upgradeMixed c taps 0 0 net

/-- the loop CV:195-247 for one node: the first cluster (with its cost) that is applied without an exception and for
which the OPF converges.  The same network is upgraded again and again, also by clusters that fail, as far as they
come before an exception (CV:203-232). -/
def verifyClusters (taps : List Rat) (opf : VNet → Bool) : List (List Rat × Rat) → VNet → Option (List Rat × Rat)
  | [], _ => none
  | c :: rest, net =>
    let r := applyCluster taps net c.1
    if !r.2 && opf r.1 then some c else verifyClusters taps opf rest r.1

/-! ## the tree -/

/-- CV:126-127: all loads times the multiplier of the first bus -/
def scaleLoads (net : VNet) (m : Rat) : VNet :=
  { net with loads := net.loads.map (fun x => { x with p := x.p * m, q := x.q * m }) }

/-- CV:129-131: additional load of the bus of each load (IndexError if there is none) -/
def addLoads (net : VNet) (add : List Rat) : Except PyErr VNet := do
  let ls ← net.loads.mapM (fun x => do
    let a ← pyGet add (x.bus : Int)
    return { x with p := x.p + a })
  return { net with loads := ls }

/-- CV:96-114: additional loads of a year, if asked for (`ev` reads the sheet of a year; there are four years) -/
def yearAdditions (useEv : Bool) (ev : Int → Except PyErr (List Rat)) (noBus year : Nat) : Except PyErr (List Rat) :=
  if useEv = true then
    if year ≠ 0 then do
      let name ← pyGet [2020, 2030, 2040, 2050] (year : Int)
      ev name
    else .ok (List.replicate noBus 0)
  else .ok (List.replicate noBus 0)

/-- CV:89-131: the network of a node with the bus multipliers `mult` -/
def nodeNet (base : VNet) (useEv : Bool) (ev : Int → Except PyErr (List Rat)) (year : Nat) (mult : List Rat) : Except PyErr VNet := do
  let add ← yearAdditions useEv ev base.busKv.length year
  let m ← pyGet mult 0
  let net := scaleLoads base m
  if useEv = true then addLoads net add else .ok net

/-- what is collected: clusters and costs by node (`none` is the initial `[0]`), and `no_feasible_plan` -/
structure Verified where
  lines : List (List Rat)
  costs : List (Option Rat)
  failed : Bool := false
  deriving DecidableEq, Repr

/-- CV:234-247: the result of a node is stored -/
def storeNode (node : Nat) (v : Verified) : Option (List Rat × Rat) → Except PyErr Verified
  | none => .ok { v with failed := true }
  | some c =>
    if node < v.lines.length then .ok { v with lines := v.lines.set node c.1, costs := v.costs.set node (some c.2) }
    else .error .index

/-- CV:88-248 for the node with number `node` (there is always at least one cluster, CV:42) -/
def verifyNode (base : VNet) (taps : List Rat) (useEv : Bool) (ev : Int → Except PyErr (List Rat)) (opf : VNet → Bool)
    (clusters : List (List Rat × Rat)) (year node : Nat) (mult : List Rat) (v : Verified) : Except PyErr Verified := do
  let net ← nodeNet base useEv ev year mult
  storeNode node v (verifyClusters taps opf clusters net)

/-- the loop CV:85-248 over the nodes of one year -/
def verifyYear (base : VNet) (taps : List Rat) (useEv : Bool) (ev : Int → Except PyErr (List Rat)) (opf : VNet → Bool)
    (clusters : List (List Rat × Rat)) (year : Nat) : Nat → List (List Rat) → Verified → Except PyErr Verified
  | _, [], v => .ok v
  | node, m :: ms, v => do
    let v' ← verifyNode base taps useEv ev opf clusters year node m v
    verifyYear base taps useEv ev opf clusters year (node + 1) ms v'

/-- the loop CV:84-248 over the years -/
def verifyYears (base : VNet) (taps : List Rat) (useEv : Bool) (ev : Int → Except PyErr (List Rat)) (opf : VNet → Bool)
    (clusters : List (List Rat × Rat)) : Nat → Nat → List (List (List Rat)) → Verified → Except PyErr Verified
  | _, _, [], v => .ok v
  | year, node, row :: rows, v => do
    let v' ← verifyYear base taps useEv ev opf clusters year node row v
    verifyYears base taps useEv ev opf clusters (year + 1) (node + row.length) rows v'

/-- CV:42, 52-59: the cluster without investments is added, and all are put in the order of their costs -/
def sortedClusters (argsort : List Rat → List Nat) (clusters : List (List Rat)) : Except PyErr (List (List Rat × Rat)) :=
  match clusters with
  | [] => .error .index
  | c0 :: _ =>
    let all := clusters ++ [List.replicate c0.length 0]
    let costs := all.map (fun c => c.sum * 60000)
    (argsort costs).mapM (fun (i : Nat) => do
      let c ← pyGet all (i : Int)
      let k ← pyGet costs (i : Int)
      return (c, k))

/-- `clust_verification_function`, CV:19-250, on the contents of the two files it reads -/
def clusterVerification (argsort : List Rat → List Nat) (base : VNet) (taps : List Rat) (useEv : Bool)
    (ev : Int → Except PyErr (List Rat)) (opf : VNet → Bool) (clusters : List (List Rat)) (mult : List (List (List Rat))) :
    Except PyErr Verified := do
  let sorted ← sortedClusters argsort clusters
  let noLines := (clusters.head?.map (·.length)).getD 0
  let noNodes := ((List.range mult.length).map (fun n => 2 ^ n)).sum
  verifyYears base taps useEv ev opf sorted 0 0 mult
    { lines := List.replicate noNodes (List.replicate noLines 0), costs := List.replicate noNodes none }

/-! ## the report -/

/-- one year of a scenario in the output file, CA:895-900 -/
structure YearReport where
  year : Int
  investment : List Rat
  cost : Option Rat
  deriving DecidableEq, Repr

/-- a scenario in the output file, CA:863-872, 894-903 -/
structure ScenarioReport where
  years : List YearReport
  total : Option Rat
  deriving DecidableEq, Repr

/-- the loop CA:894-903 (`some 0` is the initial total) -/
def reportYears (s : Verified) (nodes : List Nat) : List Int → Nat → ScenarioReport → Except PyErr ScenarioReport
  | [], _, r => .ok r
  | y :: ys, i, r => do
    let n ← pyGet nodes (i : Int)
    let l ← pyGet s.lines (n : Int)
    let c ← pyGet s.costs (n : Int)
    reportYears s nodes ys (i + 1) { years := r.years ++ [⟨y, l, c⟩], total := c }

/-- `save_in_jsonW_2`, CA:858-907: the reports of the active and the slow economy (keys are the years; with the same
year twice the second entry would replace the first) -/
def saveReport (s : Verified) (yrs : List Int) : Except PyErr (ScenarioReport × ScenarioReport) := do
  let a ← reportYears s [0, 1, 3, 7] yrs 0 ⟨[], some 0⟩
  let b ← reportYears s [0, 2, 6, 14] yrs 0 ⟨[], some 0⟩
  return (a, b)

/-! ## the command -/

/-- the two files that the stages exchange, `none` if they do not exist -/
structure StageFiles where
  clusters : Option (List (List Rat)) := none
  mult : Option (List (List (List Rat))) := none
  deriving DecidableEq, Repr

/-- what the command writes to its output file -/
inductive CommandOutput where
  | aborted
  | warning
  | report (active slow : ScenarioReport)
  deriving DecidableEq, Repr

/-- the end of `attest_invest`, CA:999-1091.  `screen` is `Screenning_clusters` (the clusters and the bus multipliers it
writes, CA:494 with PD:170-173, and CA:632-635), `document` is `build_json` (it may raise), `base` and `taps` come from
the case.  Reading a file that does not exist raises. -/
def attestCommand (argsort : List Rat → List Nat) (base : VNet) (taps : List Rat) (useEv : Bool)
    (ev : Int → Except PyErr (List Rat)) (opf : VNet → Bool) (yrs : List Int)
    (screen : Except PyErr (List (List Rat) × List (List (List Rat)))) (document : List (List Rat) → Except PyErr Unit)
    (cluster : Option (List (List Rat))) (files : StageFiles) : Except PyErr (CommandOutput × StageFiles) := do
  let start ← (match cluster with
    | none => do
      let s ← screen
      .ok (s.1, { clusters := some s.1, mult := some s.2 })
    | some c => .ok (c, files) : Except PyErr (List (List Rat) × StageFiles))
  if start.1 = [] then .ok (.aborted, start.2)
  else do
    document start.1
    match start.2.clusters, start.2.mult with
    | some cs, some m => do
      let v ← clusterVerification argsort base taps useEv ev opf cs m
      if v.failed = true then .ok (.warning, start.2)
      else do
        let r ← saveReport v yrs
        .ok (.report r.1 r.2, start.2)
    | _, _ => .error .runtime

end Pyensys
