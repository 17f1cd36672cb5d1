import Verif.Model.Container
import Verif.Model.Types

/-!
# Model of the non-anticipative recursive search

Sources: pyensys/Optimisers/NonAnticipativeRecursiveFunction.py (NA below),
pyensys/Optimisers/RecursiveFunction.py (RF below), pyensys/managers/GeneralManager.py.

Simplifications (see DESIGN.md):
* all containers of the search are list-mode containers, represented by their item lists, with the
  list-mode operations of `Verif.Model.Container`;
* the key `str(n)` is represented by `n`, the sentinel "not found" by `none`;
* the partial tree's containers start uninitialised; an uninitialised container and an empty
  list-mode container answer alike to every operation performed on them here (`len`, `get`);
* the OPF (pandapower) is an oracle that may depend on all earlier OPF requests;
* `_number_opf_per_node` / `_successful_opf_per_node` (statistics never read) are replaced by the
  log of OPF requests, `print`s are dropped.
-/

namespace Pyensys

/-- A root-to-node path: items `(str(position), node)`. -/
abbrev Path := List (Int × Nat)
/-- A group of interventions: items `(pool key, variable)`. -/
abbrev Group := List (Int × BinVar)
/-- Interventions per level: items `(str(level), group)`. -/
abbrev Sol := List (Int × Group)
/-- Remaining construction times of a group. -/
abbrev Times := List (Int × Int)

/-- `InvestmentPlanData`, RF:15-24. -/
structure Plan where
  interventions : List (Int × Sol) := []
  operationCosts : List (Int × Rat) := []
  investmentCosts : List (Int × Rat) := []
  graphPaths : List (Int × Path) := []
  deriving DecidableEq, Repr

/-- What is handed to the OPF: the node (which selects the demand data, RF:229-235) and the
interventions activated in a freshly loaded network (NA:386-389). -/
structure Request where
  node : Nat
  active : List BinVar
  deriving DecidableEq, Repr

/-- `InterIterationInformation`, RF:39-70, together with the solver attributes that change during
the search: the log of OPF requests and the cost of the last OPF. -/
structure Info where
  incInt : List (Int × Sol) := []
  incOp : List (Int × Rat) := []
  incInv : List (Int × Rat) := []
  incPaths : List (Int × Path) := []
  candPath : Path := []
  candOp : List (Int × Rat) := []
  candInt : Sol := []
  candTime : List (Int × Times) := []
  newInt : Group := []
  newTime : Times := []
  complete : Plan := {}
  partialTree : Plan := {}
  node : Nat := 0
  level : Int := 0
  allowDel : Bool := false
  lastReached : Bool := false
  log : List Request := []
  lastCost : Rat := 0
  deriving DecidableEq, Repr

/-- The solver's constant data: pool of interventions, keys of `nodes_data`, successor lists of the
control graph, `optimisation_years`, return rate in percent and the OPF oracle
(feasible?, `res_cost`). -/
structure Cfg where
  pool : Group
  nodes : List Nat
  nbr : Nat → List Nat
  years : List Int
  rate : Rat
  opf : List Request → Request → Bool × Rat

/-- `_create_pool_interventions`, RF:176-188, for the groups from `counter` on: `zip` truncates to
the shortest list, the counter runs through all groups. -/
def createPool : List OptionGroup → Int → Group
  | [], _ => []
  | g :: gs, counter =>
    let opts := (g.costs.zip (g.positions.zip (g.installationTimes.zip g.capacities))).map
      (fun t => ({ elementType := g.elementType, variableName := g.variableName, elementId := "",
                   position := t.2.1, cost := t.1, installationTime := t.2.2.1,
                   capacity := t.2.2.2 } : BinVar))
    let keyed := opts.zipIdx.map (fun p => (counter + (p.2 : Int), p.1))
    keyed ++ createPool gs (counter + opts.length)

/-! ## helpers on containers -/

/-- `container.pop(key)` where only the effect matters. -/
def popOnly {V : Type} (l : List (Int × V)) (k : Int) : Except PyErr (List (Int × V)) :=
  match listPop l k with
  | .ok r => .ok r.2
  | .error e => .error e

/-- `interventions_time[key] += period` (NA:90, 92): `__getitem__` (first match) then `__setitem__`
(all matches); `None + int` would raise. -/
def bumpKey (period : Int) (t : Times) (k : Int) : Except PyErr Times :=
  match listGet? t k with
  | some v => .ok (listSet t k (v + period))
  | none => .error .noneArith

/-- The loops NA:89-90 and NA:91-92 over one container of times. -/
def bumpAll (period : Int) (t : Times) : Except PyErr Times :=
  (t.map (·.1)).foldlM (bumpKey period) t

/-- The loop NA:88-90 over all levels (in place, level keys untouched). -/
def bumpLevels (period : Int) : List (Int × Times) → Except PyErr (List (Int × Times))
  | [] => .ok []
  | (k, t) :: r => do
    let t' ← bumpAll period t
    let r' ← bumpLevels period r
    return (k, t') :: r'

/-- `update_remaining_construction_time`, NA:85-95. -/
def updateTimes (period : Int) (info : Info) : Except PyErr Info := do
  let ct ← bumpLevels period info.candTime
  let nt ← bumpAll period info.newTime
  return { info with candTime := ct, newTime := nt }

/-- `candidate_interventions[step].pop(key)` (NA:106): the first group stored under `step`;
`None.pop` raises AttributeError. -/
def popInner (step key : Int) : Sol → Except PyErr Sol
  | [] => .error .attribute
  | (s, g) :: r =>
    if s = step then do
      let g' ← popOnly g key
      return (s, g') :: r
    else do
      let r' ← popInner step key r
      return (s, g) :: r'

/-- `_get_already_build_interventions`, NA:98-107: drops from a copy of the candidate every
intervention with a positive remaining construction time. -/
def alreadyBuilt (info : Info) : Except PyErr Sol :=
  info.candTime.foldlM (fun c st =>
    ((st.2.filter (fun kt => kt.2 > 0)).map (·.1)).foldlM (fun c k => popInner st.1 k c) c)
    info.candInt

/-- `_get_constructed_interventions_from_candidate`, NA:110-117.  `interventions[key]` may be
`None`, which makes `_create_data_to_update_status_of_parameter` (RF:107-120) raise TypeError
later on; the error is raised here. -/
def pickBuilt (g : Group) (acc : List BinVar) (kt : Int × Int) : Except PyErr (List BinVar) :=
  if kt.2 ≤ 0 then
    match listGet? g kt.1 with
    | some v => .ok (acc ++ [v])
    | none => .error .type
  else .ok acc

/-- The two nested loops NA:112-116. -/
def constructedFromCandidate (info : Info) : Except PyErr (List BinVar) :=
  (info.candTime.zip info.candInt).foldlM
    (fun acc (p : (Int × Times) × (Int × Group)) => p.1.2.foldlM (pickBuilt p.2.2) acc) []

/-- `_get_constructed_interventions_from_new_interventions`, NA:120-126. -/
def constructedFromNew (info : Info) : List BinVar :=
  ((info.newTime.zip info.newInt).filter (fun p => p.1.2 ≤ 0)).map (·.2.2)

/-- `_get_interventions_ready_to_operate_in_opf`, NA:129-132. -/
def ready (info : Info) : Except PyErr (List BinVar) := do
  let a ← constructedFromCandidate info
  return a ++ constructedFromNew info

/-! ## costs -/

/-- `x ** n` for a natural exponent. -/
def ratPow (x : Rat) : Nat → Rat
  | 0 => 1
  | n + 1 => x * ratPow x n

/-- `1 / ((1 - rate/100) ** d)` (NA:455-456, 461-462, 474-475); Python raises ZeroDivisionError when
the base is 0 and `d ≠ 0`. -/
def discount (rate : Rat) (d : Int) : Except PyErr Rat :=
  let base := 1 - rate / 100
  if base = 0 ∧ d ≠ 0 then .error .zeroDivision
  else if 0 ≤ d then .ok (1 / ratPow base d.toNat)
  else .ok (1 / (1 / ratPow base (-d).toNat))

/-- The weight of level `i` of a solution: 1 at level 0, else the discount factor for
`optimisation_years[i] - optimisation_years[0]` (NA:454-463, 469-476). -/
def levelWeight (cfg : Cfg) (i : Nat) : Except PyErr Rat :=
  if i = 0 then .ok 1
  else do
    let y ← pyGet cfg.years i
    let y0 ← pyGet cfg.years 0
    discount cfg.rate (y - y0)

/-- Loop of `_calculate_investment_cost`, NA:448-463, from level `i` on. -/
def investmentCostFrom (cfg : Cfg) : Nat → List (Int × Group) → Rat → Except PyErr Rat
  | _, [], acc => .ok acc
  | i, (_, g) :: r, acc => do
    let partialCost := g.foldl (fun s kv => s + kv.2.cost) 0
    let w ← levelWeight cfg i
    investmentCostFrom cfg (i + 1) r (acc + w * partialCost)

/-- `_calculate_investment_cost`, NA:444-464. -/
def investmentCost (cfg : Cfg) (s : Sol) : Except PyErr Rat := investmentCostFrom cfg 0 s 0

/-- Loop of `_calculate_opteration_cost`, NA:468-476. -/
def operationCostFrom (cfg : Cfg) : Nat → List (Int × Rat) → Rat → Except PyErr Rat
  | _, [], acc => .ok acc
  | i, (_, c) :: r, acc =>
    if i = 0 then operationCostFrom cfg (i + 1) r c
    else do
      let w ← levelWeight cfg i
      operationCostFrom cfg (i + 1) r (acc + w * c)

/-- `_calculate_opteration_cost`, NA:466-477. -/
def operationCost (cfg : Cfg) (l : List (Int × Rat)) : Except PyErr Rat := operationCostFrom cfg 0 l 0

/-- `_calculate_total_planning_cost`, NA:149-154. -/
def totalPlanningCost (inv op : List (Int × Rat)) : Rat :=
  (inv.zip op).foldl (fun c p => c + (p.1.2 + p.2.2)) 0

/-! ## incumbent, partial and complete plans -/

/-- `InvestmentPlanData.is_empty`, RF:26-32. -/
def Plan.isEmpty (p : Plan) : Except PyErr Bool :=
  if p.interventions.length = p.operationCosts.length ∧
     p.operationCosts.length = p.investmentCosts.length ∧
     p.investmentCosts.length = p.graphPaths.length
  then .ok (p.interventions.length = 0)
  else .error .assertion

/-- The incumbent as a plan (deep copies of the four incumbent containers). -/
def Info.incumbent (info : Info) : Plan :=
  ⟨info.incInt, info.incOp, info.incInv, info.incPaths⟩

/-- `candidate_solution_path in path` (list containment, AbstractDataContainer.py:89-93). -/
def pathContains (path cand : Path) : Bool := ADC.compareLists path cand

/-- `_find_keys_of_offsprings_in_incumbent`, NA:22-27. -/
def offspringKeys (info : Info) : List Int :=
  (info.incPaths.filter (fun kp => pathContains kp.2 info.candPath)).map (·.1)

/-- Body of the loop of `_delete_offsprings_from_incumbent`, NA:31-41. -/
def deleteKey (info : Info) (k : Int) : Except PyErr Info := do
  let i ← popOnly info.incInt k
  let p ← popOnly info.incPaths k
  let o ← popOnly info.incOp k
  let v ← popOnly info.incInv k
  let info := { info with incInt := i, incPaths := p, incOp := o, incInv := v }
  if info.allowDel && !info.lastReached && (listGet? info.partialTree.interventions k).isSome then do
    let i ← popOnly info.partialTree.interventions k
    let p ← popOnly info.partialTree.graphPaths k
    let o ← popOnly info.partialTree.operationCosts k
    let v ← popOnly info.partialTree.investmentCosts k
    return { info with partialTree := ⟨i, o, v, p⟩ }
  else return info

/-- `_determine_keys_to_be_renumbered`, NA:53-64. -/
def keysToRenumber (info : Info) : List Int :=
  let remaining := info.incPaths.map (·.1)
  let keep := ((List.range remaining.length).map (fun (n : Nat) => (n : Int))).filter
    (fun n => remaining.contains n)
  keep.foldl (fun r k => if r.contains k then r.erase k else r) remaining

/-- `container.append(str(num), container.pop(key))` (NA:47-50). -/
def rekey {V : Type} (l : List (Int × V)) (key num : Int) : Except PyErr (List (Int × V)) :=
  match listPop l key with
  | .ok r => .ok (r.2 ++ [(num, r.1)])
  | .error e => .error e

/-- Body of the loop of `_renumber_keys_in_incumbent`, NA:46-50. -/
def renumberOne (info : Info) (num key : Int) : Except PyErr Info := do
  let i ← rekey info.incInt key num
  let p ← rekey info.incPaths key num
  let o ← rekey info.incOp key num
  let v ← rekey info.incInv key num
  return { info with incInt := i, incPaths := p, incOp := o, incInv := v }

/-- `_renumber_keys_in_incumbent`, NA:44-50. -/
def renumberKeys (info : Info) : Except PyErr Info :=
  (keysToRenumber info).zipIdx.foldlM (fun info p => renumberOne info (p.2 : Int) p.1) info

/-- `_eliminate_offsprings_of_candidate_in_incumbent`, NA:14-19. -/
def eliminateOffspring (info : Info) : Except PyErr Info := do
  let info ← (offspringKeys info).foldlM deleteKey info
  let info ← renumberKeys info
  if info.incInt.length = 0 ∧ info.lastReached = false then
    return { info with allowDel := false }
  else return info

/-- `check_if_candidate_path_has_been_stored_in_incumbent`, RF:99-104. -/
def storedKey (info : Info) : Option Int :=
  (info.incPaths.find? (fun kp => pathContains kp.2 info.candPath)).map (·.1)

/-- `_append_candidate_in_incumbent_list`, NA:391-400 (with NA:135-139): the stored interventions
are the built ones, the stored investment cost is that of *all* candidate interventions. -/
def appendCandidate (cfg : Cfg) (key : Int) (info : Info) : Except PyErr Info := do
  let built ← alreadyBuilt info
  let inv ← investmentCost cfg info.candInt
  let op ← operationCost cfg info.candOp
  return { info with
    incPaths := info.incPaths ++ [(key, info.candPath)],
    incInt := info.incInt ++ [(key, built)],
    incInv := info.incInv ++ [(key, inv)],
    incOp := info.incOp ++ [(key, op)] }

/-- `_replace_incumbent_if_candidate_is_better` and `_replace_solution_in_incumbent_list`,
NA:402-418 (with NA:142-146). -/
def replaceIfBetter (cfg : Cfg) (key : Int) (info : Info) : Except PyErr Info := do
  let built ← alreadyBuilt info
  let inv ← investmentCost cfg built
  let op ← operationCost cfg info.candOp
  match listGet? info.incInv key, listGet? info.incOp key with
  | some i, some o =>
    if i + o > inv + op then
      return { info with
        incPaths := listSet info.incPaths key info.candPath,
        incInt := listSet info.incInt key built,
        incInv := listSet info.incInv key inv,
        incOp := listSet info.incOp key op }
    else return info
  | _, _ => .error .noneArith

/-- `_determine_remaining_nodes_to_be_explored`, NA:436-442. -/
def remainingNodes (cfg : Cfg) (info : Info) : List Nat :=
  info.incPaths.foldl (fun r kp => kp.2.foldl (fun r pn =>
    if r.contains pn.2 then r.erase pn.2 else r) r) cfg.nodes

/-- `_replacement_of_investments_for_whole_tree` and `_store_complete_tree`, NA:157-173. -/
def replaceTree (info : Info) : Except PyErr Info := do
  let e ← info.complete.isEmpty
  if e then return { info with complete := info.incumbent }
  else if totalPlanningCost info.complete.investmentCosts info.complete.operationCosts >
      totalPlanningCost info.incInv info.incOp then
    return { info with complete := info.incumbent }
  else return info

/-- `_optimality_check_with_non_empty_incumbent`, NA:420-428. -/
def optimalityNonEmpty (cfg : Cfg) (info : Info) : Except PyErr Info := do
  let info ← match storedKey info with
    | none => appendCandidate cfg info.incPaths.length info
    | some k => replaceIfBetter cfg k info
  if remainingNodes cfg info = [] then replaceTree { info with allowDel := true }
  else return info

/-- `_return_to_previous_state`, RF:371-381 (`non_anticipative` is True for this solver, so the
level is not changed). -/
def returnToPrevious (info : Info) : Except PyErr Info := do
  let ci ← popOnly info.candInt info.level
  let ct ← popOnly info.candTime info.level
  let co ← popOnly info.candOp info.level
  let cp ← popOnly info.candPath ((info.candPath.length : Int) - 1)
  return { info with candInt := ci, candTime := ct, candOp := co, candPath := cp }

/-- `_optimality_check`, RF:323-328. -/
def optimalityCheck (cfg : Cfg) (info : Info) : Except PyErr Info := do
  let info ← if info.incPaths.length = 0 then appendCandidate cfg 0 info
             else optimalityNonEmpty cfg info
  returnToPrevious info

/-- `_construction_of_solution`, RF:267-281; the OPF cost is multiplied by 365 (RF:320-321). -/
def construct (info : Info) : Info :=
  { info with
    candPath := info.candPath ++ [((info.candPath.length : Int), info.node)],
    candInt := info.candInt ++ [(info.level, info.newInt)],
    candTime := info.candTime ++ [(info.level, info.newTime)],
    candOp := info.candOp ++ [(info.level, info.lastCost * 365)] }

/-- `_store_partial_tree`, NA:265-285. -/
def storePartial (info : Info) : Except PyErr Info := do
  let e ← info.partialTree.isEmpty
  if e then return { info with partialTree := info.incumbent }
  else if info.incPaths.length > info.partialTree.graphPaths.length then
    return { info with partialTree := info.incumbent }
  else if info.partialTree.graphPaths = info.incPaths then
    if totalPlanningCost info.partialTree.investmentCosts info.partialTree.operationCosts >
        totalPlanningCost info.incInv info.incOp then
      return { info with partialTree := info.incumbent }
    else return info
  else return info

/-! ## the recursion -/

/-- `_calculate_available_interventions`, RF:283-292. -/
def available (cfg : Cfg) (info : Info) : Group :=
  differenceLists (info.candInt.foldl (fun a lg => differenceLists a lg.2) cfg.pool) info.newInt

/-- `itertools.combinations(items, n)` (RF:294-296), in its lexicographic order. -/
def combos {α : Type} : Nat → List α → List (List α)
  | 0, _ => [[]]
  | _ + 1, [] => []
  | n + 1, a :: l => (combos n l).map (a :: ·) ++ combos (n + 1) l

/-- All combinations tried by the double loop NA:238-241 (= NA:317-318):
sizes `1 .. len(available)`. -/
def allCombos {α : Type} (l : List α) : List (List α) :=
  (List.range l.length).flatMap (fun n => combos (n + 1) l)

/-- `_add_new_interventions_from_combinations`, NA:67-82. -/
def addNew (info : Info) (comb : Group) : Info :=
  { info with newInt := comb, newTime := comb.map (fun kv => (kv.1, kv.2.installationTime)) }

/-- The four lines that reset the new interventions (NA:196-199, 254-257, 325-328). -/
def clearNew (info : Info) : Info := { info with newInt := [], newTime := [] }

/-- `_check_feasibility_of_current_solution`, NA:331-334, with `_operational_check` RF:229-235 and
`_update_status_elements_opf` NA:386-389. -/
def checkFeasibility (cfg : Cfg) (info : Info) : Except PyErr (Bool × Info) := do
  let act ← ready info
  let rq : Request := ⟨info.node, act⟩
  let r := cfg.opf info.log rq
  return (r.1, { info with log := info.log ++ [rq], lastCost := r.2 })

/-- `_get_available_interventions_for_current_year`, NA:354-360. -/
def availableNow (cfg : Cfg) (info : Info) : Except PyErr Group :=
  ((available cfg info).filter (fun kv => kv.2.installationTime > 0)).foldlM
    (fun g kv => popOnly g kv.1) (available cfg info)

/-- Loop body NA:319-328. -/
def lastNodeStep (cfg : Cfg) (st : Bool × Info) (comb : Group) : Except PyErr (Bool × Info) := do
  let (f, info) ← checkFeasibility cfg (addNew st.2 comb)
  if f then do
    let info ← optimalityCheck cfg (construct info)
    return (true, clearNew info)
  else return (st.1, clearNew info)

/-- `_optimise_interventions_in_last_node`, NA:314-329. -/
def optimiseLastNode (cfg : Cfg) (info : Info) : Except PyErr (Bool × Info) := do
  let avail ← availableNow cfg info
  (allCombos avail).foldlM (lastNodeStep cfg) (false, info)

/-- Loop of `_exploration_of_successors`, NA:305-310 (with the `break`). -/
def exploreList (slv : Info → Except PyErr (Bool × Info)) :
    List Nat → Info → Except PyErr (Bool × Info)
  | [], info => .ok (true, info)
  | n :: ns, info => do
    let (f, info) ← slv { info with level := info.level + 1, node := n }
    if f then exploreList slv ns info else return (false, info)

/-- `_exploration_of_successors`, NA:302-312. -/
def exploreSuccessors (cfg : Cfg) (slv : Info → Except PyErr (Bool × Info)) (info : Info) :
    Except PyErr (Bool × Info) := do
  let (f, info') ← exploreList slv (cfg.nbr info.node) info
  return (f, { info' with node := info.node })

/-- `_graph_exploration`, NA:296-300. -/
def graphExploration (cfg : Cfg) (slv : Info → Except PyErr (Bool × Info)) (info : Info) :
    Except PyErr (Bool × Info) := do
  let (f, info) ← exploreSuccessors cfg slv info
  if !f || info.allowDel then do
    let info ← eliminateOffspring info
    return (f, info)
  else return (f, info)

/-- `_exploration_of_current_solution`, NA:287-294. -/
def explore (cfg : Cfg) (slv : Info → Except PyErr (Bool × Info)) (info : Info) :
    Except PyErr (Bool × Info) := do
  let (f, info) ← checkFeasibility cfg info
  if f then do
    let (r, info) ← graphExploration cfg slv (construct info)
    let info ← returnToPrevious info
    return (r, info)
  else return (false, info)

/-- NA:221-226 and NA:248-253: keep the best partial tree, then drop the offspring of the candidate
if the node branches. -/
def afterExploration (cfg : Cfg) (info : Info) : Except PyErr Info := do
  let info ← if info.lastReached then storePartial info else .ok info
  if (cfg.nbr info.node).length > 1 ∧ info.lastReached then do
    let info ← eliminateOffspring info
    return { info with lastReached := false }
  else return info

/-- Loop body NA:244-257. -/
def handlerStep (cfg : Cfg) (slv : Info → Except PyErr (Bool × Info)) (st : Bool × Info)
    (comb : Group) : Except PyErr (Bool × Info) := do
  let (f, info) ← explore cfg slv (addNew st.2 comb)
  let info ← afterExploration cfg info
  return (st.1 || f, clearNew info)

/-- NA:258-262: fall back to the partial tree when the incumbent is empty. -/
def restorePartial (info : Info) : Except PyErr Info := do
  let e ← info.partialTree.isEmpty
  if !e && info.incPaths.length == 0 then
    return { info with
      incPaths := info.partialTree.graphPaths, incInt := info.partialTree.interventions,
      incInv := info.partialTree.investmentCosts, incOp := info.partialTree.operationCosts }
  else return info

/-- `_interventions_handler`, NA:233-263. -/
def interventionsHandler (cfg : Cfg) (slv : Info → Except PyErr (Bool × Info)) (info : Info) :
    Except PyErr (Bool × Info) := do
  let (f, info) ← (allCombos (available cfg info)).foldlM (handlerStep cfg slv) (false, info)
  let info ← restorePartial info
  return (f, info)

/-- NA:200-206: `optimisation_years[level] - optimisation_years[level - 1]`. -/
def timeAdjustment (cfg : Cfg) (info : Info) : Except PyErr Int := do
  let a ← pyGet cfg.years info.level
  let b ← pyGet cfg.years (info.level - 1)
  return a - b

/-- Leaf branch of `solve`, NA:207-219. -/
def solveLeaf (cfg : Cfg) (info : Info) : Except PyErr (Bool × Info) := do
  let (f, info) ← checkFeasibility cfg { info with lastReached := true }
  let (f, info) ← if f then do
      let info ← optimalityCheck cfg (construct info)
      let (_, info) ← optimiseLastNode cfg info
      pure (true, info)
    else optimiseLastNode cfg info
  return (f, { info with level := info.level - 1 })

/-- Inner-node branch of `solve`, NA:220-231; the result of the first exploration is not used. -/
def solveInner (cfg : Cfg) (slv : Info → Except PyErr (Bool × Info)) (adj : Int) (info : Info) :
    Except PyErr (Bool × Info) := do
  let (_, info) ← explore cfg slv info
  let info ← afterExploration cfg info
  let (f, info) ← interventionsHandler cfg slv info
  let info ← if info.node ≠ 0 then updateTimes adj info else .ok info
  return (f, { info with level := info.level - 1 })

/-- `solve`, NA:194-231, with the recursive call as a parameter. -/
def solveBody (cfg : Cfg) (slv : Info → Except PyErr (Bool × Info)) (info : Info) :
    Except PyErr (Bool × Info) := do
  let info := clearNew info
  let adj ← if info.node ≠ 0 then timeAdjustment cfg info else .ok (-1)
  let info ← if info.node ≠ 0 then updateTimes (-adj) info else .ok info
  if cfg.nbr info.node = [] then solveLeaf cfg info
  else solveInner cfg slv adj info

/-- `solve` with `fuel` as Python's recursion limit. -/
def solve (cfg : Cfg) : Nat → Info → Except PyErr (Bool × Info)
  | 0, _ => .error .recursion
  | n + 1, info => solveBody cfg (solve cfg n) info

/-- `main_access_function`, GeneralManager.py:15-34, after reading the input and initialising the
solver: freshly created list containers, `current_graph_node = 0`, `level_in_graph = 0`. -/
def runSearch (cfg : Cfg) (fuel : Nat) : Except PyErr (Bool × Info) := solve cfg fuel {}

end Pyensys
