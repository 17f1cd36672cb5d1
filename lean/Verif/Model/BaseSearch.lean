import Verif.Model.Search

/-!
# Model of the anticipative (base) solver

Source: pyensys/Optimisers/RecursiveFunction.py (RF), pyensys/managers/GeneralManager.py.
The same state `Info` and constant data `Cfg` as for the non-anticipative search are used; the
methods below are those that `NonAnticipativeRecursiveFunction` overrides.
-/

namespace Pyensys

/-- What the base class sends to the OPF, RF:229-254: nothing is activated unless there are new
interventions; then the candidate's groups and the new group are.  (Whether the second update
discards the first is a matter of the network, here of the oracle.) -/
def baseRequest (info : Info) : Request :=
  ⟨info.node, if info.newInt.length > 0 then
      info.candInt.flatMap (fun lg => lg.2.map (·.2)) ++ info.newInt.map (·.2)
    else []⟩

/-- `_operational_check` and `_is_opf_feasible`, RF:229-235, 317-318. -/
def baseCheck (cfg : Cfg) (info : Info) : Bool × Info :=
  let r := cfg.opf info.log (baseRequest info)
  (r.1, { info with log := info.log ++ [baseRequest info], lastCost := r.2 })

/-- `_calculate_investment_cost`, RF:383-397: the discounting exponent is the position in the
container; after the loop the statement `error[2000]` uses an undefined name. -/
def baseInvestmentFrom (rate : Rat) : Nat → Sol → Rat → Except PyErr Rat
  | _, [], _ => .error .name
  | year, (_, g) :: r, acc => do
    let partialCost := g.foldl (fun s kv => s + kv.2.cost) 0
    let w ← discount rate (year : Int)
    baseInvestmentFrom rate (year + 1) r (acc + w * partialCost)

/-- `_calculate_investment_cost`, RF:383-397. -/
def baseInvestment (cfg : Cfg) (s : Sol) : Except PyErr Rat := baseInvestmentFrom cfg.rate 0 s 0

/-- `_calculate_opteration_cost`, RF:399-405 (exponent = position). -/
def baseOperationFrom (rate : Rat) : Nat → List (Int × Rat) → Rat → Except PyErr Rat
  | _, [], acc => .ok acc
  | year, (_, c) :: r, acc => do
    let w ← discount rate (year : Int)
    baseOperationFrom rate (year + 1) r (acc + w * c)

/-- `_append_candidate_in_incumbent_list`, RF:358-369. -/
def baseAppend (cfg : Cfg) (key : Int) (info : Info) : Except PyErr Info := do
  let inv ← baseInvestment cfg info.candInt
  let op ← baseOperationFrom cfg.rate 0 info.candOp 0
  return { info with
    incPaths := info.incPaths ++ [(key, info.candPath)],
    incInt := info.incInt ++ [(key, info.candInt)],
    incInv := info.incInv ++ [(key, inv)],
    incOp := info.incOp ++ [(key, op)] }

/-- `_replace_incumbent_if_candidate_is_better`, RF:338-356. -/
def baseReplace (cfg : Cfg) (key : Int) (info : Info) : Except PyErr Info := do
  let inv ← baseInvestment cfg info.candInt
  let op ← baseOperationFrom cfg.rate 0 info.candOp 0
  match listGet? info.incInv key, listGet? info.incOp key with
  | some i, some o =>
    if i + o > inv + op then
      return { info with
        incPaths := listSet info.incPaths key info.candPath,
        incInt := listSet info.incInt key info.candInt,
        incInv := listSet info.incInv key inv,
        incOp := listSet info.incOp key op }
    else return info
  | _, _ => .error .noneArith

/-- `_return_to_previous_state`, RF:371-381, for an anticipative problem (level decremented). -/
def baseReturn (info : Info) : Except PyErr Info := do
  let info ← returnToPrevious info
  return { info with level := info.level - 1 }

/-- `_optimality_check`, RF:323-336. -/
def baseOptimality (cfg : Cfg) (info : Info) : Except PyErr Info := do
  let info ←
    if info.incPaths.length = 0 then baseAppend cfg 0 info
    else match storedKey info with
      | none => baseAppend cfg info.incPaths.length info
      | some k => baseReplace cfg k info
  baseReturn info

/-- `_add_new_interventions_from_combinations`, RF:214-219: `extend` is called with a
`(key, value)` tuple, which is not a container (AbstractDataContainer.py:124-133). -/
def baseAddNew (info : Info) (comb : Group) : Except PyErr Info :=
  match comb with
  | [] => .ok { info with newInt := [] }
  | _ :: _ => .error .type

/-- `_graph_exploration`, RF:221-227, the loop over the successors. -/
def baseExploreList (slv : Info → Except PyErr Info) : List Nat → Info → Except PyErr Info
  | [], info => .ok info
  | n :: ns, info => do
    let info ← slv { info with level := info.level + 1, node := n }
    baseExploreList slv ns info

/-- `_graph_exploration`, RF:221-227. -/
def baseExplore (cfg : Cfg) (slv : Info → Except PyErr Info) (info : Info) : Except PyErr Info := do
  let info' ← baseExploreList slv (cfg.nbr info.node) info
  return { info' with node := info.node }

/-- `_interventions_handler`, RF:202-212. -/
def baseHandler (cfg : Cfg) (slv : Info → Except PyErr Info) (info : Info) : Except PyErr Info := do
  let avail := available cfg info
  let info ← baseExplore cfg slv info
  (allCombos avail).foldlM (fun info comb => do
    let info ← baseAddNew info comb
    baseExplore cfg slv info) info

/-- `RecursiveFunction.solve`, RF:190-200. -/
def baseBody (cfg : Cfg) (slv : Info → Except PyErr Info) (info : Info) : Except PyErr Info :=
  if (baseCheck cfg info).1 then
    let info := construct (baseCheck cfg info).2
    if cfg.nbr info.node = [] then baseOptimality cfg info
    else baseHandler cfg slv info
  else .ok (baseCheck cfg info).2

/-- `RecursiveFunction.solve` with `fuel` as Python's recursion limit. -/
def baseSolve (cfg : Cfg) : Nat → Info → Except PyErr Info
  | 0, _ => .error .recursion
  | n + 1, info => baseBody cfg (baseSolve cfg n) info

end Pyensys
