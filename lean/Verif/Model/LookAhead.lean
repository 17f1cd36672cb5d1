import Verif.Model.Search

/-!
# Model of the look-ahead of the plan search

Source: pyensys/Optimisers/NonAnticipativeRecursiveFunction.py (NA).

Modelled: `_verify_feasibility_of_solution_in_successor_nodes` (NA:336-352) and `_verify_feasibility_of_successor_with_all_available_interventions_for_current_year`
(NA:362-377), with the containers and the oracle of Model/Search. `solve` does not call them (no other code does).

Simplifications: those of Model/Search; the two containers of new interventions are emptied of the added ones one after the other, not key by key in turn.
-/

namespace Pyensys

/-- `_verify_feasibility_of_successor_with_all_available_interventions_for_current_year`, NA:362-377: `_operational_check` is that of `checkFeasibility` -/
def laSuccessor (cfg : Cfg) (info : Info) : Except PyErr (Bool × Info) := do
  let av ← availableNow cfg info
  let r ← checkFeasibility cfg { info with newInt := info.newInt ++ av, newTime := info.newTime ++ av.map (fun e => (e.1, 0)) }
  let ni ← (av.map (·.1)).foldlM (fun (g : Group) (k : Int) => popOnly g k) r.2.newInt
  let nt ← (av.map (·.1)).foldlM (fun (g : Times) (k : Int) => popOnly g k) r.2.newTime
  return (r.1, { r.2 with newInt := ni, newTime := nt })

/-- the loop NA:344-348, with the `break` -/
def laLoop (cfg : Cfg) : List Nat → Info → Except PyErr (Bool × Info)
  | [], info => .ok (true, info)
  | n :: ns, info => do
    let r ← laSuccessor cfg { info with node := n }
    if r.1 then laLoop cfg ns r.2 else return (false, r.2)

/-- `_verify_feasibility_of_solution_in_successor_nodes`, NA:336-352 -/
def laVerify (cfg : Cfg) (info : Info) : Except PyErr (Bool × Info) := do
  let i1 ← updateTimes (-1) { info with level := info.level + 1 }
  let r ← laLoop cfg (cfg.nbr info.node) i1
  let i3 ← updateTimes 1 { r.2 with node := info.node, level := r.2.level - 1 }
  return (r.1, i3)

end Pyensys
