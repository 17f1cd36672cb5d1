import Verif.Model.NodeData

/-!
# Model of the static generators of flexible units

Sources: pyensys/wrappers/PandaPowerManager.py (PM), pyensys/wrappers/PandaPowerWrapper.py (PW), pyensys/Optimisers/RecursiveFunction.py (RF).

Modelled: the static generators and costs that are created for the buses of the table "flexible units" (PM:27-34, PW:95-101), the search of static generators and costs by bus and element
(PM:243-253, RF:470-474) and the parameters that are made of the rows of a node (RF:140-146, 423-467).  What `update_multiple_parameters` does with the parameters is in Model/Network.

Simplifications: floats are rationals; a table of the network is the list of its rows with their labels and the columns used here; pandapower is assumed to take the next free label, to refuse
a bus that the network does not have and a second cost for an element (UserWarning, here RuntimeError).
-/

namespace Pyensys

/-- labels and buses of static generators; labels, elements and tables of costs -/
structure FuNet where
  buses : List Int
  sgens : List (Nat × Int)
  costs : List (Nat × Nat × String)
  deriving DecidableEq, Repr

/-- the next free label of pandapower -/
def fuFree (labels : List Nat) : Nat := labels.foldl (fun m l => max m (l + 1)) 0

/-- `create_static_generator`, PW:95-97, and `create_poly_cost`, PW:99-100, for one bus (PM:33-34) -/
def fuUnit (n : FuNet) (b : Int) : Except PyErr FuNet :=
  if b ∈ n.buses then
    (if n.costs.any (fun c => c.2.1 == fuFree (n.sgens.map Prod.fst) && c.2.2 == "sgen") = true then .error .runtime
     else .ok ⟨n.buses, n.sgens ++ [(fuFree (n.sgens.map Prod.fst), b)], n.costs ++ [(fuFree (n.costs.map Prod.fst), fuFree (n.sgens.map Prod.fst), "sgen")]⟩)
  else .error .runtime

/-- `create_static_generators_for_flexibility`, PM:27-34: the column "bus_index" of the table -/
def fuCreate (n : FuNet) (column : List Int) : Except PyErr FuNet := column.eraseDups.foldlM fuUnit n

/-- a row of the data of a node: bus and the columns it has -/
structure FuRow where
  bus : Int
  get : String → Option Rat

/-- RF:429-441 -/
def fuLimits : List String := ["max_p_mw", "min_p_mw", "max_q_mvar", "min_q_mvar"]

/-- RF:443-467 -/
def fuCosts : List String := ["cp2_eur_per_mw2", "cp1_eur_per_mw", "cp0_eur", "cq2_eur_per_mvar2", "cq1_eur_per_mvar", "cq0_eur"]

/-- a parameter to update: table, label, column, value -/
structure FuParam where
  table : String
  label : Nat
  column : String
  value : Rat
  deriving DecidableEq, Repr

/-- `_get_index_of_element_based_on_parameter("sgen", "bus", …)`, PM:243-244 -/
def fuFind (n : FuNet) (b : Int) : Except PyErr Nat :=
  match n.sgens.find? (fun e => e.2 == b) with
  | some e => .ok e.1
  | none => .error .index

/-- `_get_index_of_element_based_on_multiple_parameters("poly_cost", ["element", "et"], [index, "sgen"])`, PM:246-253 -/
def fuFindCost (n : FuNet) (l : Nat) : Except PyErr Nat :=
  match n.costs.find? (fun c => c.2.1 == l && c.2.2 == "sgen") with
  | some c => .ok c.1
  | none => .error .index

/-- the columns of a row that exist, as parameters for a row of a table -/
def fuPart (table : String) (label : Nat) (names : List String) (r : FuRow) : List FuParam := names.filterMap (fun x => (r.get x).map (fun v => ⟨table, label, x, v⟩))

/-- one pass of the loop RF:427-467 -/
def fuRow (n : FuNet) (r : FuRow) : Except PyErr (List FuParam) := do
  let l ← fuFind n r.bus
  let c ← fuFindCost n l
  .ok (fuPart "sgen" l fuLimits r ++ fuPart "poly_cost" c fuCosts r)

/-- `_parameters_for_flexible_units`, RF:423-468 -/
def fuParams (n : FuNet) (rows : List FuRow) : Except PyErr (List FuParam) := (rows.mapM (fuRow n)).map List.flatten

/-- the costs after a power flow with pypower, PW:118 -/
def fuSolved (n : FuNet) : FuNet := ⟨n.buses, n.sgens, n.costs.map (fun c => (c.1, c.2.1, "gen"))⟩

end Pyensys
