import Verif.Model.Types
import Mathlib.Algebra.Order.Field.Basic
import Mathlib.Data.Rat.Cast.Defs

/-!
# Model of the power-system manager (updates of the pandapower network)

Sources: pyensys/wrappers/PandaPowerManager.py (PM), pyensys/wrappers/PandaPowerWrapper.py (PW),
pyensys/Optimisers/RecursiveFunction.py (RF), NonAnticipativeRecursiveFunction.py (NA).

Simplifications: floating point numbers are elements of an arbitrary ordered field `K`; `3**0.5` is a
parameter `s3`.  Of the network only the tables read or written by the modelled code are kept; the
line table is a function from labels to rows, the load table keeps its order.  Exceptions discard the
network (partial effects of a raising call are represented by an arbitrary network where they matter).
-/

namespace Pyensys

/-- the columns of a row of `network.line` used at PM:149-170 -/
structure Line (K : Type) where
  inService : Bool
  fromBus : Int
  maxI : K
  r : K
  x : K

/-- a row of `network.load`: its bus and its named numeric columns -/
structure Load (K : Type) where
  bus : Int
  vals : String → Option K

/-- the part of `wrapper.network` used by the modelled code -/
structure Net (K : Type) where
  lines : Int → Option (Line K)
  loads : List (Int × Load K)
  vn : Int → Option K
  converged : Bool := false
  cost : K

/-- `UpdateParameterData`, PandapowerDataClasses.py:38-46 (`new_value` only for loads). -/
structure Param (K : Type) where
  ctype : String
  name : String
  pos : Pos
  value : Option K
  cap : Cap

section
variable {K : Type} [Field K] (s3 : K)

/-- the addition to `max_i_ka`, PM:158 = PM:204: `cap*1e6/(volt_bus*1e3)/(3**0.5)/1e3` -/
def currentOf (cap volt : K) : K := cap * 1000000 / (volt * 1000) / s3 / 1000

/-- the assignments PM:149-170 (= PM:193-224) on the row of one line -/
def Line.upgrade (l : Line K) (cap volt : K) : Line K :=
  let new := l.maxI + currentOf s3 cap volt
  { l with inService := true
           maxI := new
           r := l.r * (l.maxI / new)
           x := l.x * (l.maxI / new) }

/-- PM:149-170 for line `pos`: KeyError if the line or its bus does not exist, or if the table
`network[component_type]` has no column `max_i_ka` (only `line` has one). -/
def upgradeLine (ctype : String) (pos : Int) (cap : K) (net : Net K) : Except PyErr (Net K) :=
  match net.lines pos with
  | none => .error .key
  | some l =>
    match net.vn l.fromBus with
    | none => .error .key
    | some volt =>
      if ctype = "line" then
        .ok { net with lines := fun p => if p = pos then some (l.upgrade s3 cap volt) else net.lines p }
      else .error .key

/-- the loop PM:191-224 over the (1-based) line numbers of a cluster; `capacity_to_be_added_MW[iii]`
raises IndexError when the list is too short (evaluated after the look-ups of line and voltage). -/
def upgradeCluster (ctype : String) : List Int → List Rat → Net K → Except PyErr (Net K)
  | [], _, net => .ok net
  | p :: _, [], net => do
    let _ ← upgradeLine s3 ctype (p - 1) 0 net
    .error .index
  | p :: ps, c :: cs, net => do
    let net ← upgradeLine s3 ctype (p - 1) (c : K) net
    upgradeCluster ctype ps cs net

/-- `.at[label, name] = value` on the load table -/
def setLoad (label : Int) (name : String) (value : Option K) (loads : List (Int × Load K)) :
    List (Int × Load K) :=
  loads.map (fun e => if e.1 = label then
    (e.1, { e.2 with vals := fun n => if n = name then value else e.2.vals n }) else e)

/-- Body of the loop PM:126-233 for one parameter. -/
def applyParam (net : Net K) (p : Param K) : Except PyErr (Net K) :=
  if p.ctype = "load" then
    match p.pos with
    | .single b =>
      match net.loads.find? (fun e => e.2.bus = b) with
      | none => .error .index
      | some e => .ok { net with loads := setLoad e.1 p.name p.value net.loads }
    | .cluster _ => .error .value
  else
    match p.pos with
    | .single i =>
      match p.cap with
      | .num c => upgradeLine s3 p.ctype i (c : K) net
      | _ => .error .type
    | .cluster l =>
      match p.cap with
      | .list cs => upgradeCluster s3 p.ctype l cs net
      | _ => if l = [] then .ok net else .error .type

/-- `update_multiple_parameters`, PM:120-233; `init` is the network that `_initialise` (PM:20-25)
builds from the input data. -/
def updateMultiple (init : Net K) (net : Net K) (ps : List (Param K)) (initialise : Bool := true) :
    Except PyErr (Net K) :=
  ps.foldlM (applyParam s3) (if initialise then init else net)

/-- `_create_data_to_update_status_of_parameter`, RF:107-121. -/
def statusParam (v : BinVar) : Param K := ⟨v.elementType, "in_service", v.position, none, v.capacity⟩

/-- one row of the averaged data of a node: bus, p_mw, q_mvar (CG:283-289) -/
structure BusRow (K : Type) where
  bus : Int
  p : K
  q : K
  deriving DecidableEq

/-- `_parameters_for_buses`, RF:412-421, with `_create_load_parameter`, RF:123-129. -/
def busParams (rows : List (BusRow K)) : List (Param K) :=
  rows.flatMap (fun r => [⟨"load", "p_mw", .single r.bus, some r.p, .text⟩,
                          ⟨"load", "q_mvar", .single r.bus, some r.q, .text⟩])

/-- one row of the averaged flexible-unit data: index of the static generator and of its cost found
in the network, and the ten averaged columns (CG:298-318; all ten columns are always written) -/
structure FlexRow (K : Type) where
  sgen : Int
  costIndex : Int
  sgenVals : List (String × K)
  costVals : List (String × K)

/-- `_parameters_for_flexible_units`, RF:423-467. -/
def flexParams (rows : List (FlexRow K)) : List (Param K) :=
  rows.flatMap (fun r =>
    r.sgenVals.map (fun nv => ⟨"sgen", nv.1, .single r.sgen, some nv.2, .text⟩) ++
    r.costVals.map (fun nv => ⟨"poly_cost", nv.1, .single r.costIndex, some nv.2, .text⟩))

/-- `_operational_check`, RF:229-235, of the non-anticipative solver (NA:386-389) up to the OPF: the
network in which the OPF is run. `data` is `map_node_to_data_power_system[node]`; `none` means that
no data frames were given (`_replace_parameters_individually` is False). -/
def opfNetwork (init net : Net K) (active : List BinVar)
    (data : Option (List (BusRow K) × List (FlexRow K))) : Except PyErr (Net K) := do
  let net ← updateMultiple s3 init net (active.map statusParam)
  match data with
  | none => return net
  | some (b, f) => updateMultiple s3 init net (busParams b ++ flexParams f) false

/-- `_update_status_elements_opf` of the base class, RF:237-254: the candidate interventions and
then the new ones, each with a freshly initialised network; nothing is done when there are no new
interventions. -/
def baseStatus (init net : Net K) (candidate new : List BinVar) : Except PyErr (Net K) :=
  if new = [] then .ok net
  else do
    let net ← updateMultiple s3 init net (candidate.map statusParam)
    updateMultiple s3 init net (new.map statusParam)

/-- `run_ac_opf`, PW:105-149, with the OPF as an oracle; `none`: the solver raised, which is
swallowed (PW:148-149). -/
def runOpf (solver : Net K → Option (Bool × K)) (net : Net K) : Net K :=
  match solver net with
  | none => net
  | some (c, cost) => { net with converged := c, cost := cost }

end
end Pyensys
