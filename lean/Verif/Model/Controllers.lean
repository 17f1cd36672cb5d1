import Verif.Model.Network
import Verif.Model.MatFile
import Verif.Model.Energy

/-!
# Model of profiles, costs and time steps of the power flows of the planning tool

Sources: pyensys/wrappers/PandaPowerWrapper.py (PW below), pyensys/wrappers/PandaPowerManager.py (PM), pyensys/Optimisers/RecursiveFunction.py (RF).

Modelled: the controllers of the network and their updates (PM:41-50, 101-109, PW:48-58, 77-90, RF:237-258, 295-316), the exchange of the external grid by a generator before a power flow with pypower (PW:113-123), the time steps of a run (PM:98-99, PW:70-75) with the verdict and the cost that are read afterwards (PW:92-93, 102-103).

Simplifications: floats are rationals, a profile is the table of its values. The power flow of a step is an oracle. pandapower itself (create_gen takes the next free index, run_timeseries stops at the first failure unless told to continue, runopp clears the flag before it starts and stores the cost if it converges) is assumed.
-/

namespace Pyensys

/-! ## controllers -/

/-- a profile or a controller: type of element, variable, values -/
structure PpProfile where
  type : Tok
  var : Tok
  data : List (List Rat)
  deriving DecidableEq, Repr

/-- a modifier of a node of the control graph, `ClusterData` -/
structure PpMod where
  type : Tok
  var : Tok
  centroid : Rat
  deriving DecidableEq, Repr

/-- the first entry for a type and variable, RF:310-316, PW:81-90 -/
def ppFind (l : List PpProfile) (t v : Tok) : Option Nat :=
  l.findIdx? (fun p => decide (p.type = t ∧ p.var = v))

/-- the position `-1` stands for the last entry -/
def ppPos (l : List PpProfile) (t v : Tok) : Except PyErr Nat :=
  match ppFind l t v with
  | some i => .ok i
  | none => if l.length = 0 then .error .index else .ok (l.length - 1)

/-- `profile.data * modifier_info.centroid` -/
def ppScale (q : Rat) (d : List (List Rat)) : List (List Rat) := d.map (fun r => r.map (fun x => x * q))

/-- `_create_new_pandapower_profile`, RF:305-308 -/
def ppNew (orig : List PpProfile) (m : PpMod) : Except PyErr PpProfile := do
  let i ← ppPos orig m.type m.var
  let p ← npGet orig i
  .ok ⟨p.type, p.var, ppScale m.centroid p.data⟩

/-- `update_network_controller`, PW:77-79 -/
def ppUpdate (ctl : List PpProfile) (p : PpProfile) : Except PyErr (List PpProfile) := do
  let i ← ppPos ctl p.type p.var
  .ok (ctl.modify i (fun c => ⟨c.type, c.var, p.data⟩))

/-- `_update_pandapower_controllers`, RF:256-258: all new profiles first, then the updates -/
def ppVisit (orig ctl : List PpProfile) (mods : List PpMod) : Except PyErr (List PpProfile) := do
  let new ← mods.mapM (ppNew orig)
  new.foldlM ppUpdate ctl

/-- a visit of a node: its modifiers, and whether the network is initialised before it (PM:112-118: always in the non-anticipative search) -/
structure PpStep where
  reset : Bool
  mods : List PpMod
  deriving DecidableEq, Repr

/-- one visit -/
def pfStep (orig ctl : List PpProfile) (s : PpStep) : Except PyErr (List PpProfile) :=
  ppVisit orig (if s.reset = true then orig else ctl) s.mods

/-- the visits of a search; the controllers start with the original profiles, PM:41-50 -/
def ppRun (orig : List PpProfile) (h : List PpStep) : Except PyErr (List PpProfile) := h.foldlM (pfStep orig) orig

/-! ## external grid and costs -/

/-- the tables that elements with costs are in -/
inductive PpTable where
  | extGrid | gen | sgen | load
  deriving DecidableEq, Repr

/-- a row of poly_cost -/
structure PpCost where
  table : PpTable
  element : Nat
  cp1 : Rat
  deriving DecidableEq, Repr

/-- the tables that `run_ac_opf` uses: labels and buses of external grids and generators -/
structure PfNet where
  ext : List (Nat × Int)
  gens : List (Nat × Int)
  costs : List PpCost
  deriving DecidableEq, Repr

/-- the next free index of pandapower -/
def ppFree (l : List (Nat × Int)) : Nat := l.foldl (fun m e => max m (e.1 + 1)) 0

/-- PW:113-123: without an external grid 0 a KeyError, which `run_ac_opf` swallows (PW:145-146) -/
def ppPrepare (n : PfNet) : Except PyErr PfNet :=
  match n.ext.find? (fun e => e.1 == 0) with
  | none => .error .key
  | some e => .ok ⟨[], n.gens ++ [(ppFree n.gens, e.2)], n.costs.map (fun c => ⟨.gen, c.element, c.cp1⟩)⟩

/-- the cost of a dispatch: the power of every element by table and label -/
def pfCost (costs : List PpCost) (p : PpTable → Nat → Rat) : Rat := (costs.map (fun c => c.cp1 * p c.table c.element)).sum

/-! ## time steps -/

/-- the verdict and the cost in the network -/
structure PpResult where
  converged : Bool
  cost : Rat
  deriving DecidableEq, Repr


/-- one step of `run_timeseries`: a failure raises unless the run continues on divergence -/
def ppTime (go : Bool) (opf : Nat → Option Rat) (r : PpResult) (t : Nat) : Except PyErr PpResult :=
  match opf t with
  | some c => .ok ⟨true, c⟩
  | none => if go = true then .ok ⟨false, r.cost⟩ else .error .runtime

/-- `run_time_step_simulation`, PW:70-75, for `n` steps -/
def ppTimes (go : Bool) (opf : Nat → Option Rat) (r : PpResult) (n : Nat) : Except PyErr PpResult := (List.range n).foldlM (ppTime go opf) r

end Pyensys
