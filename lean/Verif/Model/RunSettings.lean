import Verif.Model.Settings

/-!
# Model of how the settings of a document reach pandapower

Source: pyensys/wrappers/PandaPowerManager.py (PM), pyensys/wrappers/PandaPowerWrapper.py (PW), pyensys/wrappers/PandapowerDataClasses.py (PD) and
pyensys/Optimisers/RecursiveFunction.py (RF).

Modelled: the choice of the power flow (RF:260-265), the settings of the runs (PM:74-97, PW:71-76, 105-149), the output writer (PM:52-72, PW:24-36, 60-69) and the order in which
an object is prepared (PM:16-35).  pandapower itself is outside: a run is represented by the call that reaches it.  The tables that `run_ac_opf` changes before the call (PW:113-123)
are in Model/Controllers; that they are there (an external grid 0) is assumed here.
-/

namespace Pyensys

/-- the truth value of a JSON value in Python -/
def rsTrue : Json → Bool
  | .null => false
  | .bool b => b
  | .num x => decide (x ≠ 0)
  | .str s => decide (s ≠ "")
  | .arr l => !l.isEmpty
  | .obj l => !l.isEmpty

/-- `SimulationSettings`, PD:34-39 -/
structure RsSettings where
  bar : Json := .bool false
  software : Json := .str ""
  opfType : Json := .str ""
  onDivergence : Json := .bool false
  steps : List Nat := []

/-- one logged variable, PW:24-29: no index stands for all elements -/
structure RsLog where
  dataset : Json
  name : Json
  index : Option Json

/-- the output writer, PW:60-69 -/
structure RsWriter where
  steps : List Nat
  directory : Json
  format : Json
  logs : List RsLog

/-- what an object holds: the loaded case (path and frequency), the data of the controllers, the writer, the buses of the added generators, and the settings of the runs -/
structure RsState where
  case : Option (String × Json) := none
  controllers : List Frame := []
  writer : Option RsWriter := none
  units : List Int := []
  settings : RsSettings := {}

variable {P T : Type}

/-- `load_mat_file_to_pandapower`, PM:36-40, PW:43-45: the network is replaced -/
def rsLoad (p : Params P T) (s : RsState) : RsState :=
  if p.mpc.initialised = true then { s with case := some (p.mpc.path, p.mpc.frequency), controllers := [], writer := none, units := [] } else s

/-- `add_controllers_to_network`, PM:42-50 -/
def rsControl (p : Params P T) (s : RsState) : RsState :=
  if p.profilesInit = true then { s with controllers := s.controllers ++ p.profiles } else s

/-- `log_variable_in_output_writer`, PW:24-29, for a variable of the settings (PM:59-65) -/
def rsLog (v : OutputVar) : RsLog := ⟨v.dataset, v.variable_, if rsTrue v.indexes = true then some v.indexes else none⟩

/-- `add_output_writer_to_network`, PM:52-72, PW:60-69: a new writer replaces the one of the network -/
def rsWrite (p : Params P T) (s : RsState) : RsState :=
  if p.output.initialised = true ∧ p.time.initialised = true then
    { s with writer := some ⟨List.range p.time.periods, p.output.directory, p.output.format, p.output.vars.map rsLog⟩ }
  else s

/-- `define_simulation_settings`, PM:74-97: without the sections the settings stay as they are -/
def rsDefine (p : Params P T) (s : RsState) : RsState :=
  if p.ppOpt.initialised = true ∧ p.time.initialised = true ∧ p.problem.initialised = true then
    { s with settings := ⟨p.ppOpt.progressBar, p.ppOpt.software, p.problem.opfType, p.ppOpt.onDivergence, List.range p.time.periods⟩ }
  else if p.ppOpt.initialised = true ∧ p.problem.initialised = true then
    { s with settings := ⟨p.ppOpt.progressBar, p.ppOpt.software, p.problem.opfType, p.ppOpt.onDivergence, []⟩ }
  else s

/-- `create_static_generators_for_flexibility`, PM:27-34; `buses` are the distinct buses of the table "flexible units" (none without the table) -/
def rsUnits (buses : List Int) (s : RsState) : RsState := { s with units := s.units ++ buses }

/-- `_initialise`, PM:20-25 -/
def rsInitialise (p : Params P T) (buses : List Int) (s : RsState) : RsState := rsUnits buses (rsDefine p (rsWrite p (rsControl p (rsLoad p s))))

/-- `update_multiple_parameters` up to the parameters, PM:120-123: a new wrapper, then `_initialise` -/
def rsRenew (p : Params P T) (buses : List Int) (s : RsState) : RsState := rsInitialise p buses { settings := s.settings }

/-- the solvers of pandapower, PW:15-20 -/
inductive RsSolver where
  | runopp | runpmAcOpf
  deriving DecidableEq, Repr

/-- the call that reaches pandapower; `nothing` stands for no call -/
inductive RsCall where
  | nothing
  | series (steps : List Nat) (onDivergence bar : Bool) (solver : RsSolver)
  | single (solver : RsSolver) (bar : Bool)
  deriving DecidableEq, Repr

/-- `OPTIMAL_POWER_FLOW_SOFTWARE_OPTIONS[opf_type][software]`, PW:15-20: lists and objects are no keys -/
def rsOption (opfType software : Json) : Except PyErr RsSolver :=
  match opfType with
  | .str "ac" =>
    match software with
    | .str "pypower" => .ok .runopp
    | .str "power models" => .ok .runpmAcOpf
    | .arr _ => .error .type
    | .obj _ => .error .type
    | _ => .error .key
  | .arr _ => .error .type
  | .obj _ => .error .type
  | _ => .error .key

/-- `run_time_step_simulation`, PW:71-76 -/
def rsSeries (s : RsSettings) : Except PyErr RsCall := do
  let f ← rsOption s.opfType s.software
  .ok (.series s.steps (rsTrue s.onDivergence) (rsTrue s.bar) f)

/-- a call within `try: ... except: pass`, PW:111-149: an exception leaves no call -/
def rsTry (bar : Bool) (f : Except PyErr RsSolver) : RsCall :=
  match f with
  | .ok f => .single f bar
  | .error _ => .nothing

/-- `run_ac_opf`, PW:105-149: with pypower `verbose` is always 0 -/
def rsSingle (s : RsSettings) : RsCall :=
  match s.software with
  | .str "pypower" => rsTry false (rsOption s.opfType s.software)
  | .str "power models" => rsTry (rsTrue s.bar) (rsOption s.opfType s.software)
  | _ => .nothing

/-- `opf_optimizer == "pandapower"` -/
def rsPandapower (j : Json) : Bool :=
  match j with
  | .str s => decide (s = "pandapower")
  | _ => false

/-- `_run_opf`, RF:260-265 -/
def rsRun (p : Params P T) (s : RsSettings) : Except PyErr RsCall :=
  if rsPandapower p.problem.opfOptimizer = true then
    if rsTrue p.problem.interTemporal = true then rsSeries s else .ok (rsSingle s)
  else .ok .nothing

end Pyensys
