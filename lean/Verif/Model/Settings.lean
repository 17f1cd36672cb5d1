import Verif.Model.Profiles

/-!
# Model of the loading of a JSON document into the parameters

Source: pyensys/readers/JSONReader.py:326-482 (JR below) and pyensys/readers/ReaderDataClasses.py (RD).

The document is already parsed (`json.load`).  What the sections refer to is behind the parameters of
`ReadEnv`: the number of periods of a date range (pandas), the conversion of a `*.m` file
(Model/MatFile), the loading of one profile (Model/Profiles) and of the demand tables
(Model/Multipliers).  A profile of the optimisation is a value of a type `P`, a table of a type `T`.
-/

namespace Pyensys

/-- a JSON value -/
inductive Json
  | null
  | bool (b : Bool)
  | num (x : Rat)
  | str (s : String)
  | arr (l : List Json)
  | obj (l : List (String × Json))

/-- `dict.get(key)`: keys of a parsed document are unique -/
def jget (d : List (String × Json)) (k : String) : Option Json := (d.find? (fun e => e.1 = k)).map (·.2)

/-- `d.pop(key)`: KeyError if absent -/
def jreq (d : List (String × Json)) (k : String) : Except PyErr Json :=
  match jget d k with
  | some v => .ok v
  | none => .error .key

/-- `d.pop(key, default)` -/
def jdef (d : List (String × Json)) (k : String) (v : Json) : Json := (jget d k).getD v

/-- `self.settings.pop(name, None)` followed by `is not None`: absent and null sections are skipped; a
section that is no object raises on its first use as a dictionary (a list has a `pop` of other
arguments, TypeError; other values have none, AttributeError). -/
def section? (doc : List (String × Json)) (name : String) : Except PyErr (Option (List (String × Json))) :=
  match jget doc name with
  | none => .ok none
  | some .null => .ok none
  | some (.obj d) => .ok (some d)
  | some (.arr _) => .error .type
  | some _ => .error .attribute

/-- `ProblemSettings`, RD:13-25 -/
structure ProblemSettings where
  system : Json := .str ""
  problem : Json := .str ""
  multiObjective : Json := .bool false
  stochastic : Json := .bool false
  interTemporal : Json := .bool false
  initialised : Bool := false
  opfOptimizer : Json := .str ""
  problemOptimizer : Json := .str ""
  opfType : Json := .str ""
  returnRate : Json := .num 0
  nonAnticipative : Json := .bool false

/-- `_load_problem_settings`, JR:350-374 -/
def loadProblem (doc : List (String × Json)) : Except PyErr ProblemSettings :=
  match section? doc "problem" with
  | .error e => .error e
  | .ok none => .ok {}
  | .ok (some d) => .ok {
      system := jdef d "system" (.str "")
      problem := jdef d "name" (.str "")
      multiObjective := jdef d "multi_objective" (.bool false)
      stochastic := jdef d "stochastic" (.bool false)
      interTemporal := jdef d "inter_temporal" (.bool false)
      opfOptimizer := jdef d "opf_optimizer" (.str "pandapower")
      problemOptimizer := jdef d "problem_optimizer" (.str "")
      opfType := jdef d "opf_type" (.str "ac")
      returnRate := jdef d "return_rate_in_percentage" (.num 0)
      nonAnticipative := jdef d "non_anticipative" (.bool false)
      initialised := true }

/-- `DateTimeOptimisationSettings`, RD:28-32, reduced to the number of periods (default 1) -/
structure TimeSettings where
  periods : Nat := 1
  initialised : Bool := false
  deriving DecidableEq

/-- `PandaPowerMPCSettings`, RD:35-39 -/
structure MPCSettings where
  path : String := ""
  frequency : Json := .num 0
  initialised : Bool := false

/-- `OutputVariable`, RD:67-71 -/
structure OutputVar where
  dataset : Json
  variable_ : Json
  indexes : Json

/-- `OutputSettings`, RD:74-79 -/
structure OutSettings where
  directory : Json := .str ""
  format : Json := .str ""
  vars : List OutputVar := []
  initialised : Bool := false

/-- `PandaPowerOptimisationSettings`, RD:82-87 -/
structure PPOptSettings where
  progressBar : Json := .bool false
  onDivergence : Json := .bool false
  software : Json := .str ""
  initialised : Bool := false

/-- `OptimisationBinaryVariables`, RD:103-111; `Json.null` is Python's None -/
structure JBinVar where
  elementType : Json
  variableName : Json
  elementsIds : Json
  positions : Json
  costs : Json
  installationTime : Json
  capacity : Json

/-- what the sections refer to -/
structure ReadEnv (P T : Type) where
  dateRange : Json → Json → String → Except PyErr Nat
  matFile : String → Except PyErr Unit
  ppProfile : Json → Except PyErr (Option (List Frame))
  optProfile : Json → Except PyErr P
  table : Json → Except PyErr (String × T)
  attestProfile : List (String × T) → Except PyErr P

/-- `Parameters`, RD:114-134 -/
structure Params (P T : Type) where
  problem : ProblemSettings := {}
  time : TimeSettings := {}
  mpc : MPCSettings := {}
  profiles : List Frame := []
  profilesInit : Bool := false
  output : OutSettings := {}
  ppOpt : PPOptSettings := {}
  optProfiles : List P := []
  optProfilesInit : Bool := false
  binVars : List JBinVar := []
  tables : List (String × T) := []
  initialised : Bool := false

/-- `FREQUENCY_NAME_TO_PANDAS_ALIASES[name]`, RD:9-10: KeyError for other names -/
def frequencyAlias : Json → Except PyErr String
  | .str "hourly" => .ok "H"
  | _ => .error .key

/-- `_load_opf_time_settings`, JR:376-389 -/
def loadTime {P T : Type} (env : ReadEnv P T) (doc : List (String × Json)) : Except PyErr TimeSettings :=
  match section? doc "opf_time_settings" with
  | .error e => .error e
  | .ok none => .ok {}
  | .ok (some d) => do
    let b ← jreq d "begin"
    let e ← jreq d "end"
    let f ← jreq d "frequency"
    let a ← frequencyAlias f
    let t ← jreq d "time_block"
    match t with
    | .str t => do
      let n ← env.dateRange b e (t ++ a)
      return { periods := n, initialised := true }
    | _ => .error .type

/-- `_load_pandapower_mpc_settings`, JR:391-409: a path that ends in 'm' is converted and "at" is
appended. -/
def loadMPC {P T : Type} (env : ReadEnv P T) (doc : List (String × Json)) : Except PyErr MPCSettings :=
  match section? doc "pandapower_mpc_settings" with
  | .error e => .error e
  | .ok none => .ok {}
  | .ok (some d) => do
    let p ← jreq d "mat_file_path"
    match p with
    | .str p =>
      match p.toList.getLast? with
      | none => .error .index
      | some c =>
        if c = 'm' then do
          env.matFile p
          let f ← jreq d "frequency"
          return { path := p ++ "at", frequency := f, initialised := true }
        else do
          let f ← jreq d "frequency"
          return { path := p, frequency := f, initialised := true }
    | _ => .error .type

/-- body of the loop JR:415-416: extending by None raises TypeError. -/
def ppStep {P T : Type} (env : ReadEnv P T) (acc : List Frame) (e : String × Json) : Except PyErr (List Frame) :=
  match env.ppProfile e.2 with
  | .error e => .error e
  | .ok none => .error .type
  | .ok (some fs) => .ok (acc ++ fs)

/-- `_load_pandapower_profiles_data`, JR:411-418 -/
def loadProfiles {P T : Type} (env : ReadEnv P T) (doc : List (String × Json)) :
    Except PyErr (List Frame × Bool) :=
  match section? doc "pandapower_profiles_data" with
  | .error e => .error e
  | .ok none => .ok ([], false)
  | .ok (some d) =>
    match d.foldlM (ppStep env) [] with
    | .error e => .error e
    | .ok fs => .ok (fs, true)

/-- `_load_output_variable`, JR:275-280 -/
def loadOutputVar (j : Json) : Except PyErr OutputVar :=
  match j with
  | .obj d => do
    let a ← jreq d "name_dataset"
    let b ← jreq d "name_variable"
    let c ← jreq d "variable_indexes"
    return ⟨a, b, c⟩
  | .arr _ => .error .type
  | _ => .error .attribute

/-- `_load_output_settings`, JR:439-449, with `_load_output_variables`, JR:283-287 -/
def loadOutput (doc : List (String × Json)) : Except PyErr OutSettings :=
  match section? doc "output_settings" with
  | .error e => .error e
  | .ok none => .ok {}
  | .ok (some d) => do
    let dir ← jreq d "directory"
    let fmt ← jreq d "format"
    let vs ← jreq d "output_variables"
    match vs with
    | .obj l => do
      let vars ← l.mapM (fun e => loadOutputVar e.2)
      return { directory := dir, format := fmt, vars := vars, initialised := true }
    | _ => .error .attribute

/-- `_load_pandapower_optimisation_settings`, JR:451-463 -/
def loadPPOpt (doc : List (String × Json)) : Except PyErr PPOptSettings :=
  match section? doc "pandapower_optimisation_settings" with
  | .error e => .error e
  | .ok none => .ok {}
  | .ok (some d) => .ok {
      onDivergence := jdef d "continue_on_divergence" (.bool false)
      progressBar := jdef d "display_progress_bar" (.bool false)
      software := jdef d "optimisation_software" (.str "pypower")
      initialised := true }

/-- assignment to the dictionary of tables, JR:499-501 -/
def tableSet {T : Type} (d : List (String × T)) (k : String) (v : T) : List (String × T) :=
  if d.any (fun e => e.1 = k) then d.map (fun e => if e.1 = k then (k, v) else e) else d ++ [(k, v)]

/-- body of the loop JR:499-501 -/
def tableStep {P T : Type} (env : ReadEnv P T) (acc : List (String × T)) (j : Json) : Except PyErr (List (String × T)) :=
  match env.table j with
  | .error e => .error e
  | .ok kt => .ok (tableSet acc kt.1 kt.2)

/-- `_load_optimisation_profiles_data`, JR:420-437, with `_extract_optimisation_profiles_data`,
JR:497-501; `tables` are the tables stored so far, kept unless the format is "attest".  The entry
"format_data" itself is popped before the others are loaded. -/
def loadOptProfiles {P T : Type} (env : ReadEnv P T) (tables : List (String × T)) (doc : List (String × Json)) :
    Except PyErr (List P × Bool × List (String × T)) :=
  match section? doc "optimisation_profiles_data" with
  | .error e => .error e
  | .ok none => .ok ([], false, tables)
  | .ok (some d) =>
    match jdef d "format_data" .null with
    | .null =>
      match (d.filter (fun e => e.1 ≠ "format_data")).mapM (fun e => env.optProfile e.2) with
      | .error e => .error e
      | .ok ps => .ok (ps, true, tables)
    | .str "attest" =>
      match jdef d "data" .null with
      | .null => .error .value
      | .arr l =>
        match l.foldlM (tableStep env) [] with
        | .error e => .error e
        | .ok ts =>
          match env.attestProfile ts with
          | .error e => .error e
          | .ok p => .ok ([p], true, ts)
      | _ => .error .type
    | _ => .error .value

/-- JR:468-476: `get` never raises on an object -/
def loadBinVar (j : Json) : Except PyErr JBinVar :=
  match j with
  | .obj d => .ok {
      elementType := jdef d "element_type" .null
      variableName := jdef d "variable_name" .null
      elementsIds := jdef d "elements_ids" .null
      positions := jdef d "elements_positions" (.arr [])
      costs := jdef d "costs" (.arr [])
      installationTime := jdef d "installation_time" (.arr [])
      capacity := jdef d "capacity_to_be_added_MW" (.arr []) }
  | _ => .error .attribute

/-- `_load_optimisation_binary_variables`, JR:465-476: the variables are appended to those that the
parameters already hold; iterating over a value that is no list (null included) raises. -/
def loadBinVars (old : List JBinVar) (doc : List (String × Json)) : Except PyErr (List JBinVar) :=
  match jdef doc "optimisation_binary_variables" (.arr []) with
  | .arr l =>
    match l.mapM loadBinVar with
    | .error e => .error e
    | .ok vs => .ok (old ++ vs)
  | _ => .error .type

/-- `_read_data_from_dictionary`, JR:337-348, on the parameters of the reader object. -/
def readDocument {P T : Type} (env : ReadEnv P T) (ps : Params P T) (doc : List (String × Json)) :
    Except PyErr (Params P T) := do
  let problem ← loadProblem doc
  let time ← loadTime env doc
  let mpc ← loadMPC env doc
  let profiles ← loadProfiles env doc
  let output ← loadOutput doc
  let ppOpt ← loadPPOpt doc
  let opt ← loadOptProfiles env ps.tables doc
  let binVars ← loadBinVars ps.binVars doc
  let adjusted ← profiles.1.mapM (adjustProfile time.periods)
  return { problem := problem, time := time, mpc := mpc, profiles := adjusted, profilesInit := profiles.2,
           output := output, ppOpt := ppOpt, optProfiles := opt.1, optProfilesInit := opt.2.1, binVars := binVars,
           tables := opt.2.2, initialised := true }

end Pyensys
