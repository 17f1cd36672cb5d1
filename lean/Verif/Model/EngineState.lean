import Verif.Model.EngineNet

/-!
# Model of the runs of the compiled engine

Source: pyensys/engines/energy_models2.cpp (EC below) and energy_models2.h (EH below): `initialise` (EC:2038-2067), `store_solution`, `evaluate` (EC:2069-2169), `accumulate_unique_characteristics_outputs`, `return_outputs` (EC:2171-2677), `convert2pu`, `update_parameter`, `get_position_in_graph` (EC:2679-2838), `find`, `update_information_value`, `update_information_characteristic`, `get_information_characteristic` of `graph_data` (EH:623-655), `clp_model` (EH:1192-1262); pyensys/engines/pyene_Models.py:610-634 (the calls from Python: a dictionary becomes a list of characteristics).

Simplifications: doubles are rationals. The balance tree is not used ('BT' is off), so that a parameter of the problem 'BT' cannot be updated (the tree has no vertices: undefined). The simplex method is not modelled: an evaluation is given the point that it finds, one value for every column. Codes of failure of `initialise` end the run (the engine is left without a program). The characteristics 'min', 'max' and 'cost' of variables are not kept: they are removed before results are returned (EC:2332-2338). Printed texts are left out; so are the texts of the characteristics that are returned with the values.
-/

namespace Pyensys

/-- the engine after `initialise` -/
structure CEngine where
  /-- `Sbase` -/
  base : Rat
  /-- 'representative periods' and 'multiperiod' -/
  periods : Bool
  multi : Bool
  /-- the vertices of the network -/
  verts : List CVertex
  /-- the variables of the vertices: the position of a column is its 'position matrix', EC:318-339 -/
  cols : List CCol
  /-- the values of the variables -/
  vals : List Rat
  /-- the program of the solver, EH:1195-1203 -/
  loaded : CProb
  /-- the solution of the solver, EH:1247-1251 -/
  sol : List Rat
  /-- `last_subscript` -/
  last : List CChar
  deriving DecidableEq, Repr

/-- `initialise`, EC:2048-2061; `start` is the solution of a solver that has not solved anything -/
def cInitialise (base : Rat) (periods multi : Bool) (params : List CInfo) (start : List Rat) : Except CErr CEngine := do
  let m ← cModel base periods multi (cNodes params)
  .ok ⟨base, periods, multi, m.1, m.2.cols, m.2.cols.map (fun _ => 0), m.2, start, []⟩

/-! ## evaluation -/

/-- the characteristic 'name' -/
def cNamed (name : Tok) : CChar := ⟨"name".toList, .str name, []⟩

/-- the key of a variable, EC:329-339 -/
def cKey (id : CId) : List CChar := cNamed id.name :: id.subs

/-- the position of a variable of a vertex with a key, EH:628-637 -/
def cVarAt (cols : List CCol) (node : Nat) (key : List CChar) : Option Nat := cols.findIdx? (fun c => decide (c.id.node = node) && decide (cKey c.id = key))

/-- the subscripts that are evaluated, EC:2152-2162 -/
def cAsked (cand : List CChar) : List CChar := if cand = [] then cSub ([], -1) else cand

/-- `set_characteristic` for all subscripts, EC:2103-2108 -/
def cWith (l : List CChar) (subs : List CChar) : List CChar := subs.foldl (fun l c => cSetChar l c false) l

/-- `solve`, EH:1219-1246: the columns that are active for the subscripts get the values that were found -/
def cSolve (p : CProb) (period : List CChar) (x : CId → Rat) (sol : List Rat) : List Rat :=
  List.zipWith (fun c v => if c.active = true ∧ c.period = period then x c.id else v) p.cols sol

/-- the value of a variable, EC:2112-2114 -/
def cStoreAt (sol vals : List Rat) (pos : Option Nat) : Except CErr (List Rat) :=
  match pos with
  | none => .error .badGet
  | some k =>
    match sol[k]? with
    | none => .error .undefined
    | some v => .ok (vals.set k v)

/-- the value of a variable that must exist -/
def cStore (cols : List CCol) (sol : List Rat) (last : List CChar) (node : Nat) (name : Tok) (vals : List Rat) : Except CErr (List Rat) :=
  cStoreAt sol vals (cVarAt cols node (cWith [cNamed name] last))

/-- the value of a variable that may exist, EC:2140-2145 -/
def cStoreIf (cols : List CCol) (sol : List Rat) (last : List CChar) (node : Nat) (name : Tok) (vals : List Rat) : Except CErr (List Rat) :=
  if (cVarAt cols node (cWith [cNamed name] last)).isSome = true then cStore cols sol last node name vals else .ok vals

/-- the variables of a bus, EC:2110-2123 -/
def cStoreBus (cols : List CCol) (sol : List Rat) (last : List CChar) (vals : List Rat) (q : CVertex × Nat) : Except CErr (List Rat) := do
  let v ← cStore cols sol last q.2 "voltage angle".toList vals
  let v ← cStore cols sol last q.2 "generation curtailment".toList v
  cStore cols sol last q.2 "load curtailment".toList v

/-- the variables of a generator, EC:2133-2147 -/
def cStoreGen (cols : List CCol) (sol : List Rat) (last : List CChar) (vals : List Rat) (q : CVertex × Nat) : Except CErr (List Rat) := do
  let v ← cStore cols sol last q.2 "active power generation".toList vals
  cStoreIf cols sol last q.2 "active power generation cost".toList v

/-- `store_solution`, EC:2069-2148 -/
def cStoreAll (e : CEngine) (sol : List Rat) (last : List CChar) : Except CErr (List Rat) := do
  let v ← (cOf cIsBus e.verts).foldlM (cStoreBus e.cols sol last) e.vals
  (cOf cIsGen e.verts).foldlM (cStoreGen e.cols sol last) v

/-- `evaluate`, EC:2150-2169; `x` is the point that the solver finds -/
def cEvaluate (x : CId → Rat) (cand : List CChar) (e : CEngine) : Except CErr CEngine := do
  let sol := cSolve e.loaded (cAsked cand) x e.sol
  let vals ← cStoreAll e sol (cAsked cand)
  .ok ⟨e.base, e.periods, e.multi, e.verts, e.cols, vals, e.loaded, sol, cAsked cand⟩

/-! ## updates -/

/-- `boost::get<std::string>` -/
def CVal.getStr : CVal → Except CErr Tok
  | .str s => .ok s
  | _ => .error .badGet

/-- `get_position_in_graph`, EC:2825-2838 -/
def cPosition (e : CEngine) (type : Tok) (id : CVal) : Option Nat :=
  (e.verts.zipIdx.find? (fun q => decide ((cGetChar q.1.chars "type".toList).value = .str type) && decide ((cGetChar q.1.chars "ID".toList).value = id))).map (·.2)

/-- the key of the variable that is meant, EC:2765-2771 -/
def cTarget (cand : List CChar) : List CChar :=
  let l := [cNamed "active power generation".toList]
  let l := if cHas cand "pt".toList = true then cSetChar l (cGetChar cand "pt".toList) false else l
  if cHas cand "hour".toList = true then cSetChar l (cGetChar cand "hour".toList) false else l

/-- `setColumnUpper`, EH:1206 -/
def cSetUpper (p : CProb) (k : Nat) (b : Rat) : CProb :=
  ⟨p.cols.modify k (fun c => ⟨c.id, c.lower, some b, c.cost, c.period, c.active⟩), p.rows, p.elems⟩

/-- a new limit of a generator, EC:2755-2783; a vertex or variable that is not found is undefined behaviour -/
def cUpdateMax (cand : CInfo) (e : CEngine) : Except CErr CEngine := do
  let q ← cand.value.getDbl
  let type ← (cGetChar cand.chars "type".toList).value.getStr
  match cPosition e type (cGetChar cand.chars "ID".toList).value with
  | none => .error .undefined
  | some n =>
    match cVarAt e.cols n (cTarget cand.chars) with
    | none => .error .undefined
    | some k =>
      if k < e.loaded.cols.length then .ok ⟨e.base, e.periods, e.multi, e.verts, e.cols, e.vals, cSetUpper e.loaded k (q / e.base), e.sol, e.last⟩
      else .error .undefined

/-- a new status of a branch, EC:2785-2816: the table of the parameters of a vertex that is written to is empty (nothing is ever put there), and the program is made again but not given to the solver; if it cannot be made, the code -1 is returned and the engine is left without a program (the model ends with the error) -/
def cUpdateStatus (cand : CInfo) (e : CEngine) : Except CErr (CEngine × Int) := do
  let type ← (cGetChar cand.chars "type".toList).value.getStr
  if type = "branch".toList then
    match cPosition e type (cGetChar cand.chars "ID".toList).value with
    | none => .error .undefined
    | some _ =>
      match cModel e.base e.periods e.multi e.verts with
      | .ok m => .ok (⟨e.base, e.periods, e.multi, m.1, m.2.cols, m.2.cols.map (fun _ => 0), ⟨[], [], []⟩, [], e.last⟩, 0)
      | .error err => .error err
  else .ok (e, 0)

/-- `update_parameter`, EC:2685-2823, with the code that is returned -/
def cUpdateParameter (cand : CInfo) (e : CEngine) : Except CErr (CEngine × Int) := do
  let problem ← (cGetChar cand.chars "problem".toList).value.getStr
  if problem = "BT".toList then .error .undefined
  else if problem = "DC OPF".toList then do
    let name ← (cGetChar cand.chars "name".toList).value.getStr
    if name = "active power max limit".toList then do
      let e ← cUpdateMax cand e
      .ok (e, 0)
    else if name = "status".toList then cUpdateStatus cand e
    else .ok (e, 0)
  else .ok (e, 0)

/-! ## results -/

/-- the first value of a characteristic of an output: beyond the end of an empty vector anything may happen -/
def cFirstText (l : List CChar) (name : Tok) : Except CErr Tok :=
  match (cGetChar l name).values with
  | [] => .error .undefined
  | v :: _ => v.getStr

/-- one value of `accumulate_unique_characteristics_outputs`, EC:2178-2206 -/
def cRequireVal (name : Tok) (req : List (List CChar)) (val : CVal) : Except CErr (List (List CChar)) := do
  let t ← val.getStr
  if t = "all".toList then .ok req
  else if req = [] then .ok [[⟨name, val, []⟩]]
  else .ok (req.map (fun l => cSetChar l ⟨name, val, []⟩ false))

/-- `accumulate_unique_characteristics_outputs`, EC:2171-2209 -/
def cRequire (output : List CChar) (req : List (List CChar)) (name : Tok) : Except CErr (List (List CChar)) :=
  if cHas output name = true then (cGetChar output name).values.foldlM (cRequireVal name) req else .ok req

/-- what is asked for by an output, EC:2277-2294 -/
def cRequired (multi : Bool) (output : List CChar) : Except CErr (List (List CChar)) := do
  let req := if multi = true then [[(⟨"hour".toList, (cGetChar output "hour".toList).value, []⟩ : CChar)]] else []
  let req ← if multi = true then cRequire output req "hour".toList else .ok req
  let req ← cRequire output req "ID".toList
  let req ← cRequire output req "type".toList
  let req ← cRequire output req "group".toList
  let req ← cRequire output req "zone".toList
  if req = [] then .ok []
  else
    match (cGetChar output "name".toList).values with
    | [] => .error .undefined
    | v :: _ => .ok (req.map (fun l => cSetChar l ⟨"name".toList, v, []⟩ false))

/-- a result: the characteristics of its vertex or parameter and its value (a parameter can be of any type) -/
abbrev CResult := CInfo

/-- the variable of a vertex with a name and the subscripts of the last evaluation; if it does not exist, an empty result, EC:2317-2323 -/
def cResultOf (e : CEngine) (v : CVertex) (node : Nat) (name : CChar) : CResult :=
  match cVarAt e.cols node (cWith [name] e.last) with
  | none => cNone
  | some k => ⟨cWith v.chars (cWith [name] e.last), .dbl (e.vals[k]?.getD 0)⟩

/-- the results of a vertex for what is asked, EC:2305-2325 -/
def cResultsOf (e : CEngine) (kind : Tok) (req : List CChar) (q : CVertex × Nat) : List CResult :=
  if (cGetChar q.1.chars "type".toList).value = (cGetChar req "type".toList).value then
    if kind = "parameters".toList then cMulti q.1.params req else [cResultOf e q.1 q.2 (cGetChar req "name".toList)]
  else []

/-- is an entry the same as all that were kept, EC:2349-2377 -/
def cSameAsAll (kept : List CResult) (r : CResult) : Bool := !kept.isEmpty && kept.all (fun k => cSubset r.chars k.chars)

/-- the entries with a subtype, EC:2344-2380 -/
def cRefine (raw kept : List CResult) (subtype : CVal) : List CResult :=
  raw.foldl (fun kept r => if subtype ∈ (cGetChar r.chars "subtype".toList).values ∧ cSameAsAll kept r = false then kept ++ [r] else kept) kept

/-- the entries with any of the subtypes, EC:2340-2386 -/
def cRefined (output : List CChar) (raw : List CResult) : List CResult :=
  if cHas output "type".toList = true ∧ cHas output "subtype".toList = true then (cGetChar output "subtype".toList).values.foldl (cRefine raw) [] else raw

/-- the output with the subscripts of the last evaluation, EC:2218-2220 -/
def cOutputNow (e : CEngine) (output : List CChar) : Except CErr (List CChar) := do
  let h ← (cGetChar e.last "hour".toList).value.getDbl
  .ok (if h ≠ -1 then cWith output e.last else output)

/-- the raw results of an output, EC:2296-2331; the type of information is only asked for if a vertex is found -/
def cRaw (e : CEngine) (output : List CChar) (reqs : List (List CChar)) : Except CErr (List CResult) := do
  if e.verts.zipIdx.any (fun q => reqs.any (fun req => decide ((cGetChar q.1.chars "type".toList).value = (cGetChar req "type".toList).value))) = true then do
    let kind ← cFirstText output "type information".toList
    .ok (reqs.flatMap (fun req => e.verts.zipIdx.flatMap (cResultsOf e kind req)))
  else .ok []

/-- the values of the results with their places, EC:2461-2463, 2512-2516 -/
def cReport (output : List CChar) (rs : List CResult) : Except CErr (List (Rat × Nat)) := do
  let f ← cFirstText output "function".toList
  if f = "none".toList then do
    let vs ← rs.mapM (fun r => r.value.getDbl)
    .ok vs.zipIdx
  else if f = "sum".toList then do
    let vs ← rs.mapM (fun r => r.value.getDbl)
    .ok [(vs.sum, 0)]
  else .ok []

/-- one output, EC:2216-2540 -/
def cOutputs (e : CEngine) (output : List CChar) : Except CErr (List (Rat × Nat)) := do
  let output ← cOutputNow e output
  let problem ← cFirstText output "problem".toList
  if problem = "DC OPF".toList then do
    let reqs ← cRequired e.multi output
    let raw ← cRaw e output reqs
    cReport output (cRefined output raw)
  else .ok []

/-- `return_outputs`, EC:2211-2677: values and their places -/
def cReturnOutputs (e : CEngine) (outputs : List (List CChar)) : Except CErr (List (Rat × Nat)) := do
  let l ← outputs.mapM (cOutputs e)
  .ok l.flatten

end Pyensys
