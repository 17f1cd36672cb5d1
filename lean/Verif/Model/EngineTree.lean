import Verif.Model.EngineState
import Mathlib.Data.List.Sort

/-!
# Model of the balance tree and of the expansion variables of the compiled engine

Source: pyensys/engines/energy_models2.cpp (EC below) and energy_models2.h (EH below): `create_nodes_tree`, `levels_tree`, `names_levels_tree` (EC:57-92, 133-184), `connections_energy_tree_model`, `create_problem_element`, `declare_balance_tree_variables`, `declare_balance_tree_constraints`, `create_balance_tree_matrix` up to its first row, `update_parameters_references_tree`, `create_balance_tree_model` (EC:270-589), `initialise` (EC:2038-2046, 2061-2067), `declare_moea_variables`, `declare_moea_objectives`, `create_moea_problem`, `get_MOEA_variables`, `get_moea_objectives` (EC:2840-2928), `insert2component` (EH:1081-1084); pyensys/engines/pyene_Models.py:553-560, 636-645.

Simplifications: doubles are rationals, printed texts are left out. The edges of the tree (EC:94-131) are left out: they are used after the first row of the matrix only. The 'column' of an input (EC:369-373) is left out: nothing reads it. Parameters of the tree have the characteristics that pyene_Models.py:553-560 gives them. A model option has a name, perhaps an engine, and a value.
-/

namespace Pyensys

/-- a parameter of the tree: 'name', 'name_node', 'level', perhaps a 'reference' (EC:528), the value -/
structure CtParam where
  name : Tok
  node : Tok
  level : Int
  ref : Option Tok
  value : Rat
  deriving DecidableEq, Repr

/-- what is kept at a component of a graph for a variable or constraint, EC:324-337 -/
structure CtElem where
  name : Tok
  ref : Option Tok
  position : Int
  deriving DecidableEq, Repr

/-- a vertex of the tree -/
structure CtNode where
  level : Int
  name : Tok
  params : List CtParam
  constraints : List CtElem
  variables' : List CtElem
  deriving DecidableEq, Repr

/-- a connection: 'ID', 'problems', 'variables' -/
structure CtConn where
  id : Tok
  problems : List Tok
  vars : List Tok
  deriving DecidableEq, Repr

/-! ## vertices -/

def ctIsWeight (p : CtParam) : Bool := decide (p.name = "weight".toList)

/-- `levels_tree`, EC:133-155 -/
def ctLevels (params : List CtParam) : List Int := (((params.filter ctIsWeight).map CtParam.level).eraseDups).insertionSort (· ≤ ·)

/-- the names of a level, `names_levels_tree`, EC:157-184 -/
def ctNames (params : List CtParam) (level : Int) : List Tok :=
  (((params.filter ctIsWeight).filter (fun p => decide (p.level = level))).map CtParam.node).eraseDups

/-- the vertices level by level, EC:62-75: `k` copies of the names -/
def ctNodesFrom (params : List CtParam) : Nat → List Int → List CtNode
  | _, [] => []
  | k, l :: ls => (List.replicate k (ctNames params l)).flatten.map (fun n => ⟨l, n, [], [], []⟩) ++ ctNodesFrom params (k * (ctNames params l).length) ls

/-- is every characteristic of the first parameter one of the second, EH:658-681 -/
def ctSubset (e p : CtParam) : Bool := decide (e.name = p.name ∧ e.node = p.node ∧ e.level = p.level ∧ (e.ref = none ∨ e.ref = p.ref))

/-- `push_back` of `graph_data`, EH:538-550, 682-707 -/
def ctPush : List CtParam → CtParam → List CtParam
  | [], p => [p]
  | e :: l, p => if ctSubset e p = true then { e with value := p.value } :: l else e :: ctPush l p

/-- a parameter goes to the first vertex of its level and name, EC:77-87 -/
def ctAttach : List CtNode → CtParam → List CtNode
  | [], _ => []
  | n :: l, p => if n.level = p.level ∧ n.name = p.node then { n with params := ctPush n.params p } :: l else n :: ctAttach l p

/-- `create_nodes_tree`, EC:57-92 -/
def ctNodes (params : List CtParam) : List CtNode := params.foldl ctAttach (ctNodesFrom params 1 (ctLevels params))

/-! ## connections -/

/-- one connection, EC:274-296: the name to compare and the IDs -/
def ctConnection (s : Tok × List Tok) (c : CtConn) : Except CErr (Tok × List Tok) :=
  match c.problems.findIdx? (fun p => decide (p = "BT".toList)) with
  | none => .ok s
  | some k =>
    match c.vars[k]? with
    | none => if s.1 = [] then .error (.code (-1)) else .error .undefined
    | some v => if s.1 = [] then .ok (v, s.2 ++ [c.id]) else if s.1 = v then .ok (s.1, s.2 ++ [c.id]) else .ok s

/-- `connections_energy_tree_model`, EC:270-297 -/
def ctConnections (cs : List CtConn) : Except CErr (List Tok) := do
  let s ← cs.foldlM ctConnection ([], [])
  .ok s.2

/-- the entries with a name and perhaps a reference, EH:399-434 -/
def ctFind (params : List CtParam) (name : Tok) (ref : Option Tok) : List CtParam :=
  params.filter (fun p => decide (p.name = name ∧ (ref = none ∨ p.ref = ref)))

/-- the first entry all of whose characteristics are given is replaced, EH:495-503, 732-741 -/
def ctReplace : List CtParam → CtParam → CtParam → List CtParam
  | [], _, _ => []
  | e :: l, old, new => if ctSubset e old = true then new :: l else e :: ctReplace l old new

/-- the children of an entry, EC:523-534 -/
def ctChildren (params : List CtParam) (base : CtParam) : List Tok → List CtParam
  | [] => params
  | id :: ids => ids.foldl (fun l i => ctPush l { base with ref := some i }) (ctReplace params base { base with ref := some id })

/-- one vertex, EC:518-537 -/
def ctRefer (refs : List Tok) (name : Tok) (n : CtNode) : CtNode :=
  match ctFind n.params name none with
  | [base] => { n with params := ctChildren n.params base refs }
  | _ => n

/-! ## the program -/

/-- `insert2component`, EH:1081-1084: what belongs to the tree is dropped -/
def ctInsert (graph : Tok) (kind : Tok) (nodes : List CtNode) (k : Nat) (e : CtElem) : List CtNode :=
  if graph = "network".toList then
    nodes.modify k (fun n => if kind = "constraints".toList then { n with constraints := n.constraints ++ [e] } else { n with variables' := n.variables' ++ [e] })
  else nodes

/-- the characteristic 'reference' of what belongs to a connection, EC:347-351, 404 -/
def ctRefOf (id : Tok) : Option Tok := if id = "N/A".toList then none else some id

/-- exactly one entry, EC:366-380 -/
def ctOne (l : List CtParam) : Except CErr CtParam :=
  match l with
  | [p] => .ok p
  | _ => .error (.code (-2))

/-- vertices and the next column -/
abbrev CtState := List CtNode × Int

/-- a variable, EC:299-341 -/
def ctVariable (name id : Tok) (s : CtState) (k : Nat) : CtState := (ctInsert "tree".toList "variables".toList s.1 k ⟨name, ctRefOf id, s.2⟩, s.2 + 1)

/-- the input of a vertex, EC:362-381; the entries are found by name and, unless the ID is 'N/A', reference -/
def ctInput (id : Tok) (s : CtState) (k : Nat) : Except CErr CtState := do
  match s.1[k]? with
  | none => .error .undefined
  | some n =>
    let _ ← ctOne (ctFind n.params "input".toList (ctRefOf id))
    .ok (ctVariable "input".toList id s k)

/-- the output of a vertex, EC:384-394; the entries are found by name and reference, also if the ID is 'N/A' -/
def ctOutput (id : Tok) (s : CtState) (k : Nat) : Except CErr CtState := do
  match s.1[k]? with
  | none => .error .undefined
  | some n =>
    let _ ← ctOne (ctFind n.params "output".toList (some id))
    .ok (ctVariable "output".toList id s k)

/-- `declare_balance_tree_variables`, EC:343-399, without flows -/
def ctVariables (s : CtState) (id : Tok) : Except CErr CtState := do
  let s := ctVariable "deficit".toList id (ctVariable "surplus".toList id s 0) 0
  let s ← (List.range s.1.length).foldlM (ctInput id) s
  (List.range s.1.length).foldlM (ctOutput id) s

/-- `declare_balance_tree_constraints`, EC:401-409 -/
def ctConstraints (s : CtState) (id : Tok) : CtState :=
  (List.range s.1.length).foldl (fun s k => (ctInsert "tree".toList "constraints".toList s.1 k ⟨"balance".toList, ctRefOf id, s.2⟩, s.2 + 1)) s

/-- the entries of a vertex with a name and perhaps a reference, EC:415-424 -/
def ctFetch (l : List CtElem) (name : Tok) (ref : Option Tok) : List CtElem := l.filter (fun e => decide (e.name = name ∧ (ref = none ∨ e.ref = ref)))

/-- the position of the row of a vertex, EC:454-460: without an entry the 'position matrix' is the text N/A -/
def ctRow (id : Tok) (n : CtNode) : Except CErr Int :=
  match ctFetch n.constraints "balance".toList (ctRefOf id) with
  | [] => .error .badGet
  | [e] => .ok e.position
  | _ => .error (.code (-3))

/-- the rows of `create_balance_tree_matrix`, EC:443-514 (the function has no `return`) -/
def ctMatrix (nodes : List CtNode) (id : Tok) : Except CErr (List Int) := nodes.mapM (ctRow id)

/-- the connections that the tree is made for, EC:542-549: only if the DC OPF is on -/
def ctIds (dc : Bool) (cs : List CtConn) : Except CErr (List Tok) := if dc = true then ctConnections cs else .ok []

/-- the vertices with references, EC:547-548 (EC:545-551: also before a failure of the connections is noticed) -/
def ctReferred (ids : List Tok) (nodes : List CtNode) : List CtNode := (nodes.map (ctRefer ids "input".toList)).map (ctRefer ids "output".toList)

/-- 'N/A' if there are no connections, EC:552-586 -/
def ctAll (ids : List Tok) : List Tok := if ids = [] then ["N/A".toList] else ids

/-- `create_balance_tree_model`, EC:540-589, after `create_nodes_tree` and `create_edges_tree`; without levels the latter reads beyond its vectors (EC:99) -/
def ctModel (dc : Bool) (cs : List CtConn) (params : List CtParam) : Except CErr (List (List Int)) := do
  let _ ← (if ctLevels params = [] then .error .undefined else .ok () : Except CErr Unit)
  let ids ← ctIds dc cs
  let s ← (ctAll ids).foldlM ctVariables (ctReferred ids (ctNodes params), 0)
  let s := (ctAll ids).foldl ctConstraints s
  (ctAll ids).mapM (ctMatrix s.1)

/-! ## expansion variables -/

/-- a model option: name, engine, value -/
structure CtOption where
  name : Tok
  engine : Tok
  value : CVal
  deriving DecidableEq, Repr

/-- a MOEA variable as it is returned, EC:2914-2920 -/
structure CtMoea where
  id : Tok
  name : Tok
  min : Int
  max : Int
  deriving DecidableEq, Repr

/-- an entry of a branch by name, EC:2855-2856, 2865-2866: exactly one -/
def ctEntry (v : CVertex) (name : Tok) : Except CErr CVal :=
  match cMulti v.params [cNamed name] with
  | [i] => .ok i.value
  | _ => .error (.code (-1))

/-- the option TEP must be given once, EC:2851, 2891 -/
def ctTep (opts : List CtOption) : Except CErr CtOption :=
  match opts.filter (fun o => decide (o.name = "TEP".toList)) with
  | [o] => .ok o
  | _ => .error (.code (-1))

/-- is the option on for this engine, EC:2852 -/
def ctOn (o : CtOption) : Except CErr Bool := if o.engine = "fdif".toList then o.value.getBool else .ok false

/-- the variable of a branch, EC:2861-2880 -/
def ctNew (v : CVertex) : Except CErr CtMoea := do
  let c ← ctEntry v "CTEP".toList
  let _ ← c.getDbl
  let id ← (cGetChar v.chars "ID".toList).value.getStr
  .ok ⟨id, "new branch variable".toList, 0, 1⟩

/-- a candidate gets a variable, EC:2861 -/
def ctCandidate (v : CVertex) (b : Bool) (l : List CtMoea) : Except CErr (List CtMoea) :=
  if b = true then do
    let m ← ctNew v
    .ok (l ++ [m])
  else .ok l

/-- a branch when the option is on, EC:2855-2881 -/
def ctBranchOn (v : CVertex) (on : Bool) (l : List CtMoea) : Except CErr (List CtMoea) :=
  if on = true then do
    let x ← ctEntry v "vTEP".toList
    let b ← x.getBool
    ctCandidate v b l
  else .ok l

/-- one vertex, EC:2846-2882 -/
def ctVertex (opts : List CtOption) (l : List CtMoea) (v : CVertex) : Except CErr (List CtMoea) :=
  if cIsBranch v = true then do
    let o ← ctTep opts
    let on ← ctOn o
    ctBranchOn v on l
  else .ok l

/-- `declare_moea_variables`, EC:2840-2885: the variables before a failure stay; the vertices have different IDs, so that no variable is there already -/
def ctMoeaRun (opts : List CtOption) : List CtMoea → List CVertex → List CtMoea × Except CErr Unit
  | l, [] => (l, .ok ())
  | l, v :: vs =>
    match ctVertex opts l v with
    | .ok l' => ctMoeaRun opts l' vs
    | .error e => (l, .error e)

/-- `declare_moea_objectives`, EC:2887-2900 -/
def ctObjectives (opts : List CtOption) : Except CErr (List Tok) := do
  let o ← ctTep opts
  let on ← ctOn o
  .ok (if on = true then ["transmission expansion cost".toList] else [])

/-- what `get_moea_variables` and `get_moea_objectives` return after `create_moea_problem` (EC:2902-2928), whose code nobody sees (EC:2063-2066) -/
def ctMoea (opts : List CtOption) (vs : List CVertex) : List CtMoea × List Tok :=
  match ctMoeaRun opts [] vs with
  | (l, .error _) => (l, [])
  | (l, .ok _) =>
    match ctObjectives opts with
    | .ok o => (l, o)
    | .error _ => (l, [])

end Pyensys
