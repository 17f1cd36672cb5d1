import Verif.Py
import Verif.Model.MatFile

/-!
# Model of asking the optimisation model for values

Source: pyensys/engines/pyene_Models.py (PM below): the records `tree_parameters`, `nodes_info_tree`, `network_variable`, `network_parameter`, `nodes_info_network` PM:80-133; of `Energymodel`: `_create_nodes_graph`, `_create_edges_graph`, `_create_graph` PM:692-767, `get_value_tree`, `set_value_tree` PM:1216-1232, 1269-1286; of `Networkmodel`: `_create_nodes_graph`, `_create_edges_graph`, `_create_graph` PM:1718-1783, `set_value_network` PM:3313-3375, `_get_initial_tree_node`, `_calculate_value_tree`, `get_value_network`, `_get_all_hours`, `_get_all_IDs`, `get_values_network` PM:3820-4052.

A graph that does not exist yet (before `_create_graph`) is `none`; reading it is an AttributeError. `nodes(data=True)` of networkx gives pairs of a number and a dictionary: `node['obj']` is then a TypeError and `node.ID` an AttributeError. `PyErr.runtime` stands for the NetworkXError of a node that is not in the graph.

Simplifications: values are rationals or None; hours are integers or None; names and identifiers are texts. Parameters have the fields of their record. The nodes of a tree are their levels and names. `_recursive_get_tree` and `_recursive_set_tree` (PM:1184-1214, 1234-1267) are left out: they are never reached.
-/

namespace Pyensys

/-- `network_parameter`, `network_variable`, PM:104-125: what the requests look at -/
structure QvItem where
  name : Tok
  hour : Option Int := none
  val : Option Rat := none
  deriving DecidableEq, Repr

/-- `nodes_info_network`, PM:127-133 -/
structure QvNode where
  id : Tok
  params : Option (List QvItem) := none
  vars : Option (List QvItem) := none
  deriving DecidableEq, Repr

/-- a node of the tree, PM:96-102 -/
structure QvTreeNode where
  level : Int
  name : Tok
  deriving DecidableEq, Repr

/-- the two graphs of a model -/
structure QvModel where
  net : Option (List QvNode) := none
  tree : Option (List QvTreeNode) := none
  deriving DecidableEq, Repr

/-- a position in the tree: a dictionary of levels and names -/
abbrev QvPos := List (Tok × Tok)

/-- `typ`: "parameter", "variable" or another text -/
inductive QvKind where
  | parameter | variable' | other
  deriving DecidableEq, Repr

/-- the list of the node that a request looks at, if it looks at one -/
def qvField (kind : QvKind) (n : QvNode) : Option (Option (List QvItem)) :=
  match kind with
  | .parameter => some n.params
  | .variable' => some n.vars
  | .other => none

/-- `not hour`, PM:3923 -/
def qvNoHour : Option Int → Bool
  | none => true
  | some h => decide (h = 0)

/-- the condition PM:3923, 3927 -/
def qvMatch (name : Tok) (hour : Option Int) (p : QvItem) : Bool :=
  decide (p.name = name) && (qvNoHour hour || decide (p.hour = hour))

/-- one node, PM:3921-3928: `some v` is `return v` -/
def qvNode (id name : Tok) (hour : Option Int) (kind : QvKind) (n : QvNode) : Except PyErr (Option (Option Rat)) :=
  if n.id = id then
    match qvField kind n with
    | none => .ok none
    | some none => .error .type
    | some (some l) => .ok ((l.find? (qvMatch name hour)).map QvItem.val)
  else .ok none

/-- the loop PM:3920-3928 and the `return None` PM:3933 -/
def qvLoop (id name : Tok) (hour : Option Int) (kind : QvKind) : List QvNode → Except PyErr (Option Rat)
  | [] => .ok none
  | n :: ns => do
    let r ← qvNode id name hour kind n
    match r with
    | some v => return v
    | none => qvLoop id name hour kind ns

/-- `_get_initial_tree_node`, PM:3833-3845, of a position that is not empty: `node['obj']` of the first node fails; without nodes, the second value is looked for among the successors of `None` -/
def qvInitial (tree : List QvTreeNode) (pos : QvPos) : Except PyErr Unit :=
  match tree, pos with
  | _ :: _, _ :: _ => .error .type
  | _, _ :: _ :: _ => .error .runtime
  | _, _ => .ok ()

/-- PM:3929-3931: after `_get_initial_tree_node` the successors of `None` are asked for, PM:3871 -/
def qvAtPosition (tree : List QvTreeNode) (pos : QvPos) : Except PyErr (Option Rat) := do
  qvInitial tree pos
  throw .runtime

/-- `get_value_network`, PM:3901-3933 -/
def qvGet (m : QvModel) (id name : Tok) (pos : QvPos) (hour : Option Int) (kind : QvKind) : Except PyErr (Option Rat) :=
  if pos.isEmpty then
    match m.net with
    | none => .error .attribute
    | some ns => qvLoop id name hour kind ns
  else
    match m.tree with
    | none => .error .attribute
    | some ts => qvAtPosition ts pos

/-- `_get_all_hours`, `_get_all_IDs`, PM:3935-3976: `node.ID`, `node.typ` of a pair -/
def qvAll {α : Type} (m : QvModel) : Except PyErr (List α) :=
  match m.net with
  | none => .error .attribute
  | some [] => .ok []
  | some (_ :: _) => .error .attribute

/-- the keyword `IDs` -/
inductive QvIds where
  | list (ids : List Tok) | all | other
  deriving DecidableEq, Repr

/-- the keyword `hours` -/
inductive QvHours where
  | list (hs : List (Option Int)) | all | one (h : Int) | none
  deriving DecidableEq, Repr

/-- the loop over the hours for one element -/
def qvHours (m : QvModel) (name : Tok) (pos : QvPos) (kind : QvKind) (hs : List (Option Int)) (id : Tok) : Except PyErr (List (Option Rat)) :=
  hs.mapM (fun h => qvGet m id name pos h kind)

/-- the loop over the elements -/
def qvElements (f : Tok → Except PyErr (List (Option Rat))) (ids : List Tok) : Except PyErr (List (Option Rat)) := do
  let r ← ids.mapM f
  return r.flatten

/-- what is asked for one element, PM:4021-4048; with `hours="all"` every element asks for the hours (PM:4028, 4042) -/
def qvOne (m : QvModel) (name : Tok) (pos : QvPos) (kind : QvKind) : QvHours → Option (Tok → Except PyErr (List (Option Rat)))
  | .list hs => some (qvHours m name pos kind hs)
  | .all => some (fun id => do
      let hs ← qvAll m
      qvHours m name pos kind hs id)
  | .one h => some (qvHours m name pos kind [some h])
  | .none => none

/-- `get_values_network`, PM:3978-4052 -/
def qvValues (m : QvModel) (ids : QvIds) (name : Tok) (pos : QvPos) (hours : QvHours) (kind : QvKind) : Except PyErr (List (Option Rat)) :=
  match ids, qvOne m name pos kind hours with
  | .list l, some f => qvElements f l
  | .all, some f => do
    let l ← qvAll m
    qvElements f l
  | _, _ => .error .value

/-- `set_value_network`, PM:3313-3375: `node['obj']` of the first node fails; without nodes nothing is done -/
def qvSet (m : QvModel) (_id _name : Tok) (_pos : QvPos) (_hour : Option Int) (_kind : QvKind) (_v : Option Rat) : Except PyErr QvModel :=
  match m.net with
  | none => .error .attribute
  | some [] => .ok m
  | some (_ :: _) => .error .type

/-- `get_value_tree`, PM:1216-1232: `node.level` of a pair -/
def qvGetTree (m : QvModel) (_name : Tok) (_pos : QvPos) (_kind : QvKind) : Except PyErr (Option Rat) :=
  match m.tree with
  | none => .error .attribute
  | some [] => .ok none
  | some (_ :: _) => .error .attribute

/-- `set_value_tree`, PM:1269-1286 -/
def qvSetTree (m : QvModel) (_name : Tok) (_pos : QvPos) (_kind : QvKind) (_v : Option Rat) : Except PyErr QvModel :=
  match m.tree with
  | none => .error .attribute
  | some [] => .ok m
  | some (_ :: _) => .error .attribute

/-- `_create_graph` of the network, PM:1780-1783: the graph is empty when the first parameter is reached, whose `subtype` does not exist (PM:1734) -/
def qvBuildNet (m : QvModel) (ps : List (Tok × QvItem)) : Option PyErr × QvModel :=
  match ps with
  | [] => (none, { m with net := some [] })
  | _ :: _ => (some .attribute, { m with net := some [] })

/-- `_create_graph` of the tree, PM:764-767, 692-746: with parameters, all nodes are the record itself, whose `parameters` is None (PM:732); without, `len(self.tree)` is no list (PM:744). With parameters of the levels given (integers) -/
def qvBuildTree (m : QvModel) (ps : List QvTreeNode) : Option PyErr × QvModel :=
  match ps with
  | [] => (some .type, { m with tree := some [] })
  | _ :: _ => (some .attribute, { m with tree := some [] })

end Pyensys
