import Verif.Py

/-!
# Model of the control-graph creation and of its conversion into a tree

Sources: pyensys/Optimisers/ControlGraphsCreator.py (CG below), pyensys/wrappers/networkx_wrapper.py
(NX below).

Simplifications: a profile is the list of its rows (years), each the list of the clustered values of
the scenarios (columns); row labels are assumed distinct, so that `data.loc[row]` (CG:39) is the row.
A DiGraph is the list of its edges in insertion order (every node of the graphs built here is the end
of an edge).  Python sets are modelled through an arbitrary order of iteration.
-/

namespace Pyensys

/-- `ClusterData`, CG:14-20 (element type and variable name are constant over a profile). -/
structure Cluster where
  scenarios : List Nat
  centroid : Rat
  level : Nat
  deriving DecidableEq, Repr

/-- Loop state of CG:37-44: the dictionary `clusters_centroids` and the list `new_nodes`. -/
structure RowState where
  dict : List (Rat × Nat) := []
  nodes : List Cluster := []
  deriving DecidableEq, Repr

/-- Body of the loop CG:39-44 for one column. -/
def rowStep (level : Nat) (st : RowState) (cv : Nat × Rat) : RowState :=
  match st.dict.find? (fun e => e.1 = cv.2) with
  | some e => { st with nodes := st.nodes.modify e.2 (fun c => { c with scenarios := c.scenarios ++ [cv.1] }) }
  | none => { dict := st.dict ++ [(cv.2, st.nodes.length)]
              nodes := st.nodes ++ [⟨[cv.1], cv.2, level⟩] }

/-- `new_nodes` of one row, CG:37-45; the level is filled in at CG:51-53. -/
def rowNodes (level : Nat) (row : List Rat) : List Cluster :=
  ((row.zipIdx.map (fun p => (p.2, p.1))).foldl (rowStep level) {}).nodes

/-- `determine_graph_nodes`, CG:29-57, from row number `level` on: the dictionary
`{node_counter: node}` has the consecutive keys 0, 1, ... and is represented by the list of its
values. -/
def nodesFrom : Nat → List (List Rat) → List Cluster
  | _, [] => []
  | level, row :: rows => rowNodes level row ++ nodesFrom (level + 1) rows

/-- `determine_graph_nodes`, CG:29-57. -/
def graphNodes (rows : List (List Rat)) : List Cluster := nodesFrom 0 rows

/-- `_get_nodes_all_levels`, CG:83-89: dictionary level -> node numbers, insertion ordered. -/
def nodesAllLevels (nodes : List Cluster) : List (Nat × List Nat) :=
  nodes.zipIdx.foldl (fun d p =>
    match d.find? (fun e => e.1 = p.1.level) with
    | none => d ++ [(p.1.level, [p.2])]
    | some _ => d.map (fun e => if e.1 = p.1.level then (e.1, e.2 ++ [p.2]) else e)) []

/-- `_nodes_all_levels[level]` -/
def levelNodes (d : List (Nat × List Nat)) (level : Nat) : Except PyErr (List Nat) :=
  match d.find? (fun e => e.1 = level) with
  | some e => .ok e.2
  | none => .error .key

/-- `graph_nodes[position].scenarios` -/
def scenariosOf (nodes : List Cluster) (n : Nat) : List Nat :=
  match nodes[n]? with
  | some c => c.scenarios
  | none => []

/-- The double loop CG:76-80 for one level. -/
def edgesOfLevel (nodes : List Cluster) (cur next : List Nat) : List (Nat × Nat) :=
  cur.flatMap (fun a => (next.filter (fun b =>
    (scenariosOf nodes b).any (fun s => (scenariosOf nodes a).contains s))).map (fun b => (a, b)))

/-- `determine_graph_edges`, CG:72-81. -/
def graphEdges (nodes : List Cluster) : Except PyErr (List (Nat × Nat)) := do
  let d := nodesAllLevels nodes
  (List.range (d.length - 1)).foldlM (fun acc level => do
    let cur ← levelNodes d level
    let next ← levelNodes d (level + 1)
    return acc ++ edgesOfLevel nodes cur next) []

/-! ## directed graphs -/

/-- `DiGraph.add_edge`: adding an existing edge changes nothing (NX:10-11). -/
def addEdge (E : List (Nat × Nat)) (a b : Nat) : List (Nat × Nat) :=
  if E.contains (a, b) then E else E ++ [(a, b)]

/-- `neighbours(node)`, NX:19-20 -/
def succOf (E : List (Nat × Nat)) (n : Nat) : List Nat := (E.filter (fun e => e.1 = n)).map (·.2)
/-- `predecessors(node)`, NX:22-23 -/
def predOf (E : List (Nat × Nat)) (n : Nat) : List Nat := (E.filter (fun e => e.2 = n)).map (·.1)
/-- nodes in order of insertion -/
def nodesOf (E : List (Nat × Nat)) : List Nat :=
  E.foldl (fun acc e =>
    let acc := if acc.contains e.1 then acc else acc ++ [e.1]
    if acc.contains e.2 then acc else acc ++ [e.2]) []

/-- `create_graph`, CG:176-187: nodes and edges of a profile. -/
def profileGraph (rows : List (List Rat)) : Except PyErr (List Cluster × List (Nat × Nat)) := do
  let nodes := graphNodes rows
  let edges ← graphEdges nodes
  return (nodes, edges.foldl (fun E e => addEdge E e.1 e.2) [])

/-- `get_first_node`, NX:25-26; IndexError on an empty graph. -/
def firstNode (E : List (Nat × Nat)) : Except PyErr Nat :=
  match nodesOf E with
  | [] => .error .index
  | n :: _ => .ok n

/-- `_recursive_search_for_greatest_numbering`, NX:32-37. -/
def searchGreatest (E : List (Nat × Nat)) : Nat → Nat → Nat → Except PyErr Nat
  | 0, _, _ => .error .recursion
  | fuel + 1, node, greatest =>
    (succOf E node).foldlM (fun g n => searchGreatest E fuel n (if n > g then n else g)) greatest

/-- `find_node_with_greatest_numbering`, NX:28-30. -/
def greatestNode (E : List (Nat × Nat)) (fuel : Nat) : Except PyErr Nat := do
  let f ← firstNode E
  searchGreatest E fuel f f

/-- `networkx.is_tree` on a DiGraph (NX:42-43): raises on the empty graph; otherwise number of edges
= number of nodes - 1 and weakly connected.  Weak connectedness is decided by growing the component
of the first node once per node. -/
def isTree (E : List (Nat × Nat)) : Except PyErr Bool :=
  match nodesOf E with
  | [] => .error .runtime
  | n :: ns =>
    let grow := fun (comp : List Nat) => (n :: ns).filter (fun x => comp.contains x ||
      E.any (fun e => (e.1 = x && comp.contains e.2) || (e.2 = x && comp.contains e.1)))
    let comp := (List.range (n :: ns).length).foldl (fun c _ => grow c) [n]
    .ok (E.length + 1 == (n :: ns).length && (n :: ns).all (fun x => comp.contains x))

/-! ## conversion into a tree -/

/-- State of the converter: edges of `_tree`, `_nodes_data` and the greatest node number in use. -/
structure TreeSt (D : Type) where
  edges : List (Nat × Nat) := []
  data : Nat → Option D
  greatest : Nat

/-- `self._tree.add_edge(parent, new)` and `self._nodes_data[new] = self._nodes_data[source]` for the
next free number `new` (CG:135-137 and 146-148). -/
def addCopy {D : Type} (st : TreeSt D) (parent source : Nat) : Except PyErr (TreeSt D) :=
  match st.data source with
  | none => .error .key
  | some d => .ok { edges := addEdge st.edges parent (st.greatest + 1)
                    data := fun n => if n = st.greatest + 1 then some d else st.data n
                    greatest := st.greatest + 1 }

/-- `_recursive_duplicates_for_sucessors_of_common_node`, CG:142-151: copies the subtree below
`node` under the current greatest node.  (`neighbours` is iterated lazily in Python; the adjacency
of `node` is not changed meanwhile.) -/
def dupSucc {D : Type} : Nat → Nat → TreeSt D → Except PyErr (TreeSt D)
  | 0, _, _ => .error .recursion
  | fuel + 1, node, st =>
    let current := st.greatest
    (succOf st.edges node).foldlM (fun st s => do
      let st ← addCopy st current s
      dupSucc fuel s st) st

/-- `_create_duplicates_from_common_node`, CG:132-140; `preds` lists the set of predecessors in the
order in which Python pops / iterates it. -/
def dupCommon {D : Type} (fuel node : Nat) (preds : List Nat) (st : TreeSt D) :
    Except PyErr (TreeSt D) :=
  match preds with
  | [] => .error .key
  | p :: ps =>
    ps.foldlM (fun st q => do
      let st ← addCopy st q node
      dupSucc fuel node st) { st with edges := addEdge st.edges p node }

/-- The loop CG:118-123 over the current layer; stops early (`break`) when `next_layer` is empty. -/
def layerLoop {D : Type} (ord : List Nat → List Nat) (G : List (Nat × Nat)) (fuel : Nat) :
    List Nat → List Nat → TreeSt D → Except PyErr (List Nat × TreeSt D)
  | [], next, st => .ok (next, st)
  | n :: ns, next, st =>
    let preds := predOf G n
    let next := next ++ preds
    if next = [] then .ok ([], st)
    else do
      let st ← dupCommon fuel n (ord preds) st
      layerLoop ord G fuel ns next st

/-- The `while` loop CG:116-127, with `fuel` iterations at most. -/
def convertLoop {D : Type} (ord : List Nat → List Nat) (G : List (Nat × Nat)) (fuel : Nat) :
    Nat → List Nat → TreeSt D → Except PyErr (TreeSt D)
  | 0, _, _ => .error .recursion
  | iter + 1, layer, st => do
    let (next, st) ← layerLoop ord G fuel (ord layer) [] st
    if next = [] then return st
    else convertLoop ord G fuel iter next st

/-- `_recursive_search_of_last_nodes_in_graph`, CG:160-167. -/
def lastNodes (G : List (Nat × Nat)) : Nat → Nat → List Nat → Except PyErr (List Nat)
  | 0, _, _ => .error .recursion
  | fuel + 1, node, acc =>
    match succOf G node with
    | [] => .ok (acc ++ [node])
    | s :: ss => (s :: ss).foldlM (fun acc n => lastNodes G fuel n acc) acc

/-- `GraphtoTreeConverter.convert`, CG:111-130.  `ord` gives, for the sequence of insertions into a
Python set, the order in which the set is iterated; `fuel` is the recursion limit. -/
def convertTree {D : Type} (ord : List Nat → List Nat) (fuel iter : Nat) (data : Nat → Option D)
    (G : List (Nat × Nat)) : Except PyErr ((Nat → Option D) × List (Nat × Nat)) := do
  let t ← isTree G
  if t then return (data, G)
  else do
    let g ← greatestNode G fuel
    let f ← firstNode G
    let layer ← lastNodes G fuel f []
    let st ← convertLoop ord G fuel iter layer { data := data, greatest := g }
    return (st.data, st.edges)

end Pyensys
