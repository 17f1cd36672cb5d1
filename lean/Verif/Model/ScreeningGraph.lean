import Verif.Model.MatFile

/-!
# Model of the graph of parameters of the screening stage

Source: pyensys/Optimisers/screening_model_CLI.py:52-307 (SC below; screening_model.py:50-305 is the same
text): `readVarPara`, the class `NetworkModel` (nodes and edges of the graph, `get_value_network`) and
`addPara`, from which the constraints of the programme (`Verif.Model.ScreeningLP`) read the case.

Simplifications: numbers are rationals; a table of the case maps the name of a column to the list of its
entries; `str(n)` is the decimal text of `n`; the networkx graph is the list of its nodes (in the order of
their numbers) and the list of its edges.
-/

namespace Pyensys

/-- the counts and the tables `mpc['gen']`, `mpc['bus']`, `mpc['branch']` -/
structure SgCase where
  noGen : Nat
  noBus : Nat
  noBranch : Nat
  gen : Tok → Option (List Rat)
  bus : Tok → Option (List Rat)
  branch : Tok → Option (List Rat)

/-- `type`, SC:109, 130, 151 -/
inductive SgKind where
  | generator | bus | branch
  deriving DecidableEq, Repr

/-- `network_parameter`, SC:52-64 -/
structure SgParam where
  name : Tok
  hour : Option Int
  id : Tok
  kind : SgKind
  bus : Option Rat
  ends : Option (Rat × Rat)
  value : Rat
  deriving DecidableEq, Repr

/-- `mpc[table][column][i]` -/
def sgAt (tab : Tok → Option (List Rat)) (col : Tok) (i : Nat) : Except PyErr Rat :=
  match tab col with
  | none => .error .key
  | some l => pyGet l (i : Int)

/-- a parameter of a generator, SC:104-114 -/
def sgGenParam (c : SgCase) (i : Nat) (name : Tok) : Except PyErr SgParam := do
  let b ← sgAt c.gen "GEN_BUS".toList i
  let v ← sgAt c.gen name i
  .ok ⟨name, none, "Gen".toList ++ Nat.toDigits 10 i, .generator, some b, none, v⟩

/-- a parameter of a bus, SC:125-135 -/
def sgBusParam (c : SgCase) (i : Nat) (name : Tok) : Except PyErr SgParam := do
  let b ← sgAt c.bus "BUS_I".toList i
  let v ← sgAt c.bus name i
  .ok ⟨name, none, "Bus".toList ++ Nat.toDigits 10 i, .bus, some b, none, v⟩

/-- a parameter of a branch, SC:146-155 -/
def sgBranchParam (c : SgCase) (i : Nat) (name : Tok) : Except PyErr SgParam := do
  let f ← sgAt c.branch "F_BUS".toList i
  let t ← sgAt c.branch "T_BUS".toList i
  let v ← sgAt c.branch name i
  .ok ⟨name, none, "Branch".toList ++ Nat.toDigits 10 i, .branch, none, some (f, t), v⟩

/-- one of the double loops SC:102-118, 123-138, 144-158, with the `del` that follows: the loop variable is
unbound if the loop did not run -/
def sgLoop (n : Nat) (names : List Tok) (f : Nat → Tok → Except PyErr SgParam) : Except PyErr (List SgParam) := do
  let bs ← (List.range n).mapM (fun i => names.mapM (f i))
  if n = 0 then .error .name else .ok bs.flatten

/-- `readVarPara`, SC:82-162 -/
def sgRead (c : SgCase) : Except PyErr (List SgParam) := do
  let g ← sgLoop c.noGen ["PMAX".toList, "PMIN".toList, "QMAX".toList, "QMIN".toList, "VG".toList, "GEN_BUS".toList] (sgGenParam c)
  let b ← sgLoop c.noBus ["BASE_KV".toList, "PD".toList, "QD".toList, "VMAX".toList, "VMIN".toList] (sgBusParam c)
  let r ← sgLoop c.noBranch ["BR_B".toList, "BR_R".toList, "BR_X".toList, "RATE_A".toList, "BR_STATUS".toList] (sgBranchParam c)
  .ok (g ++ b ++ r)

/-- `nodes_info_network`, SC:66-75; `variables` stays None -/
structure SgNode where
  node : Nat
  kind : SgKind
  id : Tok
  params : List SgParam
  bus : Option Rat
  ends : Option (Rat × Rat)
  deriving DecidableEq, Repr

/-- a parameter joins the first node with its ID, SC:185-190; `none`: there is no such node -/
def sgJoin (p : SgParam) : List SgNode → Option (List SgNode)
  | [] => none
  | n :: ns => if n.id = p.id then some ({ n with params := n.params ++ [p] } :: ns) else (sgJoin p ns).map (n :: ·)

/-- the body of the loop SC:184-202; `counter` is the number of nodes -/
def sgInsert (ns : List SgNode) (p : SgParam) : List SgNode :=
  match sgJoin p ns with
  | some ns' => ns'
  | none => ns ++ [⟨ns.length, p.kind, p.id, [p], p.bus, p.ends⟩]

/-- `_create_nodes_graph`, SC:178-207 -/
def sgNodes (ps : List SgParam) : List SgNode := ps.foldl sgInsert []

/-- the edge of a generator, SC:214-218 -/
def sgGenEdge (n : SgNode) : List SgNode → List (Nat × Nat)
  | [] => []
  | a :: as => if a.kind = .bus ∧ n.bus = a.bus then [(a.node, n.node)] else sgGenEdge n as

/-- the edges of a branch, SC:219-229; `f0`, `f1` are the flags -/
def sgBranchEdges (n : SgNode) (f t : Rat) : Bool → Bool → List SgNode → List (Nat × Nat)
  | _, _, [] => []
  | f0, f1, a :: as =>
    if a.kind = .bus ∧ some f = a.bus then (a.node, n.node) :: (if f1 then [] else sgBranchEdges n f t true f1 as)
    else if a.kind = .bus ∧ some t = a.bus then (n.node, a.node) :: (if f0 then [] else sgBranchEdges n f t f0 true as)
    else if f0 ∧ f1 then [] else sgBranchEdges n f t f0 f1 as

/-- the edges of a node, SC:213-229; `None[0]` is a TypeError, no branch has it -/
def sgNodeEdges (ns : List SgNode) (n : SgNode) : List (Nat × Nat) :=
  match n.kind, n.ends with
  | .generator, _ => sgGenEdge n ns
  | .branch, some e => sgBranchEdges n e.1 e.2 false false ns
  | _, _ => []

/-- `_create_edges_graph`, SC:210-232 -/
def sgEdges (ns : List SgNode) : List (Nat × Nat) := ns.flatMap (sgNodeEdges ns)

/-- the search among the parameters of a node, SC:264-267: `not hour` also holds for hour 0 -/
def sgFind (name : Tok) (hour : Option Int) : List SgParam → Option Rat
  | [] => none
  | p :: ps => if p.name = name ∧ (hour.getD 0 = 0 ∨ hour = p.hour) then some p.value else sgFind name hour ps

/-- `get_value_network`, SC:244-277: the search for variables meets None; with a position in the tree a method
that does not exist is called -/
def sgValue (ns : List SgNode) (id name : Tok) (position : Bool) (hour : Option Int) (typ : Tok) : Except PyErr (Option Rat) :=
  if position then .error .attribute
  else match ns with
    | [] => .ok none
    | n :: rest =>
      if n.id = id ∧ typ = "parameter".toList then
        match sgFind name hour n.params with
        | some v => .ok (some v)
        | none => sgValue rest id name position hour typ
      else if n.id = id ∧ typ = "variable".toList then .error .type
      else sgValue rest id name position hour typ

/-- the assignments of `addPara`, SC:300-307, in their order -/
def sgPara (ns : List SgNode) : List (Tok × Rat) :=
  ns.flatMap (fun n => n.params.map (fun p => (n.id ++ "_".toList ++ p.name, p.value)))

/-- `m.para[key]`: the last assignment -/
def sgParaGet (d : List (Tok × Rat)) (key : Tok) : Except PyErr Rat :=
  match d.reverse.find? (fun e => e.1 = key) with
  | some e => .ok e.2
  | none => .error .key

end Pyensys
