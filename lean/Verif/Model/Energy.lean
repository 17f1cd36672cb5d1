import Verif.Py
import Mathlib.Algebra.Order.Ring.Rat

/-!
# Model of the multi-scale energy balance

Source: pyensys/engines/pyeneE.py (EN below).

Modelled: `_Measure` (EN:250-301), `_Process` (EN:324-358), `_Connect` (EN:93-203), `Mapping` (EN:477-505),
`_Parameters` (EN:303-322), `_Link` (EN:205-248), the sets (EN:390-398) and the constraint rules (EN:360-440).

Simplifications: integer arrays hold unbounded integers, floats are rationals (the divisions of EN:118-122 and
139-141 are exact for trees with fewer than 2^53 scenarios); `LL_TimeNodeBefore` (EN:143-150) is computed and never
used, it is left out; the recursion of `Mapping` has a fuel argument, and running out of fuel is a `RecursionError`
(shown not to happen).  Arrays of the numpy library are lists; writing outside is an `IndexError`.
-/

namespace Pyensys

/-- an array given in the data: one row, or one row for each vector -/
inductive NpArr where
  | vec (a : List Rat)
  | mat (a : List (List Rat))
  deriving DecidableEq, Repr

/-- `len` of an array -/
def NpArr.len : NpArr → Nat
  | .vec a => a.length
  | .mat a => a.length

/-- one time level of the data: number of names, weights, inputs, outputs, uncertainty -/
structure EnPeriod where
  names : Nat
  weights : List Rat
  inputs : NpArr
  outputs : NpArr
  unc : Bool := false
  deriving DecidableEq, Repr

/-- `size`, EN:275-283 -/
structure EnSize where
  periods : Nat
  lens : List Nat
  sumPeriods : Nat
  scenarios : Nat
  vectors : Nat
  nodes : Nat
  deriving DecidableEq, Repr

/-- `_Measure`, EN:250-283 (`self.data["0"]` of empty data is a KeyError) -/
def enMeasure (data : List EnPeriod) : Except PyErr EnSize :=
  match data with
  | [] => .error .key
  | d :: _ =>
    let lens := data.map (·.names)
    let counted := lens.foldl (fun (s : Nat × Nat) l => (s.1 * l, s.2 + l)) (1, 1)
    let counted2 := lens.foldl (fun (s : Nat × Nat) l => (s.1 + s.2 * l, s.2 * l)) (1, 1)
    .ok ⟨data.length, lens, counted.2, counted.1, d.inputs.len, counted2.1⟩

/-- write to an array -/
def npSet {α : Type} (l : List α) (i : Nat) (a : α) : Except PyErr (List α) :=
  if i < l.length then .ok (l.set i a) else .error .index

/-- read an array -/
def npGet {α : Type} (l : List α) (i : Nat) : Except PyErr α :=
  match l[i]? with
  | some a => .ok a
  | none => .error .index

/-! ## `_Process` -/

/-- EN:338-352: the value of vector `xv` for the name `x2`; `vectors` is the number of vectors; `dim1` says whether the
array of inputs has one dimension, which decides how both arrays are read.  (An array with another number of dimensions
raises; numpy would accept a row of one element as a number, which is left out.) -/
def enValue (vectors : Nat) (dim1 : Bool) (a : NpArr) (xv x2 : Nat) : Except PyErr Rat :=
  match dim1, a with
  | true, .vec l => if vectors = 1 then npGet l x2 else npGet l xv
  | true, .mat _ => .error .value
  | false, .mat m => do
    let row ← npGet m xv
    npGet row x2
  | false, .vec _ => .error .index

/-- whether an array has one dimension -/
def NpArr.dim1 : NpArr → Bool
  | .vec _ => true
  | .mat _ => false

/-- the row of values of a name, EN:338-352 -/
def enRow (vectors : Nat) (dim1 : Bool) (a : NpArr) (x2 : Nat) : Except PyErr (List Rat) :=
  (List.range vectors).mapM (fun xv => enValue vectors dim1 a xv x2)

/-- what `_Process` collects -/
structure EnTables where
  win : List (List Rat)
  wout : List (List Rat)
  wght : List Rat
  deriving DecidableEq, Repr

/-- EN:336-352 for one name -/
def enName (vectors acu : Nat) (d : EnPeriod) (t : EnTables) (x2 : Nat) : Except PyErr EnTables := do
  let w ← npGet d.weights x2
  let wght ← npSet t.wght (acu + x2) w
  let i ← enRow vectors d.inputs.dim1 d.inputs x2
  let win ← npSet t.win (acu + x2) i
  let o ← enRow vectors d.inputs.dim1 d.outputs x2
  let wout ← npSet t.wout (acu + x2) o
  return ⟨win, wout, wght⟩

/-- EN:328-354 -/
def enPeriods (vectors : Nat) : List EnPeriod → Nat → EnTables → Except PyErr EnTables
  | [], _, t => .ok t
  | d :: ds, acu, t => do
    let t' ← (List.range d.weights.length).foldlM (enName vectors acu d) t
    enPeriods vectors ds (acu + d.weights.length) t'

/-- `_Process`, EN:324-356 (the flags are `data.map (·.unc)`) -/
def enProcess (data : List EnPeriod) (size : EnSize) : Except PyErr EnTables :=
  enPeriods size.vectors data 1
    ⟨List.replicate size.sumPeriods (List.replicate size.vectors 0),
     List.replicate size.sumPeriods (List.replicate size.vectors 0), List.replicate size.sumPeriods 1⟩

/-! ## `_Connect` -/

/-- counters and tables of the loop EN:110-124 -/
structure EnConn where
  after : List (Nat × Nat)
  scen : List (Int × Int)
  level : List Nat
  aux1 : Nat
  aux2 : Nat
  x1 : Nat
  deriving DecidableEq, Repr

/-- the loop EN:117-124: `n` more nodes; `len` is the number of children, `width` is `Scenarios/aux1` -/
def enNodes (len : Nat) (width : Int) : Nat → Int → EnConn → Except PyErr EnConn
  | 0, _, c => .ok c
  | n + 1, aux3, c => do
    let after ← npSet c.after (c.x1 + 1) (c.aux2 + 1, c.aux2 + len)
    let scen ← npSet c.scen (c.x1 + 1) (aux3, aux3 + width - 1)
    enNodes len width n (aux3 + width) { c with after := after, scen := scen, x1 := c.x1 + 1, aux2 := c.aux2 + len }

/-- EN:110-124 for level `x2` -/
def enLevel (size : EnSize) (c : EnConn) (x2 : Nat) : Except PyErr EnConn := do
  let here ← npGet c.level x2
  let level ← npSet c.level (x2 + 1) (here + c.aux1)
  let l ← npGet size.lens x2
  let aux1 := c.aux1 * l
  let len ← npGet size.lens (x2 + 1)
  enNodes len ((size.scenarios : Int) / aux1) aux1 0 { c with level := level, aux1 := aux1 }

/-- the loop EN:138-142 over the final nodes -/
def enFinal (width : Int) : Nat → Int → Nat → List (Int × Int) → Except PyErr (List (Int × Int))
  | 0, _, _, scen => .ok scen
  | n + 1, aux3, x1, scen => do
    let scen ← npSet scen (x1 + 1) (aux3, aux3 + width - 1)
    enFinal width n (aux3 + width) (x1 + 1) scen

/-- the loop EN:131-134 -/
def enTimes : List Nat → Nat → Nat → Nat → List (Nat × Nat) → Except PyErr (List (Nat × Nat))
  | [], _, _, _, t => .ok t
  | l :: ls, xt, xacu1, xacu2, t => do
    let t ← npSet t (xt + 1) (xacu1 + 1, xacu1 + xacu2 * l)
    enTimes ls (xt + 1) (xacu1 + xacu2 * l) (xacu2 * l) t

/-- a state of charge: the node, and whether it is the one at the start (0) or at the end (1) of its period -/
abbrev EnState := Nat × Nat

/-- a row of `Before`: the state from which a node starts, and the one its end is computed from -/
structure EnBefore where
  fwd : EnState
  back : EnState
  deriving DecidableEq, Repr

/-- the loop of `Mapping`, EN:481-502, over the `n` remaining children, from `x1` on; `mapping` is the recursive call -/
def enChildren (mapping : Nat → Nat → EnState → List EnBefore → Except PyErr (List EnBefore × EnState)) (unc : List Bool)
    (s xlvl : Nat) : Nat → Nat → EnState → EnState → List EnBefore → Except PyErr (List EnBefore × EnState)
  | 0, _, _, new, b => .ok (b, new)
  | n + 1, x1, old, _, b => do
    let row ← npGet b x1
    let b ← npSet b x1 { row with fwd := old }
    let r ← (if x1 + 1 ≤ s then mapping (x1 + 1) (xlvl + 1) (x1, 0) b else .ok (b, (x1, 0)) :
      Except PyErr (List EnBefore × EnState))
    let row ← npGet r.1 x1
    let b ← npSet r.1 x1 { row with back := r.2 }
    let u ← npGet unc (xlvl - 1)
    enChildren mapping unc s xlvl n (x1 + 1) (if u = false then (x1, 1) else old) (x1, 1) b

/-- `Mapping`, EN:477-505: tables and the state it returns -/
def enMapping (after : List (Nat × Nat)) (unc : List Bool) (s : Nat) : Nat → Nat → Nat → EnState → List EnBefore →
    Except PyErr (List EnBefore × EnState)
  | 0, _, _, _, _ => .error .recursion
  | fuel + 1, xin, xlvl, old, b => do
    let r ← npGet after (xin - 1)
    enChildren (enMapping after unc s fuel) unc s xlvl (r.2 + 1 - r.1) r.1 old old b

/-- the loop EN:170-175: nodes `from_`, …, `to - 2` are marked (the levels of the table are one too high) -/
def enMark (level : List Nat) (unc : List Bool) (x1 : Nat) (marks : List Nat) : Except PyErr (List Nat) := do
  let u ← npGet unc x1
  if u = true then do
    let a ← npGet level x1
    let b ← npGet level (x1 + 1)
    (List.range' (a - 1) (b - 1 - (a - 1))).foldlM (fun m x => npSet m x 1) marks
  else .ok marks

/-- the loop EN:180-186 over the children of one node -/
def enWioNames (xacu3 : Nat) : Nat → Nat → Nat → List Nat → Except PyErr (Nat × List Nat)
  | 0, _, xacu2, w => .ok (xacu2, w)
  | n + 1, x3, xacu2, w => do
    let w ← npSet w (xacu2 + 1) (xacu3 + x3)
    enWioNames xacu3 n (x3 + 1) (xacu2 + 1) w

/-- the loop EN:180-186 over the nodes of one level -/
def enWioNodes (l xacu3 : Nat) : Nat → Nat → List Nat → Except PyErr (Nat × List Nat)
  | 0, xacu2, w => .ok (xacu2, w)
  | n + 1, xacu2, w => do
    let r ← enWioNames xacu3 l 0 xacu2 w
    enWioNodes l xacu3 n r.1 r.2

/-- the loop EN:179-188 over the levels -/
def enWio : List Nat → Nat → Nat → Nat → List Nat → Except PyErr (List Nat)
  | [], _, _, _, w => .ok w
  | l :: ls, xacu1, xacu2, xacu3, w => do
    let r ← enWioNodes l xacu3 xacu1 xacu2 w
    enWio ls (xacu1 * l) r.1 (xacu3 + l) r.2

/-- `tree`, EN:191-198 -/
structure EnTree where
  before : List EnBefore
  after : List (Nat × Nat)
  scenarios : List (Int × Int)
  uncertainty : List Nat
  inOut : List Nat
  time : List (Nat × Nat)
  deriving DecidableEq, Repr

/-- EN:95-128 and 136-142: the tables of children and scenarios, and the levels -/
def enConn (size : EnSize) : Except PyErr EnConn := do
  let l0 ← npGet size.lens 0
  let after ← npSet (List.replicate size.nodes (0, 0)) 0 (1, l0)
  let scen ← npSet (List.replicate size.nodes ((0 : Int), (0 : Int))) 0 (0, (size.scenarios : Int) - 1)
  let c ← (List.range (size.periods - 1)).foldlM (enLevel size)
    ⟨after, scen, List.replicate (size.periods + 1) 1, 1, l0, 0⟩
  let here ← npGet c.level (size.periods - 1)
  let level ← npSet c.level size.periods (here + c.aux1)
  let l ← npGet size.lens (size.periods - 1)
  let scen ← enFinal ((size.scenarios : Int) / ((c.aux1 * l : Nat) : Int)) (c.aux1 * l) 0 c.x1 c.scen
  return { c with level := level, scen := scen }

/-- `_Connect`, EN:93-198 -/
def enConnect (size : EnSize) (unc : List Bool) : Except PyErr EnTree := do
  let c ← enConn size
  let time ← enTimes size.lens 0 0 1 (List.replicate (size.periods + 1) (0, 0))
  let s ← npGet c.level size.periods
  let r ← enMapping c.after unc (s - 1) (size.periods + 1) 1 1 (0, 0)
    (List.replicate size.nodes ⟨(0, 0), (0, 0)⟩)
  let marks ← (List.range size.periods).foldlM (fun m x1 => enMark c.level unc x1 m) (List.replicate size.nodes 0)
  let wio ← enWio size.lens 1 0 1 (List.replicate size.nodes 0)
  return ⟨r.1, c.after, c.scen, marks, wio, time⟩

/-! ## `_Parameters` and `_Link` -/

/-- weights, inputs and outputs of the nodes -/
structure EnWeights where
  wght : List Rat
  win : List (List Rat)
  wout : List (List Rat)
  deriving DecidableEq, Repr

/-- `_Parameters`, EN:303-322 -/
def enParameters (size : EnSize) (tree : EnTree) (t : EnTables) : Except PyErr EnWeights := do
  let rows ← (List.range size.nodes).mapM (fun x => do
    let k ← npGet tree.inOut x
    let w ← npGet t.wght k
    let i ← npGet t.win k
    let o ← npGet t.wout k
    return (w, i, o))
  return ⟨rows.map (·.1), rows.map (·.2.1), rows.map (·.2.2)⟩

/-- the linked lists: rows (start state) for all nodes; (node, state) of the aggregations; (node, first child, number of
further children) of the uncertain nodes; and `NosUnc` -/
structure EnLinks where
  ll1 : List EnState
  ll2 : List (Nat × EnState)
  ll3 : List (Nat × Nat × Int)
  nosUnc : Int
  deriving DecidableEq, Repr

/-- EN:225-236 for node `x1`; the state is (LL2, LL3, x2, x3) -/
def enLinkNode (tree : EnTree) (st : List (Nat × EnState) × List (Nat × Nat × Int) × Nat × Nat) (x1 : Nat) :
    Except PyErr (List (Nat × EnState) × List (Nat × Nat × Int) × Nat × Nat) := do
  let m ← npGet tree.uncertainty x1
  if m = 0 then do
    let b ← npGet tree.before x1
    let ll2 ← npSet st.1 (st.2.2.1 + 1) (x1, b.back)
    return (ll2, st.2.1, st.2.2.1 + 1, st.2.2.2)
  else do
    let a ← npGet tree.after x1
    let ll3 ← npSet st.2.1 st.2.2.2 (x1, a.1, (a.2 : Int) - a.1)
    return (st.1, ll3, st.2.2.1, st.2.2.2 + 1)

/-- `_Link`, EN:205-248: `LL2` has `NosLL2+1 = Nodes-NosLL3-1` rows and `LL3` has `NosLL3+1` rows, where `NosLL3` is one
less than the number of marked nodes; without any flag, `LL2` has `Nodes` rows and `LL3` none -/
def enLink (size : EnSize) (unc : List Bool) (tree : EnTree) : Except PyErr EnLinks := do
  let ll1 := (tree.before.map (·.fwd)).set 0 (0, 0)
  let marked := tree.uncertainty.sum
  let anyUnc := unc.any id
  let rows2 := if anyUnc = true then size.nodes - marked else size.nodes
  let rows3 := if anyUnc = true then marked else 0
  let r ← (List.range' 1 (size.nodes - 1)).foldlM (enLinkNode tree)
    (List.replicate rows2 (0, (0, 0)), List.replicate rows3 (0, 0, 0), 0, 0)
  return ⟨ll1, r.1, r.2.1, if anyUnc = true then (marked : Int) - 1 else 0⟩

/-! ## `initialise` -/

/-- EN:450-462: with a fixed number of vectors all inputs and outputs are replaced by zeros -/
def enFix (vectors : Nat) (d : EnPeriod) : EnPeriod :=
  let a : NpArr := if d.names = 1 then .vec (List.replicate vectors 0)
    else if vectors = 1 then .vec (List.replicate d.names 0)
    else .mat (List.replicate vectors (List.replicate d.names 0))
  { d with inputs := a, outputs := a }

/-- `initialise`, EN:442-475, on data that is not read from a file; `fix` is `settings['Vectors']` if
`settings['Fix']` is set -/
def enInitialise (data : List EnPeriod) (fix : Option Nat) : Except PyErr (EnSize × EnTree × EnWeights × EnLinks) := do
  let size0 ← enMeasure data
  let data1 := match fix with
    | none => data
    | some v => data.map (enFix v)
  let size := match fix with
    | none => size0
    | some v => { size0 with vectors := v }
  let tables ← enProcess data1 size
  let unc := data1.map (·.unc)
  let tree ← enConnect size unc
  let w ← enParameters size tree tables
  let links ← enLink size unc tree
  return (size, tree, w, links)

/-! ## constraints -/

/-- the constraints on the states of charge of one vector, EN:360-440.  `win` and `wout` are its inputs and outputs,
`soc x e` the state of charge of node `x` at the start (`e = 0`) or end (`e = 1`).  The stochastic constraint exists
only if `NosUnc ≠ 0` (EN:371).  The sum of EN:434-435 runs over `LL3[·,2]+1` children. -/
structure EnFeasible (links : EnLinks) (wght win wout : Nat → Rat) (soc : Nat → Nat → Rat) : Prop where
  zero : soc 0 0 = 0 ∧ soc 0 1 = 0
  balance : ∀ x b, links.ll1[x]? = some b → soc x 0 = soc b.1 b.2 + win x - wout x
  aggregate : ∀ r, r ∈ links.ll2 → ∀ b, links.ll1[r.1]? = some b →
    soc r.1 1 = soc r.2.1 r.2.2 * wght r.1 + soc b.1 b.2 * (1 - wght r.1)
  stochastic : links.nosUnc ≠ 0 → ∀ r, r ∈ links.ll3 → ∀ b, links.ll1[r.1]? = some b →
    soc r.1 1 = soc b.1 b.2 * (1 - wght r.1) +
      wght r.1 * (soc r.1 0 * -(r.2.2 : Rat) + ((List.range (r.2.2 + 1).toNat).map (fun i => soc (r.2.1 + i) 1)).sum)

end Pyensys
