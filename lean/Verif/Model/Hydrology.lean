import Verif.Model.Energy

/-!
# Model of the hydrology engine

Source: pyensys/engines/pyeneH.py (HY below).

Modelled: the division of rivers into parts (HY:292-377), the additional input and output nodes of pumps and the positions of scenarios (HY:226-291), the linear
functions of flows (HY:404-459), the lists of the rivers of every node and the shares (HY:134-224), links between scenarios, storage and output nodes
(HY:738-846), the variables and all constraints (HY:478-736), the objective (HY:848-853).

Simplifications: floats are rationals; the parallel lists of the rivers are one list of records; the maximum and minimum flows and speeds of a river, which are powers with
fractional exponents (HY:395-400), are given; the calculation of distances (HY:401) is not used by the code and left out; `networkx` is used only to count distinct edges
and nodes (HY:136-152); reading of files, printing and `np.shape` of links (a single link may be given without the outer list) are left out.
-/

namespace Pyensys

/-- a river, HY:33-45: nodes 'From' and 'To', length, share of the water of its node, and the flows, speeds and minimum volume computed by HY:395-400 -/
structure River where
  frm : Nat
  dest : Nat
  length : Rat
  share : Rat
  qmax : Rat
  qmin : Rat
  smax : Rat
  smin : Rat
  vmin : Rat
  deriving DecidableEq, Repr

/-- a hydropower unit with its storage, HY:61-67 -/
structure HyUnit where
  node : Nat
  efficiency : Rat
  head : Rat
  storage : Rat
  deriving DecidableEq, Repr

/-- the settings, HY:20-80; `inSeries` has one row per controlled input (for a single one the program takes the row itself) -/
structure HyConf where
  rivers : List River
  parts : List Nat
  ramp : List Rat
  ins : List Nat
  outs : List Nat
  feas : Bool
  noTime : Nat
  number : Nat
  linksF : List (Nat × Nat)
  linksT : List (Nat × Nat)
  fixed : List (Nat × Nat × Rat)
  inCN : List Nat
  inCS : List Nat
  inSeries : List (List Rat)
  pumpFrom : List Nat
  pumpTo : List Nat
  units : List HyUnit
  penalty : Rat
  seconds : Rat
  scale : Rat

/-! ## parts of rivers -/

/-- `nodes['Number']`, HY:295-296 -/
def hyNodes (rs : List River) : Nat := (rs.map (fun r => max r.frm r.dest)).foldl max 0

/-- `rivers['Parts']`, HY:298-306 -/
def hyParts (given : List Nat) (n : Nat) : List Nat :=
  match given with
  | [] => List.replicate n 1
  | [p] => List.replicate n p
  | l => l

/-- the inner loop HY:351-364: `k` parts are still to be made, `cur` is the part being filled -/
def partLoop (r : River) : Nat → River → Nat → List River × Nat
  | 0, cur, xn => ([{ cur with dest := r.dest }], xn)
  | k + 1, cur, xn =>
    let rest := partLoop r k { cur with frm := xn + 1, share := 1 } (xn + 1)
    ({ cur with dest := xn + 1 } :: rest.1, rest.2)

/-- one river, HY:342-365: `p` is the number of its parts, `xn` the last node.  The new buckets have the volume of their length -/
def partRiver (r : River) (p : Nat) (xn : Nat) : Except PyErr (List River × Nat) :=
  if p = 0 then .error .zeroDivision
  else .ok (partLoop r (p - 1) { r with length := r.length / p, vmin := r.vmin / p } xn)

/-- the loop HY:341-365 -/
def partRivers : List River → List Nat → Nat → Except PyErr (List River × Nat)
  | [], _, xn => .ok ([], xn)
  | _ :: _, [], _ => .error .index
  | r :: rs, p :: ps, xn => do
    let a ← partRiver r p xn
    let b ← partRivers rs ps a.2
    .ok (a.1 ++ b.1, b.2)

/-- a row of zeros, HY:329-337: what is left of the arrays when more parts than rivers are given.  (Its flows are those of a river without slope, width and depth, which are
not numbers: see `hyProcess`) -/
def zeroRiver : River := ⟨0, 0, 0, 1, 0, 0, 0, 0, 0⟩

/-- `_BuildParts` without the ramps, HY:294-306 and 328-377: the rivers and the number of nodes -/
def buildParts (rs : List River) (given : List Nat) : Except PyErr (List River × Nat) :=
  if rs = [] then .error .value
  else if rs.length < (hyParts given rs.length).sum then do
    let a ← partRivers rs (hyParts given rs.length) (hyNodes rs)
    .ok (a.1 ++ List.replicate ((hyParts given rs.length).sum - a.1.length) zeroRiver, a.2)
  else .ok (rs, hyNodes rs)

/-- `rivers['Ramp']`, HY:309-325: the list is overwritten with ones before it is read.  With one ramp the program assigns the whole array to each of its elements, which
fails unless it has one element; with several the loop reads `Parts[xp]` and `aux[xp]` of every river -/
def hyRamp (given : List Rat) (parts : List Nat) (n : Nat) : Except PyErr (List Rat) :=
  if given.length = 1 ∧ 1 < parts.sum then .error .value
  else if 1 < given.length ∧ (parts.length < n ∨ ∃ q ∈ parts.zipIdx, q.2 < n ∧ 0 < q.1 ∧ parts.sum ≤ q.2) then .error .index
  else .ok (List.replicate parts.sum 1)

/-! ## rivers of every node -/

/-- HY:413-421: the flows and speeds of a row of zeros are not numbers (0/0), and `math.ceil` of them is a ValueError -/
def hyProcess (rs : List River) : Except PyErr Unit := if zeroRiver ∈ rs then .error .value else .ok ()

/-- `number_of_nodes()` of the graph, HY:138-144 and 152: `n` nodes from the smallest number on, and the nodes of rivers, which are new only if the smallest is 0 -/
def hyRows (rs : List River) (n : Nat) : Nat := if ∃ r ∈ rs, r.frm = 0 ∨ r.dest = 0 then n + 1 else n

/-- the index `n - 1` of an array of this length: for `n = 0` Python takes the last row -/
def nodeIdx (n len : Nat) : Nat := if n = 0 then len - 1 else n - 1

/-- the linked lists, HY:146-158: `tabs true` holds columns 2 and 3 of `LLN2B2` (number and first position of the rivers that leave a node), `tabs false` columns 0
and 1 (rivers that enter it) -/
structure HyLinks where
  aux : List Nat
  next : List Nat
  tabs : Bool → List (Nat × Nat)
  x0 : Nat

/-- the search for the end of a list, HY:168-169; the first argument bounds the number of steps -/
def followEnd (next : List Nat) : Nat → Nat → Except PyErr Nat
  | 0, _ => .error .runtime
  | f + 1, xpos => do
    let n ← npGet next xpos
    if n ≠ 0 then followEnd next f n else .ok xpos

/-- HY:163-173: the new `LLnext` and the new row of the table -/
def linkEnd (next : List Nat) (x0 : Nat) (c : Nat × Nat) : Except PyErr (List Nat × (Nat × Nat)) :=
  if c.2 = 0 ∧ c.1 = 0 then .ok (next, (1, x0))
  else do
    let p ← followEnd next (next.length + 1) c.2
    let next' ← npSet next p x0
    .ok (next', (c.1 + 1, c.2))

/-- one data point, HY:160-176 -/
def addPoint (st : HyLinks) (out : Bool) (idx : Nat) (xb : Nat) : Except PyErr HyLinks := do
  let c ← npGet (st.tabs out) idx
  let r ← linkEnd st.next st.x0 c
  let aux ← npSet st.aux st.x0 xb
  .ok ⟨aux, r.1, fun o => if o = out then (st.tabs out).set idx r.2 else st.tabs o, st.x0 + 1⟩

/-- one river, HY:156-177 -/
def addRiver (n : Nat) (st : HyLinks) (p : River × Nat) : Except PyErr HyLinks := do
  let s ← addPoint st true (nodeIdx p.1.frm n) p.2
  addPoint s false (nodeIdx p.1.dest n) p.2

/-- `number_of_edges()` of an `nx.Graph`, HY:142-147: parallel rivers count once -/
def edgeCount (rs : List River) : Nat := ((rs.map (fun r => (min r.frm r.dest, max r.frm r.dest))).eraseDups).length

/-- the first pass, HY:146-177 -/
def hyLinks (rs : List River) (n : Nat) : Except PyErr HyLinks :=
  rs.zipIdx.foldlM (addRiver n) ⟨List.replicate (edgeCount rs * 2) 0, List.replicate (edgeCount rs * 2) 0, fun _ => List.replicate n (0, 0), 0⟩

/-- the copy of one list, HY:190-194 -/
def copyList (aux next : List Nat) : Nat → Nat → List Nat × Nat → Except PyErr (List Nat × Nat)
  | 0, _, st => .ok st
  | k + 1, xpos, st => do
    let a ← npGet aux xpos
    let n2b1 ← npSet st.1 st.2 a
    let xpos' ← npGet next xpos
    copyList aux next k xpos' (n2b1, st.2 + 1)

/-- the state of the second pass, HY:180-181: `LLN2B1`, the position in it, the number of positions addressed and the rows of the table done so far -/
structure HySeq where
  n2b1 : List Nat
  x0 : Nat
  xacu : Nat
  done : List (Nat × Nat)

/-- one node of the second pass, HY:183-194 -/
def seqNode (aux next : List Nat) (st : HySeq) (c : Nat × Nat) : Except PyErr HySeq :=
  if c.1 = 0 then .ok ⟨st.n2b1, st.x0, st.xacu, st.done ++ [c]⟩
  else do
    let r ← copyList aux next c.1 c.2 (st.n2b1, st.x0)
    .ok ⟨r.1, r.2, st.xacu + c.1, st.done ++ [(c.1, st.xacu)]⟩

/-- the lists of the rivers of every node: `LLN2B1` and `LLN2B2`, HY:223-224 -/
structure HyNet where
  n2b1 : List Nat
  outTab : List (Nat × Nat)
  inTab : List (Nat × Nat)
  deriving DecidableEq, Repr

/-- `_BuildHNetwork` up to the shares, HY:134-194 -/
def hyNet (rs : List River) (n : Nat) : Except PyErr HyNet := do
  let l ← hyLinks rs (hyRows rs n)
  let a ← (l.tabs true).foldlM (seqNode l.aux l.next) ⟨List.replicate (edgeCount rs * 2) 0, 0, 0, []⟩
  let b ← (l.tabs false).foldlM (seqNode l.aux l.next) ⟨a.n2b1, a.x0, a.xacu, []⟩
  .ok ⟨b.n2b1, a.done, b.done⟩

/-- the rivers that a row of the table names: `LLN2B1[pos + xd]` for `xd` in `range(number)`, HY:693-698 -/
def rowRivers (n2b1 : List Nat) (c : Nat × Nat) : List Nat := (List.range c.1).map (fun d => (n2b1[c.2 + d]?).getD 0)

/-- one pair of rivers that share the water of a node, HY:214-220: both rivers and the ratio of their shares (division by zero raises; after a division into parts the shares are numpy floats and
the ratio is infinite instead) -/
def sharePair (rs : List River) (p : Nat × Nat) : Except PyErr (Nat × Nat × Rat) := do
  let a ← npGet rs p.1
  let b ← npGet rs p.2
  if a.share = 0 then .error .zeroDivision else .ok (p.1, p.2, b.share / a.share)

/-- `LLShare1` and `LLShare2`, HY:196-220: consecutive rivers of the nodes with several rivers downstream -/
def hyShares (rs : List River) (n : Nat) (net : HyNet) : Except PyErr (List (Nat × Nat × Rat)) :=
  ((net.outTab.take n).flatMap (fun c => let l := rowRivers net.n2b1 c; l.zip (l.drop 1))).mapM (sharePair rs)

/-! ## flows -/

/-- HY:415-426: the weight of the upstream flow (the weight `aux2` for the minimum speed is `hyWeight2`) -/
def hyWeight (r : River) (t : Rat) : Rat :=
  if r.smin * t = 0 then
    let d := min (r.smax * t) r.length
    (d - (1 / 2) * (d * d) / t / r.smax) / r.length
  else
    let b : Rat := (r.length / (r.smin * t)).ceil
    let dl := r.length / b
    let k : Rat := min b ((r.smax * t / dl).floor : Rat)
    k / b - dl * k * (k + 1) / 2 / r.smax / t / b

/-- HY:419 and 425-426 -/
def hyWeight2 (r : River) (t : Rat) : Rat :=
  if r.smin * t = 0 then 0
  else
    let b : Rat := (r.length / (r.smin * t)).ceil
    let dl := r.length / b
    let k : Rat := min b ((r.smin * t / dl).floor : Rat)
    k / b - dl * k * (k + 1) / 2 / r.smin / t / b

/-- the three coefficients `FLinear`, HY:428-441 -/
def fLinear (r : River) (t : Rat) : Rat × Rat × Rat :=
  let a1 := hyWeight r t
  let a2 := hyWeight2 r t
  let f0 := (r.qmax * a1 + (1 - a1) * r.qmin - r.qmin * a2 - (1 - a2) * r.qmin) / (r.qmax - r.qmin)
  let f1 := r.qmax * a1 + (1 - a1) * r.qmin - f0 * r.qmax
  let a3 := (r.qmax * a1 + (1 - a1) * r.qmax - r.qmin * a2 - (1 - a2) * r.qmax) / (r.qmax - r.qmin)
  let a4 := r.qmax * a1 + (1 - a1) * r.qmax - a3 * r.qmax
  (f0, f1, (a3 * r.qmax + a4 - f0 * r.qmax - f1) / (r.qmax - r.qmin))

/-- the two coefficients `QLinear`, HY:442-454; `dt` is `seconds / M` -/
def qLinear (r : River) (t dt : Rat) : Rat × Rat :=
  let f := fLinear r t
  let v0 : Rat := if r.length ≤ r.smax * t then 1 else r.length / r.smax / t
  let v := max ((r.qmax * f.1 - f.2.1 + f.2.2 * r.qmin) * dt) ((-r.qmin * f.1 + f.2.1 + f.2.2 * r.qmax) * dt) * v0
  let q0 := (r.qmax - r.qmin) / v
  (q0, r.qmin - q0 * r.vmin)

/-! ## scenarios, storage, outputs -/

/-- the nodes of pumps added to a list of nodes, HY:229-247: numbers different from 0 that are not yet there.  (The IndexError for a list of nodes longer than the number of
nodes is left out; a node that does not exist is rejected later by `hyNodeTab`) -/
def addPumpNodes (nodes : List Nat) (pumps : List Nat) : List Nat :=
  pumps.foldl (fun l x => if x ≠ 0 ∧ x ∉ l then l ++ [x] else l) nodes

/-- `LLInNode` and `LLOutNode`, HY:267-272: later entries of the same node replace earlier ones -/
def hyNodeTab (nodes : List Nat) (n : Nat) : Except PyErr (List (Nat × Nat)) :=
  nodes.zipIdx.foldlM (fun t (p : Nat × Nat) => npSet t (nodeIdx p.1 n) (1, p.2)) (List.replicate n (0, 0))

/-- conversion of a float to an integer by an integer array, HY:784 and 797-800 -/
def truncInt (x : Rat) : Int := if 0 ≤ x then x.floor else x.ceil

/-- the storage units: `LLStor`, `CapStor` (without its first element) -/
structure HyStor where
  tab : List (Nat × Nat)
  cap : List Int
  deriving DecidableEq, Repr

/-- one unit, HY:790-800 -/
def storStep (n : Nat) (st : HyStor) (u : HyUnit) : Except PyErr HyStor :=
  if u.storage = 0 then .ok st
  else do
    let tab ← npSet st.tab (nodeIdx u.node n) (1, st.cap.length)
    if u.efficiency = 0 ∨ u.head = 0 then .error .zeroDivision
    else .ok ⟨tab, st.cap ++ [truncInt (u.storage * 1000 / (981 / 100) / u.efficiency / u.head)]⟩

/-- HY:783-801 (`CapStor` has one place per node and one more) -/
def hyStor (units : List HyUnit) (n : Nat) : Except PyErr HyStor := do
  let s ← units.foldlM (storStep n) ⟨List.replicate n (0, 0), []⟩
  if n < s.cap.length then .error .index else .ok s

/-- one output node, HY:836-844: the first river that ends there; a node from which a river leaves has no constraint -/
def outStep (rs : List River) (p : Nat × Nat) : Except PyErr (List (Nat × Nat)) :=
  if p.1 ∈ rs.map (·.frm) then .ok []
  else match rs.findIdx? (fun r => decide (r.dest = p.1)) with
    | some xr => .ok [(p.2, xr)]
    | none => .error .index

/-- the links between the volumes of scenarios, HY:756-779: scenario and time of both ends; without links the name `SoCLinks` is not bound -/
def hySoCLinks (c : HyConf) : Except PyErr (List ((Nat × Nat) × (Nat × Nat))) :=
  if c.linksF = [] then .error .name
  else c.linksF.zipIdx.mapM (fun (p : (Nat × Nat) × Nat) => do
    let q ← npGet c.linksT p.2
    let tf ← npGet [0, c.noTime] p.1.2
    let tt ← npGet [0, c.noTime] q.2
    if p.1.1 < c.number ∧ q.1 < c.number then .ok ((p.1.1, tf), (q.1, tt)) else .error .index)

/-- the engine after `initialise` -/
structure HyModel where
  conf : HyConf
  rivers : List River
  nodes : Nat
  ins : List Nat
  outs : List Nat
  inTab : List (Nat × Nat)
  outTab : List (Nat × Nat)
  net : HyNet
  shares : List (Nat × Nat × Rat)
  links : List ((Nat × Nat) × (Nat × Nat))
  stor : HyStor
  outCon : List (Nat × Nat)
  ramp : Rat

/-- the ramp limit, HY:404-406: every river replaces the value of the one before -/
def lastRamp (rs : List River) (ramp : List Rat) : Rat := (rs.zip ramp).foldl (fun _ p => (p.1.qmax - p.1.qmin) * p.2) 0

/-- `initialise`, HY:738-846 -/
def hyInitialise (c : HyConf) : Except PyErr HyModel := do
  let ramp ← hyRamp c.ramp (hyParts c.parts c.rivers.length) c.rivers.length
  let b ← buildParts c.rivers c.parts
  let ins := if c.pumpFrom = [] then c.ins else addPumpNodes c.ins c.pumpTo
  let outs := if c.pumpFrom = [] then c.outs else addPumpNodes c.outs c.pumpFrom
  let inTab ← hyNodeTab ins b.2
  let outTab ← hyNodeTab outs b.2
  hyProcess b.1
  let net ← hyNet b.1 b.2
  let shares ← hyShares b.1 b.2 net
  let links ← hySoCLinks c
  let stor ← hyStor c.units b.2
  let oc ← outs.zipIdx.mapM (outStep b.1)
  .ok ⟨c, b.1, b.2, ins, outs, inTab, outTab, net, shares, links, stor, oc.flatten, lastRamp b.1 ramp⟩

/-- the user's settings after `initialise`: engine and settings share their dictionaries (HY:94-96), in which rivers, parts, ramps and nodes were replaced (HY:298-325, 368-377
and 249) -/
def hyAfter (c : HyConf) (m : HyModel) : HyConf :=
  { c with rivers := m.rivers, parts := hyParts c.parts c.rivers.length, ramp := List.replicate (hyParts c.parts c.rivers.length).sum 1, ins := m.ins, outs := m.outs }

/-! ## variables and constraints -/

/-- the values of the variables, HY:583-610: first index (position plus offset of the scenario), period -/
structure HyVars where
  down : Nat → Nat → Rat
  up : Nat → Nat → Rat
  inp : Nat → Nat → Rat
  out : Nat → Nat → Rat
  soc : Nat → Nat → Rat
  stor : Nat → Nat → Rat
  feas : Nat → Nat → Rat
  penalty : Rat

/-- `DeltaT`, HY:553 -/
def HyModel.dt (m : HyModel) : Rat := m.conf.seconds / m.conf.scale

/-- `ConRiver[xh]`, HY:262 -/
def HyModel.conRiver (m : HyModel) (xh : Nat) : Nat := m.rivers.length * xh

/-- the slack of a river, period and scenario, HY:274-291: without 'Feas' all share one variable -/
def HyModel.slack (m : HyModel) (v : HyVars) (xr xt xh : Nat) : Rat :=
  if m.conf.feas then v.feas (xh * m.rivers.length + xr) xt else v.feas 0 0

/-- `TimeStor`, HY:802-806 -/
def HyModel.timeStor (m : HyModel) (xt : Nat) : Nat × Nat :=
  if m.stor.cap = [] then (0, 0) else if xt = 0 then (0, m.conf.noTime - 1) else (xt, xt - 1)

/-- the sides of `cHNodeBalance_rule`, HY:685-703 -/
def HyModel.nodeSides (m : HyModel) (v : HyVars) (xn xt xh : Nat) : Rat × Rat :=
  let i := (m.inTab[xn]?).getD (0, 0)
  let o := (m.outTab[xn]?).getD (0, 0)
  let s := (m.stor.tab[xn]?).getD (0, 0)
  let base := xh * m.stor.cap.length + s.2
  (((List.range i.1).map (fun _ => v.inp (m.ins.length * xh + i.2) xt)).sum +
     ((rowRivers m.net.n2b1 ((m.net.inTab[xn]?).getD (0, 0))).map (fun r => v.down (m.conRiver xh + r) xt)).sum,
   ((rowRivers m.net.n2b1 ((m.net.outTab[xn]?).getD (0, 0))).map (fun r => v.up (m.conRiver xh + r) xt)).sum +
     ((List.range o.1).map (fun _ => v.out (m.outs.length * xh + o.2) xt)).sum +
     ((List.range s.1).map (fun x => v.stor (base + x) (m.timeStor xt).1)).sum - ((List.range s.1).map (fun x => v.stor (base + x) (m.timeStor xt).2)).sum)

/-- the right hand side of `cHQdownTime_rule`, HY:629-638 -/
def HyModel.downTime (m : HyModel) (v : HyVars) (r : River) (xr xt xh : Nat) : Rat :=
  let f := fLinear r m.conf.seconds
  let q := qLinear r m.conf.seconds m.dt
  f.1 * v.up (m.conRiver xh + xr) xt + f.2.1 - m.slack v xr xt xh + (v.soc (m.conRiver xh + xr) xt * q.1 + q.2 - r.qmin) * f.2.2

/-- the period compared by the ramp rules, HY:714-724: `FeasTime[xt]` -/
def HyModel.rampTime (m : HyModel) (xt : Nat) : Nat := if m.conf.feas then xt else 0

/-- the constraints of a solution, HY:478-542 with the rules HY:614-736 -/
structure HyModel.Feasible (m : HyModel) (v : HyVars) : Prop where
  nonneg : (∀ i t, 0 ≤ v.down i t) ∧ (∀ i t, 0 ≤ v.up i t) ∧ (∀ i t, 0 ≤ v.inp i t) ∧ (∀ i t, 0 ≤ v.out i t) ∧ (∀ i t, 0 ≤ v.soc i t) ∧ (∀ i t, 0 ≤ v.stor i t) ∧
    (∀ i t, 0 ≤ v.feas i t) ∧ 0 ≤ v.penalty
  qmaxDown : ∀ xr r, m.rivers[xr]? = some r → ∀ xt < m.conf.noTime, ∀ xh < m.conf.number, v.down (m.conRiver xh + xr) xt ≤ r.qmax + m.slack v xr xt xh
  qmaxUp : ∀ xr r, m.rivers[xr]? = some r → ∀ xt < m.conf.noTime, ∀ xh < m.conf.number, v.up (m.conRiver xh + xr) xt ≤ r.qmax + m.slack v xr xt xh
  qminDown : ∀ xr r, m.rivers[xr]? = some r → ∀ xt < m.conf.noTime, ∀ xh < m.conf.number, r.qmin - m.slack v xr xt xh ≤ v.down (m.conRiver xh + xr) xt
  qminUp : ∀ xr r, m.rivers[xr]? = some r → ∀ xt < m.conf.noTime, ∀ xh < m.conf.number, r.qmin - m.slack v xr xt xh ≤ v.up (m.conRiver xh + xr) xt
  qminOut : ∀ p ∈ m.outCon, ∀ r, m.rivers[p.2]? = some r → ∀ xt < m.conf.noTime, ∀ xh < m.conf.number,
    r.qmin - m.slack v p.2 xt xh ≤ v.out (m.outs.length * xh + p.1) xt
  balance : ∀ xn < m.nodes, ∀ xt < m.conf.noTime, ∀ xh < m.conf.number, (m.nodeSides v xn xt xh).1 = (m.nodeSides v xn xt xh).2
  penalty : v.penalty = ((List.range m.conf.number).map (fun xh => ((List.range m.conf.noTime).map (fun xt =>
    ((List.range m.rivers.length).map (fun xr => m.slack v xr xt xh)).sum * m.conf.penalty)).sum)).sum * 1000
  river : ∀ xr < m.rivers.length, ∀ xt < m.conf.noTime, ∀ xh < m.conf.number,
    v.down (m.conRiver xh + xr) xt * m.dt = v.up (m.conRiver xh + xr) xt * m.dt + v.soc (m.conRiver xh + xr) xt - v.soc (m.conRiver xh + xr) (xt + 1)
  weights : ∀ p ∈ m.shares, ∀ xt < m.conf.noTime, ∀ xh < m.conf.number, v.up (m.conRiver xh + p.1) xt * p.2.2 = v.up (m.conRiver xh + p.2.1) xt
  socLink : ∀ p ∈ m.links, ∀ xr < m.rivers.length, v.soc (m.conRiver p.1.1 + xr) p.1.2 = v.soc (m.conRiver p.2.1 + xr) p.2.2
  downTime : ∀ xr r, m.rivers[xr]? = some r → ∀ xt < m.conf.noTime, ∀ xh < m.conf.number, v.down (m.conRiver xh + xr) xt = m.downTime v r xr xt xh
  fixed : ∀ p ∈ m.conf.fixed, v.inp p.1 p.2.1 = p.2.2
  storMax : ∀ (xn : Nat) (cap : Int), m.stor.cap[xn]? = some cap → ∀ xt < m.conf.noTime, ∀ xh < m.conf.number, v.stor (xh * m.stor.cap.length + xn) xt ≤ (cap : Rat)
  storLink : ∀ xn < m.conf.number * m.stor.cap.length, v.stor xn 0 = v.stor xn (m.conf.noTime - 1)
  rampDown : ∀ xr < m.rivers.length, ∀ xt < m.conf.noTime, ∀ xh < m.conf.number,
    -m.ramp ≤ v.up (m.conRiver xh + xr) xt - v.up (m.conRiver xh + xr) (m.rampTime xt)
  rampUp : ∀ xr < m.rivers.length, ∀ xt < m.conf.noTime, ∀ xh < m.conf.number,
    v.up (m.conRiver xh + xr) xt - v.up (m.conRiver xh + xr) (m.rampTime xt) ≤ m.ramp
  controlled : match m.conf.inCN with
    | [] => True
    | [n] => ∀ xt < m.conf.noTime, ∀ x, (m.conf.inSeries[0]?.getD [])[xt]? = some x → v.inp n xt = x
    | ns => ∀ (i n s : Nat) (row : List Rat), ns[i]? = some n → m.conf.inCS[i]? = some s → m.conf.inSeries[i]? = some row →
        ∀ xt < m.conf.noTime, ∀ x, row[xt]? = some x → v.inp (m.ins.length * s + n) xt = x

end Pyensys
