import Verif.Model.Energy
import Mathlib.Algebra.Order.Ring.Rat

/-!
# Model of the conversion to PyPSA and of the tables of the AC power flow

Source: `EInterfaceClass.pyene2pypsa`, pyensys/engines/pyeneI.py:31-276 (PI below); `PrintClass.initializeNM` for PyPSA networks, pyensys/engines/pyeneP.py:54-98 and 163-236 (PP below).

Simplifications: floats are rationals; the PyPSA network is the list of the `add` calls for each kind of component; a name 'Bus7', 'Gen3', 'Line2' is its number.  Assumptions on PyPSA: `add` raises if the name is
taken, it copies the time series it is given, it takes a bus that does not exist (with a warning), and the results of a power flow have one column for each component.  (A list as `p_nom_max`, PI:157, is kept as it
is.)  The positions of the results (`connections`) are taken to be blocks, one for each PyPSA network: the tables of one network are modelled, and the total over all of them.
-/

namespace Pyensys

/-- bus of pyene: its position is that in the list; `typ` 1 load, 2 generator with voltage control, 3 reference, 4 isolated -/
structure PpBus where
  number : Int
  kV : Rat
  typ : Int
  vm : Rat
  vmin : Rat
  vmax : Rat
  xy : Option (Rat × Rat)
  deriving DecidableEq, Repr

/-- conventional generator: number and position of its bus, voltage, capacity in pu, active and reactive power, pieces of the cost curve (slope for 1 pu, constant) -/
structure PpConv where
  bus : Int
  pos : Nat
  vg : Rat
  cap : Rat
  p : Rat
  q : Rat
  lcost : List (Rat × Rat)
  deriving DecidableEq, Repr

/-- renewable generator; `start`: first entry of its profile -/
structure PpRes where
  bus : Int
  cap : Rat
  lcost : List (Rat × Rat)
  start : Nat
  deriving DecidableEq, Repr

/-- branch: a line if `tap` is 0; capacity in pu -/
structure PpBranch where
  number : Int
  f : Int
  t : Int
  r : Rat
  x : Rat
  b : Rat
  rate : Rat
  tap : Rat
  deriving DecidableEq, Repr

/-- the network of pyene for one scenario: `start` is the first entry of the profile of each bus -/
structure PpNet where
  base : Rat
  steps : Nat
  buses : List PpBus
  conv : List PpConv
  hydro : Nat
  res : List PpRes
  branches : List PpBranch
  pd : List Rat
  qd : List Rat
  start : List Nat
  demand : List Rat
  resProf : List Rat
  weights : List Rat
  deriving DecidableEq, Repr

/-- control of a generator -/
inductive PpControl
  | pq | pv | slack
  deriving DecidableEq, Repr

/-- `nu.add('Bus', …)` -/
structure PpOBus where
  name : Int
  vNom : Rat
  vSet : Rat
  vMin : Rat
  vMax : Rat
  xy : Option (Rat × Rat)
  deriving DecidableEq, Repr

/-- `nu.add('Generator', …)`: `pMax` is one number, or a list for renewable generators -/
structure PpOGen where
  name : Nat
  bus : Int
  control : PpControl
  pMax : Rat ⊕ List Rat
  pNom : Option Rat
  pSet : Rat
  qSet : Rat
  marginal : Rat
  deriving DecidableEq, Repr

/-- `nu.add('Load', …)` -/
structure PpOLoad where
  name : Nat
  bus : Int
  p : List Rat
  q : List Rat
  deriving DecidableEq, Repr

/-- `nu.add('Line', …)`: ohm and MVA -/
structure PpOLine where
  name : Int
  bus0 : Int
  bus1 : Int
  x : Rat
  r : Rat
  sNom : Rat
  deriving DecidableEq, Repr

/-- `nu.add('Transformer', …)` -/
structure PpOTrafo where
  name : Int
  bus0 : Int
  bus1 : Int
  x : Rat
  r : Rat
  b : Rat
  sNom : Rat
  tap : Rat
  deriving DecidableEq, Repr

/-- the PyPSA network -/
structure PpOut where
  buses : List PpOBus
  gens : List PpOGen
  loads : List PpOLoad
  lines : List PpOLine
  trafos : List PpOTrafo
  deriving DecidableEq, Repr

/-- `nu.add`: a name that is taken raises AssertionError -/
def ppAdd {A N : Type} [DecidableEq N] (name : A → N) (l : List A) (a : A) : Except PyErr (List A) := if l.any (fun b => decide (name b = name a)) then .error .assertion else .ok (l ++ [a])

/-- `PVBus`, PI:71-74: filled for buses of type 2 only -/
def ppPV (net : PpNet) : Except PyErr (List Rat) :=
  net.conv.foldlM (fun pv g => do
    let b ← pyGet net.buses (g.pos : Int)
    if b.typ = 2 then npSet pv g.pos g.vg else .ok pv) (List.replicate net.buses.length 0)

/-- PI:76-97 -/
def ppBus (pv : List Rat) (l : List PpOBus) (bi : PpBus × Nat) : Except PyErr (List PpOBus) := do
  let v ← if bi.1.typ = 2 ∨ bi.1.typ = 3 then .ok bi.1.vm else pyGet pv (bi.2 : Int)
  ppAdd PpOBus.name l ⟨bi.1.number, if bi.1.kV = 0 then 1 else bi.1.kV, v, bi.1.vmin, bi.1.vmax, bi.1.xy⟩

/-- the control of a generator, PI:133-138 -/
def ppControl (typ : Int) : PpControl := if typ = 1 then .pq else if typ = 2 then .pv else .slack

/-- conventional generators, PI:130-147; `xg` is the counter -/
def ppConv (net : PpNet) (s : Nat × List PpOGen) (g : PpConv) : Except PyErr (Nat × List PpOGen) := do
  let b ← pyGet net.buses (g.pos : Int)
  let c ← pyGet g.lcost 0
  let l ← ppAdd PpOGen.name s.2 ⟨s.1 + 1, g.bus, ppControl b.typ, .inl (g.cap * net.base), none, g.p, g.q, c.1⟩
  .ok (s.1 + 1, l)

/-- `[profile[start+xt] for xt in range(NoTime)]` -/
def ppSeries (prof : List Rat) (start steps : Nat) : Except PyErr (List Rat) := (List.range steps).mapM (fun xt => pyGet prof ((start + xt : Nat) : Int))

/-- renewable generators, PI:149-164: the name is one more than the counter -/
def ppRes (net : PpNet) (s : Nat × List PpOGen) (g : PpRes) : Except PyErr (Nat × List PpOGen) := do
  let y ← ppSeries net.resProf g.start net.steps
  let c ← pyGet g.lcost 0
  let l ← ppAdd PpOGen.name s.2 ⟨s.1 + 2, g.bus, .pq, .inr y, some (g.cap * net.base), 0, 0, c.1⟩
  .ok (s.1 + 1, l)

/-- `NM.demandE['QD'][xn]`, PI:198: read in each period -/
def ppQd (net : PpNet) (xn : Nat) : Except PyErr Rat := if net.steps = 0 then .ok 0 else pyGet net.qd (xn : Int)

/-- loads, PI:188-203: the bus is the position plus one; `xL` is the number of loads so far -/
def ppLoad (net : PpNet) (l : List PpOLoad) (xn : Nat) : Except PyErr (List PpOLoad) := do
  let pd ← pyGet net.pd (xn : Int)
  if pd ≠ 0 then do
    let start ← pyGet net.start (xn : Int)
    let y ← ppSeries net.demand start net.steps
    let qd ← ppQd net xn
    ppAdd PpOLoad.name l ⟨l.length + 1, (xn : Int) + 1, y.map (fun a => pd * a), y.map (fun a => qd * a)⟩
  else .ok l

/-- lines, PI:229-240 -/
def ppLine (net : PpNet) (buses : List PpOBus) (l : List PpOLine) (br : PpBranch) : Except PyErr (List PpOLine) :=
  if br.tap = 0 then
    match buses.find? (fun b => decide (b.name = br.f)) with
    | none => .error .key
    | some b =>
      if net.base = 0 then .error .zeroDivision
      else
        let pu := b.vNom ^ 2 / net.base
        ppAdd PpOLine.name l ⟨br.number, br.f, br.t, br.x * pu, br.r * pu, br.rate * net.base⟩
  else .ok l

/-- transformers, PI:259-271 -/
def ppTrafo (net : PpNet) (l : List PpOTrafo) (br : PpBranch) : Except PyErr (List PpOTrafo) :=
  if br.tap ≠ 0 then ppAdd PpOTrafo.name l ⟨br.number, br.f, br.t, br.x, br.r, br.b, br.rate * net.base, br.tap⟩ else .ok l

/-- `pyene2pypsa`, PI:31-276 -/
def pyene2pypsa (net : PpNet) : Except PyErr PpOut := do
  let pv ← ppPV net
  let buses ← net.buses.zipIdx.foldlM (ppBus pv) []
  let s ← net.conv.foldlM (ppConv net) (0, [])
  let s ← net.res.foldlM (ppRes net) s
  let loads ← (List.range net.buses.length).foldlM (ppLoad net) []
  let lines ← net.branches.foldlM (ppLine net buses) []
  let trafos ← net.branches.foldlM (ppTrafo net) []
  .ok ⟨buses, s.2, loads, lines, trafos⟩

/-- results of a power flow: series by name -/
structure PpSol where
  gp : Nat → List Rat
  gq : Nat → List Rat
  vm : Int → List Rat
  va : Int → List Rat
  lp0 : Int → List Rat
  lp1 : Int → List Rat
  lq0 : Int → List Rat
  lq1 : Int → List Rat
  tp0 : Int → List Rat
  tp1 : Int → List Rat
  tq0 : Int → List Rat
  tq1 : Int → List Rat

/-- `getattr(table, name)`: AttributeError if there is no such column -/
def ppCol {N : Type} [DecidableEq N] (names : List N) (f : N → List Rat) (n : N) : Except PyErr (List Rat) := if n ∈ names then .ok (f n) else .error .attribute

/-- rows of the tables of a branch: `P0, P1, Q0, Q1` and losses -/
structure PpFlow where
  p0 : List Rat
  p1 : List Rat
  q0 : List Rat
  q1 : List Rat
  lossP : List Rat
  lossQ : List Rat
  deriving DecidableEq, Repr

/-- PP:194-220 -/
def ppFlow (out : PpOut) (sol : PpSol) (br : PpBranch) : Except PyErr PpFlow :=
  if br.tap = 0 then do
    let p0 ← ppCol (out.lines.map PpOLine.name) sol.lp0 br.number
    let p1 ← ppCol (out.lines.map PpOLine.name) sol.lp1 br.number
    let q0 ← ppCol (out.lines.map PpOLine.name) sol.lq0 br.number
    let q1 ← ppCol (out.lines.map PpOLine.name) sol.lq1 br.number
    .ok ⟨p0, p1, q0, q1, List.zipWith (· + ·) p0 p1, List.zipWith (· + ·) q0 q1⟩
  else do
    let p0 ← ppCol (out.trafos.map PpOTrafo.name) sol.tp0 br.number
    let p1 ← ppCol (out.trafos.map PpOTrafo.name) sol.tp1 br.number
    let q0 ← ppCol (out.trafos.map PpOTrafo.name) sol.tq0 br.number
    let q1 ← ppCol (out.trafos.map PpOTrafo.name) sol.tq1 br.number
    .ok ⟨p0, p1, q0, q1, List.zipWith (· + ·) p0 p1, List.zipWith (· + ·) q0 q1⟩

/-- the tables of one network -/
structure PpTables where
  genP : List (List Rat)
  genQ : List (List Rat)
  cost : List (List Rat)
  vm : List (List Rat)
  va : List (List Rat)
  flows : List PpFlow
  deriving DecidableEq, Repr

/-- cost of a generator in a period, PP:174-185: the greatest of 0 and all pieces, from the table of reactive power -/
def ppCost (lcost : List (Rat × Rat)) (q w : Rat) : Rat := lcost.foldl (fun c m => max c (q * m.1 * w + m.2)) 0

/-- generators of the network in the order of the results: conventional, hydropower (`hc`: their costs), renewable -/
def ppCosts (net : PpNet) (hc : List (List (Rat × Rat))) : List (List (Rat × Rat)) := net.conv.map PpConv.lcost ++ hc ++ net.res.map PpRes.lcost

/-- PP:163-220 for one network; `hc` has the cost curves of the hydropower plants -/
def ppTables (net : PpNet) (hc : List (List (Rat × Rat))) (out : PpOut) (sol : PpSol) : Except PyErr PpTables := do
  let n := net.conv.length + net.hydro + net.res.length
  let p ← (List.range n).mapM (fun xg => ppCol (out.gens.map PpOGen.name) sol.gp (xg + 1))
  let q ← (List.range n).mapM (fun xg => ppCol (out.gens.map PpOGen.name) sol.gq (xg + 1))
  let cost := List.zipWith (fun lc qs => List.zipWith (fun qv w => ppCost lc qv w) qs net.weights) (ppCosts net hc) q
  let vm ← (List.range net.buses.length).mapM (fun xn : Nat => ppCol (out.buses.map PpOBus.name) sol.vm ((xn : Int) + 1))
  let va ← (List.range net.buses.length).mapM (fun xn : Nat => ppCol (out.buses.map PpOBus.name) sol.va ((xn : Int) + 1))
  let flows ← net.branches.mapM (ppFlow out sol)
  .ok ⟨p, q, cost, vm, va, flows⟩

/-- the total, PP:222-229: the costs of the last period (`xt` keeps its last value, and has none if there are no periods); `factors`: one for each network -/
def ppTotal (steps : Nat) (tables : List PpTables) (factors : List Rat) : Except PyErr Rat :=
  tables.zipIdx.foldlM (fun of (ti : PpTables × Nat) => ti.1.cost.foldlM (fun of row =>
    if steps = 0 then .error .name
    else do
      let c ← pyGet row ((steps - 1 : Nat) : Int)
      let f ← pyGet factors (ti.2 : Int)
      .ok (of + c * f)) of) 0

end Pyensys
