import Verif.Py

/-!
# Model of the network objects and of the network analyser

Source: pyensys/engines/pyene_Parameters.py (PA below), pyensys/engines/pyene_Analizer.py (AN below).

Modelled: the lists of objects of an electricity network with their numbers and positions, their deletion and the update of positions
(PA:263-307, 470-577); islands and isolated nodes (AN:34-215); the reduction of the network to a voltage level (AN:261-360, 368-483, 485-577,
589-660, 685-813).

Simplifications: a list with one blank object (what the program stores for an empty list, PA:285-286) is the empty list; the position of an object is its place in its
list (PA:558-577); only the data that the functions modelled read or write are kept; numbers are rationals; logging is left out; the connected components computed by
networkx are a parameter; the recursion limit of Python counts nested buses.
-/

namespace Pyensys

/-- types of series elements, PA:204-206 -/
inductive Series where
  | line | trafo
  deriving DecidableEq, Repr

/-- types of generators, PA:209-211 -/
inductive GenT where
  | conv | res | hydro
  deriving DecidableEq, Repr

/-- electrical data of a series element that the reduction copies, AN:520-537 -/
structure LinePar where
  susceptance : Rat
  resistance : Rat
  reactance : Rat
  limit : Rat
  loss : Option Rat
  deriving DecidableEq, Repr

/-- a series element, PA:101-122: number, numbers of its buses, positions of its buses -/
structure TpLine where
  number : Int
  buses : List Int
  busPos : List Nat
  status : Int
  par : LinePar
  deriving DecidableEq, Repr

/-- a generator, PA:581-602 -/
structure TpGen where
  bus : Int
  busPos : Nat
  cap : Rat
  deriving DecidableEq, Repr

/-- a bus, PA:142-169: the numbers and positions of its series elements and generators (the "numbers" of generators are numbers of buses, PA:491-494) -/
structure TpBus where
  number : Int
  volt : Rat
  pd : Rat
  qd : Rat
  loss : Rat
  serNo : Series → List Int
  serPos : Series → List Nat
  genNo : GenT → List Int
  genPos : GenT → List Nat

/-- an electricity network, PA:171-257 -/
structure TpNet where
  buses : List TpBus
  series : Series → List TpLine
  gens : GenT → List TpGen

/-! ## positions -/

/-- the loop PA:532-542: `rem` are the wanted numbers that have not been found yet, `i` is the position of the object looked at -/
def relPos : List Int → Nat → List Int → List Nat
  | [], _, _ => []
  | k :: ks, i, rem => if k ∈ rem then i :: relPos ks (i + 1) (rem.erase k) else relPos ks (i + 1) rem

/-- PA:544-549: the position of the first object with the number, or the old value -/
def relOne (keys : List Int) (want : Int) (old : Nat) : Nat := (keys.findIdx? (· = want)).getD old

/-- the positions of the buses in the series elements and generators, PA:292-298 and 480-484 -/
def updBusPos (net : TpNet) : TpNet :=
  let keys := net.buses.map (·.number)
  { buses := net.buses
    series := fun s => (net.series s).map (fun l => { l with busPos := if net.buses = [] then [] else relPos keys 0 l.buses })
    gens := fun g => (net.gens g).map (fun x => { x with busPos := if net.buses = [] then x.busPos else relOne keys x.bus x.busPos }) }

/-- the positions of series elements in the buses, PA:301-304 and 486-490 -/
def updSerPos (s : Series) (net : TpNet) : TpNet :=
  { buses := net.buses.map (fun b => { b with serPos := fun t =>
      if t = s then (if net.series s = [] then [] else relPos ((net.series s).map (·.number)) 0 (b.serNo s)) else b.serPos t })
    series := net.series
    gens := net.gens }

/-- the positions of generators in the buses, PA:491-495 -/
def updGenPos (g : GenT) (net : TpNet) : TpNet :=
  { buses := net.buses.map (fun b => { b with genPos := fun t =>
      if t = g then (if net.gens g = [] then [] else relPos ((net.gens g).map (·.bus)) 0 (b.genNo g)) else b.genPos t })
    series := net.series
    gens := net.gens }

/-- `update_all_positions`, PA:470-495 -/
def updateAll (net : TpNet) : TpNet :=
  updGenPos .hydro (updGenPos .res (updGenPos .conv (updSerPos .trafo (updSerPos .line (updBusPos net)))))

/-- `[i for j, i in enumerate(l) if j not in pos]`, PA:281-282 -/
def deleteAt {α : Type} (l : List α) (pos : List Nat) : List α :=
  (l.zipIdx.filter (fun p => decide (p.2 ∉ pos))).map (·.1)

/-- `delete_objects(name='bus', pos=[…])`, PA:263-298 -/
def deleteBuses (net : TpNet) (pos : List Nat) : TpNet :=
  updBusPos ⟨deleteAt net.buses pos, net.series, net.gens⟩

/-- `delete_objects` for a type of series elements, PA:263-304 -/
def deleteSeries (s : Series) (net : TpNet) (pos : List Nat) : TpNet :=
  updSerPos s ⟨net.buses, fun t => if t = s then deleteAt (net.series s) pos else net.series t, net.gens⟩

/-- the loop PA:532-542 for objects whose compared element may be missing (`None`) -/
def relPosO : List (Option Int) → Nat → List Int → List Nat
  | [], _, _ => []
  | none :: ks, i, rem => relPosO ks (i + 1) rem
  | some k :: ks, i, rem => if k ∈ rem then i :: relPosO ks (i + 1) (rem.erase k) else relPosO ks (i + 1) rem

/-- `get_element(name='number')` of a generator: generators have no such element (PA:584-600) and the function returns `None` (PA:46-50, the assertion of a text never
fails) -/
def genNumber (_ : TpGen) : Option Int := none

/-- `delete_objects` for a type of generators, PA:263-304: the elements 'number' of the generators are compared with the numbers kept in the buses -/
def deleteGens (g : GenT) (net : TpNet) (pos : List Nat) : TpNet :=
  let rest := deleteAt (net.gens g) pos
  { buses := net.buses.map (fun b => { b with genPos := fun t => if t = g then (if rest = [] then [] else relPosO (rest.map genNumber) 0 (b.genNo g)) else b.genPos t })
    series := net.series
    gens := fun t => if t = g then rest else net.gens t }

/-! ## islands -/

/-- positions of the elements out of service, AN:201-204 -/
def outOfService (l : List TpLine) : List Nat :=
  (l.zipIdx.filter (fun p => decide (p.1.status = 0))).map (·.2)

/-- one type in `__delete_disconnected_series_elements`, AN:200-209 -/
def dropSeries (net : TpNet) (s : Series) : TpNet :=
  if outOfService (net.series s) = [] then net else deleteSeries s net (outOfService (net.series s))

/-- `__delete_disconnected_series_elements`, AN:197-209 -/
def dropDisconnected (net : TpNet) : TpNet := dropSeries (dropSeries net .line) .trafo

/-- an edge, AN:62-63 -/
def lineEdge (l : TpLine) : Except PyErr (Nat × Nat) := do
  let a ← pyGet l.busPos 0
  let b ← pyGet l.busPos 1
  .ok (a, b)

/-- `edges_graph`, AN:45-65: without any series element the assertion fails -/
def netEdges (net : TpNet) : Except PyErr (List (Nat × Nat)) :=
  if net.series .line = [] ∧ net.series .trafo = [] then .error .assertion
  else (net.series .line ++ net.series .trafo).mapM lineEdge

/-- `nx.isolates` and the sort, AN:113-116: positions of the buses without edges -/
def isolatedNodes (n : Nat) (es : List (Nat × Nat)) : List Nat :=
  (List.range n).filter (fun x => decide (∀ e ∈ es, e.1 ≠ x ∧ e.2 ≠ x))

/-- the objects at positions, PA:346-350 -/
def getObjects {α : Type} (l : List α) (pos : List Nat) : Except PyErr (List α) := pos.mapM (fun (p : Nat) => pyGet l (p : Int))

/-- the isolated generators of a type, AN:186-193 -/
def isolatedGens (net : TpNet) (g : GenT) (bs : List TpBus) : Except PyErr (List TpGen) :=
  getObjects (net.gens g) (bs.flatMap (fun b => b.genPos g))

/-- the result of `find_isolates`: the isolated buses and generators (conventional, renewable, hydropower) and the network without the buses -/
structure Isolates where
  nodes : List TpBus
  conv : List TpGen
  res : List TpGen
  hydro : List TpGen
  net : TpNet

/-- `find_isolates`, AN:108-126 -/
def findIsolates (net : TpNet) : Except PyErr Isolates := do
  if net.buses = [] then .error .assertion
  else do
    let es ← netEdges net
    let iso := isolatedNodes net.buses.length es
    let bs ← getObjects net.buses iso
    let c ← isolatedGens net .conv bs
    let r ← isolatedGens net .res bs
    let h ← isolatedGens net .hydro bs
    .ok ⟨bs, c, r, h, if iso = [] then net else deleteBuses net iso⟩

/-- the objects of one type of an island, AN:153-165: positions named by its buses, without repetitions (`list(dict.fromkeys(…))`) -/
def islandSeries (net : TpNet) (bs : List TpBus) (s : Series) : Except PyErr (List TpLine) :=
  getObjects (net.series s) ((bs.flatMap (fun b => b.serPos s)).eraseDups)

/-- the generators of one type of an island, AN:153-165 -/
def islandGens (net : TpNet) (bs : List TpBus) (g : GenT) : Except PyErr (List TpGen) :=
  getObjects (net.gens g) ((bs.flatMap (fun b => b.genPos g)).eraseDups)

/-- one island, AN:128-165 and 211-215: the buses of a component, their generators and series elements, and new positions -/
def islandOf (net : TpNet) (comp : List Nat) : Except PyErr TpNet := do
  let bs ← getObjects net.buses comp
  let c ← islandGens net bs .conv
  let r ← islandGens net bs .res
  let h ← islandGens net bs .hydro
  let l ← islandSeries net bs .line
  let t ← islandSeries net bs .trafo
  .ok (updateAll ⟨bs, fun s => match s with
      | .line => l
      | .trafo => t, fun g => match g with
      | .conv => c
      | .res => r
      | .hydro => h⟩)

/-- `find_islands`, AN:82-106, with the components computed by networkx -/
def findIslands (components : Nat → List (Nat × Nat) → List (List Nat)) (net : TpNet) : Except PyErr (List TpNet) := do
  if net.buses = [] then .error .assertion
  else do
    let es ← netEdges net
    (components net.buses.length es).mapM (islandOf net)

/-- `islands_isolations`, AN:34-43: the isolated elements and the islands; the network itself is restored from the copy -/
def islandsIsolations (components : Nat → List (Nat × Nat) → List (List Nat)) (net : TpNet) : Except PyErr (Isolates × List TpNet) := do
  let iso ← findIsolates (dropDisconnected net)
  let isl ← findIslands components iso.net
  .ok (iso, isl)

/-! ## reduction: the search for supernodes -/

/-- what the search reads: the number of buses, the buses below the voltage level (or artificial buses of three winding transformers, AN:772-774), the positions
of the elements of a bus and of the buses of an element -/
structure RdView where
  nBus : Nat
  low : Nat → Bool
  inc : Series → Nat → List Nat
  ends : Series → Nat → List Nat

/-- the flags and the supernode under construction, AN:277-312: `els` lists the elements of both types in the order of their appearance, `art` the elements of
'artificial_lines_info' -/
structure RdState where
  busFlag : Nat → Bool
  elFlag : Series → Nat → Bool
  isSuper : Bool
  bus : List Nat
  coupling : List Nat
  els : List (Series × Nat)
  art : List (Series × Nat)

/-- a set flag -/
def setFlag (f : Nat → Bool) (i : Nat) : Nat → Bool := fun j => if j = i then true else f j

/-- a set flag of an element -/
def setElFlag (f : Series → Nat → Bool) (s : Series) (i : Nat) : Series → Nat → Bool := fun t j => if t = s ∧ j = i then true else f t j

/-- one end of an element, AN:634-658; `rec` is the recursive call -/
def endStep (v : RdView) (rec : Nat → RdState → Except PyErr RdState) (s : Series) (b el : Nat) (st : RdState) (x : Nat) : Except PyErr RdState :=
  if x ≠ b ∧ st.busFlag x = false then do
    let st' ← rec x st
    if v.low x = false then .ok { st' with art := st'.art ++ [(s, el)] } else .ok st'
  else if x ≠ b ∧ v.low x = false ∧ x ∉ st.bus then
    .ok { st with coupling := st.coupling ++ [x], art := st.art ++ [(s, el)] }
  else .ok st

/-- one element of a bus, AN:613-627 -/
def elStep (v : RdView) (rec : Nat → RdState → Except PyErr RdState) (s : Series) (b : Nat) (st : RdState) (el : Nat) : Except PyErr RdState :=
  if st.elFlag s el = true then .ok st
  else if b ∉ v.ends s el then .error .assertion
  else do
    let st' ← (v.ends s el).foldlM (endStep v rec s b el) st
    if st'.elFlag s el = true then .ok st'
    else .ok { st' with elFlag := setElFlag st'.elFlag s el, els := st'.els ++ [(s, el)] }

/-- the elements of one type, AN:589-627 -/
def seriesStep (v : RdView) (rec : Nat → RdState → Except PyErr RdState) (b : Nat) (st : RdState) (s : Series) : Except PyErr RdState :=
  (v.inc s b).foldlM (elStep v rec s b) st

/-- `__voltage_track`, AN:760-813.  `__check_if_empty_list` returns `False` or `None`, so no bus counts as disconnected (AN:795-803).  The first argument is the
number of nested calls that Python still allows -/
def voltageTrack (v : RdView) : Nat → Nat → RdState → Except PyErr RdState
  | 0, _, _ => .error .recursion
  | d + 1, b, st =>
    if v.low b = false then
      .ok { st with busFlag := setFlag st.busFlag b, coupling := if st.isSuper = true then st.coupling ++ [b] else st.coupling }
    else if st.busFlag b = true then .ok st
    else [Series.line, Series.trafo].foldlM (seriesStep v (voltageTrack v d) b)
      { st with busFlag := setFlag st.busFlag b, isSuper := true, bus := st.bus ++ [b] }

/-- a supernode, AN:291-311 -/
structure Supernode where
  bus : List Nat
  coupling : List Nat
  els : List (Series × Nat)
  art : List (Series × Nat)
  deriving DecidableEq, Repr

/-- the state of the loop AN:287-322: flags and supernodes -/
structure RdLoop where
  busFlag : Nat → Bool
  elFlag : Series → Nat → Bool
  supers : List Supernode

/-- one bus of the loop, AN:289-322 -/
def reduceStep (v : RdView) (limit : Nat) (st : RdLoop) (xaux : Nat) : Except PyErr RdLoop :=
  if st.busFlag xaux = true then .ok st
  else do
    let r ← voltageTrack v limit xaux ⟨st.busFlag, st.elFlag, false, [], [], [], []⟩
    .ok ⟨r.busFlag, r.elFlag, if r.isSuper = true then st.supers ++ [⟨r.bus, r.coupling, r.els, r.art⟩] else st.supers⟩

/-- the loop AN:287-322; after one pass all buses are flagged and the second pass does nothing -/
def findSupernodes (v : RdView) (limit : Nat) : Except PyErr (List Supernode) := do
  let r ← (List.range v.nBus).foldlM (reduceStep v limit) ⟨fun _ => false, fun _ _ => false, []⟩
  .ok r.supers

end Pyensys
