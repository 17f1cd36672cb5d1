import Verif.Model.Topology

/-!
# Model of the reduction of a network to a voltage level

Source: pyensys/engines/pyene_Analizer.py (AN below), pyensys/engines/pyene_Parameters.py (PA below).

Modelled: the voltage levels (AN:660-676), the equivalent demand and losses of the supernodes, the deletion of their buses and elements (AN:685-739), the
artificial buses and lines, the generators of the supernodes and the lists of branches (AN:368-577).

Simplifications: names, zones and voltage limits of the artificial buses are left out; the reduction is the first one of the object, so that the lists of branches start empty; a list with one
blank object is the empty list (see Topology); peak demands and losses of buses are numbers.
-/

namespace Pyensys

/-- what the search for supernodes reads from a network, AN:582-627 and 629-658: a bus belongs to a supernode unless its voltage is at least the level and it is not the
voltage of the artificial buses of three winding transformers -/
def netView (net : TpNet) (vol : Rat) (tw : Option Rat) : RdView where
  nBus := net.buses.length
  low := fun x => match net.buses[x]? with
    | none => false
    | some b => !(decide (vol ≤ b.volt) && decide (some b.volt ≠ tw))
  inc := fun s x => match net.buses[x]? with
    | none => []
    | some b => if net.series s = [] then [] else b.serPos s
  ends := fun s e => match (net.series s)[e]? with
    | none => []
    | some l => l.busPos

/-- the equivalent demand and losses of a supernode, AN:699-739 -/
structure SuperEq where
  pd : Rat
  qd : Rat
  loss : Rat
  deriving DecidableEq, Repr

/-- the bus at a position, for sums over positions in range -/
def busVal (net : TpNet) (f : TpBus → Rat) (x : Nat) : Rat := match net.buses[x]? with
  | none => 0
  | some b => f b

/-- the losses of an element, AN:730-738: `None` is not added -/
def elLoss (net : TpNet) (e : Series × Nat) : Rat := match (net.series e.1)[e.2]? with
  | none => 0
  | some l => l.par.loss.getD 0

/-- the sums of one supernode, AN:691-715 and 725-738: the zone is read from the first coupling bus, which need not exist -/
def superEq (net : TpNet) (S : Supernode) : Except PyErr SuperEq :=
  if S.coupling = [] then .error .index
  else .ok ⟨(S.bus.map (busVal net (·.pd))).sum, (S.bus.map (busVal net (·.qd))).sum, (S.bus.map (busVal net (·.loss))).sum + (S.els.map (elLoss net)).sum⟩

/-- the positions of the elements of one type in all supernodes, AN:717-720 and 727-729 -/
def superEls (supers : List Supernode) (s : Series) : List Nat :=
  supers.flatMap (fun S => (S.els.filter (fun e => decide (e.1 = s))).map (·.2))

/-- the deletions of `__reduce_network_from_supernodes`, AN:716 and 739 -/
def deleteSupers (net : TpNet) (supers : List Supernode) : TpNet :=
  deleteSeries .trafo (deleteSeries .line (deleteBuses net (supers.flatMap (·.bus))) (superEls supers .line)) (superEls supers .trafo)

/-- `while aux <= m: aux *= 10`, AN:381-383 and 395-397; the first argument bounds the number of rounds -/
def powAbove (m : Int) : Nat → Int → Int
  | 0, a => a
  | f + 1, a => if a ≤ m then powAbove m f (a * 10) else a

/-- `max` of a list of numbers that is not empty -/
def maxOf : List Int → Int
  | [] => 0
  | [x] => x
  | x :: y :: l => max x (maxOf (y :: l))

/-- the first artificial bus number, AN:374-385 -/
def firstBusNo (net : TpNet) (given : Option Int) : Int := match given with
  | some n => n
  | none => powAbove (maxOf (net.buses.map (·.number))) ((maxOf (net.buses.map (·.number))).toNat + 1) 1

/-- the first artificial line number, AN:387-399: the numbers of the remaining lines and of those in the supernodes, that is of all lines -/
def firstLineNo (net : TpNet) (given : Option Int) : Int := match given with
  | some n => n
  | none => powAbove (maxOf ((net.series .line).map (·.number))) ((maxOf ((net.series .line).map (·.number))).toNat + 1) 1

/-- the generators at the buses of a supernode get a new bus number, AN:570-575: the positions of the remaining generators have been updated by the deletion of the buses,
those of the others have not -/
def moveGens (bs : List Nat) (num : Int) (gens : GenT → List TpGen) : GenT → List TpGen :=
  fun g => (gens g).map (fun x => if x.busPos ∈ bs then { x with bus := num } else x)

/-- the list of generators of the artificial bus, AN:571 and 575-577: as many times its number as generators have been moved -/
def movedNo (bs : List Nat) (num : Int) (gens : GenT → List TpGen) : GenT → List Int :=
  fun g => ((gens g).filter (fun x => decide (x.busPos ∈ bs))).map (fun _ => num)

/-- the number of a bus in the network before the reduction, AN:537-539 -/
def oldBusNo (net : TpNet) (x : Nat) : Int := match net.buses[x]? with
  | none => 0
  | some b => b.number

/-- the data of an element that the artificial line copies, AN:520-536 -/
def oldPar (net : TpNet) (e : Series × Nat) : LinePar := match (net.series e.1)[e.2]? with
  | none => ⟨0, 0, 0, 0, none⟩
  | some l => l.par

/-- the buses of an element before the reduction, AN:543-548 -/
def oldEnds (net : TpNet) (e : Series × Nat) : List Int := match (net.series e.1)[e.2]? with
  | none => []
  | some l => l.buses

/-- the artificial lines of a supernode, AN:514-564: one per coupling bus with the data of the element that leads there -/
def artLines (net : TpNet) (S : Supernode) (num first : Int) : List TpLine :=
  (S.coupling.zip S.art).zipIdx.map (fun p => ⟨first + p.2, [oldBusNo net p.1.1, num], [], 1, oldPar net p.1.2⟩)

/-- the artificial bus of a supernode, AN:485-512 and 561-577 -/
def artBus (S : Supernode) (q : SuperEq) (num first : Int) (gens : GenT → List TpGen) : TpBus where
  number := num
  volt := 0
  pd := q.pd
  qd := q.qd
  loss := q.loss
  serNo := fun s => match s with
    | .line => (List.range S.coupling.length).map (fun (k : Nat) => first + (k : Int))
    | .trafo => []
  serPos := fun _ => []
  genNo := movedNo S.bus num gens
  genPos := fun _ => []

/-- a bus that takes over a supernode, AN:433-458: the list of its generators is overwritten -/
def takeOver (S : Supernode) (q : SuperEq) (num : Int) (gens : GenT → List TpGen) (b : TpBus) : TpBus :=
  if b.number = num then ⟨b.number, b.volt, q.pd + b.pd, q.qd + b.qd, q.loss + b.loss, b.serNo, b.serPos, movedNo S.bus num gens, b.genPos⟩ else b

/-- a branch in the lists of the analyser, AN:227-245: position and buses before, position and buses after -/
structure BranchMap where
  oldPos : Nat
  oldBus : List Int
  newPos : Nat
  newBus : List Int
  deriving DecidableEq, Repr

/-- the state of the loop AN:405-458 -/
structure AddSt where
  nodes : List TpBus
  newNodes : List TpBus
  newLines : List TpLine
  inter : List ((Series × Nat) × Int × Int)
  gens : GenT → List TpGen
  nextBus : Int
  nextLine : Int

/-- one supernode in the loop AN:405-458; `net` is the network before the reduction -/
def addSuper (net : TpNet) (st : AddSt) (p : Supernode × SuperEq) : AddSt :=
  if 1 < p.1.coupling.length then
    ⟨st.nodes, st.newNodes ++ [artBus p.1 p.2 st.nextBus st.nextLine st.gens], st.newLines ++ artLines net p.1 st.nextBus st.nextLine,
      st.inter ++ (p.1.coupling.zip p.1.art).map (fun (c : Nat × (Series × Nat)) => (c.2, oldBusNo net c.1, st.nextBus)),
      moveGens p.1.bus st.nextBus st.gens, st.nextBus + 1, st.nextLine + (p.1.coupling.length : Int)⟩
  else match p.1.coupling with
    | [] => st
    | c :: _ =>
      ⟨st.nodes.map (takeOver p.1 p.2 (oldBusNo net c) st.gens), st.newNodes, st.newLines, st.inter,
        if st.nodes.any (fun b => decide (b.number = oldBusNo net c)) = true then moveGens p.1.bus (oldBusNo net c) st.gens else st.gens, st.nextBus, st.nextLine⟩

/-- the result of a reduction -/
structure RdResult where
  supers : List Supernode
  net : TpNet
  removed : List (List Int)
  inter : List BranchMap
  preserved : List BranchMap

/-- one preserved branch, AN:466-474: the position has been updated by the deletion -/
def preservedOf (p : TpLine × Nat) : Except PyErr BranchMap := do
  let a ← pyGet p.1.buses 0
  let b ← pyGet p.1.buses 1
  .ok ⟨p.2, [a, b], p.2, [a, b]⟩

/-- one removed branch, AN:721-726 -/
def removedOf (net : TpNet) (e : Series × Nat) : Except PyErr (List Int) := do
  let a ← pyGet (oldEnds net e) 0
  let b ← pyGet (oldEnds net e) 1
  .ok [a, b]

/-- `__add_artificial_elements`, AN:368-483, from the network before the reduction and the one without the supernodes: without any remaining line the largest
number is that of the blank line -/
def addArtificial (net rest : TpNet) (supers : List (Supernode × SuperEq)) (initBus initLine : Option Int) : Except PyErr (TpNet × List BranchMap × List BranchMap) := do
  if rest.series .line = [] ∧ initLine = none then .error .type
  else if rest.series .line = [] then .error .index
  else do
    let st := supers.foldl (addSuper net) ⟨rest.buses, [], [], [], rest.gens, firstBusNo net initBus, firstLineNo net initLine⟩
    let inter := st.inter.zipIdx.map (fun (p : ((Series × Nat) × Int × Int) × Nat) =>
      (⟨p.1.1.2, oldEnds net p.1.1, (rest.series .line).length + p.2, [p.1.2.1, p.1.2.2]⟩ : BranchMap))
    let pres ← (rest.series .line).zipIdx.mapM preservedOf
    .ok (updateAll ⟨st.nodes ++ st.newNodes, fun s => match s with
      | .line => rest.series .line ++ st.newLines
      | .trafo => rest.series .trafo, st.gens⟩, inter, pres ++ inter)

/-- `network_reduction_voltage_no_characteristics`, AN:261-360 -/
def reduceNetwork (limit : Nat) (net : TpNet) (vol : Rat) (tw : Option Rat) (initBus initLine : Option Int) : Except PyErr RdResult := do
  if vol ∉ net.buses.map (·.volt) then .error .assertion
  else do
    let supers ← findSupernodes (netView net vol tw) limit
    if supers = [] then .ok ⟨[], net, [], [], []⟩
    else do
      let qs ← supers.mapM (superEq net)
      let removed ← ((superEls supers .line).map (fun (k : Nat) => (Series.line, k)) ++ (superEls supers .trafo).map (fun (k : Nat) => (Series.trafo, k))).mapM (removedOf net)
      let r ← addArtificial net (deleteSupers net supers) (supers.zip qs) initBus initLine
      .ok ⟨supers, r.1, removed, r.2.1, r.2.2⟩

end Pyensys
