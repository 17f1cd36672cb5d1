import Verif.Py
import Mathlib.Algebra.Order.Ring.Rat

/-!
# Model of the electricity network of the energy engine

Source: pyensys/engines/pyeneD.py (DV below) and pyensys/engines/pyeneN.py (NW below).

Modelled: `ElectricityNetwork.findBusPosition` (DV:574-584), `get_FlowF`, `get_FlowT` (DV:590-607), `initialise` (DV:617-698),
the security tables of `ENetworkClass.ProcessENet` (NW:1021-1055) and the numbers of flow and voltage variables
(NW:678-680), and the rules of flows and capacities (`Branch`, DV:272-297).

Simplifications: floats are rationals; ratings are numbers (`None`, from a case without RATE_A, raises a TypeError in
Python); dictionaries of an object are fields; a table of positions is the list `pyomo['N-1']` with `None` for a branch
that is out.
-/

namespace Pyensys

/-- a branch of the case: numbers of its two buses and its rating, DV:69-80 -/
structure DvBranchIn where
  fbus : Int
  tbus : Int
  rate : Rat
  deriving DecidableEq, Repr

/-- the settings read by `initialise`, DV:631-636 and 667-678 (NW:22-36) -/
structure DvSettings where
  securityFlag : Bool := false
  security : List Int := []
  loadType : List Int := []
  losses : Bool := true
  deriving DecidableEq, Repr

/-- a branch after `initialise`: positions of its buses, per-unit rating, its flow variable in every scenario -/
structure DvBranch where
  fpos : Nat
  tpos : Nat
  rate : Rat
  n1 : List (Option Nat)
  deriving DecidableEq, Repr

/-- the load type of a bus: a number, or the list that DV:672 stores -/
inductive DvLoadType where
  | num (v : Int)
  | list (l : List Int)
  deriving DecidableEq, Repr

/-- a bus after `initialise`: its number, the positions of the branches that leave from it and arrive at it, the branches
with losses, its voltage variable in every scenario -/
structure DvBus where
  number : Int
  fBranches : List Nat := []
  tBranches : List Nat := []
  fLoss : List Nat := []
  tLoss : List Nat := []
  loadType : DvLoadType := .num 0
  n1 : List (Option Nat) := []
  deriving DecidableEq, Repr

/-- the initialised network -/
structure DvNet where
  buses : List DvBus
  branches : List DvBranch
  securityNo : Nat
  deriving DecidableEq, Repr

/-- the loop of `findBusPosition`, DV:574-584: `self.Bus[xn]` raises an IndexError at the end -/
def findBusFrom (bus : Int) : List DvBus → Nat → Except PyErr Nat
  | [], _ => .error .index
  | b :: bs, xn => if b.number ≠ bus then findBusFrom bus bs (xn + 1) else .ok xn

/-- `findBusPosition`, DV:574-584 -/
def findBus (buses : List DvBus) (bus : Int) : Except PyErr Nat := findBusFrom bus buses 0

/-- the scenarios after the intact one, DV:631-636 -/
def dvContingencies (noBranch : Nat) (s : DvSettings) : List Int :=
  if s.securityFlag = true then (List.range noBranch).map (fun (x : Nat) => (x : Int)) else s.security

/-- `add_BraF`, DV:427-430, for the bus at a position found before -/
def addBraF (buses : List DvBus) (pos val : Nat) : List DvBus := buses.modify pos (fun b => { b with fBranches := b.fBranches ++ [val] })

/-- `add_BraT`, DV:432-435 -/
def addBraT (buses : List DvBus) (pos val : Nat) : List DvBus := buses.modify pos (fun b => { b with tBranches := b.tBranches ++ [val] })

/-- the loop DV:640-659 over the branches; `xcou` is the position of the branch (`get_Pos`, set to the number of the row at
DV:73) and its variable in the intact network -/
def matchBranches (base : Rat) (secNo : Nat) : List DvBranchIn → Nat → List DvBus → Except PyErr (List DvBus × List DvBranch)
  | [], _, buses => .ok (buses, [])
  | br :: brs, xcou, buses => do
    let xf ← findBus buses br.fbus
    let xt ← findBus buses br.tbus
    if base = 0 then .error .zeroDivision
    else do
      let r ← matchBranches base secNo brs (xcou + 1) (addBraT (addBraF buses xf xcou) xt xcou)
      .ok (r.1, ⟨xf, xt, br.rate / base, (List.replicate (secNo + 1) none).set 0 (some xcou)⟩ :: r.2)

/-- DV:662-664: the voltage variables of the intact network -/
def busTables (secNo : Nat) (buses : List DvBus) : List DvBus :=
  buses.zipIdx.map (fun b => { b.1 with n1 := (List.replicate (secNo + 1) none).set 0 (some b.2) })

/-- DV:667-678: the load types.  A single type is stored as the list itself (DV:672); more types than buses raise. -/
def loadTypes (lt : List Int) (buses : List DvBus) : Except PyErr (List DvBus) :=
  match lt with
  | [] => .ok buses
  | [v] => if v = 1 then .ok (buses.map (fun b => { b with loadType := .list [v] })) else .ok buses
  | _ => if buses.length < lt.length then .error .index
    else .ok (buses.zipIdx.map (fun b => match lt[b.2]? with
      | some v => { b.1 with loadType := .num v }
      | none => b.1))

/-- the loop DV:689-692 in scenario `xsec` with failed branch `xs`: branch `xb` (from zero) is left out if `xb + 1 = xs` -/
def scenarioBranches (xs : Int) (xsec : Nat) : List DvBranch → Nat → Nat → List DvBranch × Nat
  | [], _, xcou => ([], xcou)
  | b :: bs, xb, xcou =>
    if (xb : Int) + 1 ≠ xs then
      let r := scenarioBranches xs xsec bs (xb + 1) (xcou + 1)
      ({ b with n1 := b.n1.set xsec (some xcou) } :: r.1, r.2)
    else
      let r := scenarioBranches xs xsec bs (xb + 1) xcou
      (b :: r.1, r.2)

/-- DV:685-686: the voltage variables of scenario `xsec` -/
def scenarioBuses (xsec : Nat) (buses : List DvBus) : List DvBus :=
  buses.zipIdx.map (fun b => { b.1 with n1 := b.1.n1.set xsec (some (xsec * buses.length + b.2)) })

/-- the loop DV:682-692 -/
def scenarioLoop : List Int → Nat → Nat → List DvBus → List DvBranch → List DvBus × List DvBranch
  | [], _, _, buses, branches => (buses, branches)
  | xs :: rest, xsec, xcou, buses, branches =>
    let r := scenarioBranches xs (xsec + 1) branches 0 xcou
    scenarioLoop rest (xsec + 1) r.2 (scenarioBuses (xsec + 1) buses) r.1

/-- DV:695-698: the losses -/
def lossLists (losses : Bool) (buses : List DvBus) : List DvBus :=
  if losses = true then buses.map (fun b => { b with fLoss := b.fBranches, tLoss := b.tBranches }) else buses

/-- `ElectricityNetwork.initialise`, DV:617-698, on the numbers of the buses and the branches of the case -/
def dvInitialise (numbers : List Int) (brs : List DvBranchIn) (base : Rat) (s : DvSettings) : Except PyErr DvNet := do
  let cs := dvContingencies brs.length s
  let r ← matchBranches base cs.length brs 0 (numbers.map (fun n => { number := n }))
  let buses ← loadTypes s.loadType (busTables cs.length r.1)
  let t := scenarioLoop cs 0 brs.length buses r.2
  .ok ⟨lossLists s.losses t.1, t.2, cs.length⟩

/-! ## reading the tables -/

/-- `Branch.get_N1`/`get_Sec`, DV:315-317, 343-345 -/
def DvBranch.getN1 (b : DvBranch) (xs : Nat) : Except PyErr (Option Nat) := pyGet b.n1 xs

/-- the loops of `get_FlowF` and `get_FlowT`, DV:590-607, over the branches of a bus -/
def flowsOf (branches : List DvBranch) (xs : Nat) : List Nat → Except PyErr (List Nat)
  | [] => .ok []
  | xb :: rest => do
    let b ← pyGet branches xb
    let v ← b.getN1 xs
    let r ← flowsOf branches xs rest
    match v with
    | some p => .ok (p :: r)
    | none => .ok r

/-- `get_FlowF`, DV:590-599 -/
def getFlowF (net : DvNet) (xn xs : Nat) : Except PyErr (List Nat) := do
  let b ← pyGet net.buses xn
  flowsOf net.branches xs b.fBranches

/-- `get_FlowT`, DV:600-607 -/
def getFlowT (net : DvNet) (xn xs : Nat) : Except PyErr (List Nat) := do
  let b ← pyGet net.buses xn
  flowsOf net.branches xs b.tBranches

/-! ## the tables of pyeneN -/

/-- `settings['Security']` after NW:1028-1031 -/
def nwSecurity (noBranch : Nat) (s : DvSettings) : List Int :=
  if s.security.length = 0 ∧ s.securityFlag = true then (List.range noBranch).map (fun (x : Nat) => (x : Int) + 1) else s.security

/-- `NoBranch`, NW:679-680: the number of flow variables of one case -/
def nwNoBranch (noBranch : Nat) (s : DvSettings) : Int :=
  (noBranch : Int) + ((noBranch : Int) - 1) * (nwSecurity noBranch s).length

/-- `NoBuses`, NW:678: the number of voltage variables of one case -/
def nwNoBuses (noBus noBranch : Nat) (s : DvSettings) : Nat := noBus * (1 + (nwSecurity noBranch s).length)

end Pyensys
