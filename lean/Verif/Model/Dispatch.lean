import Verif.Model.Devices
import Verif.Model.CostCurve

/-!
# Model of generators, demand, losses and nodal balances of the network engine

Source: pyensys/engines/pyeneD.py (DV below) and pyensys/engines/pyeneN.py (NW below).

Modelled: the numbering of generators in `Generators.initialise` (DV:1476-1534) with `set_Bin`, `set_MDT`, `set_MUT`
(DV:904-934, 1175-1185), `get_GenInBus` (DV:1318-1324), the piece-wise losses (NW:1058-1078, DV:257-269), the positions of
pumps and curtailment (NW:1080-1099), demand profiles (NW:990-1007 and 1140-1148), the balance of a bus (NW:404-454) and
the balance without network (NW:456-470).

Simplifications: floats are rationals; the values of the variables of one period and one case are given as functions of
the position within the case (the offsets `connections[…][xh]` are added by the caller, see C107); storage is left out:
with storage units `addCon` raises an AttributeError (NW:283-286 use `m.sNSto`, which is never defined), and without them
the storage term of the balance is multiplied by zero (NW:409-410).  Cost curves are modelled in CostCurve, cooling
profiles are left out.
-/

namespace Pyensys

/-! ## generators -/

/-- a generator of the case: bus number, capacity and minimum output (MW), minimum down and up times -/
structure DpGenIn where
  bus : Int
  max : Rat
  min : Rat
  minDown : Option Nat := none
  minUp : Option Nat := none
  deriving DecidableEq, Repr

/-- a generator after `initialise`: position of its bus, of its output variable, of its commitment variables, its
per-unit limits -/
structure DpGen where
  busPos : Nat
  vNGen : Nat
  bin : Option Nat
  vMDT : Option Nat
  vMUT : Option Nat
  max : Rat
  min : Rat
  minDown : Option Nat
  minUp : Option Nat
  deriving DecidableEq, Repr

/-- the counters of the loop DV:1479-1483 and the generators `(type, position)` of every bus -/
structure DpState where
  buses : List (List (Nat × Nat))
  xbin : Nat
  xMDT : Nat
  xMUT : Nat
  xNo : Nat
  deriving DecidableEq, Repr

/-- `set_Bin`, DV:904-912; RES units have none, DV:1175-1177 -/
def setBin (xt : Nat) (g : DpGenIn) (xbin : Nat) : Option Nat × Nat :=
  if xt = 2 then (none, xbin)
  else if g.max > 0 ∧ g.min > 0 then (some xbin, xbin + 1) else (none, xbin)

/-- `set_MDT` and `set_MUT`, DV:914-934; RES units have none, DV:1179-1185 -/
def setTimes (xt : Nat) (bin : Option Nat) (v : Option Nat) (x : Nat) : Option Nat × Nat :=
  if xt = 2 then (none, x)
  else if bin = none ∨ v = none then (none, x) else (some x, x + 1)

/-- the body of the loop DV:1486-1531 for the generator at position `xp` of class `xt` -/
def genStep (numbers : List Int) (base : Rat) (xt xp : Nat) (g : DpGenIn) (s : DpState) : Except PyErr (DpGen × DpState) := do
  let xb ← findBus (numbers.map (fun n => { number := n })) g.bus
  if base = 0 then .error .zeroDivision
  else
    let b := setBin xt g s.xbin
    let d := setTimes xt b.1 g.minDown s.xMDT
    let u := setTimes xt b.1 g.minUp s.xMUT
    .ok (⟨xb, s.xNo, b.1, d.1, u.1, g.max / base, g.min / base, g.minDown, g.minUp⟩,
      ⟨s.buses.modify xb (fun l => l ++ [(xt, xp)]), b.2, d.2, u.2, s.xNo + 1⟩)

/-- the generators of one class, DV:1486-1531 -/
def genClass (numbers : List Int) (base : Rat) (xt : Nat) : List DpGenIn → Nat → DpState → Except PyErr (List DpGen × DpState)
  | [], _, s => .ok ([], s)
  | g :: gs, xp, s => do
      let r ← genStep numbers base xt xp g s
      let q ← genClass numbers base xt gs (xp + 1) r.2
      .ok (r.1 :: q.1, q.2)

/-- the classes `['Conv', 'Hydro', 'RES']`, DV:1484-1534 -/
def genClasses (numbers : List Int) (base : Rat) : List (List DpGenIn) → Nat → DpState → Except PyErr (List (List DpGen) × DpState)
  | [], _, s => .ok ([], s)
  | c :: cs, xt, s => do
      let r ← genClass numbers base xt c 0 s
      let q ← genClasses numbers base cs (xt + 1) r.2
      .ok (r.1 :: q.1, q.2)

/-- the generators after `Generators.initialise`: the three classes, and the state with the lists of the buses and the
numbers of binary, down-time and up-time variables -/
structure DpGens where
  classes : List (List DpGen)
  buses : List (List (Nat × Nat))
  noBin : Nat
  noMDT : Nat
  noMUT : Nat
  noGen : Nat
  deriving DecidableEq, Repr

/-- `Generators.initialise`, DV:1476-1537 -/
def genInitialise (numbers : List Int) (base : Rat) (conv hydro res : List DpGenIn) : Except PyErr DpGens := do
  let r ← genClasses numbers base [conv, hydro, res] 0 ⟨numbers.map (fun _ => []), 0, 0, 0, 0⟩
  .ok ⟨r.1, r.2.buses, r.2.xbin, r.2.xMDT, r.2.xMUT, r.2.xNo⟩

/-- one entry of `get_GenInBus`, DV:1321-1322 -/
def genVar (g : DpGens) (tp : Nat × Nat) : Except PyErr Nat := do
  let c ← pyGet g.classes (tp.1 : Int)
  let ob ← pyGet c (tp.2 : Int)
  .ok ob.vNGen

/-- `get_GenInBus`, DV:1318-1324 -/
def genInBus (g : DpGens) (xn : Nat) : Except PyErr (List Nat) := do
  let l ← pyGet g.buses (xn : Int)
  l.mapM (genVar g)

/-! ## losses -/

/-- `Loss_Con1`, `Loss_Con2` for two consecutive points, NW:1071-1074; `none` when they coincide (numpy `nan`) -/
def lossLine (a b : Rat) : Option (Rat × Rat) :=
  if b - a = 0 then none
  else
    let s := (b ^ 2 - a ^ 2) / (b - a)
    some (a ^ 2 - a * s, s)

/-- the tables `loss['A']`, `loss['B']`, NW:1066-1078 -/
def lossTable (pts : List Rat) : List (Option (Rat × Rat)) := List.zipWith lossLine pts pts.tail

/-- `cNDCLossA_rule` and `cNDCLossB_rule` for piece `xL`, DV:257-269: `vNLoss >= Loss_Fix/Bse + (A ± B·vNFlow)·BR_R` -/
def lossRules (tab : List (Option (Rat × Rat))) (fix base r : Rat) (xL : Nat) (flow loss : Rat) : Prop :=
  match tab[xL]? with
  | none => True
  | some none => False
  | some (some (a, b)) => loss ≥ fix / base + (a + b * flow) * r ∧ loss ≥ fix / base + (a - b * flow) * r

/-- the constraints on the losses of a branch, NW:189-196 and the domain at NW:350-352 -/
def LossOk (pts : List Rat) (fix base r flow loss : Rat) : Prop :=
  0 ≤ loss ∧ ∀ xL < pts.length - 1, lossRules (lossTable pts) fix base r xL flow loss

/-! ## pumps, curtailment, demand -/

/-- assignment `l[i] = v` to a numpy array: negative positions count from the end -/
def npAssign (l : List Nat) (i : Int) (v : Nat) : Except PyErr (List Nat) :=
  let j : Int := if i < 0 then i + l.length else i
  if j < 0 ∨ (l.length : Int) ≤ j then .error .index else .ok (l.set j.toNat v)

/-- the loop NW:1081-1083: `LLDL[self.pumps['Bus'][xdl]-1] = xdl+1` -/
def pumpLoop : List Int → Nat → List Nat → Except PyErr (List Nat)
  | [], _, ll => .ok ll
  | b :: bs, xdl, ll => do
      let ll' ← npAssign ll (b - 1) (xdl + 1)
      pumpLoop bs (xdl + 1) ll'

/-- `p['LLPump']`, NW:1080-1084 -/
def llPump (noBus : Nat) (buses : List Int) : Except PyErr (List Nat) := pumpLoop buses 0 (List.replicate noBus 0)

/-- the loop NW:1090-1094: `(LLFea1, LLFea2)` of every bus and the number of curtailment variables -/
def feaLoop : List Rat → Nat → List (Nat × Nat) × Nat
  | [], n => ([], n)
  | pd :: rest, n =>
    if pd > 0 then
      let r := feaLoop rest (n + 1)
      ((1, n) :: r.1, r.2)
    else
      let r := feaLoop rest n
      ((0, 0) :: r.1, r.2)

/-- the default `scenarios['Links']`, NW:1140-1148 -/
def defaultLinks (noBus number : Nat) : List Int :=
  (List.range (noBus * number)).map (fun (acu : Nat) => if acu < noBus then (1 : Int) else ((acu / noBus : Nat) : Int) + 1)

/-- `busScenario[xn][xs]`, NW:998-1005; zero without demand profiles -/
def busScenario (noDem : Int) (links : List Int) (noTime noBus xn xs : Nat) : Except PyErr Int :=
  if noDem > 0 then do
    let l ← pyGet links ((xs * noBus + xn : Nat) : Int)
    .ok ((l - 1) * noTime)
  else .ok 0

/-- the demand of bus `xn` in period `xt` of scenario `xh`: `busData[xn]*Demand[xt*daux + busScenario[xn][xh]]` with `busData`
of NW:993-996 and `daux` of NW:173-176 -/
def demandAt (noDem : Int) (links : List Int) (demand : List Rat) (noTime noBus : Nat) (base lossFix pd : Rat) (xn xt xh : Nat) :
    Except PyErr Rat := do
  let off ← busScenario noDem links noTime noBus xn xh
  let v ← pyGet demand ((if noDem = 0 then 0 else (xt : Int)) + off)
  .ok ((lossFix + pd) / base * v)

/-! ## balances -/

/-- the data of the balances of one period and case: `demand` is the demand of every bus -/
structure DpCase where
  net : DvNet
  gens : DpGens
  demand : List Rat
  llPump : List Nat
  llFea : List (Nat × Nat)
  losses : Bool
  loss : Option Rat
  fixLoss : List Rat
  base : Rat
  deriving Repr

/-- the values of the variables of one period and case -/
structure DpVals where
  gen : Nat → Rat
  flow : Nat → Rat
  loss : Nat → Rat
  fea : Nat → Rat
  pump : Nat → Rat

/-- `settings['Loss']`, NW:433-436 -/
def lossFactor (l : Option Rat) : Rat := match l with
  | none => 1
  | some v => 1 + v

/-- `0.5 * sum(Branch[xb].getLoss() for xb in …)/Base`, NW:425-431 -/
def fixedLosses (c : DpCase) (xbs : List Nat) : Except PyErr Rat := do
  let ls ← xbs.mapM (fun (xb : Nat) => pyGet c.fixLoss (xb : Int))
  .ok (1 / 2 * ls.sum / c.base)

/-- the losses `(LossF, LossT, LossM)` of a bus, NW:415-436 -/
def busLosses (c : DpCase) (v : DpVals) (xn xs : Nat) : Except PyErr (Rat × Rat × Rat) :=
  if c.losses = true then do
    let b ← pyGet c.net.buses (xn : Int)
    .ok ((b.fLoss.map (fun x => v.loss x / 2)).sum, (b.tLoss.map (fun x => v.loss x / 2)).sum, 1)
  else do
    let ff ← getFlowF c.net xn xs
    let lf ← fixedLosses c ff
    let ft ← getFlowT c.net xn xs
    let lt ← fixedLosses c ft
    .ok (lf, lt, lossFactor c.loss)

/-- the two sides of `cNEBalance_rule` at bus `xn` in security scenario `xs`, NW:439-454 -/
def balanceSides (c : DpCase) (v : DpVals) (xn xs : Nat) : Except PyErr (Rat × Rat) := do
  let ls ← busLosses c v xn xs
  let gs ← genInBus c.gens xn
  let ft ← getFlowT c.net xn xs
  let d ← pyGet c.demand (xn : Int)
  let fe ← pyGet c.llFea (xn : Int)
  let pu ← pyGet c.llPump (xn : Int)
  let ff ← getFlowF c.net xn xs
  .ok ((gs.map v.gen).sum + (ft.map v.flow).sum - ls.2.1,
    ls.2.2 * d - ((List.range fe.1).map (fun _ => v.fea fe.2)).sum + v.pump pu + (ff.map v.flow).sum + ls.1)

/-- the bus is balanced: the constraint is built and holds -/
def Balanced (c : DpCase) (v : DpVals) (xn xs : Nat) : Prop := ∃ l r, balanceSides c v xn xs = .ok (l, r) ∧ l = r

/-- `cNEBalance0_rule`, NW:456-470 (no network): curtailment is a single variable, counted if `Feasibility` is on -/
def Balanced0 (c : DpCase) (v : DpVals) (feasibility : Bool) (noPump : Nat) : Prop :=
  c.demand.sum * lossFactor c.loss + ((List.range noPump).map (fun xp => v.pump (xp + 1))).sum =
    (if feasibility = true then v.fea 0 else 0) + ((List.range c.gens.noGen).map v.gen).sum

end Pyensys
