import Verif.Py
import Mathlib.Algebra.Order.Ring.Abs
import Mathlib.Algebra.BigOperators.Group.List.Basic
import Mathlib.Data.Rat.Defs
import Mathlib.Tactic.Ring

/-!
# Model of the investment programme of the screening stage

Source: pyensys/Optimisers/screening_model_CLI.py:79-726 (`model_screening`, SC below).

The Pyomo model is represented by the list of its constraints, each a predicate on points (values of the
variables), and its objective, a function of points.  What the solver (glpk) does with it is not modelled: the
theorems speak of feasible and of optimal points.

Simplifications: floats are rationals, the reactance, rating and cost columns of the case are rows; `NoTime` is
1 as in every call (SC:733, 769-772); `peak_Pd` and `peak_Qd` are empty as in every call of the command line
(cases.py:497-499); a constraint `x <= float('inf')` (SC:418, 438) is no constraint, as in Pyomo; the graph of
parameters (SC:82-307) is modelled in `Verif.Model.ScreeningGraph`; C234 justifies that `m.para["Gen3_PMAX"]` is
here the value of the fourth generator.
-/

namespace Pyensys

/-- the columns BUS_I, BUS_TYPE, PD, QD of a bus -/
structure SBus where
  number : Int
  kind : Int := 1
  pd : Rat
  qd : Rat := 0
  deriving DecidableEq, Repr

/-- the columns GEN_BUS, PMAX, PMIN, GEN of a generator and its row of `gencost`
(MODEL, NCOST, COST) -/
structure SGen where
  bus : Int
  pmax : Rat
  pmin : Rat := 0
  status : Int := 1
  costModel : Int := 2
  ncost : Nat := 3
  cost : List Rat := [0, 0, 0]
  deriving DecidableEq, Repr

/-- the columns F_BUS, T_BUS, BR_X, RATE_A, BR_STATUS of a branch -/
structure SBranch where
  fbus : Int
  tbus : Int
  x : Rat
  rate : Rat
  status : Int := 1
  deriving DecidableEq, Repr

/-- the arguments of `model_screening`, SC:79-80. `hasCost` says whether `mpc['gencost']['MODEL'] != []`. -/
structure ScreenData where
  buses : List SBus
  gens : List SGen
  branches : List SBranch
  baseMVA : Rat := 1
  hasCost : Bool := true
  genStatus : Bool := false
  lineStatus : Bool := false
  cicost : Rat := 20
  penalty : Rat := 1000
  cont : List (List Int)
  prev : List Rat
  mult : List Rat
  add : List Rat
  deriving DecidableEq, Repr

/-- values of the variables, SC:314-330: indices are those of the code (element, contingency) -/
structure LPPoint where
  pgen : Nat → Nat → Rat
  cgen : Nat → Nat → Rat
  pbra : Nat → Nat → Rat
  ic : Nat → Rat
  ang : Nat → Nat → Rat
  plc : Nat → Nat → Rat

/-- a built model: constraints and objective -/
structure ScreenLP where
  cons : List (LPPoint → Prop)
  objective : LPPoint → Rat

/-- `2*math.pi` as the double it is, SC:325 -/
def twoPi : Rat := 884279719003555 / 140737488355328

/-! ## cost curves, SC:511-583 -/

/-- the loop SC:548-552: the polynomial with coefficients `cost` (highest power first, `ncost` of them) at `x`;
`IndexError` if the row is shorter. `k` counts the remaining powers. -/
def polyLoop (cost : List Rat) (x : Rat) : Nat → Int → Nat → Rat → Except PyErr Rat
  | 0, _, _, acc => .ok acc
  | k + 1, xc, pow, acc => do
    let c ← pyGet cost (xc - 1)
    polyLoop cost x k (xc - 1) (pow + 1) (acc + c * x ^ pow)

/-- SC:548-552 -/
def polyCost (g : SGen) (x : Rat) : Except PyErr Rat := do
  let c0 ← pyGet g.cost ((g.ncost : Int) - 1)
  polyLoop g.cost x (g.ncost - 1) ((g.ncost : Int) - 1) 1 c0

/-- a line: slope `lcost` and intercept `LGcost` -/
abbrev CostLine := Rat × Rat

/-- SC:556-564 for one piece: the slope between two neighbouring points and the intercept -/
def costLine (x0 y0 x1 y1 : Rat) : CostLine := ((y1 - y0) / (x1 - x0), y1 - x1 * ((y1 - y0) / (x1 - x0)))

/-- SC:534-564: the three lines of a generator with a polynomial; no costs if PMAX is not positive. -/
def genPieces (g : SGen) : Except PyErr (List CostLine) :=
  if g.pmax > 0 then do
    let d := g.pmax / 3
    let x0 := g.pmin
    let x1 := x0 + d
    let x2 := x1 + d
    let x3 := x2 + d
    let y0 ← polyCost g x0
    let y1 ← polyCost g x1
    let y2 ← polyCost g x2
    let y3 ← polyCost g x3
    .ok [costLine x0 y0 x1 y1, costLine x1 y1 x2 y2, costLine x2 y2 x3 y3]
  else .ok [(0, 0), (0, 0), (0, 0)]

/-- the loop SC:519-564. `seen` says whether `NoPieces` is bound.  A generator with a piecewise model
(MODEL = 1, SC:520-531) raises: it stores a row of costs in a cell (SC:526) and indexes numbers (SC:531); the
case of such a generator without any point (NCOST = 0) is also taken as raising. -/
def genCosts : List SGen → Bool → Except PyErr (List (List CostLine))
  | [], _ => .ok []
  | g :: gs, seen =>
    if g.costModel = 1 then .error .value
    else do
      let p ← genPieces g
      if g.pmax > 0 || seen then do
        let r ← genCosts gs true
        .ok (p :: r)
      else .error .name

/-- `genCost_rule`, SC:511-583: without a cost model `NoPieces` and `LGcost` are unbound at the end;
without generators `NoPieces` is unbound as well. -/
def genCostRule (d : ScreenData) : Except PyErr (List (List CostLine)) :=
  if d.hasCost = false then .error .name
  else match d.gens with
    | [] => .error .name
    | gs => genCosts gs false

/-! ## constraints -/

/-- position of a bus number: `mpc['bus']['BUS_I'].index(name)`, SC:358-360, and the first element of the
list at SC:341 -/
def busPos (d : ScreenData) (n : Int) : Option Nat := (d.buses.map (·.number)).findIdx? (· = n)

/-- `genMax_rule`, SC:336-342 -/
def genMaxCon (d : ScreenData) (xg : Nat) (g : SGen) (k : Nat) : Except PyErr (LPPoint → Prop) :=
  if d.genStatus ∧ g.status = 0 then .ok (fun p => p.pgen xg k = 0)
  else match busPos d g.bus with
    | none => .error .index
    | some b => do
      let m ← pyGet d.mult b
      .ok (fun p => p.pgen xg k ≤ m * g.pmax)

/-- `genMin_rule`, SC:345-349 -/
def genMinCon (d : ScreenData) (xg : Nat) (g : SGen) (k : Nat) : Except PyErr (LPPoint → Prop) :=
  if d.genStatus ∧ g.status = 0 then .ok (fun p => p.pgen xg k = 0)
  else .ok (fun p => g.pmin ≤ p.pgen xg k)

/-- `pwcost_rule`, SC:469-471, for the lines of one generator -/
def pwCon (xg : Nat) (lines : List CostLine) (k : Nat) : Except PyErr (LPPoint → Prop) :=
  .ok (fun p => ∀ l ∈ lines, p.pgen xg k * l.1 + l.2 ≤ p.cgen xg k)

/-- `temp_line_stat` and the contingency, SC:363-368, 404-409, 423-429: whether the branch is out -/
def branchOut (d : ScreenData) (xbr : Nat) (br : SBranch) (k : Nat) : Except PyErr Bool := do
  let c ← pyGet d.cont k
  let s ← pyGet c xbr
  .ok (decide (s = 0) || (d.lineStatus && decide (br.status = 0)))

/-- `DCPF_rule`, SC:355-371 -/
def dcpfCon (d : ScreenData) (xbr : Nat) (br : SBranch) (k : Nat) : Except PyErr (LPPoint → Prop) :=
  if d.baseMVA = 0 then .error .zeroDivision
  else match busPos d br.fbus, busPos d br.tbus with
    | some f, some t => do
      let out ← branchOut d xbr br k
      if out then .ok (fun _ => True)
      else if br.x / d.baseMVA = 0 then .error .zeroDivision
      else .ok (fun p => p.pbra xbr k = (p.ang f k - p.ang t k) / (br.x / d.baseMVA))
    | _, _ => .error .value

/-- `slackBus_rule`, SC:375-380: the last bus of type 3 -/
def slackCon (d : ScreenData) (k : Nat) : Except PyErr (LPPoint → Prop) :=
  match ((List.range d.buses.length).filter (fun i => (d.buses[i]?.map (·.kind)) = some 3)).getLast? with
  | none => .error .name
  | some b => .ok (fun p => p.ang b k = 0)

/-- `braCapacity_rule`, SC:403-418 -/
def capCon (d : ScreenData) (xbr : Nat) (br : SBranch) (k : Nat) : Except PyErr (LPPoint → Prop) := do
  let out ← branchOut d xbr br k
  if out then .ok (fun p => p.pbra xbr k = 0)
  else if br.rate ≠ 0 then do
    let prev ← pyGet d.prev xbr
    .ok (fun p => p.pbra xbr k ≤ p.ic xbr + prev + br.rate)
  else .ok (fun _ => True)

/-- `braCapacityN_rule`, SC:422-438: previous investments are not counted -/
def capNCon (d : ScreenData) (xbr : Nat) (br : SBranch) (k : Nat) : Except PyErr (LPPoint → Prop) := do
  let out ← branchOut d xbr br k
  if out then .ok (fun p => p.pbra xbr k = 0)
  else if br.rate ≠ 0 then
    .ok (fun p => - p.pbra xbr k ≤ p.ic xbr + 0 + br.rate)
  else .ok (fun _ => True)

/-- `[i for i,x in enumerate(col) if x==bus_number]`, SC:602-609 -/
def positions (col : List Int) (n : Int) : List Nat := (List.range col.length).filter (fun i => col[i]? = some n)

/-- `nodeBalance_rule`, SC:447-454 with the connections of SC:588-624 -/
def balanceCon (d : ScreenData) (xb : Nat) (b : SBus) (k : Nat) : Except PyErr (LPPoint → Prop) := do
  let m ← pyGet d.mult xb
  let a ← pyGet d.add xb
  .ok (fun p =>
    ((positions (d.gens.map (·.bus)) b.number).map (fun i => p.pgen i k)).sum
      + ((positions (d.branches.map (·.tbus)) b.number).map (fun i => p.pbra i k)).sum
    = ((positions (d.branches.map (·.fbus)) b.number).map (fun i => p.pbra i k)).sum
      + m * b.pd + m * b.qd - p.plc xb k + a)

/-- `loadcurtail_rule`, SC:463-465 -/
def curtailCon (d : ScreenData) (xb : Nat) (b : SBus) (k : Nat) : Except PyErr (LPPoint → Prop) := do
  let m ← pyGet d.mult xb
  .ok (fun p => p.plc xb k ≤ m * |b.pd|)

/-- a Pyomo constraint over elements and contingencies: the rule for every pair, in order -/
def forPairs {α : Type} (l : List α) (c : Nat) (rule : Nat → α → Nat → Except PyErr (LPPoint → Prop)) :
    Except PyErr (List (LPPoint → Prop)) :=
  (l.zipIdx.flatMap (fun a => (List.range c).map (fun k => (a.2, a.1, k)))).mapM (fun t => rule t.1 t.2.1 t.2.2)

/-- bounds and domains of the variables, SC:314-330 -/
def domainCon (d : ScreenData) (p : LPPoint) : Prop :=
  (∀ k < d.cont.length,
    (∀ g < d.gens.length, 0 ≤ p.pgen g k ∧ 0 ≤ p.cgen g k) ∧
    (∀ b < d.buses.length, -twoPi ≤ p.ang b k ∧ p.ang b k ≤ twoPi ∧ 0 ≤ p.plc b k)) ∧
  (∀ x < d.branches.length, 0 ≤ p.ic x)

/-- `OFrule`, SC:630-640 -/
def objective (d : ScreenData) (p : LPPoint) : Rat :=
  ((List.range d.branches.length).map p.ic).sum * d.cicost
    + ((List.range d.gens.length).map (fun g => p.cgen g 0)).sum
    + ((List.range d.buses.length).map (fun b => ((List.range d.cont.length).map (fun k => p.plc b k)).sum)).sum
        * d.penalty

/-- building the model, SC:655-690, in the order of SC:480-505; the objective reads contingency 0 (SC:636) -/
def buildScreening (d : ScreenData) : Except PyErr ScreenLP := do
  let lines ← genCostRule d
  let c1 ← forPairs d.gens d.cont.length (genMaxCon d)
  let c2 ← forPairs d.gens d.cont.length (genMinCon d)
  let c3 ← forPairs lines d.cont.length pwCon
  let c4 ← forPairs d.branches d.cont.length (dcpfCon d)
  let c5 ← (List.range d.cont.length).mapM (slackCon d)
  let c6 ← forPairs d.branches d.cont.length (capCon d)
  let c7 ← forPairs d.branches d.cont.length (capNCon d)
  let c8 ← forPairs d.buses d.cont.length (balanceCon d)
  let c9 ← forPairs d.buses d.cont.length (curtailCon d)
  if d.cont = [] then .error .key
  else .ok ⟨domainCon d :: (c1 ++ c2 ++ c3 ++ c4 ++ c5 ++ c6 ++ c7 ++ c8 ++ c9), objective d⟩

/-- a point that satisfies all constraints -/
def ScreenLP.Feasible (m : ScreenLP) (p : LPPoint) : Prop := ∀ c ∈ m.cons, c p

/-- what a correct solver returns: a feasible point of least objective -/
def ScreenLP.Optimal (m : ScreenLP) (p : LPPoint) : Prop :=
  m.Feasible p ∧ ∀ q, m.Feasible q → m.objective p ≤ m.objective q

end Pyensys
