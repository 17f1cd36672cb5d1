import Verif.Model.Energy
import Verif.Model.Coupled

/-!
# Model of the linear programs that are written for GLPK

Source: pyensys/engines/pyene_Models.py (PM below) and pyensys/engines/_glpk.pyx (GW below), the second implementation of the
energy balance, the optimal power flow and the model that couples them.

Modelled: the wrapper (`add_cols`, `add_rows`, `load_matrix`, `set_row_bnds`, `set_col_bnds`, `set_obj_coef`, `simplex`,
`get_col_prim`, GW:70-183); `Energymodel` with GLPK (PM:661-690, 758-990, 1070-1076); `Networkmodel.__init__` (PM:1364-1702),
`optimisationNM` with GLPK (PM:1783-1800), its variables, constraints and objective (PM:1822-3066);
`EnergyandNetwork` with GLPK (PM:4356-4572).

Simplifications: floats are rationals; a branch with reactance 0 (numpy divides by zero to an infinite coefficient, which
has no meaning for GLPK) is refused; there are no storage units (`NumberStorageDevices = 0`); lists of the same
objects have the same length (one entry of `pumps['Max']` and `pumps['Value']` for each pump).  A name such as
'ThermalGen'+str(i)+','+str(j) is a tag with the list of its numbers: the numbers are separated by commas, so two names are equal
only if tags and numbers are; the one name without commas ('CEED', PM:4438) is a tag with the list of its digits.  GLPK counts rows
and columns from 1, the model counts from 0.

GLPK itself is not modelled but for what it checks: `glp_add_rows`, `glp_add_cols` of no rows or columns, a row or column number
outside the problem and a coefficient given twice end the program (`runtime`); `glp_simplex` returns an error code, and the
caller's `assert` fails, if a row or column with two bounds has its lower bound not below the upper one (GLP_EBOUND); otherwise it
returns 0, also if there is no feasible point.
-/

namespace Pyensys

/-! ## the wrapper -/

/-- `GLP_BND_TYPES`, GW:6-12, with the bounds that count for the type -/
inductive GBnd where
  | free
  | lower (a : Rat)
  | bounded (a b : Rat)
  | fixed (a : Rat)
  deriving DecidableEq, Repr

/-- what a bound allows -/
def GBnd.holds : GBnd → Rat → Prop
  | .free, _ => True
  | .lower a, v => a ≤ v
  | .bounded a b, v => a ≤ v ∧ v ≤ b
  | .fixed a, v => v = a

instance (b : GBnd) (v : Rat) : Decidable (b.holds v) := by
  cases b <;> unfold GBnd.holds <;> infer_instance

/-- two bounds in the wrong order, GLP_EBOUND -/
def GBnd.bad : GBnd → Bool
  | .bounded a b => decide (b ≤ a)
  | _ => false

/-- first parts of the names of columns and rows -/
inductive GTag where
  | part | tot | inp | outp
  | thermal | resGen | hydroGen | thermalCG | resCG | hydroCG | pumps
  | flow | loss | lc | gc | angle | lcs | gcs
  | tb | ta | thermalPWC | resPWC | hydroPWC | thermalGR | hydroGR | balance | flowC | losses1 | losses2 | pb | ceed
  deriving DecidableEq, Repr

/-- name of a group of rows or columns -/
abbrev GKey := GTag × List Nat

/-- a column by the name of its group and its offset -/
abbrev GCol := GKey × Nat

/-- a row of the matrix: offset in its group, coefficients, bound -/
structure GRow where
  off : Nat
  terms : List (GCol × Rat)
  bnd : GBnd
  deriving DecidableEq, Repr

/-- a group of rows: name, number of rows that were reserved, rows that were written -/
structure GRows where
  key : GKey
  size : Nat
  rows : List GRow
  deriving DecidableEq, Repr

/-- what the code tells the wrapper: groups of columns with their bounds, groups of rows, objective -/
structure GProb where
  cols : List (GKey × List GBnd)
  rows : List GRows
  obj : List (GCol × Rat)
  deriving DecidableEq, Repr

/-- `col_ids`, GW:84-94: the first column of a group -/
def gStart : List (GKey × List GBnd) → GKey → Option Nat
  | [], _ => none
  | g :: gs, k => if g.1 = k then some 0 else (gStart gs k).map (· + g.2.length)

/-- number of a column, as in `self.thermalgenerators[i, j][1] + k` (an offset beyond the group is a column of the next group) -/
def GProb.col (p : GProb) (c : GCol) : Option Nat := (gStart p.cols c.1).map (· + c.2)

/-- rows with their numbers, GW:75-82; the groups from row `s` on -/
def gNumber : List GRows → Nat → List (Nat × GRow)
  | [], _ => []
  | g :: gs, s => g.rows.map (fun r => (s + r.off, r)) ++ gNumber gs (s + g.size)

/-- the linear program in GLPK: bounds of the columns, number of rows, rows with coefficients and bounds in the order in which they
are written, objective -/
structure GLp where
  cols : List GBnd
  nrows : Nat
  rows : List (Nat × List (Nat × Rat) × GBnd)
  obj : List (Nat × Rat)
  deriving DecidableEq, Repr

/-- a coefficient with the number of its column; a group that was not added has no attribute -/
def gTerm (p : GProb) (t : GCol × Rat) : Except PyErr (Nat × Rat) :=
  match p.col t.1 with
  | some c => .ok (c, t.2)
  | none => .error .attribute

/-- a row with the numbers of its columns -/
def gRowTerms (p : GProb) (r : Nat × GRow) : Except PyErr (Nat × List (Nat × Rat) × GBnd) := do
  let ts ← r.2.terms.mapM (gTerm p)
  .ok (r.1, ts, r.2.bnd)

/-- rows and columns of the coefficients -/
def gPlaces (rows : List (Nat × List (Nat × Rat) × GBnd)) : List (Nat × Nat) :=
  rows.flatMap (fun r => r.2.1.map (fun t => (r.1, t.1)))

/-- the calls of the wrapper, GW:75-158 -/
def gBuild (p : GProb) : Except PyErr GLp :=
  if ¬ (p.cols.map (·.1)).Nodup then .error .key
  else if ¬ (∀ g ∈ p.cols, g.2 ≠ []) then .error .runtime
  else if ¬ (p.rows.map (·.key)).Nodup then .error .key
  else if ¬ (∀ g ∈ p.rows, g.size ≠ 0) then .error .runtime
  else
    match (gNumber p.rows 0).mapM (gRowTerms p), p.obj.mapM (gTerm p) with
    | .error e, _ => .error e
    | _, .error e => .error e
    | .ok rows, .ok obj =>
      let n := (p.rows.map (·.size)).sum
      let bnds := p.cols.flatMap (·.2)
      if ¬ (∀ r ∈ rows, r.1 < n ∧ ∀ t ∈ r.2.1, t.1 < bnds.length) then .error .runtime
      else if ¬ (gPlaces rows).Nodup then .error .runtime
      else .ok ⟨bnds, n, rows, obj⟩

/-- the bound of a row is the last one that was set, GW:147-151; a row without bound is free -/
def GLp.rowBnd (lp : GLp) (r : Nat) : GBnd :=
  match (lp.rows.filter (fun q => q.1 == r)).getLast? with
  | some q => q.2.2
  | none => .free

/-- value of a row: the coefficients with its number -/
def GLp.rowVal (lp : GLp) (x : Nat → Rat) (r : Nat) : Rat :=
  ((lp.rows.filter (fun q => q.1 == r)).map (fun q => (q.2.1.map (fun t => t.2 * x t.1)).sum)).sum

/-- the points that the linear program allows -/
structure GFeasible (lp : GLp) (x : Nat → Rat) : Prop where
  cols : ∀ (c : Nat) (b : GBnd), lp.cols[c]? = some b → b.holds (x c)
  rows : ∀ r, r < lp.nrows → (lp.rowBnd r).holds (lp.rowVal x r)

/-- the objective -/
def GLp.cost (lp : GLp) (x : Nat → Rat) : Rat := (lp.obj.map (fun t => t.2 * x t.1)).sum

/-- `ret = self.solver.simplex()` and `assert ret == 0`, e.g. PM:1799-1800: what can be said before the search -/
def gSimplex (lp : GLp) : Except PyErr Unit :=
  if lp.cols.any (·.bad) || (List.range lp.nrows).any (fun r => (lp.rowBnd r).bad) then .error .assertion else .ok ()

/-- the values after `simplex`: the cheapest feasible point if there is one, and anything if the program has no
solution, GW:166-172 (the status of GLPK is not looked at) -/
def GReturned (lp : GLp) (x : Nat → Rat) : Prop :=
  (∃ y, GFeasible lp y ∧ ∀ z, GFeasible lp z → lp.cost y ≤ lp.cost z) →
    GFeasible lp x ∧ ∀ z, GFeasible lp z → lp.cost x ≤ lp.cost z

/-- `get_col_prim`, GW:173-176: the value that is read by name and offset -/
def GProb.val (p : GProb) (x : Nat → Rat) (k : GKey) (off : Nat) : Rat := x ((gStart p.cols k).getD 0 + off)

/-! ## the energy balance -/

/-- the data of `Energymodel.__init__`, PM:661-690: `nodes` is `TreeNodes`, `vectors` is `NumberTrees` -/
structure GeData where
  nodes : Nat
  vectors : Nat
  links : EnLinks
  w : EnWeights
  deriving DecidableEq, Repr

/-- from the energy model, PM:676-690 (`LL['NosBal'] + 1` is the number of nodes) -/
def geData (size : EnSize) (w : EnWeights) (links : EnLinks) : GeData := ⟨size.nodes, size.vectors, links, w⟩

/-- input of node `n` to tree `v`, PM:683 -/
def GeData.win (d : GeData) (v n : Nat) : Rat := ((d.w.win[n]?).bind (fun r => r[v]?)).getD 0

/-- output of node `n` of tree `v`, PM:685 -/
def GeData.wout (d : GeData) (v n : Nat) : Rat := ((d.w.wout[n]?).bind (fun r => r[v]?)).getD 0

/-- weight of node `n`, PM:687 -/
def GeData.wght (d : GeData) (n : Nat) : Rat := (d.w.wght[n]?).getD 0

/-- the column of a state of charge: partial storage (0) or total storage (1) of a node, PM:872-877, 929-945 -/
def gState (v : Nat) (s : EnState) : GCol := ((if s.2 = 0 then .part else .tot, [v]), s.1)

/-- `variablesEM`, PM:803-846, for the outputs in `released` the bounds of PM:4416-4422 -/
def geCols (d : GeData) (released : List Nat) : List (GKey × List GBnd) :=
  (List.range d.vectors).map (fun v => ((.part, [v]), (List.range d.nodes).map (fun n => if n = 0 then .fixed 0 else .lower 0))) ++
  (List.range d.vectors).map (fun v => ((.tot, [v]), (List.range d.nodes).map (fun n => if n = 0 then .fixed 0 else .lower 0))) ++
  (List.range d.vectors).map (fun v => ((.inp, [v]), (List.range d.nodes).map (fun n => .fixed (d.win v n)))) ++
  (List.range d.vectors).map (fun v => ((.outp, [v]), (List.range d.nodes).map (fun n =>
    if n ∈ released then .lower 0 else .fixed (d.wout v n))))

/-- a row of `Energybalance`, PM:863-898 -/
def geBalance (d : GeData) (v n : Nat) : Except PyErr GRow := do
  let s ← npGet d.links.ll1 n
  .ok ⟨n - 1, [(((.part, [v]), n), 1), (gState v s, -1), (((.inp, [v]), n), -1), (((.outp, [v]), n), 1)], .fixed 0⟩

/-- a row of `Aggregation`, PM:921-955 -/
def geAggregation (d : GeData) (v n : Nat) : Except PyErr GRow := do
  let r ← npGet d.links.ll2 n
  let s ← npGet d.links.ll1 r.1
  let a := d.wght r.1
  .ok ⟨n - 1, [(((.tot, [v]), n), 1), (gState v r.2, -a)] ++ (if 1 - a ≠ 0 then [(gState v s, -(1 - a))] else []), .fixed 0⟩

/-- `Energybalance` and `Aggregation`, PM:848-961 -/
def geRows (d : GeData) : Except PyErr (List GRows) := do
  let tb ← (List.range d.vectors).mapM (fun v => do
    let rows ← (List.range' 1 (d.nodes - 1)).mapM (geBalance d v)
    .ok (⟨(.tb, [v]), d.nodes - 1, rows⟩ : GRows))
  let ta ← (List.range d.vectors).mapM (fun v => do
    let rows ← (List.range' 1 (d.nodes - 1)).mapM (geAggregation d v)
    .ok (⟨(.ta, [v]), d.nodes - 1, rows⟩ : GRows))
  .ok (tb ++ ta)

/-- `modeldefinitionEM`, PM:775-800 and 1070-1076 (without trees the objective fails with an error of another kind) -/
def geProb (d : GeData) : Except PyErr GProb := do
  let rows ← geRows d
  .ok ⟨geCols d [], rows, [(((.part, [0]), 1), 1)]⟩

/-- `optimisationEM('GLPK')`, PM:758-770, up to the search -/
def geRun (d : GeData) : Except PyErr (GProb × GLp) := do
  let p ← geProb d
  let lp ← gBuild p
  gSimplex lp
  .ok (p, lp)

/-! ## the network -/

/-- a conventional or hydropower unit: `LCost`, limits, `data['Ramp']`, bus, `data['GEN']` -/
structure GnUnit where
  pieces : List (Rat × Rat)
  min : Rat
  max : Rat
  ramp : Rat
  bus : Int
  gen : Bool := true
  deriving DecidableEq, Repr

/-- a renewable unit: `LCost`, minimum, `RES['Max']`, bus, `resScenario` -/
structure GnRes where
  pieces : List (Rat × Rat)
  min : Rat
  max : Rat
  bus : Int
  link : List Nat
  deriving DecidableEq, Repr

/-- a bus: number, type, demand (`busData`), `busScenario` -/
structure GnBus where
  number : Int
  type : Nat
  demand : Rat
  link : List Nat
  deriving DecidableEq, Repr

/-- a branch: `pyomo['N-1']`, `BR_STATUS`, rating, reactance, resistance, losses (`getLoss`), numbers and positions of its buses -/
structure GnBranch where
  n1 : List (Option Nat)
  status : Bool
  rate : Rat
  x : Rat
  r : Rat
  loss : Rat
  fbus : Int
  tbus : Int
  fpos : Nat
  tpos : Nat
  deriving DecidableEq, Repr

/-- the network object: `connections['set']` is `range(insts)`, `settings['NoTime']`, units, pumps (`Max`, `Value`), buses,
branches, `len(settings['Security'])`, profiles, `scenarios['NoDem']`, `scenarios['Weights']`, base power, `settings['Loss']`,
pieces of the losses (`A`, `B`; none if `settings['Losses']` is off), `settings['Feasibility']`, `settings['Flag']` -/
structure GnCase where
  insts : Nat
  periods : Nat
  conv : List GnUnit
  res : List GnRes
  hydro : List GnUnit
  pumps : List (Rat × Rat)
  buses : List GnBus
  branches : List GnBranch
  cont : Nat
  resProfile : List Rat
  demProfile : List Rat
  noDem : Nat
  hours : List Rat
  base : Rat
  loss : Option Rat
  lossPieces : Option (List (Rat × Rat))
  feas : Bool
  opf : Bool
  deriving DecidableEq, Repr

/-- PM:1502-1513 and 1573-1577 are filled for all units: `RESScenarios` has one place for each conventional unit, and the tables of
the coefficients as many columns as the first unit has pieces -/
def gnResOk (c : GnCase) : Bool :=
  c.res.all (fun u => (List.range c.insts).all (fun i => match u.link[i]? with
      | none => false
      | some l => (List.range c.periods).all (fun j => decide (l + j < c.resProfile.length)))) &&
  (decide (c.insts = 0 ∨ c.periods = 0) || decide (c.res.length ≤ c.conv.length)) &&
  c.res.all (fun u => decide (u.pieces.length ≤ ((c.res.head?).map (fun (u : GnRes) => u.pieces.length)).getD 0))

/-- PM:1529-1543: the same for hydropower -/
def gnHydroOk (c : GnCase) : Bool :=
  c.hydro.all (fun u => decide (u.pieces.length ≤ ((c.hydro.head?).map (fun (u : GnUnit) => u.pieces.length)).getD 0))

/-- PM:1654-1678: the multipliers of the demand -/
def gnDemandOk (c : GnCase) : Bool :=
  c.buses.all (fun b => (List.range c.insts).all (fun i => match b.link[i]? with
      | none => false
      | some l => if c.noDem = 0 then decide (l < c.demProfile.length)
          else (List.range c.periods).all (fun j => decide (l + j < c.demProfile.length))))

/-- `Networkmodel.__init__`, PM:1364-1702: what it can fail on -/
def gnInit (c : GnCase) : Except PyErr Unit :=
  if ¬ (gnResOk c = true) then .error .index
  else if ¬ (gnHydroOk c = true) then .error .index
  else if c.opf = true ∧ ¬ (∀ b ∈ c.branches, c.cont < b.n1.length) then .error .index
  else if ¬ (gnDemandOk c = true) then .error .index
  else if c.opf = true ∧ ¬ (∀ b ∈ c.branches, b.x ≠ 0) then .error .value
  else if c.hours.length < c.periods then .error .index
  else .ok ()

/-- `ActiveConv`, PM:1431-1434 and 1694-1700: the unit is in service and its (first) bus is not isolated -/
def gnActive (c : GnCase) (u : GnUnit) : Bool :=
  u.gen && (match c.buses.find? (fun b => b.number == u.bus) with
    | some b => !(b.type == 4)
    | none => true)

/-- `ActiveBranches[k, b]`, PM:1563-1568 -/
def GnBranch.on (b : GnBranch) (k : Nat) : Bool := ((b.n1[k]?).getD none).isSome && b.status

/-- `TotalHoursPerPeriod[j]`, PM:1558 -/
def gnHours (c : GnCase) (j : Nat) : Rat := (c.hours[j]?).getD 0

/-- `RESScenarios[i, j, k] * MaxRESGen[k]`, PM:1496-1508 -/
def gnResMax (c : GnCase) (u : GnRes) (i j : Nat) : Rat := (c.resProfile[(u.link[i]?).getD 0 + j]?).getD 0 * u.max

/-- `MultScenariosDemand`, PM:1654-1678 -/
def gnMult (c : GnCase) (b : GnBus) (i j : Nat) : Rat :=
  (c.demProfile[(if c.noDem = 0 then 0 else j) + (b.link[i]?).getD 0]?).getD 0

/-- bounds of a unit, PM:1952-1990 -/
def gUnitBnd (min max : Rat) : GBnd := if min ≠ max then .bounded min max else .fixed min

/-- a group that is only added if it has members -/
def gSome (k : GKey) (bs : List GBnd) : List (GKey × List GBnd) := if bs = [] then [] else [(k, bs)]

/-- groups of one instance and period, PM:1901-1942, with their limits, PM:1946-2010 -/
def gnCommon (c : GnCase) (i j : Nat) : List (GKey × List GBnd) :=
  gSome (.thermal, [i, j]) (c.conv.map (fun u => if gnActive c u = true then gUnitBnd u.min u.max else .fixed 0)) ++
  gSome (.resGen, [i, j]) (c.res.map (fun u => gUnitBnd u.min (gnResMax c u i j))) ++
  gSome (.hydroGen, [i, j]) (c.hydro.map (fun u => gUnitBnd u.min u.max)) ++
  gSome (.thermalCG, [i, j]) (c.conv.map (fun _ => .lower 0)) ++
  gSome (.resCG, [i, j]) (c.res.map (fun _ => .lower 0)) ++
  gSome (.hydroCG, [i, j]) (c.hydro.map (fun _ => .lower 0)) ++
  gSome (.pumps, [i, j]) (c.pumps.map (fun q => if q.1 / c.base ≠ 0 then .bounded 0 (q.1 / c.base) else .fixed 0))

/-- instances and periods in the order of the loops -/
def gnTimes (c : GnCase) : List (Nat × Nat) := (List.range c.insts).flatMap (fun i => (List.range c.periods).map (fun j => (i, j)))

/-- instances, periods and contingencies in the order of the loops; 0 is the intact network -/
def gnStates (c : GnCase) : List (Nat × Nat × Nat) :=
  (gnTimes c).flatMap (fun q => (List.range (c.cont + 1)).map (fun k => (q.1, q.2, k)))

/-- whether a unit has its bus number, PM:2626-2651 -/
def gnHasGen (c : GnCase) (b : GnBus) : Bool :=
  c.conv.any (fun u => u.bus == b.number) || c.res.any (fun u => u.bus == b.number) || c.hydro.any (fun u => u.bus == b.number)

/-- the losses of the branches, if they are modelled, PM:2541-2547 and 2596-2603 -/
def gnLossCols (c : GnCase) (i j k : Nat) : List (GKey × List GBnd) :=
  match c.lossPieces with
  | some _ => [((.loss, [i, j, k]), c.branches.map (fun b => if b.on k = true then .lower 0 else .fixed 0))]
  | none => []

/-- groups of one instance, period and contingency, PM:2549-2586, with their limits, PM:2588-2669 -/
def gnOpfCols (c : GnCase) (i j k : Nat) : List (GKey × List GBnd) :=
  [((.flow, [i, j, k]), c.branches.map (fun b =>
    if b.on k = true ∧ 0 < b.rate then .bounded (-b.rate) b.rate
    else if b.on k = true ∧ b.rate = 100 then .free else .fixed 0))] ++
  gnLossCols c i j k ++
  (if c.feas = true then
    [((.lc, [i, j, k]), c.buses.map (fun b => if 0 < b.demand then .bounded 0 (b.demand * gnMult c b i j) else .fixed 0)),
     ((.gc, [i, j, k]), c.buses.map (fun b => if gnHasGen c b = true then .lower 0 else .fixed 0))]
   else []) ++
  [((.angle, [i, j, k]), c.buses.map (fun b => if b.type ≠ 3 then .free else .fixed 0))]

/-- groups of one instance and period of the economic dispatch, PM:2330-2340 -/
def gnEdCols (c : GnCase) (i j : Nat) : List (GKey × List GBnd) :=
  if c.feas = true then [((.lcs, [i, j]), [.lower 0]), ((.gcs, [i, j]), [.lower 0])] else []

/-- `variablesOPF` or `variablesED`, PM:2323-2340 and 2541-2669 -/
def gnCols (c : GnCase) : List (GKey × List GBnd) :=
  (gnTimes c).flatMap (fun q => gnCommon c q.1 q.2) ++
  (if c.opf = true then (gnStates c).flatMap (fun q => gnOpfCols c q.1 q.2.1 q.2.2)
   else (gnTimes c).flatMap (fun q => gnEdCols c q.1 q.2))

/-- rows of the pieces of the cost of a unit, PM:2079-2146 -/
def gnPieces (rt cg gen : GTag) (h : Rat) (i j k : Nat) (pieces : List (Rat × Rat)) : GRows :=
  ⟨(rt, [i, j, k]), pieces.length, pieces.zipIdx.map (fun q =>
    ⟨q.2, [(((cg, [i, j]), k), 1), (((gen, [i, j]), k), -h * q.1.1)], .lower (h * q.1.2)⟩)⟩

/-- `piecewiselinearisationcost`, PM:2014-2146 -/
def gnPwc (c : GnCase) : List GRows :=
  (gnTimes c).flatMap (fun q =>
    c.conv.zipIdx.map (fun u => gnPieces .thermalPWC .thermalCG .thermal (gnHours c q.2) q.1 q.2 u.2 u.1.pieces) ++
    c.res.zipIdx.map (fun u => gnPieces .resPWC .resCG .resGen (gnHours c q.2) q.1 q.2 u.2 u.1.pieces) ++
    c.hydro.zipIdx.map (fun u => gnPieces .hydroPWC .hydroCG .hydroGen (gnHours c q.2) q.1 q.2 u.2 u.1.pieces))

/-- rows of the ramps of the units of one kind between period `j - 1` and `j`, PM:2200-2240 -/
def gnRampRows (rt gen : GTag) (i j : Nat) (units : List GnUnit) : List GRows :=
  if units = [] then []
  else [⟨(rt, [i, j]), units.length, units.zipIdx.map (fun u =>
    ⟨u.2, [(((gen, [i, j]), u.2), 1), (((gen, [i, j - 1]), u.2), -1)], .bounded (-u.1.ramp) u.1.ramp⟩)⟩]

/-- `generationrampsconstraints`, PM:2148-2240 -/
def gnRamps (c : GnCase) : List GRows :=
  (gnTimes c).flatMap (fun q => if q.2 = 0 then [] else
    gnRampRows .thermalGR .thermal q.1 q.2 c.conv ++ gnRampRows .hydroGR .hydroGen q.1 q.2 c.hydro)

/-- units with the bus number `n`, PM:2706-2735 -/
def gnAt {α : Type} (bus : α → Int) (n : Int) (tag : GTag) (i j : Nat) (l : List α) : List (GCol × Rat) :=
  (l.zipIdx.filter (fun u => bus u.1 == n)).map (fun u => (((tag, [i, j]), u.2), 1))

/-- the terms of the flows of a branch at a bus, PM:2766-2783 -/
def gnFlowTerms (n : Int) (i j k : Nat) (b : GnBranch × Nat) : List (GCol × Rat) :=
  (if b.1.fbus = n then [(((.flow, [i, j, k]), b.2), -1)] else []) ++
  (if b.1.tbus = n then [(((.flow, [i, j, k]), b.2), 1)] else [])

/-- the terms of the losses of a branch at a bus, PM:2785-2796 -/
def gnLossTerms (n : Int) (i j k : Nat) (b : GnBranch × Nat) : List (GCol × Rat) :=
  if b.1.fbus = n ∨ b.1.tbus = n then [(((.loss, [i, j, k]), b.2), -1 / 2)] else []

/-- non-technical losses of the branches at a bus, PM:2843-2853 (`getLoss()/BaseUnitPower`, PM:1625-1627) -/
def gnNonTech (c : GnCase) (n : Int) : Rat :=
  (c.branches.map (fun b => (if b.fbus = n then 1 / 2 * (b.loss / c.base) else 0) +
    (if b.tbus = n then 1 / 2 * (b.loss / c.base) else 0))).sum

/-- the demand of a bus, PM:2815-2838 -/
def gnDemand (c : GnCase) (b : GnBus) (i j : Nat) : Rat :=
  match c.loss with
  | none => b.demand * gnMult c b i j
  | some l => b.demand * gnMult c b i j * (1 + l)

/-- the losses of the branches at a bus: columns, if they are modelled, or a number, PM:2785-2796 and 2843-2853 -/
def gnLossPart (c : GnCase) (n : Int) (i j k : Nat) : List (GCol × Rat) × Rat :=
  match c.lossPieces with
  | some _ => (c.branches.zipIdx.flatMap (gnLossTerms n i j k), 0)
  | none => ([], gnNonTech c n)

/-- row of the balance of bus `b` (position `n`), PM:2703-2859: the pumps are in the balance of every bus -/
def gnBalanceRow (c : GnCase) (i j k : Nat) (b : GnBus × Nat) : GRow :=
  ⟨b.2,
   gnAt (fun u : GnUnit => u.bus) b.1.number .thermal i j c.conv ++
   gnAt (fun u : GnRes => u.bus) b.1.number .resGen i j c.res ++
   gnAt (fun u : GnUnit => u.bus) b.1.number .hydroGen i j c.hydro ++
   (c.pumps.zipIdx.filter (fun q => decide (0 < q.1.1 / c.base))).map (fun q => (((.pumps, [i, j]), q.2), -1)) ++
   c.branches.zipIdx.flatMap (gnFlowTerms b.1.number i j k) ++
   (gnLossPart c b.1.number i j k).1 ++
   (if c.feas = true then [(((.lc, [i, j, k]), b.2), 1), (((.gc, [i, j, k]), b.2), -1)] else []),
   .fixed (gnDemand c b.1 i j + (gnLossPart c b.1.number i j k).2)⟩

/-- `activepowerbalancepernode`, PM:2673-2859; isolated buses (type 4) have no balance -/
def gnBalance (c : GnCase) : List GRows :=
  (gnStates c).map (fun q => ⟨(.balance, [q.1, q.2.1, q.2.2]), c.buses.length,
    (c.buses.zipIdx.filter (fun b => !(b.1.type == 4))).map (gnBalanceRow c q.1 q.2.1 q.2.2)⟩)

/-- row of the flow of a branch, written at the position `b.2` of the branches in service, PM:2904-2936 -/
def gnFlowRow (i j k : Nat) (b : (GnBranch × Nat) × Nat) : GRow :=
  ⟨b.2, [(((.flow, [i, j, k]), b.1.2), 1), (((.angle, [i, j, k]), b.1.1.fpos), -1 / b.1.1.x),
    (((.angle, [i, j, k]), b.1.1.tpos), 1 / b.1.1.x)], .fixed 0⟩

/-- `activepowerflowconstraints`, PM:2861-2936: after a contingency one row less is reserved -/
def gnFlows (c : GnCase) : List GRows :=
  (gnStates c).map (fun q => ⟨(.flowC, [q.1, q.2.1, q.2.2]), if q.2.2 = 0 then c.branches.length else c.branches.length - 1,
    (c.branches.zipIdx.filter (fun b => b.1.on q.2.2)).zipIdx.map (gnFlowRow q.1 q.2.1 q.2.2)⟩)

/-- `activepowerlosses1constraints` (sign -1) and `activepowerlosses2constraints` (sign 1), PM:2938-3066 -/
def gnLosses (c : GnCase) (rt : GTag) (sign : Rat) (ps : List (Rat × Rat)) : List GRows :=
  (gnStates c).flatMap (fun q => (c.branches.zipIdx.filter (fun b => b.1.on q.2.2)).map (fun b =>
    ⟨(rt, [q.1, q.2.1, q.2.2, b.2]), ps.length, ps.zipIdx.map (fun a =>
      ⟨a.2, [(((.loss, [q.1, q.2.1, q.2.2]), b.2), 1), (((.flow, [q.1, q.2.1, q.2.2]), b.2), sign * (a.1.2 * b.1.r))],
        .lower (a.1.1 * b.1.r)⟩)⟩))

/-- the rows of the losses, if they are modelled, PM:2470-2472 -/
def gnLossRows (c : GnCase) : List GRows :=
  match c.lossPieces with
  | some ps => gnLosses c .losses1 (-1) ps ++ gnLosses c .losses2 1 ps
  | none => []

/-- the rows of the network in the optimal power flow but for the costs, PM:2468-2472 -/
def gnOpfRows (c : GnCase) : List GRows := gnBalance c ++ gnFlows c ++ gnLossRows c

/-- `activepowerbalancesystem`, PM:2344-2444 -/
def gnSystem (c : GnCase) : List GRows :=
  (gnTimes c).map (fun q => ⟨(.pb, [q.1, q.2]), 1,
    [⟨0, (List.range c.conv.length).map (fun k => (((.thermal, [q.1, q.2]), k), 1)) ++
      (List.range c.hydro.length).map (fun k => (((.hydroGen, [q.1, q.2]), k), 1)) ++
      (if c.feas = true then [(((.lcs, [q.1, q.2]), 0), 1), (((.gcs, [q.1, q.2]), 0), -1)] else []) ++
      (List.range c.pumps.length).map (fun k => (((.pumps, [q.1, q.2]), k), -1)),
      .fixed ((c.buses.map (fun b => gnDemand c b q.1 q.2)).sum)⟩]⟩)

/-- `Objective_functionCommon` and `Objective_functionENM`, PM:2244-2290 and 4478-4572; `w` is the weight of the instance -/
def gnObj (c : GnCase) (w : Nat → Rat) (penalty : Rat) : List (GCol × Rat) :=
  (gnTimes c).flatMap (fun q =>
    (List.range c.conv.length).map (fun k => (((.thermalCG, [q.1, q.2]), k), w q.1 * gnHours c q.2)) ++
    (List.range c.res.length).map (fun k => (((.resCG, [q.1, q.2]), k), w q.1 * gnHours c q.2)) ++
    (List.range c.hydro.length).map (fun k => (((.hydroCG, [q.1, q.2]), k), w q.1 * gnHours c q.2)) ++
    c.pumps.zipIdx.map (fun p => (((.pumps, [q.1, q.2]), p.2), -w q.1 * gnHours c q.2 * c.base * p.1.2)) ++
    (if c.feas = true then
      if c.opf = true then
        (List.range (c.cont + 1)).flatMap (fun k =>
          (List.range c.buses.length).map (fun n => (((.lc, [q.1, q.2, k]), n), w q.1 * gnHours c q.2 * penalty)) ++
          (List.range c.buses.length).map (fun n => (((.gc, [q.1, q.2, k]), n), w q.1 * gnHours c q.2 * penalty)))
      else [(((.lcs, [q.1, q.2]), 0), w q.1 * gnHours c q.2 * penalty)]
     else []))

/-- `OptimalPowerFlowModel` and `EconomicDispatchModel`, PM:2294-2325 and 2450-2480: the economic dispatch calls
`self.constraintsED`, which does not exist -/
def gnProb (c : GnCase) : Except PyErr GProb :=
  if c.opf = true then .ok ⟨gnCols c, gnPwc c ++ gnOpfRows c, gnObj c (fun _ => 1) 100000000⟩
  else .error .attribute

/-- `Networkmodel(obj)` and `optimisationNM('GLPK')`, PM:1783-1800, up to the search -/
def gnRun (c : GnCase) : Except PyErr (GProb × GLp) := do
  gnInit c
  let p ← gnProb c
  let lp ← gBuild p
  gSimplex lp
  .ok (p, lp)

/-! ## energy and network -/

/-- the data of `EnergyandNetwork.__init__`, PM:4356-4385: energy tree, `tree['After']`, network, `p['pyeneE']`, `Penalty` -/
structure GxData where
  en : GeData
  after : List (Nat × Nat)
  net : GnCase
  conn : List Nat
  penalty : Rat
  deriving DecidableEq, Repr

/-- `str(v)+str(i)`, PM:4438: the digits of both numbers, one after the other -/
def gDigits (v i : Nat) : List Nat := (Nat.toDigits 10 v ++ Nat.toDigits 10 i).map Char.toNat

/-- row of `EnergyandNetworkRelation`, PM:4426-4475: the output of tree `v` at the node `node` of instance `i` is the energy of
hydropower unit `v` -/
def gxLink (c : GnCase) (v i node : Nat) : GRows :=
  ⟨(.ceed, gDigits v i), 1, [⟨0, (((.outp, [v]), node), 1) ::
    (List.range c.periods).map (fun j => (((.hydroGen, [i, j]), v), -gnHours c j * c.base)), .fixed 0⟩]⟩

/-- the nodes of the instances, `ConnectionTreeGen[j]`; they are nodes of the tree -/
def gxNodes (d : GxData) : Except PyErr (List Nat) := (List.range d.net.insts).mapM (npGet d.conn)

/-- the weights of the instances, PM:4484-4496 -/
def gxWeights (d : GxData) : Except PyErr (List Rat) := do
  let r ← (List.range d.en.nodes).foldlM (ofNode d.after) (d.en.w.wght, List.replicate d.net.insts 1, 0)
  .ok r.2.1

/-- `EnergyandNetworkModels`, PM:4404-4450 and 4478-4572: with renewable units the balance of the economic dispatch
writes outside a list (PM:2383) -/
def gxProb (d : GxData) : Except PyErr GProb := do
  let nodes ← gxNodes d
  let en ← geRows d.en
  let net ← (if d.net.opf = true then .ok (gnOpfRows d.net)
    else if d.net.res ≠ [] ∧ gnTimes d.net ≠ [] then .error .index else .ok (gnSystem d.net) : Except PyErr (List GRows))
  let w ← gxWeights d
  .ok ⟨geCols d.en (if d.net.hydro = [] then [] else nodes) ++ gnCols d.net,
    en ++ net ++
    (if d.net.hydro = [] then [] else
      (List.range d.en.vectors).flatMap (fun v => nodes.zipIdx.map (fun q => gxLink d.net v q.2 q.1))) ++
    gnPwc d.net ++ gnRamps d.net,
    gnObj d.net (fun i => (w[i]?).getD 0) d.penalty⟩

/-- `EnergyandNetwork(…)` and `optimisationENM('GLPK')`, PM:4386-4402, up to the search -/
def gxRun (d : GxData) : Except PyErr (GProb × GLp) := do
  gnInit d.net
  let p ← gxProb d
  let lp ← gBuild p
  gSimplex lp
  .ok (p, lp)

end Pyensys
