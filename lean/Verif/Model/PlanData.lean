import Verif.Model.Energy
import Verif.Model.Attest

/-!
# Model of the data of the investment tool: load sheets, factors, costs, catalogues, results

Sources: pyensys/Optimisers/input_output_function.py (IO below) and pyensys/Optimisers/process_data.py (PD below).

Modelled: `get_time_series_data` (IO:287-370), `get_peak_data` (IO:377-411), the check of the catalogues in `read_input_data` (IO:57-105), `read_screenModel_output` (IO:112-162),
`output_data2Json` (IO:166-278), `record_*`, `initial_value`, `recordValues`, `replaceGenCost`, `get_factors` (PD:16-193).

Simplifications: floats are exact rationals; a sheet is the list of its rows, a row its first cell (the column "Bus \ Hour", which is the first one) and the others; files are the values
read from or written to them; `model.Set['Year']`, `['Sea']`, `['Day']`, `['Tim']` are ranges; prints are left out.
-/

namespace Pyensys

/-- rows of a sheet: bus and hours -/
abbrev PdSheet := List (Int × List Rat)

/-- `[i for i,x in enumerate(load_bus) if x == bus_i]`, IO:323, 394 -/
def pdRowsOf (load : PdSheet) (bus : Int) : List Nat := (load.zipIdx.filter (fun r => r.1.1 == bus)).map (fun r => r.2)

/-- one round of the loop of `get_peak_data`, IO:390-408; the lists are `base_Pd`, `peak_Pd` -/
def pdPeakBus (load : PdSheet) (buses : List Int) (hour : Int) (s : List (List Rat) × List Rat) (ib : Nat) : Except PyErr (List (List Rat) × List Rat) := do
  let bus ← npGet buses ib
  match pdRowsOf load bus with
  | i :: _ =>
    let row ← npGet load i
    let base := s.1 ++ [row.2]
    let own ← npGet base ib
    let v ← pyGet own hour
    .ok (base, s.2 ++ [v])
  | [] => .ok (s.1 ++ [List.replicate 24 0], s.2 ++ [0])

/-- `get_peak_data`, IO:377-411 -/
def getPeakData (load : PdSheet) (noBus : Nat) (buses : List Int) (hour : Int) : Except PyErr (List Rat) := do
  let s ← (List.range noBus).foldlM (pdPeakBus load buses hour) ([], [])
  .ok s.2

/-- the sheets, IO:290-300 -/
structure PdSheets where
  p : PdSheet
  q : PdSheet
  up : PdSheet
  dn : PdSheet
  deriving DecidableEq, Repr

/-- the lists of `get_time_series_data`, IO:294-316 -/
structure PdSeries where
  baseP : List (List Rat)
  baseQ : List (List Rat)
  peakP : List Rat
  peakQ : List Rat
  baseUp : List (List Rat)
  baseDn : List (List Rat)
  peakUp : List Rat
  peakDn : List Rat
  deriving DecidableEq, Repr

/-- one round of the loop of `get_time_series_data`, IO:318-366: the peak of the reactive load is read from the active load (IO:337), the other sheets at the row of the first one -/
def pdSeriesBus (d : PdSheets) (buses : List Int) (hour : Int) (s : PdSeries) (ib : Nat) : Except PyErr PdSeries := do
  let bus ← npGet buses ib
  match pdRowsOf d.p bus with
  | i :: _ =>
    let rp ← npGet d.p i
    let baseP := s.baseP ++ [rp.2]
    let rq ← npGet d.q i
    let baseQ := s.baseQ ++ [rq.2]
    let own ← npGet baseP ib
    let v ← pyGet own hour
    let own2 ← npGet baseP ib
    let v2 ← pyGet own2 hour
    let ru ← npGet d.up i
    let baseUp := s.baseUp ++ [ru.2]
    let rd ← npGet d.dn i
    let baseDn := s.baseDn ++ [rd.2]
    let ownU ← npGet baseUp ib
    let u ← pyGet ownU hour
    let ownD ← npGet baseDn ib
    let w ← pyGet ownD hour
    .ok ⟨baseP, baseQ, s.peakP ++ [v], s.peakQ ++ [v2], baseUp, baseDn, s.peakUp ++ [u], s.peakDn ++ [w]⟩
  | [] =>
    let z : List Rat := List.replicate 24 0
    .ok ⟨s.baseP ++ [z], s.baseQ ++ [z], s.peakP ++ [0], s.peakQ ++ [0], s.baseUp ++ [z], s.baseDn ++ [z], s.peakUp ++ [0], s.peakDn ++ [0]⟩

/-- `get_time_series_data`, IO:287-370 (the result without the two `None` and the list of buses with load) -/
def getTimeSeries (d : PdSheets) (noBus : Nat) (buses : List Int) (hour : Int) : Except PyErr PdSeries :=
  (List.range noBus).foldlM (pdSeriesBus d buses hour) ⟨[], [], [], [], [], [], [], []⟩

/-! ## factors -/

/-- a quotient; ZeroDivisionError -/
def pdDiv (a b : Rat) : Except PyErr Rat := if b = 0 then .error .zeroDivision else .ok (a / b)

/-- the discount factors, PD:179-181 -/
def pdDiscount (d : Rat) (n : Nat) : Except PyErr (List Rat) :=
  (List.range n).foldlM (fun l y => do
    let f ← pdDiv 1 ((1 - d) ^ y)
    npSet l y f) (List.replicate n 0)

/-- the capital recovery factors, PD:184-189 -/
def pdRecovery (d : Rat) (n : Nat) : Except PyErr (List Rat) :=
  (List.range' 1 (n - 1)).foldlM (fun l xy => do
    let f ← pdDiv (d * (1 + d) ^ (xy * 10)) ((1 + d) ^ (xy * 10) - 1)
    npSet l xy f) (List.replicate n 1)

/-- `get_factors`, PD:178-193 -/
def getFactors (d : Rat) (n : Nat) : Except PyErr (List Rat × List Rat) := do
  let df ← pdDiscount d n
  let crf ← pdRecovery d n
  .ok (df, crf)

/-! ## costs of the generators -/

/-- `mpc["gencost"]["COST"][k][0]` -/
def pdFirst (cost : List (List Rat)) (k : Nat) : Except PyErr Rat := do
  let row ← npGet cost k
  npGet row 0

/-- `recordValues`, PD:122-134: `RATE_A` of the branches, first coefficient of the costs -/
def recordValues (rateA : List Rat) (noBranch : Nat) (cost : List (List Rat)) (noGen : Nat) : Except PyErr (List Rat × List Rat) := do
  let bra ← (List.range noBranch).mapM (npGet rateA)
  let gen ← (List.range noGen).mapM (pdFirst cost)
  .ok (bra, gen)

/-- `mpc["gencost"]["COST"][k][0] = v` -/
def pdSetFirst (cost : List (List Rat)) (k : Nat) (v : Rat) : Except PyErr (List (List Rat)) := do
  let row ← npGet cost k
  let row ← npSet row 0 v
  npSet cost k row

/-- `replaceGenCost`, PD:137-150: action 0 writes 0.1, any other the recorded costs -/
def replaceGenCost (noGen : Nat) (cost : List (List Rat)) (genCost : List Rat) (action : Int) : Except PyErr (List (List Rat)) :=
  if action = 0 then (List.range noGen).foldlM (fun c k => pdSetFirst c k (1 / 10)) cost
  else (List.range noGen).foldlM (fun c k => do
    let v ← npGet genCost k
    pdSetFirst c k v) cost

/-! ## catalogues and costs of interventions -/

/-- sizes and costs of lines and transformers -/
structure PdCat where
  lines : List Rat
  trafos : List Rat
  lineCost : List Rat
  trafoCost : List Rat
  deriving DecidableEq, Repr

/-- the sizes for which the file has wrong lengths, IO:75-85 -/
def pdLineSizes : List Rat := [10, 50, 100, 200, 500, 800]
def pdTrafoSizes : List Rat := [560, 880, 1200, 2400, 5600]

/-- the sizes without a file, IO:97-104 -/
def pdTrafoNoFile : List Rat := [3/1000, 6/1000, 9/1000, 15/1000, 3/100, 45/1000, 75/1000, 1125/10000, 15/100, 225/1000, 3/10, 1/2, 3/4, 1, 2, 5, 10, 20, 30, 40, 50, 60, 80, 100, 250, 500]
def pdLineNoFile : List Rat := [45/1000, 75/1000, 1125/10000, 15/100, 225/1000, 3/10, 1/2, 3/4, 1, 2, 5, 10, 20, 30, 40, 50, 60, 80, 100, 250, 500]

/-- the catalogues of `read_input_data`, IO:57-105: `none` if there is no file "intervention.json" -/
def readCatalogue : Option PdCat → PdCat
  | none => ⟨pdLineNoFile, pdTrafoNoFile, pdLineNoFile.map (fun i => 20 * i), pdTrafoNoFile.map (fun i => 20 * i)⟩
  | some c =>
    let c1 : PdCat := if c.lines.length ≠ c.lineCost.length then ⟨pdLineSizes, c.trafos, pdLineSizes.map (fun i => 20 * i), c.trafoCost⟩ else c
    if c1.trafos.length ≠ c1.trafoCost.length then ⟨c1.lines, pdTrafoSizes, c1.lineCost, pdTrafoSizes.map (fun i => 20 * i)⟩ else c1

/-- the sizes of each branch without a screening result, IO:126-132 -/
def pdAllSizes (c : PdCat) (tap : List Rat) (noBranch : Nat) : Except PyErr (List (List Rat)) :=
  (List.range noBranch).foldlM (fun s k => do
    let t ← npGet tap k
    if t ≠ 0 then npSet s k c.trafos else .ok s) (List.replicate noBranch c.lines)

/-- `[i for i,x in enumerate(catalogue) if x == size]`, then `cost[temp[0]]`, IO:147-156 -/
def pdCostOf (cat cost : List Rat) (size : Rat) : Except PyErr Rat := do
  let i ← npGet ((cat.zipIdx.filter (fun q => q.1 == size)).map (fun q => q.2)) 0
  npGet cost i

/-- the costs of a branch, IO:140-157 -/
def pdBranchCost (c : PdCat) (tap : List Rat) (k : Nat) (sizes : List Rat) : Except PyErr (List Rat) :=
  sizes.foldlM (fun l z => do
    let t ← npGet tap k
    let v ← (if t = 0 then pdCostOf c.lines c.lineCost z else pdCostOf c.trafos c.trafoCost z)
    .ok (l ++ [v])) []

/-- `S_ci[str(k)]`: sizes of branch `k` in the screening result, KeyError if it is not there -/
def pdSizesOf (s : List (Nat × List Rat)) (k : Nat) : Except PyErr (List Rat) :=
  match s.lookup k with
  | some l => .ok l
  | none => .error .key

/-- `read_screenModel_output`, IO:112-162: `screen` is the result of the screening model, if there is a file; the sizes are those of all branches, the costs those of the branches -/
def readScreenOutput (screen : Option (List (Nat × List Rat))) (c : PdCat) (tap : List Rat) (noBranch : Nat) :
    Except PyErr (List (Nat × List Rat) × List (List Rat)) := do
  let s ← (match screen with
    | some s => .ok s
    | none => do
      let l ← pdAllSizes c tap noBranch
      .ok (l.zipIdx.map (fun q => (q.2, q.1))) : Except PyErr (List (Nat × List Rat)))
  let costs ← (List.range noBranch).mapM (fun k => do
    let sizes ← pdSizesOf s k
    pdBranchCost c tap k sizes)
  .ok (s, costs)

/-! ## the file with the result -/

/-- the entry of a year, IO:192-196 -/
structure OjYear where
  operation : Rat
  branch : List Rat
  flex : List Rat
  deriving DecidableEq, Repr

/-- the entry of a scenario, IO:181-198: costs (the key of the operation cost is "Net Present Operation Cost (EUR)" if only the extreme scenarios are written), years under their keys -/
structure OjScen where
  total : Rat
  branchCost : Rat
  flexCost : Rat
  operation : Rat
  years : List (Nat × OjYear)
  deriving DecidableEq, Repr

/-- the arguments, IO:166 -/
structure OjArgs where
  noPath : Nat
  noYear : Nat
  path : List (List Nat)
  sumCO : Rat
  yearlyCO : List (List Rat)
  ci : List (List (List Rat))
  sumCi : Rat
  cflex : List (List Rat)
  all : Bool
  deriving DecidableEq, Repr

/-- `a[y][s]` -/
def ojAt {α : Type} (a : List (List α)) (y s : Nat) : Except PyErr α := do
  let r ← npGet a y
  npGet r s

/-- `a[y][s] = v` -/
def ojPut {α : Type} (a : List (List α)) (y s : Nat) (v : α) : Except PyErr (List (List α)) := do
  let r ← npGet a y
  let r ← npSet r s v
  npSet a y r

/-- `0 if abs(x)<=1e-4 else x`, IO:189 -/
def ojRound (x : Rat) : Rat := if |x| ≤ 1 / 10000 then 0 else x

/-- `path_sce[xp][y]` -/
def ojPath (g : OjArgs) (xp : Int) (y : Nat) : Except PyErr Nat := do
  let p ← pyGet g.path xp
  npGet p y

/-- the entry of year `y`, IO:187-196 and 243-252; the list of the argument is changed -/
def ojYear (g : OjArgs) (xp : Int) (s : List (List (List Rat)) × List (Nat × OjYear)) (y : Nat) : Except PyErr (List (List (List Rat)) × List (Nat × OjYear)) := do
  let k ← ojPath g xp y
  let old ← ojAt s.1 y k
  let flex ← ojPut s.1 y k (old.map ojRound)
  let key ← npGet [2020, 2030, 2040, 2050] y
  let op ← (if g.sumCO = 0 then .ok 0 else ojAt g.yearlyCO y k)
  let branch ← ojAt g.ci y k
  let f ← ojAt flex y k
  .ok (flex, s.2 ++ [(key, ⟨op, branch, f⟩)])

/-- the costs of the flexibility on a path, IO:182 -/
def ojFlexCost (g : OjArgs) (xp : Int) : Except PyErr Rat := do
  let l ← (List.range g.noYear).mapM (fun y => do
    let k ← ojPath g xp y
    ojAt g.cflex y k)
  .ok l.sum

/-- the entry of a scenario, IO:180-198 -/
def ojScen (g : OjArgs) (s : List (List (List Rat)) × List (Nat × OjScen)) (q : Int × Nat) : Except PyErr (List (List (List Rat)) × List (Nat × OjScen)) := do
  let c ← ojFlexCost g q.1
  let r ← (List.range g.noYear).foldlM (ojYear g q.1) (s.1, [])
  .ok (r.1, s.2 ++ [(q.2, ⟨g.sumCi + c, g.sumCi, c, g.sumCO, r.2⟩)])

/-- the scenarios that are written with the numbers in their keys, IO:179, 202-205 -/
def ojPaths (g : OjArgs) : List (Int × Nat) :=
  if g.all = true then (List.range g.noPath).map (fun (x : Nat) => ((x : Int), x + 1)) else [(0, 1), ((g.noPath : Int) - 1, 2)]

/-- `output_data2Json`, IO:166-278: `Pflex` after the call and the scenarios of the file -/
def outputData (g : OjArgs) (pflex : List (List (List Rat))) : Except PyErr (List (List (List Rat)) × List (Nat × OjScen)) :=
  (ojPaths g).foldlM (ojScen g) (pflex, [])

/-! ## recording of results -/

/-- a change of `l[i]` in place -/
def pdModify {α : Type} (l : List α) (i : Nat) (f : α → Except PyErr α) : Except PyErr (List α) := do
  let a ← npGet l i
  let b ← f a
  npSet l i b

/-- `record_bra_from_pyo_result`, `record_bus_from_pyo_result` with `year_peak`, PD:20-27 and 49-56, `initial_value`, PD:107-120 (with constant `val`), and `record_invest_from_pyo_result`, PD:74-90
(with `val` the sum of the sizes times the values): `n` values for each year and scenario -/
def pdRecord (val : Nat → Nat → Nat → Except PyErr Rat) (years sce n : Nat) : Except PyErr (List (List (List Rat))) :=
  (List.range years).foldlM (fun l y => (List.range (sce ^ y)).foldlM (fun l s => do
    let l ← pdModify l y (fun r => .ok (r ++ [[]]))
    (List.range n).foldlM (fun l b => do
      let v ← val b y s
      pdModify l y (fun r => pdModify r s (fun e => .ok (e ++ [v])))) l) (l ++ [[]])) []

/-- the value of `record_invest_from_pyo_result` for a branch, PD:84-87: the sizes of the branch under the key `str(xbr)`; `model.Set["Intev"][xbr]` are the positions of the sizes -/
def pdInvest (sizes : List (Nat × List Rat)) (intev : Nat → List Nat) (ci : Nat → Nat → Nat → Nat → Rat) (b y s : Nat) : Except PyErr Rat := do
  let l ← pdSizesOf sizes b
  if l ≠ [] then
    let t ← (intev b).mapM (fun i => do
      let z ← npGet l i
      .ok (z * ci b i y s))
    .ok t.sum
  else .ok 0

end Pyensys
