import Verif.Model.Solution
import Verif.Model.Commitment

/-!
# Model of the report of the planning tool `attest_invest_path`

Source: pyensys/cases.py (CA): `save_in_jsonW` 744-854, `attest_invest_path` 1129-1159.  The command line calls `attest_invest_path` (cli.py `attest_invest_path`); `save_in_jsonW` is
called there with the default `yrs=[]`, `scen=[]`.  The file is the value that `json.dump` is given; prints and times are dropped.
-/

namespace Pyensys

/-- the entry of a year, CA:805-809 -/
structure RpYear where
  operation : Rat
  branch : List Rat
  flexibility : List Rat
  deriving DecidableEq, Repr

/-- the entry of a scenario, CA:750-759, with the entries of years under their keys `str(year)`; texts of integers are kept as integers -/
structure RpScen where
  total : Rat
  flexible : Rat
  operation : Rat
  years : List (Int × RpYear)
  deriving DecidableEq, Repr

/-- the dictionary under its keys -/
abbrev RpData := List (String × RpScen)

/-- `data[key]`, KeyError if there is none -/
def rpAt {κ α : Type} [DecidableEq κ] (d : List (κ × α)) (k : κ) : Except PyErr α :=
  match d.find? (fun e => decide (e.1 = k)) with
  | some e => .ok e.2
  | none => .error .key

/-- an in-place change of `data[key]`, KeyError if there is none -/
def rpUpdate {κ α : Type} [DecidableEq κ] (d : List (κ × α)) (k : κ) (f : α → Except PyErr α) : Except PyErr (List (κ × α)) := do
  let a ← rpAt d k
  let b ← f a
  return d.map (fun e => if e.1 = k then (e.1, b) else e)

/-- `data[key] = value`: the value of a known key is replaced, a new key is appended -/
def rpSet {κ α : Type} [DecidableEq κ] (d : List (κ × α)) (k : κ) (b : α) : List (κ × α) :=
  if d.any (fun e => decide (e.1 = k)) then d.map (fun e => if e.1 = k then (e.1, b) else e) else d ++ [(k, b)]

/-- `l[i] = v` for an integer `i` -/
def rpPut (l : List Rat) (i : Int) (v : Rat) : Except PyErr (List Rat) :=
  let j : Int := if i < 0 then i + l.length else i
  if j < 0 ∨ l.length ≤ j.toNat then .error .index else .ok (l.set j.toNat v)

/-- the names of the scenarios in the dictionary, CA:750, 755, 800-804 -/
def rpName (xp : Nat) : String := if xp = 0 then "Scenario 1 (Active economy)" else "Scenario 2 (Slow economy)"

/-- the names under which the interventions are entered, CA:813 -/
def rpShortName (xp : Nat) : String := if xp = 0 then "Scenario 1" else "Scenario 2"

/-- the dictionary at the beginning, CA:747-760 (case name apart) -/
def rpStart : RpData := [(rpName 0, ⟨0, 0, 0, []⟩), (rpName 1, ⟨0, 0, 0, []⟩)]

/-- the state of the loop CA:766-781: least and largest scenario and the rows of each -/
structure RpScan where
  low : Nat := 1000
  high : Nat := 0
  lowRows : List LineRow := []
  highRows : List LineRow := []
  deriving DecidableEq, Repr

/-- a step of the loop CA:766-781; the rows are kept themselves instead of their positions -/
def rpScanStep (s : RpScan) (r : LineRow) : RpScan :=
  let s1 : RpScan := if r.1 < s.low then ⟨r.1, s.high, [], s.highRows⟩ else s
  let s2 : RpScan := if s1.high < r.1 then ⟨s1.low, r.1, s1.lowRows, []⟩ else s1
  let s3 : RpScan := if s2.low = r.1 then ⟨s2.low, s2.high, s2.lowRows ++ [r], s2.highRows⟩ else s2
  if s3.high = r.1 then ⟨s3.low, s3.high, s3.lowRows, s3.highRows ++ [r]⟩ else s3

/-- the rows of the first and of the last scenario, CA:763-785 -/
def rpRows (lines : List LineRow) : List LineRow × List LineRow :=
  let s := lines.foldl rpScanStep {}
  (s.lowRows, if s.low = s.high then [] else s.highRows)

/-- the years of these rows without repetition, CA:788-802 -/
def rpYears (rows : List LineRow) : List Int :=
  rows.foldl (fun ys r => if ys.contains r.2.1 then ys else ys ++ [r.2.1]) []

/-- CA:804-815: an entry of zeros for every year in both scenarios -/
def rpZeros (noLines : Nat) (years : List Int) : RpScen → RpScen := fun s =>
  ⟨s.total, s.flexible, s.operation, years.foldl (fun d y => rpSet d y ⟨0, List.replicate noLines 0, List.replicate noLines 0⟩) s.years⟩

/-- the loop CA:830-833: `(flg, xc2)` at its end -/
def rpCompare : List Int → List Int → Nat → Bool × Nat
  | a :: as, b :: bs, k => if a ≠ b then (false, k + 1) else rpCompare as bs (k + 1)
  | _, _, k => (true, k)

/-- the search CA:823-835 for the cluster of a row, from number `k` on: `len` of an integer raises TypeError, the end of the list IndexError -/
def rpFind (lin : List Int) : List Pos → Nat → Except PyErr Nat
  | [], _ => .error .index
  | .single _ :: _, _ => .error .type
  | .cluster c :: ps, k =>
    if lin.length = c.length then
      let f := rpCompare lin c 0
      if f.1 && decide (lin.length ≠ f.2) then rpFind lin ps (k + 1) else .ok k
    else rpFind lin ps (k + 1)

/-- `clusters_capacity[xc1][xc]`, CA:839: a number has no elements (TypeError), the empty text has none either (IndexError) -/
def rpCap (c : Cap) (xc : Nat) : Except PyErr Rat :=
  match c with
  | .num _ => .error .type
  | .text => .error .index
  | .list l => pyGet l xc

/-- `clusters_positions[xc1][xc]`, CA:837: an integer has no elements -/
def rpLine (p : Pos) (xc : Nat) : Except PyErr Int :=
  match p with
  | .single _ => .error .type
  | .cluster l => pyGet l xc

/-- the assignment CA:836-839 for element `xc` of cluster `xc1` -/
def rpEnter (txt : String) (year : Int) (clusters : List (Pos × Cap)) (xc1 : Nat) (d : RpData) (xc : Nat) : Except PyErr RpData := do
  let c ← pyGet clusters xc1
  let ax ← rpLine c.1 xc
  let v ← rpCap c.2 xc
  rpUpdate d txt (fun s => do
    let ys ← rpUpdate s.years year (fun y => do
      let b ← rpPut y.branch ax v
      return ⟨y.operation, b, y.flexibility⟩)
    return ⟨s.total, s.flexible, s.operation, ys⟩)

/-- the body CA:819-839 of the loop over the rows of a scenario -/
def rpRow (txt : String) (clusters : List (Pos × Cap)) (d : RpData) (r : LineRow) : Except PyErr RpData :=
  match r.2.2 with
  | .single _ => .error .type
  | .cluster lin => do
    let xc1 ← rpFind lin (clusters.map Prod.fst) 0
    (List.range lin.length).foldlM (rpEnter txt r.2.1 clusters xc1) d

/-- `cost/1000000`; `None/1000000` raises TypeError -/
def rpMillion : Option Rat → Except PyErr Rat
  | some c => .ok (c / 1000000)
  | none => .error .type

/-- the total of a scenario, CA:842-847 -/
def rpTotal (d : RpData) (key : String) (c : Option Rat) : Except PyErr RpData := do
  let v ← rpMillion c
  rpUpdate d key (fun s => .ok ⟨v, s.flexible, s.operation, s.years⟩)

/-- a step of the loop CA:841-847; `scen` is the scenario of the last row, or the argument `[]` if there are no rows, which equals no number -/
def rpCost (scen : Option Nat) (d : RpData) (r : CostRow) : Except PyErr RpData := do
  let d ← if r.1 = 0 then rpTotal d "Scenario 1 (Active economy)" r.2 else .ok d
  if some r.1 = scen then rpTotal d "Scenario 2 (Slow economy)" r.2 else .ok d

/-- `save_in_jsonW`, CA:744-854: the dictionary that is written -/
def saveInJsonW (t : Tables) (noLines : Nat) (clusters : List (Pos × Cap)) : Except PyErr RpData := do
  let rows := rpRows t.lines
  let years := rpYears (rows.1 ++ rows.2)
  let d := rpStart.map (fun e => (e.1, rpZeros noLines years e.2))
  let d ← rows.1.foldlM (rpRow (rpShortName 0) clusters) d
  let d ← rows.2.foldlM (rpRow (rpShortName 1) clusters) d
  t.investment.foldlM (rpCost (t.lines.getLast?.map Prod.fst)) d

/-- the clusters that `attest_invest_path` collects, CA:1141-1147: the first intervention of every level of the first incumbent plan -/
def rpClusters (inc : List (Int × Sol)) : Except PyErr (List (Pos × Cap)) :=
  match inc with
  | [] => .error .index
  | e :: _ => .ok (e.2.filterMap (fun x => x.2.head?.map (fun v => (v.2.position, v.2.capacity))))

/-- `s[x] in chars` -/
def rpHit (s chars : List Char) (x : Int) : Bool :=
  match pyGet s x with
  | .ok c => chars.contains c
  | .error _ => false

/-- `while s[x] not in chars: x -= 1` from `start` on, CA:1149-1154: positions below zero count from the end, IndexError before the first character -/
def rpBack (s : List Char) (chars : List Char) (start : Int) : Except PyErr Int :=
  match ((List.range (start + 1 + s.length).toNat).map (fun k : Nat => start - (k : Int))).find? (rpHit s chars) with
  | some x => .ok x
  | none => .error .index

/-- the name of the case, CA:1149-1155 (the same code at CA:1086-1092 and 1120-1126) -/
def rpCase (s : List Char) : Except PyErr (List Char) := do
  let x1 ← rpBack s ['.'] ((s.length : Int) - 1)
  let x2 ← rpBack s ['/', '\\'] (x1 - 1)
  return pySlice s (x2 + 1) x1

/-- the file that is written -/
structure RpFile where
  country : List Char
  caseName : List Char
  data : RpData
  deriving DecidableEq, Repr

/-- `attest_invest_path`, CA:1129-1159, from `main_access_function` (GeneralManager.py:10-34) on: for an anticipative problem that returns None, which cannot be unpacked -/
def attestInvestPath (nonAnticipative : Bool) (cfg : Cfg) (td : TreeData) (fuel : Nat) (inputDir : List Char) (noLines : Nat) : Except PyErr RpFile :=
  if !nonAnticipative then .error .type
  else do
    let r ← runSearch cfg fuel
    let t ← getSolution td r.2.complete
    let cs ← rpClusters r.2.incInt
    let name ← rpCase inputDir
    let d ← saveInJsonW t noLines cs
    return ⟨name, name, d⟩

end Pyensys
