import Verif.Model.Types
import Verif.Model.NodeData
import Mathlib.Data.Rat.Floor

/-!
# Model of the preparation of the ATTEST planning problem: demand growth and the input document

Source: pyensys/cases.py (CA below): `attest_invest` 961-997, `build_json` 640-727, `kwargs2ListF`
730-741; pyensys/Optimisers/process_data.py:152-175 (PD), scenarios_multipliers.py (SM).

Simplifications: floats are rationals; years are integers (Python keeps them as decimal strings and
converts with `int`); `Option_Growth` is the constant 1 (CA:945), its other branch is dead code;
scenario numbers, which come from digits (CA:735-737), are natural numbers; prints and the copies
written to files are left out.
-/

namespace Pyensys

/-- the rates of one economy by year, e.g. `growth['Active']` -/
abbrev Rates := List (Int × Rat)

/-- the dictionaries `growth` and `DSR`, CA:948-952 -/
abbrev RateTable := List (String × Rates)

/-- `table[key]`: KeyError if absent -/
def economyAt (t : RateTable) (k : String) : Except PyErr Rates :=
  match t.find? (fun e => e.1 = k) with
  | some e => .ok e.2
  | none => .error .key

/-- `table[key][year]`: KeyError if absent -/
def rateAt (t : RateTable) (k : String) (y : Int) : Except PyErr Rat := do
  let r ← economyAt t k
  match r.find? (fun e => e.1 = y) with
  | some e => .ok e.2
  | none => .error .key

/-- The loop CA:979-983: `n` values, starting at `start` and going down by `step`. -/
def descending (step : Rat) : Nat → Rat → List Rat
  | 0, _ => []
  | n + 1, start => start :: descending step n (start - step)

/-- `keys[1]`, CA:973: IndexError if there is only one economy -/
def secondKey (keys : List String) : Except PyErr String :=
  match keys[1]? with
  | some k => .ok k
  | none => .error .index

/-- Body of the loop CA:966-997 for the step from year `prev` (number `yr`, multipliers `row`) to year
`cur`: the new rows of `multiplier` and `flex`. -/
def growthStep (growth dsr : RateTable) (keys : List String) (k0 : String) (yr : Nat) (prev cur : Int)
    (row : List Rat) : Except PyErr (List Rat × List Rat) := do
  let aux : Rat := ((cur - prev : Int) : Rat) / 100
  let first ← pyGet row 0
  let g0 ← rateAt growth k0 cur
  let aux1 := first * (1 + g0 * aux)
  let last ← pyGet row (-1)
  let k1 ← secondKey keys
  let g1 ← rateAt growth k1 cur
  let aux2 := last * (1 + g1 * aux)
  let aux3 := (aux1 - aux2) / (2 ^ (yr + 1) - 1)
  let d0 ← rateAt dsr k0 cur
  let dsrax1 := 1 - d0
  let d1 ← rateAt dsr k1 cur
  let dsrax2 := (dsrax1 + d1 - 1) / (2 ^ (yr + 1) - 1)
  return (descending aux3 (2 ^ (yr + 1)) aux1, descending dsrax2 (2 ^ (yr + 1)) dsrax1)

/-- The loop CA:966-997 from year number `yr` on: the rows that are appended. -/
def growthLoop (growth dsr : RateTable) (keys : List String) (k0 : String) : Nat → Int → List Rat →
    List Int → Except PyErr (List (List Rat) × List (List Rat))
  | _, _, _, [] => .ok ([], [])
  | yr, prev, row, cur :: rest => do
    let r ← growthStep growth dsr keys k0 yr prev cur row
    let rs ← growthLoop growth dsr keys k0 (yr + 1) cur r.1 rest
    return (r.1 :: rs.1, r.2 :: rs.2)

/-- the years and the two trees of factors -/
structure GrowthTree where
  years : List Int
  multiplier : List (List Rat)
  flex : List (List Rat)
  deriving DecidableEq, Repr

/-- `attest_invest`, CA:961-997.  The growth of the first year is not divided by 100 (CA:963). -/
def growthTree (growth dsr : RateTable) : Except PyErr GrowthTree :=
  match growth with
  | [] => .error .index
  | (k0, g0) :: _ =>
    match g0 with
    | [] => .error .index
    | (y0, r0) :: rest => do
      let d0 ← rateAt dsr k0 y0
      let rs ← growthLoop growth dsr (growth.map (·.1)) k0 0 y0 [1 * (1 + r0)] (rest.map (·.1))
      return { years := g0.map (·.1), multiplier := [1 * (1 + r0)] :: rs.1, flex := [1 - d0] :: rs.2 }

/-- `mult_for_bus`, PD:152-164, with `busMult_input = []` (CA:492): the same factor for every bus. -/
def multForBus (noBus : Nat) (multiplier flex : List (List Rat)) : Except PyErr (List (List (List Rat))) :=
  multiplier.zipIdx.mapM (fun p => p.1.zipIdx.mapM (fun q =>
    match (flex[p.2]?).bind (fun r => r[q.2]?) with
    | some f => .ok (List.replicate noBus (q.1 * f))
    | none => .error .index))

/-! ## the demand table -/

/-- position in year `xy` of scenario `xs`, CA:695: `int(np.ceil((xs+1)/2**(NoYrs-1)*2**xy)-1)`.
(Quotients by powers of two are exact in floating point.) -/
def treePosition (noYrs xs xy : Nat) : Int :=
  ⌈((xs : Rat) + 1) / 2 ^ (noYrs - 1) * 2 ^ xy⌉ - 1

/-- `pos_demand`, CA:679-684: positions of the buses with non-zero active demand. -/
def demandBuses (pd : List Rat) : List Nat :=
  (pd.zipIdx.filter (fun p => p.1 ≠ 0)).map (·.2)

/-- the rows of CA:696-699 for one scenario and year -/
def demandRows (pd qd : List Rat) (multiplier : List (List Rat)) (noYrs xs xy : Nat) (year : Int) :
    Except PyErr (List DataRow) :=
  (demandBuses pd).mapM (fun (xb : Nat) => do
    let p ← pyGet pd (xb : Int)
    let row ← pyGet multiplier xy
    let m ← pyGet row (treePosition noYrs xs xy)
    let q ← pyGet qd (xb : Int)
    return { scenario := (xs : Int) + 1, year := year, bus := xb, p := p * m, q := q * m })

/-- `scenarios`, CA:688-692: all scenarios of the last year unless some are given. -/
def chosenScenarios (multiplier : List (List Rat)) (noYrs : Nat) (scenarios : List Nat) :
    Except PyErr (List Nat) := do
  let row ← pyGet multiplier ((noYrs : Int) - 1)
  return if scenarios = [] then List.range row.length else scenarios

/-- the loops CA:693-699: the table "buses" -/
def demandTable (pd qd : List Rat) (multiplier : List (List Rat)) (yrs : List Int) (scenarios : List Nat) :
    Except PyErr (List DataRow) := do
  let ss ← chosenScenarios multiplier yrs.length scenarios
  let blocks ← ss.mapM (fun xs => yrs.zipIdx.mapM (fun y => demandRows pd qd multiplier yrs.length xs y.2 y.1))
  return blocks.flatten.flatten

/-! ## the investment options -/

/-- the loops CA:589-590 and CA:713-714: position of a size in the catalogue, IndexError if absent -/
def catalogueIndex (cat : List Rat) (x : Rat) : Except PyErr Nat :=
  if x ∈ cat then .ok (cat.idxOf x) else .error .index

/-- one investment option under construction: cost, 1-based branch numbers, capacities -/
structure AttestOption where
  cost : Rat := 0
  elements : List Int := []
  capacity : List Rat := []
  deriving DecidableEq, Repr

/-- Body of the loop CA:710-718. -/
def optionStep (cat costs lengths : List Rat) (oversize : Nat) (cluster : List Rat) (o : AttestOption)
    (xb : Nat) : Except PyErr AttestOption := do
  let v ← pyGet cluster xb
  if v > 0 then do
    let i ← catalogueIndex cat v
    let c ← pyGet costs (i + oversize : Nat)
    let len ← pyGet lengths xb
    let cap ← pyGet cat (i + oversize : Nat)
    return { cost := o.cost + c * len, elements := o.elements ++ [(xb : Int) + 1], capacity := o.capacity ++ [cap] }
  else return o

/-- `build_json`, CA:701-725: the investment options of the document; IndexError without clusters. -/
def attestOptions (cat costs lengths : List Rat) (oversize : Nat) (clusters : List (List Rat)) :
    Except PyErr (List AttestOption) := do
  let c0 ← pyGet clusters 0
  clusters.mapM (fun c => (List.range c0.length).foldlM (optionStep cat costs lengths oversize c) {})

/-- the entry of "optimisation_binary_variables", CA:667-673, 719-725 -/
def attestGroup (os : List AttestOption) : OptionGroup :=
  { elementType := "line", variableName := "", positions := os.map (fun o => .cluster o.elements),
    costs := os.map (·.cost), installationTimes := os.map (fun _ => 0), capacities := os.map (fun o => .list o.capacity) }

/-- CA:931-934: default line costs when none are given -/
def lineCosts (cat costs : List Rat) : List Rat := if costs = [] then cat.map (fun i => 40000 * i) else costs

/-- CA:1015-1019: missing line lengths are filled with 1 or with the first length -/
def lineLengths (noLines : Nat) (lengths : List Rat) : List Rat :=
  match lengths with
  | [] => List.replicate noLines 1
  | l :: _ => lengths ++ List.replicate (noLines - lengths.length) l

/-! ## options given as text -/

/-- `kwargs2ListF`, CA:730-741, on text: one number per digit character (ASCII digits). -/
def digitsOption (s : List Char) : List Rat :=
  (s.filter (fun c => decide ('0' ≤ c ∧ c ≤ '9'))).map (fun c => ((c.toNat - 48 : Nat) : Rat))

/-! ## the fixed multipliers of the three countries -/

/-- `get_mult`, SM:75-97, for given mean annual growth rates (2030, 2040, 2050) of the two economies -/
def countryMultipliers (a30 a40 a50 s30 s40 s50 : Rat) : List (List Rat) :=
  let m30 : List Rat := [1 + a30 * 10 / 100, 1 + s30 * 10 / 100]
  let f := (1 + a30 * 10 / 100) * (1 + a40 * 10 / 100)
  let l := (1 + s30 * 10 / 100) * (1 + s40 * 10 / 100)
  let m40 : List Rat := [f, f - (f - l) * 1 / 3, f - (f - l) * 2 / 3, l]
  let f5 := f * (1 + a50 * 10 / 100)
  let l5 := (f - (f - l) * 1 / 3) * (1 + s50 * 10 / 100)
  let m50 : List Rat := f5 :: ((List.range 6).map (fun i => f5 - (f5 - l5) * ((i : Rat) + 1) / 7)) ++ [l5]
  [[1], m30, m40, m50]

end Pyensys
