import Verif.Model.Attest
import Mathlib.Algebra.Order.Ring.Abs
import Mathlib.Data.List.Sort

/-!
# Model of the screening of investment clusters

Source: pyensys/cases.py:474-637 (`Screenning_clusters`, CA below) and
pyensys/Optimisers/screening_model_CLI.py:729-804 (`main_screening`, SC below).

The linear programme of `model_screening` (SC:78-727) is an oracle `solve` here: it maps the number of the year, the previous
investments and the bus multipliers of one scenario to the investment of every branch (with `NoTime = 1`,
SC:733, the two vectors returned at SC:727 are equal).  The programme itself is modelled in
`Verif.Model.ScreeningLP`.

Simplifications: floats are rationals; the optional EV load (SC:747-765) is part of the oracle; prints and
files are left out.  All clusters have one entry per branch, so the column loops (CA:566-570, 622-625) are
written as recursions over the two rows.
-/

namespace Pyensys

/-- `min([i for i in cat if i >= x])`, SC:782-788 and CA:520-526: ValueError if no size is large enough -/
def roundUp (cat : List Rat) (x : Rat) : Except PyErr Rat :=
  match cat.filter (fun i => x ≤ i) with
  | [] => .error .value
  | i :: is => .ok (is.foldl min i)

/-- the catalogue of a branch: lines have TAP = 0, SC:780, CA:519 -/
def branchCat (lineCat trafoCat : List Rat) (tap : Rat) : List Rat := if tap = 0 then lineCat else trafoCat

/-- the loop SC:778-788 over the branches (taps and investments) -/
def roundCluster (lineCat trafoCat : List Rat) (taps : List Rat) (v : List Rat) : Except PyErr (List Rat) :=
  (taps.zip v).mapM (fun p => if p.2 > 0 then roundUp (branchCat lineCat trafoCat p.1) p.2 else .ok p.2)

/-- what the loops of `main_screening` have collected: the investments found (the columns of `interv_dict`,
in order of the scenarios) and the rounded clusters -/
structure Screened where
  found : List (List Rat) := []
  clusters : List (List Rat) := []
  deriving DecidableEq, Repr

/-- the loop over the scenarios of one year, SC:744-795; returns the investments of the last scenario
(`temp_prev_invest`), if there was one. -/
def screenYear (lineCat trafoCat taps : List Rat) (solve : Nat → List Rat → List Rat → Except PyErr (List Rat))
    (xy : Nat) (prev : List Rat) : List (List Rat) → Option (List Rat) → Screened →
    Except PyErr (Option (List Rat) × Screened)
  | [], last, s => .ok (last, s)
  | mult :: ms, _, s => do
    let ic ← solve xy prev mult
    let c ← roundCluster lineCat trafoCat taps ic
    screenYear lineCat trafoCat taps solve xy prev ms (some ic)
      { found := s.found ++ [ic], clusters := s.clusters ++ [c] }

/-- the loop over the years, SC:743-797 (`temp_prev_invest` is unbound before the first scenario) -/
def screenYears (lineCat trafoCat taps : List Rat) (solve : Nat → List Rat → List Rat → Except PyErr (List Rat)) :
    List (List (List Rat)) → Nat → List Rat → Option (List Rat) → Screened → Except PyErr Screened
  | [], _, _, _, s => .ok s
  | year :: years, xy, prev, last, s => do
    let r ← screenYear lineCat trafoCat taps solve xy prev year last s
    match r.1 with
    | none => .error .name
    | some ic => screenYears lineCat trafoCat taps solve years (xy + 1) (List.zipWith (· + ·) ic prev) r.1 r.2

/-- `main_screening`, SC:729-804 -/
def mainScreening (lineCat trafoCat taps : List Rat) (solve : Nat → List Rat → List Rat → Except PyErr (List Rat))
    (multiplier : List (List (List Rat))) : Except PyErr Screened :=
  screenYears lineCat trafoCat taps solve multiplier 0 (List.replicate taps.length 0) none {}

/-- the loop CA:516-531 for one branch: sizes of the catalogue that cover the investments found for the
branch (its result is not used any further, but it may raise) -/
def reduceBranch (cat : List Rat) (vals : List Rat) : Except PyErr (List Rat) :=
  if vals.sum > 0 then do
    let r ← vals.mapM (roundUp cat)
    return r.dedup.insertionSort (· ≤ ·)
  else .ok []

/-- CA:515-531 for all branches -/
def reduceDict (lineCat trafoCat taps : List Rat) (found : List (List Rat)) : Except PyErr (List (List Rat)) :=
  taps.zipIdx.mapM (fun p => reduceBranch (branchCat lineCat trafoCat p.1)
    ((found.filterMap (fun ic => ic[p.2]?)).insertionSort (· ≤ ·)))

/-- the loop CA:548-556: each cluster once, in order of first occurrence -/
def dedupStep (acc : List (List Rat)) (c : List Rat) : List (List Rat) := if c ∈ acc then acc else acc ++ [c]

/-- CA:533, 548-556 -/
def distinctClusters (l : List (List Rat)) : List (List Rat) := l.foldl dedupStep []

/-- the loop CA:564-570: some column of the first cluster is greater -/
def anyGreater : List Rat → List Rat → Bool
  | a :: as, b :: bs => if a > b then true else anyGreater as bs
  | _, _ => false

/-- the inner loop CA:563-574: the cluster at place `x1` is exchanged with every later one that it exceeds
in some column; returns the final cluster at `x1` and the later ones -/
def carry (a : List Rat) : List (List Rat) → List Rat × List (List Rat)
  | [] => (a, [])
  | b :: bs =>
    if anyGreater a b then
      let r := carry b bs
      (r.1, a :: r.2)
    else
      let r := carry a bs
      (r.1, b :: r.2)

theorem carry_length (a : List Rat) (l : List (List Rat)) : (carry a l).2.length = l.length := by
  induction l generalizing a with
  | nil => rfl
  | cons b bs ih => unfold carry; split <;> simp [ih]

/-- the outer loop CA:562-574 -/
def exchangeSort : List (List Rat) → List (List Rat)
  | [] => []
  | a :: l => (carry a l).1 :: exchangeSort (carry a l).2
termination_by l => l.length
decreasing_by simp [carry_length]

/-- CA:587-591: one branch of a cluster; the size is looked up in the catalogue of lines -/
def clusterCostStep (lineCat lineCost : List Rat) (acc v : Rat) : Except PyErr Rat :=
  if v > 0 then do
    let i ← catalogueIndex lineCat v
    let x ← pyGet lineCost (i : Nat)
    return acc + x
  else return acc

/-- CA:585-591: the cost of a cluster -/
def clusterCost (lineCat lineCost : List Rat) (c : List Rat) : Except PyErr Rat :=
  c.foldlM (clusterCostStep lineCat lineCost) 0

/-- `np.linspace(start, stop, num)`, CA:595-596 -/
def linspace (start stop : Rat) (num : Nat) : List Rat :=
  if num = 1 then [start]
  else (List.range num).map (fun i => start + (i : Rat) * ((stop - start) / ((num : Rat) - 1)))

/-- the body of the loop CA:601-606 for an available place `x2`: the place replaces the best so far if its
cost is strictly nearer to `ideal` (or if it is the first, CA:600) -/
def nearestStep (ideal : Rat) (costs : List Rat) (best : Option (Rat × Nat)) (x2 : Nat) : Option (Rat × Nat) :=
  match costs[x2]?, best with
  | none, _ => best
  | some c, none => some (c, x2)
  | some c, some (aux1, _) => if |ideal - aux1| > |ideal - c| then some (c, x2) else best

/-- the loop CA:600-606: the place of the first cost nearest to `ideal` among the places in `avail` -/
def nearest (ideal : Rat) (costs : List Rat) (avail : List Nat) : Option (Rat × Nat) :=
  avail.foldl (nearestStep ideal costs) none

/-- the loop CA:599-607: one place per ideal cost; `True` is the number 1 if nothing is available (CA:597) -/
def selectClusters (costs : List Rat) : List Rat → List Nat → List Nat
  | [], _ => []
  | ideal :: rest, avail =>
    let x := match nearest ideal costs avail with
      | some p => p.2
      | none => 1
    x :: selectClusters costs rest (avail.filter (· ≠ x))

/-- CA:580-628: the clusters that are kept, from the sorted list of distinct clusters -/
def limitClusters (lineCat lineCost : List Rat) (maxClusters : Int) (sorted : List (List Rat)) :
    Except PyErr (List (List Rat)) :=
  if (sorted.length : Int) > maxClusters then do
    let costs ← sorted.mapM (clusterCost lineCat lineCost)
    let maxCost ← pyGet costs ((sorted.length : Int) - 1)
    if maxClusters = 0 then .error .zeroDivision
    else if maxClusters < 0 then .error .value
    else
      let ideals := linspace (maxCost / maxClusters) maxCost maxClusters.toNat
      ((selectClusters costs ideals (List.range sorted.length)).insertionSort (· ≤ ·)).mapM
        (fun (x : Nat) => pyGet sorted (x : Int))
  else return sorted.filter (fun c => c.any (fun v => v > 0))

/-- `Screenning_clusters`, CA:474-637, after the multipliers have been expanded; `final_interv_clust[0]`
(CA:561) raises IndexError if there is no cluster, and the unused correction factor (CA:488) divides by the
total active demand `pdSum`. -/
def screeningClusters (pdSum : Rat) (lineCat trafoCat lineCost taps : List Rat) (maxClusters : Int)
    (solve : Nat → List Rat → List Rat → Except PyErr (List Rat)) (multiplier : List (List (List Rat))) :
    Except PyErr (List (List Rat)) :=
  if pdSum = 0 then .error .zeroDivision else do
  let s ← mainScreening lineCat trafoCat taps solve multiplier
  let _ ← reduceDict lineCat trafoCat taps s.found
  let distinct := distinctClusters s.clusters
  let _ ← pyGet distinct 0
  limitClusters lineCat lineCost maxClusters (exchangeSort distinct)

end Pyensys
