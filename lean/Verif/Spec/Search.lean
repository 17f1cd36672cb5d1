import Verif.Model.Search
import Mathlib.Data.List.Chain
import Mathlib.Data.List.Forall2
import Mathlib.Algebra.Order.Field.Rat

/-!
# Vocabulary for the statements about the search

Nothing here is used by the model; these are the notions in which the properties are phrased.
-/

namespace Pyensys

/-- the keys `'0', ..., 'n-1'` -/
def ints (n : Nat) : List Int := (List.range n).map (fun (i : Nat) => (i : Int))

/-- keys of a container are pairwise distinct -/
def Distinct {V : Type} (l : List (Int × V)) : Prop := (l.map (·.1)).Nodup

/-- `ns` is a path of the control graph that starts at the root (node 0). -/
def RootPath (cfg : Cfg) (ns : List Nat) : Prop :=
  ns.head? = some 0 ∧ ns.IsChain (fun a b => b ∈ cfg.nbr a)

/-- a root path that ends at a node without successors -/
def RootToLeaf (cfg : Cfg) (ns : List Nat) : Prop :=
  RootPath cfg ns ∧ ∃ m, ns.getLast? = some m ∧ cfg.nbr m = []

/-- every path of the control graph that starts at `n` has at most `h` edges -/
def HeightLe (cfg : Cfg) : Nat → Nat → Prop
  | 0, n => cfg.nbr n = []
  | h + 1, n => ∀ c ∈ cfg.nbr n, HeightLe cfg h c

/-- the optimisation years are listed in (weakly) increasing order -/
def Sorted (cfg : Cfg) : Prop := cfg.years.Pairwise (· ≤ ·)

/-- Well-formed problem: the pool has distinct keys, the return rate is not 100 %, the control graph
below the root has finite height `h`, there is a year for each level and Python's recursion limit
exceeds the height. -/
structure WellFormed (cfg : Cfg) (fuel : Nat) : Prop where
  pool : (cfg.pool.map (·.1)).Nodup
  rate : cfg.rate ≠ 100
  height : ∃ h, HeightLe cfg h 0 ∧ h < fuel ∧ h < cfg.years.length

/-- all times of a container shifted by `d` -/
def shiftTimes (d : Int) (t : Times) : Times := t.map (fun kv => (kv.1, kv.2 + d))

/-- all times of all levels shifted by `d` -/
def shiftLevels (d : Int) (l : List (Int × Times)) : List (Int × Times) :=
  l.map (fun kt => (kt.1, shiftTimes d kt.2))

/-- a container of times describes a group: same keys in the same order, keys distinct -/
def GroupAligned (t : Times) (g : Group) : Prop := t.map (·.1) = g.map (·.1) ∧ Distinct g

/-- times and interventions of a candidate describe the same levels and groups -/
def SolAligned (ts : List (Int × Times)) (s : Sol) : Prop :=
  List.Forall₂ (fun t g => t.1 = g.1 ∧ GroupAligned t.2 g.2) ts s

/-- remaining times do not exceed the installation times -/
def GroupTimes (t : Times) (g : Group) : Prop :=
  List.Forall₂ (fun kt kv => kt.2 ≤ kv.2.installationTime) t g

/-- the same for all levels -/
def SolTimes (ts : List (Int × Times)) (s : Sol) : Prop :=
  List.Forall₂ (fun t g => GroupTimes t.2 g.2) ts s

/-- keys of all interventions of a solution, over all levels -/
def solKeys (s : Sol) : List Int := s.flatMap (fun lg => lg.2.map (·.1))

/-- A consistent candidate: a root path with one group of interventions, one container of times and
one operation cost per node, filed under the level; interventions come from the pool and none is
chosen twice. -/
structure CandOK (cfg : Cfg) (info : Info) : Prop where
  pathKeys : info.candPath.map (·.1) = ints info.candPath.length
  chain : info.candPath = [] ∨ RootPath cfg (info.candPath.map (·.2))
  intKeys : info.candInt.map (·.1) = ints info.candPath.length
  aligned : SolAligned info.candTime info.candInt
  opKeys : info.candOp.map (·.1) = ints info.candPath.length
  pool : ∀ lg ∈ info.candInt, ∀ e ∈ lg.2, e ∈ cfg.pool
  distinct : (solKeys info.candInt).Nodup
  times : Sorted cfg → SolTimes info.candTime info.candInt

/-- The search stands at `info.node`, whose proper ancestors form the candidate path. -/
structure AtNode (cfg : Cfg) (info : Info) : Prop where
  cand : CandOK cfg info
  level : info.level = info.candPath.length
  root : RootPath cfg (info.candPath.map (·.2) ++ [info.node])

/-- The four containers of a plan carry the same keys in the same order. -/
structure PlanAligned (p : Plan) : Prop where
  op : p.operationCosts.map (·.1) = p.interventions.map (·.1)
  inv : p.investmentCosts.map (·.1) = p.interventions.map (·.1)
  path : p.graphPaths.map (·.1) = p.interventions.map (·.1)

/-- so do those of the incumbent, of the partial tree and of the complete plan -/
structure StoreAligned (info : Info) : Prop where
  inc : PlanAligned info.incumbent
  part : PlanAligned info.partialTree
  comp : PlanAligned info.complete

/-- The stored solutions of a plan, position by position: path, interventions, investment cost,
operation cost. -/
def planRows (p : Plan) : List (Path × Sol × Rat × Rat) :=
  (p.graphPaths.zip (p.interventions.zip (p.investmentCosts.zip p.operationCosts))).map
    (fun r => (r.1.2, r.2.1.2, r.2.2.1.2, r.2.2.2.2))

/-- total (investment + operation) cost of a plan -/
def planTotal (p : Plan) : Rat :=
  (p.investmentCosts.map (·.2)).sum + (p.operationCosts.map (·.2)).sum

/-- Called in state `a` with recursion depth `n + 1` left, `solve` makes a recursive call in state
`b`: if that very call is made to fail, the whole call fails. -/
def CallsAt (cfg : Cfg) (n : Nat) (a b : Info) : Prop :=
  solveBody cfg (fun i => if i = b then .error .recursion else solve cfg n i) a = .error .recursion

/-- The states in which `solve` is entered during the run of the search started by
`main_access_function`, with the recursion depth left. -/
inductive Visited (cfg : Cfg) (fuel : Nat) : Nat → Info → Prop
  | start : Visited cfg fuel fuel {}
  | call {n a b} : Visited cfg fuel (n + 1) a → CallsAt cfg n a b → Visited cfg fuel n b

/-- `info` is a state in which some call of `solve` is entered or left during the run. -/
def Moment (cfg : Cfg) (fuel : Nat) (info : Info) : Prop :=
  (∃ n, Visited cfg fuel n info) ∨ ∃ n a f, Visited cfg fuel n a ∧ solve cfg n a = .ok (f, info)

/-- Non-anticipativity: two scenario paths of the plan that share a node record the same
interventions at that node. -/
def NonAnticipative (p : Plan) : Prop :=
  ∀ r₁ ∈ planRows p, ∀ r₂ ∈ planRows p, ∀ (i : Nat) (n : Int × Nat),
    r₁.1[i]? = some n → r₂.1[i]? = some n → r₁.2.1[i]? = r₂.2.1[i]?

/-- root-to-leaf paths of the sub-tree of height at most `h` below node `n` -/
def leafPaths (cfg : Cfg) : Nat → Nat → List (List Nat)
  | 0, n => [[n]]
  | h + 1, n => if cfg.nbr n = [] then [[n]]
    else (cfg.nbr n).flatMap (fun c => (leafPaths cfg h c).map (n :: ·))

/-- A decision for each node of the tree: the interventions started there. -/
abbrev Decision := Nat → Group

/-- The interventions that are finished at position `i` of a path: those started at a node `j ≤ i`
of the path at least their installation time ago. -/
def finishedAt (cfg : Cfg) (α : Decision) (path : List Nat) (i : Nat) : List BinVar :=
  (List.range (i + 1)).flatMap (fun j =>
    ((α (path.getD j 0)).filter (fun e =>
      e.2.installationTime ≤ cfg.years.getD i 0 - cfg.years.getD j 0)).map (·.2))

/-- The decision is feasible: it uses pool entries, none twice on a path, and the OPF (here a
function of node and finished interventions) accepts every node of every scenario. -/
def FeasibleDecision (cfg : Cfg) (α : Decision) (paths : List (List Nat)) : Prop :=
  ∀ path ∈ paths, (∀ n ∈ path, ∀ e ∈ α n, e ∈ cfg.pool) ∧
    (path.flatMap (fun n => (α n).map (·.1))).Nodup ∧
    ∀ (i : Nat), i < path.length → (cfg.opf [] ⟨path.getD i 0, finishedAt cfg α path i⟩).1 = true

/-- discounting weight of level `i`: `1 / (1 - r/100) ^ (year_i - year_0)` -/
def yearWeight (cfg : Cfg) (i : Nat) : Rat :=
  1 / ((1 - cfg.rate / 100) ^ (cfg.years.getD i 0 - cfg.years.getD 0 0))

/-- Total cost of a decision as the code counts it: over all scenarios and levels, the weighted cost
of the interventions started and 365 times the OPF cost. -/
def decisionCost (cfg : Cfg) (α : Decision) (paths : List (List Nat)) : Rat :=
  (paths.map (fun path => ((List.range path.length).map (fun i =>
    yearWeight cfg i * (((α (path.getD i 0)).map (fun e => e.2.cost)).sum +
      365 * (cfg.opf [] ⟨path.getD i 0, finishedAt cfg α path i⟩).2))).sum)).sum

end Pyensys
