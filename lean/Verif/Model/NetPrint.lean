import Verif.Model.Coupled

/-!
# Model of the report of the network results on the screen

Source: pyensys/engines/pyeneP.py (PP below): `PrintClass.initializeNM` for Pyomo models, PP:54-161, and the `get_` functions PP:238-282; pyensys/engines/pyeneN.py (NW
below): `print` NW:790-934, `printLosses` NW:936-987; pyensys/engines/main.py (MN below): `Print_ENSim` MN:931-939 as far as the network is concerned.

Simplifications: floats are rationals; a table is the list of the rows of numbers before they are rounded by the formats `%8.4f`, `%2.0f`; the demand of a bus (NW:962-964) is one
number in MW (its parts are the subject of `demandAt`); tables that were printed before an error are not modelled, an error is the result of the whole report; the storage of
the network and the tables of PyPSA networks (`prnt.type == 2`) are not modelled here.  The offsets `connections[...]` are those of the coupled model (`instOffset`).
-/

namespace Pyensys

/-- the network: sizes of an instance, number of instances, of periods, of branches and of buses (`ENetwork.get_NoBra`, `get_NoBus`), base power, the settings Flag, UC, Losses
and Loss, `LLFea1` and `LLFea2` of every bus, number of services and whether units provide them, position of the binary variable of every generator (`get_Bin`), bus of
every generator, fixed losses of every branch (`getLoss`), demand in MW of bus, period and instance -/
structure NpCase where
  s : InstSizes
  noh : Nat
  noTime : Nat
  noBra : Nat
  noBus : Nat
  base : Rat
  flag : Bool
  uc : Bool
  losses : Bool
  loss : Option Rat
  llFea : List (Nat × Nat)
  nServ : Nat
  servUnits : Bool
  bins : List (Option Nat)
  genBus : List Int
  fix : List Rat
  demand : Nat → Nat → Nat → Rat

/-- the values of the variables of the solved model, by family, position and period; the services have a family of their own -/
structure NpVals where
  val : VarFamily → Nat → Nat → Rat
  serv : Nat → Nat → Rat

/-- the arrays of `PrintClass.data` that the report of a Pyomo model uses, PP:54-98 -/
structure NpData where
  genP : List (List Rat)
  bin : List (List Rat)
  ang : List (List Rat)
  pump : List (List Rat)
  fea : List (List Rat)
  serv : List (List Rat)
  flow : List (List Rat)
  loss : List (List Rat)

/-- one of the loops PP:101-158: the array keeps its initial value if the model has no such variable; a position outside the declared range is a `KeyError` -/
def npRead (has : Bool) (declared rows noTime : Nat) (initial : Rat) (f : Nat → Nat → Rat) : Except PyErr (List (List Rat)) :=
  if has = true then
    (List.range rows).mapM (fun x1 => (List.range noTime).mapM (fun x2 => if x1 < declared then .ok (f x1 x2) else .error .key))
  else .ok (List.replicate rows (List.replicate noTime initial))

/-- assignment to an array of booleans, PP:111-112 -/
def npBool (r : Rat) : Rat := if r = 0 then 0 else 1

/-- `initializeNM` for a Pyomo model, PP:54-161 -/
def npData (c : NpCase) (v : NpVals) : Except PyErr NpData := do
  let g ← npRead true (declaredRange c.s c.noh .gen) (c.noh * c.s.noGen) c.noTime 0 (fun x t => v.val .gen x t * c.base)
  let b ← npRead c.uc (declaredRange c.s c.noh .bin) (c.noh * c.s.noGen) c.noTime 1 (fun x t => npBool (v.val .bin x t))
  let a ← npRead c.flag (declaredRange c.s c.noh .volt) (c.noh * c.s.noBuses) c.noTime 1 (v.val .volt)
  let p ← npRead true (declaredRange c.s c.noh .pump) (c.noh * (c.s.noPump + 1)) c.noTime 0 (fun x t => v.val .pump x t * c.base)
  let f ← npRead true (declaredRange c.s c.noh .fea) (c.noh * c.s.noFea) c.noTime 0 (fun x t => v.val .fea x t * c.base)
  let s ← npRead c.servUnits (c.noh * c.nServ) (c.noh * c.nServ) c.noTime 0 (fun x t => v.serv x t * c.base)
  let l ← npRead c.flag (declaredRange c.s c.noh .flow) (c.noh * c.s.noBranch) c.noTime 0 (fun x t => v.val .flow x t * c.base)
  let o ← npRead (c.flag && c.losses) (declaredRange c.s c.noh .loss) (c.noh * c.s.branches) c.noTime 0 (fun x t => v.val .loss x t * c.base)
  .ok ⟨g, b, a, p, f, s, l, o⟩

/-- `data[...][x1][x2]`, PP:238-282 -/
def npCell (d : List (List Rat)) (x1 x2 : Nat) : Except PyErr Rat :=
  match d[x1]? with
  | none => .error .index
  | some r => match r[x2]? with
    | none => .error .index
    | some q => .ok q

/-- the tables of the report -/
inductive NpName where
  | genBus | generation | commitment | flows | angles | losses | pumps | curtailment | services
  deriving DecidableEq, Repr

/-- the order of the tables, NW:805-933 -/
def npOrder : List NpName := [.genBus, .generation, .commitment, .flows, .angles, .losses, .pumps, .curtailment, .services]

/-- two nested loops over `n` elements and the periods -/
def npLoop (n noTime : Nat) (f : Nat → Nat → Except PyErr Rat) : Except PyErr (List (List Rat)) :=
  (List.range n).mapM (fun x => (List.range noTime).mapM (f x))

/-- `FullLoss[xt]`, NW:952-974: generation without demand, with the curtailment variable of every bus, without the fixed losses -/
def npFull (c : NpCase) (d : NpData) (xh xt : Nat) : Except PyErr Rat := do
  let g ← (List.range c.s.noGen).mapM (fun xn => npCell d.genP (instOffset c.s xh .gen + xn) xt)
  let f ← (List.range c.noBus).mapM (fun xn => npCell d.fea (instOffset c.s xh .fea + ((c.llFea[xn]?).getD (0, 0)).2) xt)
  .ok (g.sum + (f.sum - ((List.range c.noBus).map (fun xn => c.demand xn xt xh)).sum) - ((List.range c.noBra).map (fun xb => (c.fix[xb]?).getD 0)).sum)

/-- the share of branch `xb` of the losses of a period, NW:977-985; `fl` are the flows of the branches -/
def npShare (fix : List Rat) (full : Rat) (fl : List Rat) (xb : Nat) : Rat :=
  if 0 < fl.sum then full * (|(fl[xb]?).getD 0| / fl.sum) + (fix[xb]?).getD 0 else 0

/-- one column of the losses for a loss factor, NW:951-985 -/
def npColumn (c : NpCase) (d : NpData) (xh xt : Nat) : Except PyErr (List Rat) := do
  let full ← npFull c d xh xt
  let fl ← (List.range c.noBra).mapM (fun xb => npCell d.flow (instOffset c.s xh .flow + xb) xt)
  .ok ((List.range c.noBra).map (npShare c.fix full fl))

/-- `printLosses`, NW:936-987 -/
def npLosses (c : NpCase) (d : NpData) (xh : Nat) : Except PyErr (List (List Rat)) :=
  match c.loss with
  | none => npLoop c.noBra c.noTime (fun xb t => npCell d.loss (instOffset c.s xh .loss + xb) t)
  | some _ => do
      let cols ← (List.range c.noTime).mapM (npColumn c d xh)
      .ok ((List.range c.noBra).map (fun xb => cols.map (fun col => (col[xb]?).getD 0)))

/-- whether a table is printed: its flag (`Print`, NW:104-114) and the conditions of NW:805-927 -/
def npOn (c : NpCase) (flags : NpName → Bool) : NpName → Bool
  | .flows => flags .flows && c.flag
  | .angles => flags .angles && c.flag
  | .losses => flags .losses && c.flag
  | .services => flags .services && c.servUnits
  | n => flags n

/-- whether a loop before the services left a value in the variable `x2` (its last one, NoTime - 1): one of the tables before was printed and had a row -/
def npSeen (c : NpCase) (flags : NpName → Bool) : Bool :=
  decide (0 < c.noTime) && ((npOn c flags .generation && decide (0 < c.s.noGen)) || (npOn c flags .commitment && decide (0 < c.s.noGen)) ||
    (npOn c flags .flows && decide (0 < c.noBra)) || (npOn c flags .angles && decide (0 < c.s.noBuses)) || (npOn c flags .pumps && decide (0 < c.s.noPump)) ||
    (npOn c flags .curtailment && decide (0 < c.noBus)))

/-- the row of `GenerationUC` that is shown for a generator, NW:829-833 -/
def npBinRow (c : NpCase) (xh xn : Nat) : Nat := ((c.bins[xn]?).getD none).getD 0 + instOffset c.s xh .gen

/-- a cell of the curtailment, NW:914-923 -/
def npFea (c : NpCase) (d : NpData) (xh xn t : Nat) : Except PyErr Rat :=
  if ((c.llFea[xn]?).getD (0, 0)).1 = 0 then .ok 0 else npCell d.fea (instOffset c.s xh .fea + ((c.llFea[xn]?).getD (0, 0)).2) t

/-- a cell of the services, NW:928-932: the period is `x2`, which the loop does not set -/
def npServ (c : NpCase) (flags : NpName → Bool) (d : NpData) (xh xs : Nat) : Except PyErr Rat :=
  if npSeen c flags = true then npCell d.serv (c.nServ * xh + xs) (c.noTime - 1) else .error .name

/-- the tables of instance `xh`, NW:805-933 -/
def npTable (c : NpCase) (flags : NpName → Bool) (d : NpData) (xh : Nat) : NpName → Except PyErr (List (List Rat))
  | .genBus => .ok [c.genBus.map (fun b => (b : Rat))]
  | .generation => npLoop c.s.noGen c.noTime (fun x t => npCell d.genP (instOffset c.s xh .gen + x) t)
  | .commitment => npLoop c.s.noGen c.noTime (fun x t => npCell d.bin (npBinRow c xh x) t)
  | .flows => npLoop c.noBra c.noTime (fun x t => npCell d.flow (instOffset c.s xh .flow + x) t)
  | .angles => npLoop c.s.noBuses c.noTime (fun x t => npCell d.ang (instOffset c.s xh .volt + x) t)
  | .losses => npLosses c d xh
  | .pumps => npLoop c.s.noPump c.noTime (fun x t => npCell d.pump (instOffset c.s xh .pump + x) t)
  | .curtailment => npLoop c.noBus c.noTime (npFea c d xh)
  | .services => npLoop c.nServ c.noTime (fun x _ => npServ c flags d xh x)

/-- a table that is printed -/
def npTagged (c : NpCase) (flags : NpName → Bool) (d : NpData) (xh : Nat) (n : NpName) : Except PyErr (NpName × List (List Rat)) := do
  let t ← npTable c flags d xh n
  .ok (n, t)

/-- `print` for one instance, NW:802-933 -/
def npTables (c : NpCase) (flags : NpName → Bool) (d : NpData) (xh : Nat) : Except PyErr (List (NpName × List (List Rat))) :=
  (npOrder.filter (npOn c flags)).mapM (npTagged c flags d xh)

/-- `print(m, sh, prnt)`, NW:790-934; without `prnt` the import of NW:796 names a package `pyene` that does not exist (ModuleNotFoundError) -/
def npPrint (c : NpCase) (flags : NpName → Bool) (prnt : Option NpData) (sh : List Nat) : Except PyErr (List (List (NpName × List (List Rat)))) :=
  match prnt with
  | none => .error .name
  | some d => sh.mapM (npTables c flags d)

/-- the network tables of `Print_ENSim`, MN:931-939: one call for every instance -/
def npReport (c : NpCase) (flags : NpName → Bool) (v : NpVals) : Except PyErr (List (List (NpName × List (List Rat)))) := do
  let d ← npData c v
  let r ← (List.range c.noh).mapM (fun xh => npPrint c flags (some d) [xh])
  .ok r.flatten

end Pyensys
