import Verif.Model.Energy
import Verif.Model.MatFile
import Mathlib.Algebra.Order.Ring.Rat

/-!
# Model of the command line

Source: pyensys/cli.py (CI below): the group `cli` CI:19-46, `_update_config_pyeneE`, `_update_config_pyeneN` CI:50-131, the commands run-n, run-en, run-example-hydro, run-ac, run-res CI:146-300; pyensys/cases.py (CA below): what the commands change before the engine starts, CA:38-45, 80-93, 107-112, 289-316, 389-417; pyensys/engines/pyeneN.py (NW below): the default configuration NW:18-117, the tables of security NW:1027-1057, the time steps NW:690-693; pyensys/engines/pyeneD.py (DV below): the units of hydropower and renewables DV:175-226, 1536-1547.

Simplifications: floats are rationals. The texts of the command line are converted by click (integers, numbers, booleans); `--sec` has the type `list`, so that its text becomes the list of its characters. A text compared with a number is never equal to it (NW:1051): a contingency is a character or a number. `NoTime` is an integer. Folders: `dir` is the folder of cli.py. The commands run-example-hydro and run-ac are defined twice with the same options; the second definition, which does the same, is the one that is used. What the model of the network does afterwards is in the other files.
-/

namespace Pyensys

/-- the dictionaries `hydropower` and `pumps`, NW:72-89 -/
structure CliUnits where
  number : Int
  bus : List Int
  max : List Rat
  cost : List Rat
  deriving DecidableEq, Repr

/-- an entry of the dictionary `RES`: an array, or the number that CI:82-83 stores in its place -/
inductive CliArr where
  | list (l : List Rat)
  | num (q : Rat)
  deriving DecidableEq, Repr

/-- the configuration, main.py:28-66 and NW:18-117, as far as the commands change it -/
structure CliConf where
  hydro : CliUnits
  baseload : List Rat
  pumps : CliUnits
  resNumber : Int
  resBus : List Int
  resMax : CliArr
  resCost : CliArr
  noDem : Int
  noRES : Int
  noTime : Int
  security : List Char
  losses : Bool
  loss : Option Rat
  feas : Bool
  file : Option Tok
  tree : Option Tok
  pyomo : Bool
  glpk : Bool
  deriving DecidableEq, Repr

/-- the default configuration, NW:22-96 and main.py:45-66 -/
def cliDefault : CliConf :=
  ⟨⟨0, [], [], []⟩, [0], ⟨0, [], [], []⟩, 0, [], .list [], .list [], 0, 0, 1, [], true, none, true, none, none, false, true⟩

/-- `np.zeros` followed by the loop that places unit `x` at bus `x + 1`, CI:30-39 and 64-73 -/
def cliUnits (n : Int) (max cost : Rat) : Except PyErr CliUnits :=
  if n < 0 then .error .value
  else .ok ⟨n, (List.range n.toNat).map (fun (x : Nat) => (x : Int) + 1), List.replicate n.toNat max, List.replicate n.toNat cost⟩

/-- the group, CI:25-39 -/
def cliGroup (hydro : Int) (c : CliConf) : Except PyErr CliConf := do
  let u ← cliUnits hydro 1000 (1 / 100)
  .ok { c with hydro := u }

/-- the options of a command after the defaults were added: `none` if the command does not have the option -/
structure CliKw where
  tree : Option Tok
  network : Tok
  pump : Option Int
  res : Option Int
  sec : Option (List Char)
  loss : Option Bool
  feas : Option Bool
  time : Int
  linearloss : Option Rat
  usepyomo : Option Bool
  baseline : Option Rat
  deriving DecidableEq, Repr

/-- `os.path.join(dir, 'json', name)`: an absolute path replaces the folder -/
def cliPath (dir name : Tok) : Tok :=
  if name.head? = some '/' then name else dir ++ "/json/".toList ++ name

/-- `_update_config_pyeneE`, CI:50-54 -/
def cliUpdateE (dir : Tok) (k : CliKw) (c : CliConf) : CliConf :=
  match k.tree with
  | some t => { c with tree := some (cliPath dir t) }
  | none => c

/-- the renewable units, CI:75-87: inside the loop the arrays are replaced by numbers -/
def cliRes (n : Int) (c : CliConf) : Except PyErr CliConf :=
  if n < 0 then .error .value
  else if n = 0 then .ok { c with resNumber := 0, resBus := [], resMax := .list [], resCost := .list [] }
  else .ok { c with resNumber := n, resBus := (List.range n.toNat).map (fun (x : Nat) => (x : Int) + 1), resMax := .num 0, resCost := .num 10 }

/-- the losses, CI:98-101 and 113-117 -/
def cliLosses (k : CliKw) (c : CliConf) : CliConf :=
  match k.linearloss with
  | some q => if 0 < q then { c with losses := false, loss := some q } else { c with losses := k.loss.getD false }
  | none => { c with losses := k.loss.getD false }

/-- the solver, CI:120-124 -/
def cliSolver (k : CliKw) (c : CliConf) : CliConf := if k.usepyomo = some true then { c with pyomo := true, glpk := false } else c

/-- the baseload of hydropower, CI:128-130 -/
def cliBaseload (k : CliKw) (c : CliConf) : CliConf :=
  match k.baseline with
  | some q => { c with baseload := [q, q] }
  | none => c

/-- `_update_config_pyeneN`, CI:58-132 -/
def cliUpdateN (dir : Tok) (k : CliKw) (c : CliConf) : Except PyErr CliConf := do
  let p ← cliUnits (k.pump.getD 0) 1 (1 / 1000)
  let c ← cliRes (k.res.getD 0) { c with pumps := p }
  .ok (cliBaseload k (cliSolver k (cliLosses k
    { c with noDem := 2, noRES := 2, noTime := k.time, security := k.sec.getD [], feas := k.feas.getD true, file := some (cliPath dir k.network) })))

/-- the commands -/
inductive CliCmd where
  | runN | runEN | example | runAC | runRES
  deriving DecidableEq, Repr

/-- the options as the user gives them: `none` if an option is not given -/
structure CliArgs where
  hydro : Option Int := none
  tree : Option Tok := none
  network : Option Tok := none
  pump : Option Int := none
  res : Option Int := none
  sec : Option (List Char) := none
  loss : Option Bool := none
  feas : Option Bool := none
  time : Option Int := none
  linearloss : Option Rat := none
  usepyomo : Option Bool := none
  baseline : Option Rat := none
  deriving DecidableEq, Repr

/-- the options that a command knows, CI:146-160, 171-189, 223-229, 237-254, 262-280; an unknown one is refused (`none`) -/
def cliParse (cmd : CliCmd) (a : CliArgs) : Option CliKw :=
  match cmd with
  | .runN =>
    if a.tree.isSome ∨ a.usepyomo.isSome ∨ a.baseline.isSome then none
    else some ⟨none, a.network.getD "case4.json".toList, some (a.pump.getD 0), some (a.res.getD 0), some (a.sec.getD []), some (a.loss.getD false), some (a.feas.getD false),
      a.time.getD 1, some (a.linearloss.getD 0), none, none⟩
  | .runEN =>
    if a.baseline.isSome then none
    else some ⟨some (a.tree.getD "ResolutionTreeMonth01.json".toList), a.network.getD "case14_con.json".toList, some (a.pump.getD 0), some (a.res.getD 0), some (a.sec.getD []),
      some (a.loss.getD true), some (a.feas.getD true), a.time.getD 24, some (a.linearloss.getD 0), some (a.usepyomo.getD false), none⟩
  | .example =>
    if a.usepyomo.isSome then none
    else some ⟨some (a.tree.getD "TreeMonth01_01RD.json".toList), a.network.getD "case14_con.json".toList, some (a.pump.getD 0), some (a.res.getD 0), some (a.sec.getD []),
      some (a.loss.getD true), some (a.feas.getD true), a.time.getD 24, some (a.linearloss.getD 0), none, some (a.baseline.getD 0)⟩
  | .runAC =>
    if a.pump.isSome ∨ a.res.isSome ∨ a.sec.isSome ∨ a.loss.isSome ∨ a.feas.isSome ∨ a.linearloss.isSome ∨ a.usepyomo.isSome ∨ a.baseline.isSome then none
    else some ⟨some (a.tree.getD "ResolutionTreeMonth01.json".toList), a.network.getD "case14_con.json".toList, none, none, none, none, none, a.time.getD 24, none, none, none⟩
  | .runRES =>
    if a.usepyomo.isSome ∨ a.baseline.isSome then none
    else some ⟨some (a.tree.getD "ResolutionTreeMonth01.json".toList), a.network.getD "case14_con.json".toList, some (a.pump.getD 0), some (a.res.getD 2), some (a.sec.getD []),
      some (a.loss.getD false), some (a.feas.getD true), a.time.getD 24, some (a.linearloss.getD 0), none, none⟩

/-- what the cases change before the engine starts: CA:40 (run-ac), CA:293-316 (run-res; the engine is then looked for under a name that does not exist, CA:319), CA:395-410 (run-example-hydro) -/
def cliCase (cmd : CliCmd) (c : CliConf) : Except PyErr CliConf :=
  match cmd with
  | .runN => .ok c
  | .runEN => .ok c
  | .runAC => .ok { c with hydro := ⟨0, c.hydro.bus, c.hydro.max, c.hydro.cost⟩ }
  | .example => .ok { c with losses := false, feas := true, noTime := 24, hydro := ⟨2, [1, 5], [200, 200], [1 / 1000, 1 / 1000]⟩ }
  | .runRES => .error .name

/-- a command up to the configuration that the engine gets; `none`: refused by click -/
def cliRun (dir : Tok) (cmd : CliCmd) (a : CliArgs) : Except PyErr (Option CliConf) :=
  match cliParse cmd a with
  | none => .ok none
  | some k => do
    let c ← cliGroup (a.hydro.getD 3) cliDefault
    let c ← cliUpdateN dir k (cliUpdateE dir k c)
    let c ← cliCase cmd c
    .ok (some c)

/-! ## the start of the engine -/

/-- the settings of a unit, DV:157-200 -/
structure CliUnit where
  bus : Int
  max : Rat
  cost : Rat
  baseload : Rat
  deriving DecidableEq, Repr

/-- DV:178-183: one entry for all units, or one for each -/
def cliEach (l : List Rat) (no : Nat) : Except PyErr Rat := if l.length = 1 then pyGet l 0 else pyGet l (no : Int)

/-- `HydropowerConfig.MPCconfigure`, DV:175-200, for unit `no` -/
def cliHydroUnit (c : CliConf) (no : Nat) : Except PyErr CliUnit := do
  let b ← cliEach c.baseload no
  let bus ← pyGet c.hydro.bus (no : Int)
  let max ← pyGet c.hydro.max (no : Int)
  let cost ← pyGet c.hydro.cost (no : Int)
  .ok ⟨bus, max, cost, b⟩

/-- an entry of `RES['Max']` or `RES['Cost']`: a number has no entries, a TypeError -/
def cliArrAt (a : CliArr) (no : Nat) : Except PyErr Rat :=
  match a with
  | .list l => pyGet l (no : Int)
  | .num _ => .error .type

/-- `RESConfig.MPCconfigure`, DV:216-226, for unit `no` -/
def cliResUnit (c : CliConf) (no : Nat) : Except PyErr CliUnit := do
  let bus ← pyGet c.resBus (no : Int)
  let max ← cliArrAt c.resMax no
  let cost ← cliArrAt c.resCost no
  .ok ⟨bus, max, cost, 0⟩

/-- a contingency of `settings['Security']`: a branch number, or a text -/
inductive CliSec where
  | num (n : Int)
  | text (c : Char)
  deriving DecidableEq, Repr

/-- `xb+1 != self.settings['Security'][xs]`, NW:1051 -/
def cliOther (xb : Nat) : CliSec → Bool
  | .num n => decide ((xb : Int) + 1 ≠ n)
  | .text _ => true

/-- the rows that the loop NW:1048-1053 writes -/
def cliSecRows (noBus branches : Nat) (sec : List CliSec) : List (Nat × Nat) :=
  sec.zipIdx.flatMap (fun s => ((List.range branches).filter (fun xb => cliOther xb s.1)).map (fun xb => (xb, (s.2 + 1) * noBus)))

/-- one row of the table, NW:1052-1053 -/
def cliSecStep (s : List (Nat × Nat) × Nat) (r : Nat × Nat) : Except PyErr (List (Nat × Nat) × Nat) := do
  let t ← npSet s.1 s.2 r
  .ok (t, s.2 + 1)

/-- the table `LLESec1`, NW:1034-1057: `noBranch + contingencies * (noBranch - 1)` rows -/
def cliSecTable (noBus branches : Nat) (sec : List CliSec) : Except PyErr (List (Nat × Nat)) :=
  if (branches : Int) * (1 + sec.length) - sec.length < 0 then .error .value
  else do
    let t := List.replicate ((branches : Int) * (1 + sec.length) - sec.length).toNat ((0, 0) : Nat × Nat)
    let r ← ((List.range branches).map (fun xb => (xb, 0)) ++ cliSecRows noBus branches sec).foldlM cliSecStep (t, 0)
    .ok r.1

/-- what the engine needs at its start, NW:665-693: the units (read with the network), the tables of security, the time steps -/
structure CliStart where
  hydro : List CliUnit
  res : List CliUnit
  table : List (Nat × Nat)
  deriving DecidableEq, Repr

/-- `LLTime`, NW:690-693: without time steps there is no first one -/
def cliTimes (noTime : Int) : Except PyErr Unit := if noTime < 0 then .error .value else if noTime = 0 then .error .index else .ok ()

/-- the start of the engine with a network of so many buses and branches -/
def cliStart (noBus branches : Nat) (c : CliConf) : Except PyErr CliStart := do
  let h ← (List.range c.hydro.number.toNat).mapM (cliHydroUnit c)
  let r ← (List.range c.resNumber.toNat).mapM (cliResUnit c)
  let t ← cliSecTable noBus branches (c.security.map .text)
  let _ ← cliTimes c.noTime
  .ok ⟨h, r, t⟩

end Pyensys
