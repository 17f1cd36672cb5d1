import Verif.Model.Dispatch
import Verif.Model.Commitment

/-!
# Model of the reading of a case into the network of the energy engine

Sources: pyensys/engines/pyeneN.py (NW), pyensys/engines/pyeneD.py (DV).

Modelled: `ENetworkClass.Read` (NW:1099-1138, without the profiles, which are in Model/Dispatch), the configuration classes of buses, branches and generators (DV:19-229), the network and the
generators that are made of them (DV:526-548, 700-713, 1193-1222, 1544-1555), the constructors of the devices (DV:234-256, 393-424, 1006-1041, 1045-1072, 1097-1121), and the first
steps of `initialise` (DV:617-659, Model/Devices and Model/Dispatch).

Simplifications: the file is the parsed document: sections are lists of columns with their names, values are numbers, texts or lists of numbers; floats are rationals; texts are never
numerals; numbers of buses are whole.  An object is the function from names to values, Python's None is `none`.
-/

namespace Pyensys

/-- a value of the document -/
inductive CrVal
  | num (x : Rat)
  | text (s : String)
  | list (l : List Rat)
  deriving DecidableEq, Repr

/-- a section: names and columns -/
abbrev CrSec := List (String × List CrVal)

/-- the settings of an object -/
abbrev CrObj := String → Option CrVal

/-- the document; `none` is an absent key -/
structure CrDoc where
  version : Option Rat
  base : Option Rat
  noGen : Option Rat
  slack : Option Rat
  noBus : Option Nat
  noBranch : Option Nat
  bus : CrSec
  branch : CrSec
  gen : CrSec
  gencost : CrSec
  deriving DecidableEq, Repr

/-- `dict[key]` of an entry of the document -/
def crKey {α : Type} (x : Option α) : Except PyErr α := match x with | some v => .ok v | none => .error .key

/-- `section[name][x]` -/
def crCell (s : CrSec) (name : String) (x : Nat) : Except PyErr CrVal := (crKey (s.lookup name)).bind (fun l => pyGet l (x : Int))

/-- `settings[k] = v` -/
def crPut (o : CrObj) (k : String) (v : Option CrVal) : CrObj := fun k' => if k' = k then v else o k'

/-- `settings[k] = section[name][x]` -/
def crReq (s : CrSec) (x : Nat) (o : CrObj) (kn : String × String) : Except PyErr CrObj := (crCell s kn.2 x).map (fun v => crPut o kn.1 (some v))

/-- the same if the section has the column -/
def crOpt (s : CrSec) (x : Nat) (o : CrObj) (k : String) : Except PyErr CrObj := if (s.lookup k).isSome = true then crReq s x o (k, k) else .ok o

/-- DV:33-41: position, number, the two peaks and the columns that every file has -/
def crBusMust : List (String × String) :=
  [("Number", "BUS_I"), ("PeakP", "PD"), ("PeakP", "QD"), ("BASE_KV", "BASE_KV"), ("BS", "BS"), ("BUS_AREA", "BUS_AREA"), ("BUS_TYPE", "BUS_TYPE"), ("GS", "GS"), ("VM", "VM"), ("VA", "VA"),
   ("VMAX", "VMAX"), ("VMIN", "VMIN"), ("ZONE", "ZONE")]

/-- DV:44-46: names, unless the list is empty -/
def crName (s : CrSec) (x : Nat) (o : CrObj) : Except PyErr CrObj :=
  match s.lookup "BUS_NAME" with
  | none => .ok o
  | some l => if l = [] then .ok o else crReq s x o ("Name", "BUS_NAME")

/-- DV:47-49: coordinates -/
def crPlace (s : CrSec) (x : Nat) (o : CrObj) : Except PyErr CrObj :=
  if (s.lookup "BUS_X").isSome = true then [("BUS_X", "BUS_X"), ("BUS_Y", "BUS_Y")].foldlM (crReq s x) o else .ok o

/-- DV:52-55 and 82-85: fixed losses, zero if there are none -/
def crLoss (s : CrSec) (x : Nat) (o : CrObj) : Except PyErr CrObj :=
  if (s.lookup "Loss_Fix").isSome = true then crReq s x o ("Loss_Fix", "Loss_Fix") else .ok (crPut o "Loss_Fix" (some (.num 0)))

/-- `BusConfig.MPCconfigure`, DV:30-55 -/
def crBus (s : CrSec) (x : Nat) : Except PyErr CrObj := do
  let o ← crBusMust.foldlM (crReq s x) (crPut (fun _ => none) "Position" (some (.num x)))
  let o ← crName s x o
  let o ← crPlace s x o
  let o ← crOpt s x o "Load_Type"
  crLoss s x o

/-- DV:75-80 -/
def crBranchMay : List String := ["ANGMAX", "ANGMIN", "BR_B", "BR_R", "BR_STATUS", "BR_X", "F_BUS", "RATE_A", "RATE_B", "RATE_C", "TAP", "T_BUS", "MTTF", "MTTR"]

/-- `BranchConfig.MPCconfigure`, DV:69-85 -/
def crBranch (s : CrSec) (x : Nat) : Except PyErr CrObj := do
  let o ← crBranchMay.foldlM (crOpt s x) (crPut (crPut (fun _ => none) "Number" (some (.num (x + 1)))) "Position" (some (.num x)))
  crLoss s x o

/-- the settings of conventional generators, NW:71-80; True is 1 -/
structure CrConv where
  ancillary : List Rat := [1]
  baseload : List Rat := [0]
  ramp : List Rat := []
  res : List Rat := [1]
  mut' : List Nat := []
  mdt : List Nat := []
  deriving DecidableEq, Repr

/-- the settings of hydropower, NW:82-93 -/
structure CrHydro where
  number : Nat := 0
  bus : List Int := []
  max : List Rat := []
  min : List Rat := []
  cost : List Rat := []
  ramp : List (Option Rat) := [none]
  baseload : List Rat := [0]
  ancillary : List Rat := [1]
  res : List Rat := [1]
  deriving DecidableEq, Repr

/-- the settings of renewable generators, NW:102-108 -/
structure CrRes where
  number : Nat := 0
  bus : List Int := []
  max : List Rat := []
  cost : List Rat := []
  uncertainty : List (Option Rat) := [none]
  deriving DecidableEq, Repr

/-- one value for all or one for each, DV:150-156 and 178-183 -/
def crShare {α : Type} (l : List α) (x : Nat) : Except PyErr α :=
  match l with
  | [v] => .ok v
  | l => pyGet l (x : Int)

/-- DV:111-116 -/
def crGenMay : List String :=
  ["APF", "GEN_BUS", "MBASE", "PC1", "PC2", "PG", "PMAX", "PMIN", "QC1MIN", "QC1MAX", "QC2MIN", "QC2MAX", "QG", "QMAX", "QMIN", "RAMP_AGC", "RAMP_10", "RAMP_30", "RAMP_Q", "VG", "GEN", "MTTF", "MTTR"]

/-- DV:120-122 -/
def crCostMust : List (String × String) := [("COST", "COST"), ("MODEL", "MODEL"), ("NCOST", "NCOST"), ("SHUTDOWN", "SHUTDOWN"), ("STARTUP", "STARTUP")]

/-- a conventional generator: the columns of the file, its costs and what comes from the settings -/
structure CrConvGen where
  data : CrObj
  cost : CrObj
  ramp : Option Rat
  mut' : Option Nat
  mdt : Option Nat
  ancillary : Rat
  baseload : Rat
  res : Rat

/-- a number of the document -/
def crNum (v : CrVal) : Except PyErr Rat := match v with | .num x => .ok x | _ => .error .type

/-- the ramps of the file, DV:127-129 -/
def crFileRamp (g : CrSec) : Except PyErr (Option (List Rat)) :=
  match g.lookup "Ramp" with
  | none => .ok none
  | some l => (l.mapM crNum).map some

/-- `ConventionalConfig.MPCconfigure`, DV:106-157; the choice of ramps and minimum times is in Model/Commitment -/
def crConvGen (gen gencost : CrSec) (c : CrConv) (x : Nat) : Except PyErr CrConvGen := do
  let d ← crGenMay.foldlM (crOpt gen x) (crPut (fun _ => none) "Position" (some (.num x)))
  let k ← crCostMust.foldlM (crReq gencost x) (fun _ => none)
  let fr ← crFileRamp gen
  let r ← rampSetting c.ramp fr x
  let u ← timeSetting c.mut' x
  let w ← timeSetting c.mdt x
  let a ← crShare c.ancillary x
  let b ← crShare c.baseload x
  let s ← crShare c.res x
  .ok ⟨d, k, r, u, w, a, b, s⟩

/-- a hydropower or renewable generator -/
structure CrUnit where
  position : Nat
  bus : Int
  max : Rat
  min : Rat
  cost : List Rat
  ramp : Option Rat := none
  baseload : Rat := 0
  ancillary : Rat := 0
  res : Rat := 0
  deriving DecidableEq, Repr

/-- DV:187-190 -/
def crMin (l : List Rat) (x : Nat) : Except PyErr Rat := if l ≠ [] then pyGet l (x : Int) else .ok 0

/-- `HydropowerConfig.MPCconfigure`, DV:175-199 -/
def crHydroGen (h : CrHydro) (x : Nat) : Except PyErr CrUnit := do
  let a ← crShare h.ancillary x
  let b ← crShare h.baseload x
  let r ← crShare h.ramp x
  let s ← crShare h.res x
  let bus ← pyGet h.bus (x : Int)
  let mx ← pyGet h.max (x : Int)
  let mn ← crMin h.min x
  let c ← pyGet h.cost (x : Int)
  .ok ⟨x, bus, mx, mn, [0, 0, 1, c], r, b, a, s⟩

/-- `RESConfig.MPCconfigure`, DV:216-226 -/
def crResGen (r : CrRes) (x : Nat) : Except PyErr CrUnit := do
  let bus ← pyGet r.bus (x : Int)
  let mx ← pyGet r.max (x : Int)
  let c ← pyGet r.cost (x : Int)
  .ok ⟨x, bus, mx, 0, [0, 0, 1, c], none, 0, 0, 0⟩

/-- the number of coefficients of a row of costs -/
def crShape (v : CrVal) : Except PyErr (Option Nat) := match v with | .num _ => .ok none | .list r => .ok (some r.length) | .text _ => .error .value

/-- `len(np.array(COST, dtype=int))`, NW:1104-1105: rows of different lengths raise ValueError -/
def crCostRows (l : List CrVal) : Except PyErr Nat := do
  let shapes ← l.mapM crShape
  if shapes.all (fun a => a == shapes.headD none) = true then .ok l.length else .error .value

/-- `Bus.__init__`, DV:402-416: the names that are kept -/
def crBusKeep : List String := ["BUS_X", "BUS_Y", "Demand", "PeakP", "PeakQ", "Position", "Name", "Number", "BUS_TYPE", "BASE_KV", "VMAX", "VMIN", "VM", "Load_Type", "Loss_Fix"]

/-- `Branch.__init__`, DV:243-249 -/
def crBranchKeep : List String := ["BR_R", "BR_X", "F_BUS", "Position", "RATE_A", "T_BUS", "TAP", "BR_B", "Loss_Fix", "BR_STATUS", "MTTF", "MTTR"]

/-- the copy of the settings -/
def crKeep (names : List String) (o : CrObj) : CrObj := fun k => if k ∈ names then o k else none

/-- `Bus.__init__`: the load type is 0 (urban) unless given, DV:414-416 -/
def crBusObj (o : CrObj) : CrObj := crPut (crKeep crBusKeep o) "Load_Type" (some ((o "Load_Type").getD (.num 0)))

/-- the network that is read -/
structure CrNet where
  base : Rat
  slack : Rat
  noGen : Rat
  buses : List CrObj
  branches : List CrObj
  conv : List CrConvGen
  hydro : List CrUnit
  res : List CrUnit
  pd : List Rat
  qd : List Rat

/-- a column of numbers, NW:1127-1130 -/
def crColumn (s : CrSec) (name : String) : Except PyErr (List Rat) := (crKey (s.lookup name)).bind (fun l => l.mapM crNum)

/-- `Read`, NW:1099-1130, and the constructors of the devices at the start of `initialise`, DV:625-629, 1457-1470 -/
def crRead (d : CrDoc) (c : CrConv) (h : CrHydro) (r : CrRes) : Except PyErr CrNet := do
  let costs ← crKey (d.gencost.lookup "COST")
  let nGen ← crCostRows costs
  let nBus ← crKey d.noBus
  let nBranch ← crKey d.noBranch
  let _ ← crKey d.version
  let base ← crKey d.base
  let noGen ← crKey d.noGen
  let slack ← crKey d.slack
  let buses ← (List.range nBus).mapM (crBus d.bus)
  let branches ← (List.range nBranch).mapM (crBranch d.branch)
  let conv ← (List.range nGen).mapM (crConvGen d.gen d.gencost c)
  let hydro ← (List.range h.number).mapM (crHydroGen h)
  let res ← (List.range r.number).mapM (crResGen r)
  let pd ← crColumn d.bus "PD"
  let qd ← crColumn d.bus "QD"
  .ok ⟨base, slack, noGen, buses.map crBusObj, branches.map (crKeep crBranchKeep), conv, hydro, res, pd, qd⟩

/-- a number of a bus; anything else is never found by `findBusPosition`, DV:574-584 -/
def crWhole (o : Option CrVal) : Except PyErr Int := match o with | some (.num x) => .ok x.floor | _ => .error .index

/-- a number that is divided by the base, DV:659, 1496-1497 -/
def crAmount (o : Option CrVal) : Except PyErr Rat := match o with | some (.num x) => .ok x | _ => .error .type

/-- a branch as `initialise` uses it, DV:640-659 -/
def crBranchIn (o : CrObj) : Except PyErr DvBranchIn := do
  let f ← crWhole (o "F_BUS")
  let t ← crWhole (o "T_BUS")
  let r ← crAmount (o "RATE_A")
  .ok ⟨f, t, r⟩

/-- the network of `ElectricityNetwork.initialise`, DV:617-698 (Model/Devices), from what was read; if several things are wrong another error may be raised first -/
def crInit (n : CrNet) (s : DvSettings) : Except PyErr DvNet := do
  let numbers ← n.buses.mapM (fun o => crWhole (o "Number"))
  let brs ← n.branches.mapM crBranchIn
  dvInitialise numbers brs n.base s

/-- a conventional generator as `Generators.initialise` uses it, DV:1018-1027, 1483-1497 -/
def crConvIn (g : CrConvGen) : Except PyErr DpGenIn := do
  let b ← crWhole (g.data "GEN_BUS")
  let mx ← crAmount (g.data "PMAX")
  let mn ← crAmount (g.data "PMIN")
  .ok ⟨b, mx, mn, g.mdt, g.mut'⟩

/-- another generator, DV:1055-1060, 1104-1110 -/
def crUnitIn (u : CrUnit) : DpGenIn := ⟨u.bus, u.max, u.min, none, none⟩

/-- the generators of `Generators.initialise`, DV:1472-1542 (Model/Dispatch), from what was read -/
def crGens (n : CrNet) : Except PyErr DpGens := do
  let numbers ← n.buses.mapM (fun o => crWhole (o "Number"))
  let conv ← n.conv.mapM crConvIn
  genInitialise numbers n.base conv (n.hydro.map crUnitIn) (n.res.map crUnitIn)

end Pyensys
