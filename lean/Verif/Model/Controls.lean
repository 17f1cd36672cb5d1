import Verif.Model.SavedPyomo
import Verif.Model.Coupled
import Verif.Model.MatFile

/-!
# Model of the controls of the engine

Source: pyensys/engines/main.py (MN below): `initialise` MN:700-888 (as far as it decides what `run` finds), `run` MN:1039-1060, `set_Hydro` MN:1127-1132, `_set_LineCapacityAux`, `set_LineCapacity`, `set_LineCapacityAll` MN:1139-1162, `get_Hydro`, `get_AllHydro`, `get_HydroFlag`, `get_MeanHydroMarginal` MN:364-370, 461-481, 525-529; pyensys/engines/pyeneD.py (DV below): the limits of the flows DV:283-297, the numbers of branches DV:319-321; pyensys/cases.py (CA below): the calls of `run` CA:151-154, 440-441 and the flag of the GLPK results CA:213-223.

Simplifications: floats are rationals. Of an engine only the attributes that `initialise` creates are kept: those of a configuration (`EM`, `NM`, ...) and the compiled model of a workbook (`mod_cython_cpp`); that a file can be read and a model be solved is assumed here. The argument of `run` is a text or another object.
-/

namespace Pyensys

/-! ## initialise and run -/

/-- the exceptions of `run`: a missing attribute, a missing module -/
inductive RunErr where
  | attribute
  | noModule
  deriving DecidableEq, Repr

/-- the attributes of an engine: `EM`, `NM`, `HM` exist; `mod_cython_cpp` exists -/
structure RunState where
  conf : Bool
  compiled : Bool
  deriving DecidableEq, Repr

/-- the calls -/
inductive RunCall where
  | initConf
  | initPath
  | run (solver : Option Tok)
  | runObject
  deriving DecidableEq, Repr

/-- what a call gives: nothing, the solved pyomo model, or an evaluation of the compiled model -/
inductive RunOut where
  | nothing
  | model
  | evaluated
  deriving DecidableEq, Repr

/-- the last branch of `run`, MN:1057-1060 -/
def runOther (s : RunState) : Except RunErr RunOut := if s.compiled then .ok .evaluated else .error .attribute

/-- `initialise`, MN:700-888 and `run`, MN:1039-1060; the module `pyene` of MN:1051 does not exist -/
def runCall (s : RunState) : RunCall → Except RunErr (RunState × RunOut)
  | .initConf => .ok (⟨true, s.compiled⟩, .nothing)
  | .initPath => .ok (⟨s.conf, true⟩, .nothing)
  | .runObject => do
    let o ← runOther s
    .ok (s, o)
  | .run solver =>
    if solver = some "pyomo".toList then (if s.conf then .ok (s, .model) else .error .attribute)
    else if solver = some "CLP".toList then .error .noModule
    else do
      let o ← runOther s
      .ok (s, o)

/-- one call after others -/
def runStep (st : RunState × List RunOut) (c : RunCall) : Except RunErr (RunState × List RunOut) := do
  let r ← runCall st.1 c
  .ok (r.1, st.2 ++ [r.2])

/-- a history of calls -/
def runCalls (s : RunState) (l : List RunCall) : Except RunErr (RunState × List RunOut) := l.foldlM runStep (s, [])

/-- the calls of run-en with pyomo (CA:113, 153-154) and of run-example-hydro (CA:421, 440-441): the model is handed over as the first argument of `run` -/
def runCase : List RunCall := [.initConf, .runObject]

/-! ## water -/

/-- numpy: replace a whole row by a number, or one entry of it; negative positions count from the end -/
def npRowSet (l : List Rat) (i : Int) (q : Rat) : Except PyErr (List Rat) :=
  if i < 0 then (if i + l.length < 0 then .error .index else .ok (l.set (i + l.length).toNat q))
  else if i < l.length then .ok (l.set i.toNat q) else .error .index

/-- `set_Hydro`, MN:1127-1132: `win` are the inputs `Weight['In']` by node and vector -/
def setHydro (number : Int) (win : List (List Rat)) (index : Int) (value : Rat) : Except PyErr (List (List Rat)) := do
  let row ← npGet win 1
  if number = 1 then .ok (win.set 1 (List.replicate row.length value))
  else do
    let r ← npRowSet row (index - 1) value
    .ok (win.set 1 r)

/-- several calls -/
def setHydros (number : Int) (win : List (List Rat)) (calls : List (Int × Rat)) : Except PyErr (List (List Rat)) :=
  calls.foldlM (fun w c => setHydro number w c.1 c.2) win

/-- the inputs of one vector -/
def winOf (win : List (List Rat)) (xv : Nat) (x : Nat) : Rat := ((win[x]?).bind (fun (r : List Rat) => r[xv]?)).getD 0

/-! ## marginal values -/

/-- `get_HydroFlag`, MN:467-481 -/
def hydroFlag (dual : Option Rat) (penalty base : Rat) : Except PyErr Bool :=
  match dual with
  | none => .ok false
  | some q => if base = 0 then .error .zeroDivision else .ok (decide (penalty / base < ((-1 * pyTruncQ q : Int) : Rat)))

/-- the flag of the GLPK results, CA:213-219 -/
def glpkFlag (dual penalty base : Rat) : Except PyErr Bool := if base = 0 then .error .zeroDivision else .ok (decide (penalty / base < -dual))

/-- `get_MeanHydroMarginal`, MN:525-529: `duals` of the balance of node 1, by vector -/
def meanMarginal (duals : List (Option Rat)) : Except PyErr Rat :=
  if duals.length = 0 then .error .zeroDivision else .ok (((duals.map hydroMarginal).sum : Int) / (duals.length : Rat))

/-- `get_Hydro`, MN:461-465: `out` are the outputs of node 1, by vector (positions of a pyomo variable: a KeyError otherwise) -/
def getHydro (out : List Rat) (index : Int) : Except PyErr Rat :=
  if index < 1 then .error .key else match out[(index - 1).toNat]? with
    | some q => .ok q
    | none => .error .key

/-- the output of one vector, MN:368 -/
def ctlOut (out : List Rat) (xi : Nat) : Except PyErr Rat :=
  match out[xi]? with
  | some q => .ok q
  | none => .error .key

/-- `get_AllHydro`, MN:364-370 -/
def getAllHydro (vectors : Nat) (out : List Rat) : Except PyErr Rat := do
  let l ← (List.range vectors).mapM (ctlOut out)
  .ok l.sum

/-! ## lines -/

/-- the data of a branch that can be set -/
structure CtlBranch where
  r : Rat
  x : Rat
  b : Rat
  rate : Rat
  deriving DecidableEq, Repr

/-- the parameter, MN:1141-1153: the first of BR_R, BR_X, BR_B that is among the arguments, or the capacity -/
inductive CtlKind where
  | resistance | reactance | susceptance | capacity
  deriving DecidableEq, Repr

/-- MN:1141-1150 -/
def ctlKind (argv : List Tok) : CtlKind :=
  if "BR_R".toList ∈ argv then .resistance
  else if "BR_X".toList ∈ argv then .reactance
  else if "BR_B".toList ∈ argv then .susceptance
  else .capacity

/-- DV:359-388 -/
def ctlPut (k : CtlKind) (q : Rat) (b : CtlBranch) : CtlBranch :=
  match k with
  | .resistance => ⟨q, b.x, b.b, b.rate⟩
  | .reactance => ⟨b.r, q, b.b, b.rate⟩
  | .susceptance => ⟨b.r, b.x, q, b.rate⟩
  | .capacity => ⟨b.r, b.x, b.b, q⟩

/-- the argument `index`: a list of positions or a number -/
inductive CtlIndex where
  | many (l : List Int)
  | one (n : Int)
  deriving DecidableEq, Repr

/-- `self.NM.ENetwork.Branch[xb].set_…(value)` -/
def ctlSetAt (k : CtlKind) (q : Rat) (l : List CtlBranch) (i : Int) : Except PyErr (List CtlBranch) :=
  let j : Int := if i < 0 then i + l.length else i
  if j < 0 then .error .index
  else match l[j.toNat]? with
    | some b => .ok (l.set j.toNat (ctlPut k q b))
    | none => .error .index

/-- the value that is stored, MN:1151 -/
def ctlValue (base : Rat) (k : CtlKind) (value : Rat) : Except PyErr Rat :=
  match k with
  | .capacity => if base = 0 then .error .zeroDivision else .ok (value / base)
  | _ => .ok value

/-- `set_LineCapacity`, MN:1139-1157: a number is not iterable, a TypeError -/
def setLineCapacity (base : Rat) (l : List CtlBranch) (index : CtlIndex) (value : Rat) (argv : List Tok) : Except PyErr (List CtlBranch) := do
  let q ← ctlValue base (ctlKind argv) value
  match index with
  | .one _ => .error .type
  | .many is => is.foldlM (ctlSetAt (ctlKind argv) q) l

/-- `set_LineCapacityAll`, MN:1159-1162 -/
def setLineCapacityAll (base : Rat) (l : List CtlBranch) (value : Rat) (argv : List Tok) : Except PyErr (List CtlBranch) :=
  setLineCapacity base l (.many ((List.range l.length).map (fun (i : Nat) => (i : Int)))) value argv

/-- the limits of the flow of a branch in operation, DV:283-297 -/
def ctlFlowOk (b : CtlBranch) (flow : Rat) : Prop := -b.rate ≤ flow ∧ flow ≤ b.rate

end Pyensys
