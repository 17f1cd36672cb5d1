import Verif.Model.EngineData
import Verif.Model.Workbook

/-!
# Model of handing the data of a workbook to the compiled engine

Source: pyensys/engines/pyene_Models.py (PM below): `_load_tree_information_cpp`, `_load_model_information_cpp`, `_load2cpp`, `_load_information_cpp` PM:553-608, the names of the options PM:309-355; pyensys/engines/cpp_energy_wrapper.pyx: `create_parameter`, `load_value`, `set_parameter` 171-213 (CW below); pyensys/engines/energy_models2.cpp:20-55 (EC below); pyensys/engines/energy_models2.h:295-307 (`parameters::push_back`, EH below).

Simplifications: every characteristic and every value has one of the eight data types (another one is printed and not loaded); an `int` has 32 bits, and `PyErr.value` stands for the OverflowError of a larger one; what Cython makes of a float where an integer is declared depends on its version and is the parameter `asInt`; `str` of an option is the parameter `str`; texts are ASCII. Booleans count as numbers.
-/

namespace Pyensys

/-- what the model leaves open: floats for integers, and `str` -/
structure YlCfg where
  asInt : Rat → Except PyErr Int
  str : XCell → Tok

/-- the conversion to `int` of 32 bits -/
def ylInt32 (n : Int) : Except PyErr CVal := if -2147483648 ≤ n ∧ n ≤ 2147483647 then .ok (.int n) else .error .value

/-- `i_value = val`, CW:181, 194 -/
def ylInt (cfg : YlCfg) : XCell → Except PyErr CVal
  | .int n => ylInt32 n
  | .bool b => ylInt32 (if b = true then 1 else 0)
  | .num q => do
    let n ← cfg.asInt q
    ylInt32 n
  | .text _ => .error .type

/-- `d_value = val`, CW:184, 198 -/
def ylDbl (c : XCell) : Except PyErr CVal :=
  match c.number with
  | some q => .ok (.dbl q)
  | none => .error .type

/-- `s_value = val.encode('utf-8')`, CW:190, 206 -/
def ylStr : XCell → Except PyErr CVal
  | .text t => .ok (.str t)
  | _ => .error .attribute

/-- whether the type is that of a list, CW:192-207 -/
def XDt.isVec : XDt → Bool
  | .integer | .double | .string | .bool => false
  | .vInteger | .vDouble | .vString | .vBool => true

/-- one cell for a type -/
def ylCell (cfg : YlCfg) (dt : XDt) (c : XCell) : Except PyErr CVal :=
  match dt with
  | .integer | .vInteger => ylInt cfg c
  | .double | .vDouble => ylDbl c
  | .string | .vString => ylStr c
  | .bool | .vBool => .ok (.bool (xTrue (some c)))

/-- a list where one value is declared: only its truth is a value -/
def ylListAsOne (dt : XDt) (l : List XCell) : Except PyErr CVal :=
  match dt with
  | .bool => .ok (.bool (!l.isEmpty))
  | .string => .error .attribute
  | _ => .error .type

/-- `for v in val`: a text is iterated letter by letter -/
def ylIter : XVal → Except PyErr (List XCell)
  | .many l => .ok l
  | .one (.text t) => .ok (t.map (fun c => .text [c]))
  | .one _ => .error .type

/-- `load_value`, CW:174-209 -/
def ylLoadValue (cfg : YlCfg) (cand : CInfo) (dt : XDt) (name : Tok) (v : XVal) : Except PyErr CInfo :=
  if dt.isVec = true then do
    let l ← ylIter v
    l.foldlM (fun c x => do
      let y ← ylCell cfg dt x
      return cLoad c name y true) cand
  else
    match v with
    | .one c => do
      let y ← ylCell cfg dt c
      return cLoad cand name y false
    | .many l => do
      let y ← ylListAsOne dt l
      return cLoad cand name y false

/-- the lists of the engine, EH:295-307, and the candidate -/
structure YlStore where
  network : List CInfo := []
  tree : List CInfo := []
  model : List CInfo := []
  connections : List CInfo := []
  outputs : List CInfo := []
  cand : CInfo := cNone
  deriving DecidableEq, Repr

/-- the names of the lists -/
inductive YlList where
  | network | tree | model | connections | outputs
  deriving DecidableEq, Repr

/-- `set_parameter`, EC:48-55 -/
def ylPush (s : YlStore) : YlList → YlStore
  | .network => { s with network := s.network ++ [s.cand] }
  | .tree => { s with tree := s.tree ++ [s.cand] }
  | .model => { s with model := s.model ++ [s.cand] }
  | .connections => { s with connections := s.connections ++ [s.cand] }
  | .outputs => { s with outputs := s.outputs ++ [s.cand] }

/-- `create_parameter`, EC:15-18: the value stays -/
def ylCreate (s : YlStore) : CInfo := ⟨[], s.cand.value⟩

/-- one element, PM:591-595 -/
def ylElement (cfg : YlCfg) (dest : YlList) (s : YlStore) (x : XInfo) : Except PyErr YlStore := do
  let c ← x.chars.foldlM (fun c h => ylLoadValue cfg c h.dt h.name h.value) (ylCreate s)
  let c ← ylLoadValue cfg c x.dt "value".toList (.one x.value)
  return ylPush { s with cand := c } dest

/-- `_load2cpp` with the elements, PM:589-596; `None` cannot be iterated -/
def ylLoad2 (cfg : YlCfg) (dest : YlList) (s : YlStore) (xs : Option (List XInfo)) : Except PyErr YlStore :=
  match xs with
  | none => .error .type
  | some xs => xs.foldlM (ylElement cfg dest) s

/-- a parameter of the tree, PM:80-85 -/
structure YlTree where
  name : Tok
  node : Tok
  level : Int
  value : Rat
  deriving DecidableEq, Repr

/-- an option, PM:72-78 -/
structure YlOption where
  name : Tok
  value : XCell
  engine : Option Tok := none
  deriving DecidableEq, Repr

/-- `double_model_parameters`, PM:337-339, 353 -/
def ylDoubleOptions : List Tok := ["Sbase".toList]
/-- `string_model_parameters`, PM:341-345, 355 -/
def ylStringOptions : List Tok := ["solver".toList, "engine".toList, "output file name".toList]
/-- `bool_model_parameters`, PM:309-335, 347-351 -/
def ylBoolOptions : List Tok :=
  ["DC ED".toList, "DC OPF".toList, "AC PF".toList, "NetR".toList, "BT".toList, "SEP".toList, "TEP".toList, "UC".toList, "GEP".toList,
   "loss".toList, "multiperiod".toList, "MOEA".toList, "representative periods".toList]

/-- `_load_tree_information_cpp`, PM:553-560 -/
def ylTree (cfg : YlCfg) (s : YlStore) (p : YlTree) : Except PyErr YlStore := do
  let c ← ylLoadValue cfg (ylCreate s) .string "name".toList (.one (.text p.name))
  let c ← ylLoadValue cfg c .string "name_node".toList (.one (.text p.node))
  let c ← ylLoadValue cfg c .integer "level".toList (.one (.int p.level))
  let c ← ylLoadValue cfg c .double "value".toList (.one (.num p.value))
  return ylPush { s with cand := c } .tree

/-- the value of an option, PM:568-575 -/
def ylOptionValue (cfg : YlCfg) (c : CInfo) (p : YlOption) : Except PyErr CInfo :=
  if p.name ∈ ylDoubleOptions then ylLoadValue cfg c .double "value".toList (.one p.value)
  else if p.name ∈ ylStringOptions then ylLoadValue cfg c .string "value".toList (.one (.text (cfg.str p.value)))
  else if p.name ∈ ylBoolOptions then ylLoadValue cfg c .bool "value".toList (.one p.value)
  else .ok c

/-- the engine of an option, PM:566-567 -/
def ylOptionEngine (cfg : YlCfg) (c : CInfo) (p : YlOption) : Except PyErr CInfo :=
  match p.engine with
  | none => .ok c
  | some e => ylLoadValue cfg c .string "engine".toList (.one (.text e))

/-- `_load_model_information_cpp`, PM:562-576 -/
def ylOption (cfg : YlCfg) (s : YlStore) (p : YlOption) : Except PyErr YlStore := do
  let c ← ylLoadValue cfg (ylCreate s) .string "name".toList (.one (.text p.name))
  let c ← ylOptionEngine cfg c p
  let c ← ylOptionValue cfg c p
  return ylPush { s with cand := c } .model

/-- what was read: `tree_parameters`, `model_options`, `data` -/
structure YlData where
  tree : List YlTree := []
  options : List YlOption := []
  connections : List XInfo := []
  functions : List XInfo := []
  outputs : List XInfo := []
  bus : Option (List XInfo) := none
  generator : Option (List XInfo) := none
  branch : Option (List XInfo) := none

/-- `_load_information_cpp`, PM:598-608 -/
def ylLoad (cfg : YlCfg) (d : YlData) : Except PyErr YlStore := do
  let s ← d.tree.foldlM (ylTree cfg) {}
  let s ← d.options.foldlM (ylOption cfg) s
  let s ← ylLoad2 cfg .connections s (some d.connections)
  let s ← ylLoad2 cfg .network s (some d.functions)
  let s ← ylLoad2 cfg .outputs s (some d.outputs)
  let s ← ylLoad2 cfg .network s d.bus
  let s ← ylLoad2 cfg .network s d.generator
  ylLoad2 cfg .network s d.branch

end Pyensys
