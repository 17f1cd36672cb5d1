import Verif.Model.MatFile
import Mathlib.Algebra.Order.Field.Rat

/-!
# Model of the data of the compiled engine

Source: pyensys/engines/energy_models2.h (EH below) and pyensys/engines/energy_models2.cpp (EC below): `characteristic`, `information`, `graph_data` (EH:35-142, 366-763), `load_parameter`, `set_parameter`, `create_nodes_network`, `create_edges_network`, `get_information`, `convert2per_unit` (EC:15-55, 186-268, 411-441, 761-835).

Simplifications: doubles are rationals; printed warnings are left out; a result of `boost::get` with the wrong type (an exception that nobody catches) is `badGet`; codes of failure that end `initialise` are `code`.
-/

namespace Pyensys

/-- how the engine fails: `boost::bad_get`, undefined behaviour of C++, or a code that is returned -/
inductive CErr where
  | badGet
  | undefined
  | code (n : Int)
  deriving DecidableEq, Repr

/-- `value_T`, EH:24; values of different types are different -/
inductive CVal where
  | bool (b : Bool)
  | int (i : Int)
  | dbl (q : Rat)
  | str (s : Tok)
  deriving DecidableEq, Repr

/-- `boost::get<double>` -/
def CVal.getDbl : CVal → Except CErr Rat
  | .dbl q => .ok q
  | _ => .error .badGet

/-- `boost::get<int>` -/
def CVal.getInt : CVal → Except CErr Int
  | .int i => .ok i
  | _ => .error .badGet

/-- `boost::get<bool>` -/
def CVal.getBool : CVal → Except CErr Bool
  | .bool b => .ok b
  | _ => .error .badGet

/-- the text `N/A` -/
def cNA : CVal := .str "N/A".toList

/-- `characteristic`, EH:35-68 -/
structure CChar where
  name : Tok
  value : CVal
  values : List CVal := []
  deriving DecidableEq, Repr

/-- the constructor, EH:43-52 -/
def cChar (name : Tok) (val : CVal) (vec : Bool) : CChar := if vec = true then ⟨name, cNA, [val]⟩ else ⟨name, val, []⟩

/-- `information`, EH:70-142 -/
structure CInfo where
  chars : List CChar
  value : CVal
  deriving DecidableEq, Repr

/-- `information()`: no characteristics; the value is the default of the variant -/
def cNone : CInfo := ⟨[], .bool false⟩

/-- `set_characteristic`, EH:73-90, 469-486 -/
def cSetChar : List CChar → CChar → Bool → List CChar
  | [], c, _ => [c]
  | e :: l, c, vec => if e.name = c.name then (if vec = true then { e with values := e.values ++ c.values } else c) :: l else e :: cSetChar l c vec

/-- `get_characteristic`, EH:106-112, 445-451 -/
def cGetChar (l : List CChar) (name : Tok) : CChar := (l.find? (fun c => decide (c.name = name))).getD ⟨"N/A".toList, cNA, []⟩

/-- `exist`, EH:113-118 -/
def cHas (l : List CChar) (name : Tok) : Bool := l.any (fun c => decide (c.name = name))

/-- `load_parameter`, EC:20-26; a vector is loaded value by value -/
def cLoad (cand : CInfo) (name : Tok) (val : CVal) (vec : Bool) : CInfo :=
  if name = "value".toList then { cand with value := val } else { cand with chars := cSetChar cand.chars (cChar name val vec) vec }

/-- `is_subset`, EH:658-681 -/
def cSubset (a b : List CChar) : Bool := a.all (fun c => b.any (fun d => decide (c = d)))

/-- `exist` and `push_back` of `graph_data`, EH:538-550, 682-707: the value of the first entry all of whose characteristics are given is replaced -/
def cPush : List CInfo → CInfo → List CInfo
  | [], p => [p]
  | e :: l, p => if cSubset e.chars p.chars = true then { e with value := p.value } :: l else e :: cPush l p

/-- `update_info_value`, EH:708-731 -/
def cUpdate : List CInfo → CInfo → List CInfo
  | [], _ => []
  | e :: l, p => if cSubset e.chars p.chars = true then { e with value := p.value } :: l else e :: cUpdate l p

/-- `get_multi_info`, EH:399-434 -/
def cMulti (params : List CInfo) (chars : List CChar) : List CInfo := params.filter (fun i => cSubset chars i.chars)

/-- a vertex of the network, EH:756-761 -/
structure CVertex where
  chars : List CChar
  params : List CInfo
  deriving DecidableEq, Repr

/-- `set_characteristic` only if the parameter has it, EC:209-212 -/
def cOptional (l : List CChar) (p : CInfo) (name : Tok) : List CChar :=
  if cHas p.chars name = true then cSetChar l (cGetChar p.chars name) true else l

/-- a new vertex, EC:205-219 -/
def cVertex (p : CInfo) : CVertex :=
  let l := cSetChar (cSetChar [] (cGetChar p.chars "ID".toList) false) (cGetChar p.chars "type".toList) false
  let l := cOptional (cOptional l p "subtype".toList) p "typePF".toList
  if (cGetChar p.chars "type".toList).value = .str "branch".toList then
    ⟨cSetChar (cSetChar l (cGetChar p.chars "from".toList) false) (cGetChar p.chars "to".toList) false, cPush [] p⟩
  else ⟨cSetChar l (cGetChar p.chars "number".toList) false, cPush [] p⟩

/-- one parameter, EC:189-222 -/
def cAdd : List CVertex → CInfo → List CVertex
  | [], p => [cVertex p]
  | v :: l, p => if cGetChar p.chars "ID".toList = cGetChar v.chars "ID".toList then { v with params := cPush v.params p } :: l else v :: cAdd l p

/-- `create_nodes_network`, EC:186-226 -/
def cNodes (params : List CInfo) : List CVertex := params.foldl cAdd []

/-- what `get_information` finds, EC:411-441 -/
inductive CFound where
  | none
  | one (i : CInfo)
  | many
  deriving DecidableEq, Repr

/-- `get_information`, EC:411-441: the characteristics of the vertex, the name and further ones -/
def cFetch (v : CVertex) (name : Tok) (extra : List CChar) : CFound :=
  match cMulti v.params (v.chars ++ ⟨"name".toList, .str name, []⟩ :: extra) with
  | [] => .none
  | [i] => .one i
  | _ :: _ :: _ => .many

/-- a parameter, with or without subscripts, as in EC:703-707 -/
def cParam (v : CVertex) (name : Tok) (extra : List CChar) : Except CErr CVal :=
  match cFetch v name [] with
  | .one i => .ok i.value
  | .none => .ok cNone.value
  | .many =>
    match cFetch v name extra with
    | .one i => .ok i.value
    | .none => .ok cNone.value
    | .many => .error (.code (-6))

/-- `boost::get<double>` of a parameter -/
def cDouble (v : CVertex) (name : Tok) (extra : List CChar) : Except CErr Rat := do
  let x ← cParam v name extra
  x.getDbl

/-- `boost::get<bool>` of a parameter -/
def cBool (v : CVertex) (name : Tok) (extra : List CChar) : Except CErr Bool := do
  let x ← cParam v name extra
  x.getBool

/-! ## per unit -/

/-- the new values of the entries that were found, one after the other, EC:771-776 -/
def cScaleAll (base : Rat) : List CInfo → List CInfo → Except CErr (List CInfo)
  | params, [] => .ok params
  | params, i :: l =>
    match i.value with
    | .dbl q => cScaleAll base (cUpdate params { i with value := .dbl (q / base) }) l
    | _ => .error .badGet

/-- all entries of a name, EC:770-776 -/
def cScale (base : Rat) (params : List CInfo) (name : Tok) : Except CErr (List CInfo) :=
  cScaleAll base params (cMulti params [⟨"name".toList, .str name, []⟩])

/-- the names that are converted for a type of vertex, EC:768-832 -/
def cPowers (type : CVal) : List Tok :=
  if type = .str "bus".toList then ["Pd".toList]
  else if type = .str "generator".toList then ["active power max limit".toList, "Pmin".toList, "Qmax".toList, "Qmin".toList, "Pfix".toList, "Qfix".toList]
  else if type = .str "branch".toList then ["maxPflow".toList]
  else []

/-- one vertex, EC:766-833 -/
def cScaleVertex (base : Rat) (v : CVertex) : Except CErr CVertex := do
  let p ← (cPowers (cGetChar v.chars "type".toList).value).foldlM (cScale base) v.params
  .ok { v with params := p }

/-- `convert2per_unit`, EC:761-835 (the function has no `return`; the value is not used) -/
def cPerUnit (base : Rat) (vs : List CVertex) : Except CErr (List CVertex) := vs.mapM (cScaleVertex base)

end Pyensys
