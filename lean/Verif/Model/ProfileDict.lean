import Verif.Model.Profiles

/-!
# Model of profiles in the original format and of the time steps they drive

Sources: pyensys/readers/JSONReader.py (JR), pyensys/wrappers/PandaPowerManager.py (PM), pyensys/wrappers/PandaPowerWrapper.py (PW).

Modelled: reading of a profile with `"format_data": "original"` (JR:116-118, 152-182, 257-265), its adaptation to the number of periods (JR:474-495, `adjustProfile` of Model/Profiles),
the controllers made from the profiles (PM:42-50, PW:48-58) and what they do in a time step.

Simplifications: floats are rationals and no number is missing, so that rows of a wrong length raise ValueError (pandas fills short rows with NaN if one row has the right length).  A workbook is the
function from the names of its sheets to their tables; a path is its extension.  pandapower is assumed to set in a time step `net[element].loc[element_index, variable]` to the values of the columns
`profile_name` in the row of the time step, controller after controller in the order of their creation; unknown labels raise KeyError, a wrong number of values ValueError.
-/

namespace Pyensys

/-- the entries of the dictionary of a profile; `none` is an absent or null entry -/
structure OpDict where
  data : Option (List (List Rat))
  names : Option (List String)
  path : Option String
  sheet : Option String
  type : Option String
  var : Option String
  indexes : Option (List Int)
  allIndexes : Bool
  active : Option (List String)
  allActive : Bool
  deriving DecidableEq, Repr

/-- `PandaPowerProfileData` of such a profile; `active` is None if `_read_active_columns_names` ends without a result -/
structure OpProfile where
  frame : Frame
  type : String
  var : String
  indexes : List Int
  allIndexes : Bool
  active : Option (List String)
  deriving DecidableEq, Repr

/-- `_create_dataframe`, JR:116-117 -/
def opFrame (rows : List (List Rat)) (names : List String) : Except PyErr Frame :=
  if rows.all (fun r => r.length == names.length) = true then .ok ⟨names, rows⟩ else .error .value

/-- `_read_dataframe_data`, JR:172-182, with `_read_file`, JR:159-169: None (`none`) for files that are not `.xlsx` -/
def opTable (book : String → Except PyErr Frame) (d : OpDict) : Except PyErr (Option Frame) :=
  match d.data, d.names, d.path, d.sheet with
  | some rows, some names, _, _ => (opFrame rows names).map some
  | _, _, some ext, some s => if ext = ".xlsx" then (book s).map some else .ok none
  | _, _, _, _ => .ok (some ⟨[], []⟩)

/-- `_read_active_columns_names`, JR:152-156 -/
def opActive (d : OpDict) (f : Option Frame) : Except PyErr (Option (List String)) :=
  match d.active with
  | some a => .ok (some a)
  | none => if d.allActive = true then (match f with | some g => .ok (some g.columns) | none => .error .attribute) else .ok none

/-- `dict.pop(key)` -/
def opPop (x : Option String) : Except PyErr String := match x with | some s => .ok s | none => .error .key

/-- the adaptation of a profile to `n` periods, JR:474-495; `len(None.index)` raises AttributeError -/
def opAdjust (n : Nat) (f : Option Frame) : Except PyErr Frame := match f with | some g => adjustProfile n g | none => .error .attribute

/-- `_read_profile_data_with_original_format`, JR:257-265, followed by the adaptation to `n` periods, JR:474-482 -/
def opRead (book : String → Except PyErr Frame) (n : Nat) (d : OpDict) : Except PyErr OpProfile := do
  let f ← opTable book d
  let t ← opPop d.type
  let v ← opPop d.var
  let a ← opActive d f
  let g ← opAdjust n f
  .ok ⟨g, t, v, d.indexes.getD [], d.allIndexes, a⟩

/-- all profiles of a document, JR:415-417 -/
def opLoad (book : String → Except PyErr Frame) (n : Nat) (ds : List OpDict) : Except PyErr (List OpProfile) := ds.mapM (opRead book n)

/-- the values of the network: element type, variable, label of the element -/
abbrev OpNet := String → String → Int → Rat

/-- the columns with a name -/
def opColumns (cols : List String) (row : List Rat) (name : String) : Except PyErr (List Rat) :=
  match (cols.zip row).filter (fun e => e.1 == name) with
  | [] => .error .key
  | l => .ok (l.map Prod.snd)

/-- `DataFrame.loc[t, names]` -/
def opSelect (f : Frame) (names : List String) (t : Nat) : Except PyErr (List Rat) :=
  match f.rows[t]? with
  | none => .error .key
  | some row => (names.mapM (opColumns f.columns row)).map List.flatten

/-- assignment of one number -/
def opSet (type var : String) (net : OpNet) (e : Int × Rat) : OpNet :=
  fun t v i => if t = type ∧ v = var ∧ i = e.1 then e.2 else net t v i

/-- assignment to the labels of a controller -/
def opWrite (has : String → Int → Bool) (p : OpProfile) (net : OpNet) (vals : List Rat) : Except PyErr OpNet :=
  if p.indexes.all (has p.type) = true then
    (if vals.length = p.indexes.length then .ok ((p.indexes.zip vals).foldl (opSet p.type p.var) net) else .error .value)
  else .error .key

/-- a controller in a time step (PW:53-58); `has` tells which labels the network has -/
def opApply (has : String → Int → Bool) (t : Nat) (net : OpNet) (p : OpProfile) : Except PyErr OpNet :=
  match p.active with
  | none => .error .key
  | some a => (opSelect p.frame a t).bind (opWrite has p net)

/-- the controllers of the network in a time step, PM:42-50, PW:48-50 -/
def opStep (has : String → Int → Bool) (ps : List OpProfile) (t : Nat) (net : OpNet) : Except PyErr OpNet := ps.foldlM (opApply has t) net

end Pyensys
