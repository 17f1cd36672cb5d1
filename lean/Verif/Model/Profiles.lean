import Verif.Model.NodeData

/-!
# Model of the pandapower profiles read from attest spreadsheets and of their aggregation

Source: pyensys/readers/JSONReader.py:184-254, 474-495 (JR below).

Simplifications: floats are rationals and no cell is missing; a data frame is its number of columns and
the list of its rows.  The spreadsheet is already read (`read_excel`, JR:166): its first column holds
integers, its second column the type, the others numbers.
-/

namespace Pyensys

/-- a data frame of numbers -/
structure Frame where
  columns : List String
  rows : List (List Rat)
  deriving DecidableEq, Repr

/-- column `j` of some rows -/
def columnOf (rows : List (List Rat)) (j : Nat) : List Rat := rows.map (fun r => r.getD j 0)

/-- `list(frame.mean())`, JR:491: the mean of each column of a non-empty block. -/
def blockMeans (width : Nat) (block : List (List Rat)) : List Rat :=
  (List.range width).map (fun j => columnMean (columnOf block j))

/-- `_recalculate_pandapower_profile_data`, JR:484-495; `n` is the number of periods. -/
def recalculate (n : Nat) (f : Frame) : Except PyErr Frame :=
  if n = 0 then .error .zeroDivision
  else if f.rows.length % n = 0 then
    let sub := f.rows.length / n
    .ok { f with rows := (List.range n).map (fun p =>
      blockMeans f.columns.length ((f.rows.drop (p * sub)).take ((p + 1) * sub - p * sub))) }
  else .error .value

/-- `_adjust_pandapower_profiles_to_time_settings`, JR:474-482, for one profile. -/
def adjustProfile (n : Nat) (f : Frame) : Except PyErr Frame :=
  if f.rows.length > n then recalculate n f
  else if f.rows.length < n then .error .value
  else .ok f

/-- a row of the attest spreadsheet: 1-based index of the element, type, values over time -/
structure AttestRow where
  index : Int
  type : String
  values : List Rat
  deriving DecidableEq, Repr

/-- a profile (`PandaPowerProfileData`, ReaderDataClasses.py:40-47); `columns` are the columns of the
transposed frame, i.e. one list of values over time for each element -/
structure AttestProfile where
  elementType : String
  variableName : String
  indexes : List Int
  names : List String
  columns : List (List Rat)
  active : List String
  deriving DecidableEq, Repr

/-- body of the loop JR:239-244 on `(type_element, rows_per_type_element)` -/
def groupStep (st : List String × List (List Nat)) (e : AttestRow × Nat) : List String × List (List Nat) :=
  if e.1.type ∈ st.1 then (st.1, st.2.modify (st.1.idxOf e.1.type) (· ++ [e.2]))
  else (st.1 ++ [e.1.type], st.2 ++ [[e.2]])

/-- `_divide_data_per_type`, JR:234-250: the types and the rows of each. -/
def divideByType (rows : List AttestRow) : List String × List (List AttestRow) :=
  let st := rows.zipIdx.foldl groupStep ([], [])
  (st.1, st.2.map (fun ns => ns.filterMap (fun n => rows[n]?)))

/-- `_store_variables_names`, JR:227-231 (the default is the empty string) -/
def attestVariable (type : String) : String :=
  if type = "P" then "p_mw" else if type = "Q" then "q_mvar" else ""

/-- the column names of JR:213-220 -/
def attestNames (type : String) (indexes : List Int) : List String :=
  if type = "P" then indexes.map (fun i => "pd_" ++ toString i)
  else if type = "Q" then indexes.map (fun i => "qd_" ++ toString i)
  else []

/-- one pass of the loop JR:195-201 for a type and its rows.  Assigning column names of the wrong number
raises ValueError (JR:222). `active` is `active_columns_names` of the settings, if it is still there. -/
def attestOne (elementType : String) (active : Option (List String)) (type : String) (rows : List AttestRow) :
    Except PyErr AttestProfile :=
  let indexes := rows.map (fun r => r.index - 1)
  let names := attestNames type indexes
  if names.length = rows.length then
    .ok { elementType := elementType, variableName := attestVariable type, indexes := indexes, names := names,
          columns := rows.map (·.values), active := active.getD names }
  else .error .value

/-- `_read_profile_data_from_file_with_attest_format`, JR:193-202: the given active columns are popped
by the first profile (JR:206-208). -/
def attestLoop (elementType : String) : Option (List String) → List (String × List AttestRow) →
    Except PyErr (List AttestProfile)
  | _, [] => .ok []
  | active, (t, rows) :: rest =>
    match attestOne elementType active t rows with
    | .error e => .error e
    | .ok p =>
      match attestLoop elementType none rest with
      | .error e => .error e
      | .ok ps => .ok (p :: ps)

/-- `_read_profile_data_from_file_with_attest_format`, JR:193-202. -/
def readAttest (elementType : String) (active : Option (List String)) (rows : List AttestRow) :
    Except PyErr (List AttestProfile) :=
  let d := divideByType rows
  attestLoop elementType active (d.1.zip d.2)

end Pyensys
