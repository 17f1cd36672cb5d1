import Verif.Model.Solution
import Verif.Model.Settings

/-!
# Model of reading an input file by its path and of saving a plan

Source: pyensys/managers/GeneralManager.py (GM) and pyensys/readers/ReaderManager.py (RM).

Modelled: `read_parameters` (RM:6-15) with `os.path.splitext` of POSIX, what `main_access_function` returns (GM:10-34; the tables are those of Model/Solution) and `save_in_json` (GM:45-49).

Simplifications: a DataFrame is the list of the names of its columns and of its rows, with the index 0, 1, ... that `sort_values(ignore_index=True)` leaves; `json.dump` writes every
cell (that a cell can be written is assumed); a path is the list of its characters; prints are dropped.
-/

namespace Pyensys

/-! ## saving -/

/-- a cell of a table of a plan: a number of a scenario or a year, the position of a line, a cost -/
inductive SjCell where
  | num (n : Int)
  | pos (p : Pos)
  | cost (c : Option Rat)
  deriving DecidableEq, Repr

/-- a DataFrame -/
structure SjFrame where
  columns : List String
  rows : List (List SjCell)
  deriving DecidableEq, Repr

/-- the dictionary of a frame: for every column the value at every index -/
abbrev SjDict := List (String × List (Nat × SjCell))

/-- `DataFrame.to_dict()`: a cell that a row lacks is left out (rows of a DataFrame have all cells) -/
def sjToDict (f : SjFrame) : SjDict :=
  f.columns.zipIdx.map (fun c => (c.1, f.rows.zipIdx.filterMap (fun r => (r.1[c.2]?).map (fun v => (r.2, v)))))

/-- what "data" of an entry holds -/
inductive SjData where
  | frame (f : SjFrame)
  | dict (d : SjDict)
  deriving DecidableEq, Repr

/-- an element of the value to be saved: the dictionary of a table, or a list, or the object with the information of the search -/
inductive SjItem where
  | entry (group : String) (data : SjData)
  | list
  | info
  deriving DecidableEq, Repr

/-- `sol["data"] = sol["data"].to_dict()`, GM:47: a dictionary has no `to_dict`; a list takes no text as index, the object none at all -/
def sjItem : SjItem → Except PyErr SjItem
  | .entry g (.frame f) => .ok (.entry g (.dict (sjToDict f)))
  | .entry _ (.dict _) => .error .attribute
  | .list => .error .type
  | .info => .error .type

/-- the loop GM:46-47: the entries before an exception are already changed -/
def sjLoop : List SjItem → List SjItem × Option PyErr
  | [] => ([], none)
  | x :: xs =>
    match sjItem x with
    | .error e => (x :: xs, some e)
    | .ok y => (y :: (sjLoop xs).1, (sjLoop xs).2)

/-- the value to be saved and the file after `save_in_json` -/
structure SjAfter where
  items : List SjItem
  file : Option (List SjItem)
  error : Option PyErr
  deriving DecidableEq, Repr

/-- `save_in_json`, GM:45-49: the file is opened after the loop -/
def sjSave (items : List SjItem) (file : Option (List SjItem)) : SjAfter :=
  match sjLoop items with
  | (l, some e) => ⟨l, file, some e⟩
  | (l, none) => ⟨l, some l, none⟩

/-- the three entries of a plan, NonAnticipativeRecursiveFunction.py:482-484, 517 -/
def sjTables (t : Tables) : List SjItem :=
  [.entry "lines" (.frame ⟨["scenario", "year", "line_index"], t.lines.map (fun r => [.num r.1, .num r.2.1, .pos r.2.2])⟩),
   .entry "investment_costs" (.frame ⟨["scenario", "cost"], t.investment.map (fun r => [.num r.1, .cost r.2])⟩),
   .entry "operation_costs" (.frame ⟨["scenario", "cost"], t.operation.map (fun r => [.num r.1, .cost r.2])⟩)]

/-- what `main_access_function` returns, as the sequence over which `save_in_json` iterates: the pair of the list of tables and of the information (`none`: None, over which nothing can
iterate) -/
def sjReturned (r : Option Tables) : Option (List SjItem) := r.map (fun _ => [.list, .info])

/-- `save_in_json(main_access_function(...), path)` -/
def sjSaveReturned (r : Option Tables) (file : Option (List SjItem)) : SjAfter :=
  match sjReturned r with
  | none => ⟨[], file, some .type⟩
  | some l => sjSave l file

/-! ## reading -/

/-- the last component of a path -/
def sjName (path : List Char) : List Char := (path.reverse.takeWhile (· ≠ '/')).reverse

/-- `splitext(path)[1]`: leading dots of the name do not count -/
def sjExt (path : List Char) : List Char :=
  if '.' ∈ (sjName path).dropWhile (· = '.') then '.' :: ((((sjName path).dropWhile (· = '.')).reverse).takeWhile (· ≠ '.')).reverse else []

/-- `read_parameters`, RM:6-15; `doc` is what `json.load` makes of the file (an exception if it cannot) -/
def sjRead {P T : Type} (env : ReadEnv P T) (path : List Char) (doc : Except PyErr (List (String × Json))) : Except PyErr (Params P T) :=
  if sjExt path = ".json".toList then do
    let d ← doc
    readDocument env {} d
  else .ok {}

end Pyensys
