import Verif.Model.Report
import Verif.Model.MatFile

/-!
# Model of the tables that `save_outputs` writes: HDF5 and Excel

Source: pyensys/engines/pyeneO.py (PO below): `pyeneSave` 43-65, `pyene2excel.save_results` 72-270, `pyeneHDF5Settings.save_results` 343-533; the call in pyensys/engines/main.py:1062-1063 and the position
of the run, `run(subscripts=...)`, main.py:1039-1060, pyene_Models.py:621-632.

Simplifications: texts are lists of characters; a characteristic has at least one value (`return_outputs` of the C++ engine gives name, type and values); floats are exact (the file has 32 bits) and texts whole
(the HDF5 columns hold 64 characters); the columns of a sheet are found by their names instead of their numbers; HDF5 refuses two tables of the same name, which is not modelled, nor is the order of the columns.
-/

namespace Pyensys

/-- a characteristic of a value: `cha[0]`, `cha[2]`, `cha[3:]` -/
structure OtCha where
  key : Tok
  first : Tok
  more : List Tok := []
  deriving DecidableEq, Repr

/-- a value with its characteristics: an element of `zip(values, characteristics)` -/
structure OtVal where
  val : Rat
  cha : List OtCha
  deriving DecidableEq, Repr

/-- a cell -/
inductive OtCell
  | text (t : Tok)
  | num (v : Rat)
  deriving DecidableEq, Repr

/-- a row: its cells under the names of their columns -/
abbrev OtRow := List (Tok × OtCell)

/-- the two problems for which tables are written -/
inductive OtProblem
  | opf
  | tree
  deriving DecidableEq, Repr

/-- the two kinds of files -/
inductive OtDevice
  | h5
  | excel
  deriving DecidableEq, Repr

/-- names of characteristics -/
def otName : Tok := "name".toList
def otPt : Tok := "pt".toList
def otHour : Tok := "hour".toList

/-- the characteristic that gives the column of a value, PO:119, 210, 389, 486 -/
def otIdKey : OtProblem → Tok
  | .opf => "ID".toList
  | .tree => "reference".toList

/-- the characteristics that give the row of a value, PO:107, 156, 198, 241 and 377, 426, 474, 507 -/
def otIsTime : OtProblem → Tok → Bool
  | .opf, k => k == otPt || k == otHour
  | .tree, k => !(k == otName) && !(k == "reference".toList)

/-- the separator of the parts of a text, PO:163, 245 and 432, 512 -/
def otSep : OtDevice → Tok
  | .excel => ['|']
  | .h5 => ['_']

/-- the text of a characteristic: `word`, PO:161-164 and 430-433 -/
def OtCha.text (d : OtDevice) (c : OtCha) : Tok := c.more.foldl (fun w x => w ++ otSep d ++ x) c.first

/-- the test of PO:101-104, 113-116: a characteristic "name" with this value -/
def otNamed (n : Tok) (v : OtVal) : Bool := v.cha.any (fun c => c.key == otName && c.first == n)

/-- `table_columns[key] = ...` -/
def otInsert (cols : List Tok) (k : Tok) : List Tok := if cols.contains k then cols else cols ++ [k]

/-- the keys of the characteristics that give the row -/
def otTimeKeys (p : OtProblem) (v : OtVal) : List Tok := (v.cha.filter (fun c => otIsTime p c.key)).map (fun c => c.key)

/-- the columns for the characteristics, PO:98-110 (only those of the first value of the name, `break`) and 192-201 (all values) -/
def otTimeCols (p : OtProblem) (n : Tok) (vals : List OtVal) : List Tok :=
  let ms := vals.filter (otNamed n)
  match p with
  | .opf => ((ms.take 1).flatMap (otTimeKeys p)).foldl otInsert []
  | .tree => (ms.flatMap (otTimeKeys p)).foldl otInsert []

/-- the column of the identifier of a value, PO:118-122: the first identifier that has none -/
def otIdCol (p : OtProblem) (cols : List Tok) (v : OtVal) : List Tok :=
  match v.cha.find? (fun c => c.key == otIdKey p && !cols.contains c.first) with
  | some c => cols ++ [c.first]
  | none => cols

/-- `table_columns`, PO:96-122, 190-213, 366-392, 463-489 -/
def otColumns (p : OtProblem) (n : Tok) (vals : List OtVal) : List Tok := (vals.filter (otNamed n)).foldl (otIdCol p) (otTimeCols p n vals)

/-- the test of a characteristic in PO:147-154, 412-422 -/
def otFits (n : Tok) (pt : List Tok) (c : OtCha) : Bool :=
  (!(c.key == otName) || c.first == n) && (!(c.key == otPt) || c.first :: c.more == pt)

/-- `is_group`, PO:143-154, 412-422: no characteristic contradicts name or position; PO:229-233, 501-505: the name is there -/
def otGroup (p : OtProblem) (n : Tok) (pt : List Tok) (v : OtVal) : Bool :=
  match p with
  | .opf => v.cha.all (otFits n pt)
  | .tree => otNamed n v

/-- `HDF5row[k] = c`, `ws.cell(row=aux, column=table_columns[k], value=c)`: KeyError if there is no such column -/
def otWrite (cols : List Tok) (row : OtRow) (k : Tok) (c : OtCell) : Except PyErr OtRow :=
  if cols.contains k then .ok (rpSet row k c) else .error .key

/-- equality of two dictionaries -/
def otSame (a b : List (Tok × Tok)) : Bool := (a.map Prod.fst ++ b.map Prod.fst).all (fun k => a.lookup k == b.lookup k)

/-- `compare_cha`, PO:174-183 -/
def otDict (d : OtDevice) (p : OtProblem) (v : OtVal) : List (Tok × Tok) :=
  (v.cha.filter (fun c => otIsTime p c.key)).foldl (fun m c => rpSet m c.key (c.text d)) []

/-- `ID`, PO:173, 184-185: the last identifier, the empty text if there is none -/
def otLastId (p : OtProblem) (v : OtVal) : Tok := (((v.cha.filter (fun c => c.key == otIdKey p)).getLast?).map (fun c => c.first)).getD []

/-- `reference`, the current row and `used_values[num]` while the first value of a row is entered -/
structure OtFirst where
  ref : List (Tok × Tok)
  row : OtRow
  used : Bool
  deriving DecidableEq, Repr

/-- one characteristic of the first value of a row, PO:156-170 -/
def otFirstStep (d : OtDevice) (p : OtProblem) (cols : List Tok) (x : Rat) (s : OtFirst) (c : OtCha) : Except PyErr OtFirst :=
  if otIsTime p c.key then do
    let row ← otWrite cols s.row c.key (.text (c.text d))
    .ok ⟨rpSet s.ref c.key (c.text d), row, s.used⟩
  else if c.key == otIdKey p then do
    let row ← otWrite cols s.row c.first (.num x)
    .ok ⟨s.ref, row, true⟩
  else .ok s

/-- the state of a pass through the values: `reference`, the current row, `is_end` -/
structure OtPass where
  ref : List (Tok × Tok)
  row : OtRow
  isEnd : Bool
  deriving DecidableEq, Repr

/-- one value in a pass, PO:141-189: the state and `used_values[num]` afterwards -/
def otStep (d : OtDevice) (p : OtProblem) (n : Tok) (pt : List Tok) (cols : List Tok) (s : OtPass) (e : OtVal × Bool) : Except PyErr (OtPass × Bool) :=
  if e.2 || !otGroup p n pt e.1 then .ok (s, e.2)
  else if s.ref = [] then do
    let f ← e.1.cha.foldlM (otFirstStep d p cols e.1.val) ⟨s.ref, s.row, false⟩
    .ok (⟨f.ref, f.row, false⟩, f.used)
  else if otSame (otDict d p e.1) s.ref then do
    let row ← otWrite cols s.row (otLastId p e.1) (.num e.1.val)
    .ok (⟨s.ref, row, false⟩, true)
  else .ok (s, false)

/-- a pass through the values, PO:140-189 -/
def otPass (d : OtDevice) (p : OtProblem) (n : Tok) (pt : List Tok) (cols : List Tok) : OtPass → List (OtVal × Bool) → Except PyErr (OtPass × List (OtVal × Bool))
  | s, [] => .ok (s, [])
  | s, e :: es => do
    let r ← otStep d p n pt cols s e
    let t ← otPass d p n pt cols r.1 es
    .ok (t.1, (e.1, r.2) :: t.2)

/-- the loop `while not is_end`, PO:136-190, 406-458: rows and `used_values`; `none`: not finished after `fuel` rounds -/
def otLoop (d : OtDevice) (p : OtProblem) (n : Tok) (pt : List Tok) (cols : List Tok) : Nat → List (OtVal × Bool) → Except PyErr (Option (List OtRow × List (OtVal × Bool)))
  | 0, _ => .ok none
  | fuel + 1, vs => do
    let r ← otPass d p n pt cols ⟨[], [], true⟩ vs
    if r.1.isEnd then .ok (some ([], r.2))
    else do
      let t ← otLoop d p n pt cols fuel r.2
      .ok (t.map (fun q => (r.1.row :: q.1, q.2)))

/-- a table in the file -/
structure OtTable where
  name : Tok
  cols : List Tok
  rows : List OtRow
  deriving DecidableEq, Repr

/-- an output that the user asks for: characteristics "data device", "name" and "problem" -/
structure OtOut where
  device : OtDevice
  name : Tok
  problem : Option OtProblem
  deriving DecidableEq, Repr

/-- `for key, val in table_columns`, PO:216-217: the keys of the dictionary are unpacked (ValueError), and a letter is no number of a column (TypeError) -/
def otHeader (d : OtDevice) (p : OtProblem) (cols : List Tok) : Except PyErr Unit :=
  match d, p, cols with
  | .excel, .tree, k :: _ => if k.length = 2 then .error .type else .error .value
  | _, _, _ => .ok ()

/-- `i_pt[0]`, PO:126, 396 -/
def otFirstPos (p : OtProblem) (pt : List Tok) : Except PyErr Unit :=
  match p, pt with
  | .opf, [] => .error .index
  | _, _ => .ok ()

/-- the table of an output, PO:94-268 and 364-533 -/
def otTable (d : OtDevice) (fuel : Nat) (pt : List Tok) (o : OtOut) (vs : List (OtVal × Bool)) : Except PyErr (Option (List OtTable × List (OtVal × Bool))) :=
  match o.problem with
  | none => .ok (some ([], vs))
  | some p => do
    let cols := otColumns p o.name (vs.map Prod.fst)
    let _ ← otFirstPos p pt
    let _ ← otHeader d p cols
    let r ← otLoop d p o.name pt cols fuel vs
    .ok (r.map (fun q => ([⟨o.name, cols, q.1⟩], q.2)))

/-- the loop over the outputs, PO:95, 365 -/
def otTables (d : OtDevice) (fuel : Nat) (pt : List Tok) : List OtOut → List (OtVal × Bool) → Except PyErr (Option (List OtTable))
  | [], _ => .ok (some [])
  | o :: os, vs => do
    let r ← otTable d fuel pt o vs
    match r with
    | none => .ok none
    | some q => do
      let t ← otTables d fuel pt os q.2
      .ok (t.map (fun ts => q.1 ++ ts))

/-- the subscript "pt" of the run: name of the type of data, and the value -/
structure OtSub where
  dtype : Tok
  value : List Tok
  deriving DecidableEq, Repr

/-- what is taken for the position in the tree: `value[1]` for Excel, PO:93, `value[0]`, the name of the type as a sequence of characters, for HDF5, PO:362 -/
def otPos (d : OtDevice) (s : OtSub) : List Tok :=
  match d with
  | .excel => s.value
  | .h5 => s.dtype.map (fun c => [c])

/-- `save_results` of a file, PO:72-270, 343-533: without the subscript "pt" the list of positions is empty, and so is `zip` -/
def otSave (d : OtDevice) (fuel : Nat) (outs : List OtOut) (sub : Option OtSub) (vals : List OtVal) : Except PyErr (Option (List OtTable)) :=
  match sub with
  | none => .ok (some [])
  | some s => otTables d fuel (otPos d s) (outs.filter (fun o => o.device = d)) (vals.map (fun v => (v, false)))

/-- `close_output_files`, PO:64-65: AttributeError if there is no HDF5 file -/
def otClose (outs : List OtOut) : Except PyErr Unit := if outs.any (fun o => o.device = .h5) then .ok () else .error .attribute

end Pyensys
