import Verif.Model.Energy
import Verif.Model.MatFile
import Mathlib.Algebra.Order.Ring.Rat

/-!
# Model of the reader of workbooks: sheets of elements, options, trees and profiles

Source: `excel2pyene`, pyensys/engines/pyeneI.py:895-2482 (PI below); `information`, `parameters`, pyensys/engines/pyene_Models.py:36-71 (PM below).

Simplifications: a sheet is the list of its rows from row 1 (a row is the list of its cells from column 1; everything beyond is empty), so that no loop over a sheet can be endless; the cells are texts, integers,
floats (rationals) and booleans; the texts are ASCII (`lower`), the blank U+00A0 is replaced by a space as in the code; `str` is a parameter of the model; messages are not modelled; the product of two cells is
that of two numbers (a text raises a TypeError: Python would repeat a text multiplied by an integer).
-/

namespace Pyensys

/-- value of a cell of a workbook -/
inductive XCell where
  | text (t : Tok)
  | int (n : Int)
  | num (q : Rat)
  | bool (b : Bool)
  deriving DecidableEq, Repr

/-- a row from column 1 -/
abbrev XRow := List (Option XCell)

/-- a sheet from row 1 -/
abbrev XSheet := List XRow

/-- `sheet.cell(row, column).value`; the columns are counted from 0 -/
def xCell (row : XRow) (c : Nat) : Option XCell := (row[c]?).join

/-- number of a cell: booleans are 0 and 1 -/
def XCell.number : XCell → Option Rat
  | .text _ => none
  | .int n => some n
  | .num q => some q
  | .bool b => some (if b then 1 else 0)

/-- `a == b` of Python: texts as texts, the others as numbers -/
def xEq (a b : XCell) : Bool :=
  match a, b with
  | .text s, .text t => s == t
  | .text _, _ => false
  | _, .text _ => false
  | a, b => a.number == b.number

/-- `bool(value)` of a cell, PI:1711 -/
def xTrue : Option XCell → Bool
  | none => false
  | some (.text t) => !t.isEmpty
  | some c => c.number != some 0

/-- `replace(u'\xa0', ' ')` -/
def xSpaces (t : Tok) : Tok := t.map (fun c => if c = Char.ofNat 160 then ' ' else c)

/-- `lower()` -/
def xLower (t : Tok) : Tok := t.map Char.toLower

/-- kinds of data, `data_type` of PM:37-46 -/
inductive XDt where
  | integer | double | string | bool | vInteger | vDouble | vString | vBool
  deriving DecidableEq, Repr

/-- value of a characteristic: one cell or a list of cells -/
inductive XVal where
  | one (c : XCell)
  | many (l : List XCell)
  deriving DecidableEq, Repr

/-- `characteristic`, PM:36-40 -/
structure XChar where
  name : Tok
  value : XVal
  dt : XDt
  deriving DecidableEq, Repr

/-- `information`, PM:42-46 -/
structure XInfo where
  chars : List XChar
  value : XCell
  dt : XDt
  deriving DecidableEq, Repr

/-- `exist`, PM:53-57 -/
def XInfo.has (x : XInfo) (name : Tok) : Bool := x.chars.any (·.name == name)

/-- `get_characteristic`, PM:47-52: the first one with the name, or the text "N/A" -/
def XInfo.get (x : XInfo) (name : Tok) : XVal :=
  match x.chars.find? (·.name == name) with
  | some c => c.value
  | none => .one (.text "N/A".toList)

/-- accepted titles of the sheets of buses, PI:1122-1173 -/
def xNodeNames : List (Tok × Tok) :=
  [("number".toList, "number".toList), ("type node power flow".toList, "typePF".toList), ("typepf".toList, "typePF".toList),
   ("active power demand".toList, "Pd".toList), ("pd".toList, "Pd".toList), ("reactive power demand".toList, "Qd".toList), ("qd".toList, "Qd".toList),
   ("shunt conductance".toList, "Gs".toList), ("gs".toList, "Gs".toList), ("shunt susceptance".toList, "Bs".toList), ("bs".toList, "Bs".toList),
   ("basev".toList, "baseV".toList), ("predefined voltage magnitude".toList, "Vmpr".toList), ("vmpr".toList, "Vmpr".toList),
   ("predefined voltage angle".toList, "Vapr".toList), ("vapr".toList, "Vapr".toList), ("max voltage magnitude".toList, "Vmax".toList),
   ("vmax".toList, "Vmax".toList), ("min voltage magnitude".toList, "Vmin".toList), ("vmin".toList, "Vmin".toList),
   ("id".toList, "ID".toList), ("name".toList, "name_bus".toList), ("zone".toList, "zone".toList), ("group".toList, "group".toList),
   ("subtype".toList, "subtype".toList)]

/-- accepted titles of the sheets of branches, PI:1175-1220 -/
def xBranchNames : List (Tok × Tok) :=
  [("from".toList, "from".toList), ("to".toList, "to".toList), ("length".toList, "length".toList), ("resistance".toList, "resistance".toList),
   ("r".toList, "resistance".toList), ("reactance".toList, "reactance".toList), ("x".toList, "reactance".toList),
   ("line charging susceptance".toList, "LCsusceptance".toList), ("shunt susceptance".toList, "LCsusceptance".toList), ("b".toList, "LCsusceptance".toList),
   ("max active power flow".toList, "maxPflow".toList), ("max pflow".toList, "maxPflow".toList), ("cost new branch".toList, "CTEP".toList),
   ("id".toList, "ID".toList), ("group".toList, "group".toList), ("status".toList, "status".toList), ("tep variable".toList, "vTEP".toList),
   ("subtype".toList, "subtype".toList)]

/-- accepted titles of the sheets of generators, PI:1233-1296 -/
def xGeneratorNames : List (Tok × Tok) :=
  [("number".toList, "number".toList), ("pieces".toList, "pieces".toList), ("model".toList, "model".toList),
   ("active power max limit".toList, "active power max limit".toList), ("pmax".toList, "active power max limit".toList),
   ("active power min limit".toList, "Pmin".toList), ("pmin".toList, "Pmin".toList), ("fixed active power".toList, "Pfix".toList), ("pfix".toList, "Pfix".toList),
   ("reactive power max limit".toList, "Qmax".toList), ("qmax".toList, "Qmax".toList), ("reactive power min limit".toList, "Qmin".toList),
   ("qmin".toList, "Qmin".toList), ("fixed reactive power".toList, "Qfix".toList), ("qfix".toList, "Qfix".toList),
   ("cost unit commitment".toList, "cUC".toList), ("cuc".toList, "cUC".toList), ("cost new generator".toList, "cGEP".toList), ("cgep".toList, "cGEP".toList),
   ("fixed operation cost".toList, "fCPg".toList), ("fcpg".toList, "fCPg".toList), ("variable operation cost".toList, "vCPg".toList), ("vcpg".toList, "vCPg".toList),
   ("emissions".toList, "emissions".toList), ("startup".toList, "startup".toList), ("shutdown".toList, "shutdown".toList),
   ("id".toList, "ID".toList), ("group".toList, "group".toList), ("status".toList, "status".toList), ("unit commitment".toList, "vUC".toList),
   ("uc".toList, "vUC".toList), ("gep variable".toList, "vGEP".toList), ("vgep".toList, "vGEP".toList),
   ("cost function".toList, "cost function".toList), ("subtype".toList, "subtype".toList)]

/-- what is done with the column of a name -/
inductive XKind where
  | char (dt : XDt)
  | param (dt : XDt)
  deriving DecidableEq, Repr

/-- lists of characteristics and of parameters of the three types, PI:918-1085: the names that are in none of them are stored nowhere -/
def xKind (name : Tok) : Option XKind :=
  if name ∈ ["number".toList, "typePF".toList, "from".toList, "to".toList] then some (.char .integer)
  else if name ∈ ["ID".toList, "name_bus".toList, "zone".toList, "group".toList, "subtype".toList] then some (.char .string)
  else if name ∈ ["Pd".toList, "Qd".toList, "Gs".toList, "Bs".toList, "baseV".toList, "Vmpr".toList, "Vapr".toList, "Vmax".toList, "Vmin".toList,
      "resistance".toList, "reactance".toList, "LCsusceptance".toList, "maxPflow".toList, "CTEP".toList, "active power max limit".toList, "Pmin".toList,
      "Pfix".toList, "Qmax".toList, "Qmin".toList, "Qfix".toList, "cUC".toList, "cGEP".toList, "fCPg".toList, "vCPg".toList, "emissions".toList,
      "startup".toList, "shutdown".toList, "cost function".toList] then some (.param .double)
  else if name ∈ ["status".toList, "vTEP".toList, "vUC".toList, "vGEP".toList] then some (.param .bool)
  else none

/-- the loop over the titles of row 2 until the first empty cell, PI:1644-1658 (and 1591-1601): a title that is not a text raises an AttributeError -/
def xTitles : XRow → Except PyErr (List Tok)
  | [] => .ok []
  | none :: _ => .ok []
  | some (.text t) :: rest => do
    let l ← xTitles rest
    .ok (xLower (xSpaces t) :: l)
  | some _ :: _ => .error .attribute

/-- `col_id`, PI:1645-1651: the last column with the title (counted from 0) -/
def xIdCol (titles : List Tok) : Option Nat :=
  (titles.zipIdx).foldl (fun found p => if p.1 == "id".toList then some p.2 else found) none

/-- `_extract_parameters_names`, PI:1631-1668: the names of the columns (None for an unknown title) and the column of the IDs -/
def xColumns (names : List (Tok × Tok)) (sheet : XSheet) : Except PyErr (List (Option Tok) × Nat) := do
  let titles ← xTitles ((sheet[1]?).getD [])
  match xIdCol titles with
  | none => .error .value
  | some k => .ok (titles.map (fun t => names.lookup t), k)

/-- add to the list of subtypes, PI:1729-1733: the first characteristic with the name grows -/
def xAddSubtype (t : XCell) : List XChar → List XChar
  | [] => [⟨"subtype".toList, .many [t], .vString⟩]
  | c :: rest =>
    if c.name == "subtype".toList then
      (match c.value with
       | .many l => ⟨c.name, .many (l ++ [t]), c.dt⟩ :: rest
       | .one _ => c :: rest)
    else c :: xAddSubtype t rest

/-- body of the loop over the columns of one element, PI:1716-1741; `acc`: characteristics, parameters -/
def xColumn (str : XCell → Tok) (idCol : Nat) (row : XRow) (acc : List XChar × List XInfo) (col : Option Tok × Nat) : List XChar × List XInfo :=
  if col.2 = idCol then acc
  else match col.1, xCell row col.2 with
    | some name, some value =>
      (match xKind name with
       | some (.char .string) =>
         if name == "subtype".toList then (xAddSubtype (.text (str value)) acc.1, acc.2)
         else (acc.1 ++ [⟨name, .one (.text (str value)), .string⟩], acc.2)
       | some (.char dt) => (acc.1 ++ [⟨name, .one value, dt⟩], acc.2)
       | some (.param dt) => (acc.1, acc.2 ++ [⟨[⟨"name".toList, .one (.text name), .string⟩], value, dt⟩])
       | none => acc)
    | _, _ => acc

/-- one element, PI:1712-1747: all the parameters of the row get the characteristics of the row -/
def xElement (str : XCell → Tok) (typ : Tok) (columns : List (Option Tok)) (idCol : Nat) (row : XRow) (id : XCell) : List XInfo :=
  let start : List XChar := [⟨"ID".toList, .one id, .string⟩, ⟨"type".toList, .one (.text typ), .string⟩]
  let r := columns.zipIdx.foldl (xColumn str idCol row) (start, [])
  r.2.map (fun x => ⟨x.chars ++ r.1, x.value, x.dt⟩)

/-- the loop over the rows, PI:1711-1750: it stops at the first ID that counts as false -/
def xElements (str : XCell → Tok) (typ : Tok) (columns : List (Option Tok)) (idCol : Nat) : List XRow → List XInfo
  | [] => []
  | row :: rest =>
    match xCell row idCol with
    | none => []
    | some id => if xTrue (some id) then xElement str typ columns idCol row id ++ xElements str typ columns idCol rest else []

/-- dictionary of the data of the model: the types in the order of their first sheet -/
abbrev XData := List (Tok × List XInfo)

/-- `data[typ] = l` -/
def xStore (d : XData) (typ : Tok) (l : List XInfo) : XData :=
  if d.any (·.1 == typ) then d.map (fun p => if p.1 == typ then (p.1, l) else p) else d ++ [(typ, l)]

/-- `_read_info_network`, PI:1691-1751 -/
def xNetwork (str : XCell → Tok) (names : List (Tok × Tok)) (typ : Tok) (sheet : XSheet) (d : XData) : Except PyErr XData := do
  let c ← xColumns names sheet
  .ok (xStore d typ (xElements str typ c.1 c.2 (sheet.drop 2)))

end Pyensys
