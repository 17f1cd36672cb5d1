import Verif.Model.WorkbookTime

/-!
# Model of the reader of workbooks: options, connections, functions, outputs and the whole workbook

Source: `excel2pyene`, pyensys/engines/pyeneI.py (PI below): 1467-1629 (options), 1943-2025 (connections), 2027-2130 (functions), 2132-2228 (outputs), 2389-2402, 2423-2482 (workbook).

Simplifications: as in `Verif.Model.Workbook`; a loop that would run through the empty rows below a sheet for ever is `none`; a path given in the sheet of options is a list that `load_workbook` cannot open
(TypeError); a workbook is the list of its sheets; what was stored before an exception is not modelled.  Functions: titles are texts (a number among them is a TypeError here), and a table with a single title always
raises (in the code one with an unknown title, after another table, can get through).
-/

namespace Pyensys

/-! ## Options -/

/-- the cells of a column from a row on, up to the first empty one, PI:1481, 1501-1502 and 1521, 1529-1530 -/
def xDown (col : Nat) : List XRow → List XCell
  | [] => []
  | row :: rest =>
    match xCell row col with
    | none => []
    | some c => c :: xDown col rest

/-- the first column with a title (and something below it), PI:1478-1504 and 1518-1538 -/
def xColumnOf (titles : List Tok) (rows : List XRow) (name : Tok) : Option (List XCell) :=
  ((titles.zipIdx.filter (fun p => p.1 == name)).map (fun p => xDown p.2 rows)).find? (fun l => !l.isEmpty)

/-- truth of a cell of the column 'active', PI:1483-1497: texts and whole numbers; everything else is False -/
def xActive : XCell → Bool
  | .text t => xLower t == "=true".toList || xLower t == "true".toList
  | .int n => n == 1
  | .bool b => b
  | .num _ => false

/-- a cell looked up in a dictionary, PI:1523-1527: None if it is not there; an AttributeError if it is not a text -/
def xReference (refs : List (Tok × Tok)) : XCell → Except PyErr (Option Tok)
  | .text t => .ok (refs.lookup (xLower (xSpaces t)))
  | _ => .error .attribute

/-- `_read_elements_excel` with references, PI:1506-1538: None without such a column -/
def xReferences (titles : List Tok) (rows : List XRow) (name : Tok) (refs : List (Tok × Tok)) : Except PyErr (Option (List (Option Tok))) :=
  match xColumnOf titles rows name with
  | none => .ok none
  | some l => (l.mapM (xReference refs)).map some

/-- names of problems, PI:1086-1114 and 1603-1606 -/
def xProblemNames : List (Tok × Tok) :=
  [("substation expansion planning".toList, "SEP".toList), ("sep".toList, "SEP".toList), ("transmission expansion planning".toList, "TEP".toList), ("tep".toList, "TEP".toList),
   ("unit commitment".toList, "UC".toList), ("uc".toList, "UC".toList), ("generation expansion planning".toList, "GEP".toList), ("gep".toList, "GEP".toList),
   ("dc economic dispatch".toList, "DC ED".toList), ("economic dispatch".toList, "DC ED".toList), ("dc ed".toList, "DC ED".toList),
   ("dc optimal power flow".toList, "DC OPF".toList), ("optimal power flow".toList, "DC OPF".toList), ("dc opf".toList, "DC OPF".toList),
   ("ac power flow".toList, "AC PF".toList), ("power flow".toList, "AC PF".toList), ("ac pf".toList, "AC PF".toList),
   ("network reduction".toList, "NetR".toList), ("netr".toList, "NetR".toList), ("balance tree".toList, "BT".toList), ("bt".toList, "BT".toList)]

/-- `accepted_engines`, PI:1115-1118 -/
def xEngineNames : List (Tok × Tok) := [("pyene".toList, "pyene".toList), ("fdif".toList, "fdif".toList)]

/-- `accepted_characteristics`, PI:1307-1315 -/
def xOptionNames : List (Tok × Tok) :=
  [("lossess".toList, "loss".toList), ("solver".toList, "solver".toList), ("base power".toList, "Sbase".toList), ("multiperiod".toList, "multiperiod".toList),
   ("output file name".toList, "output file name".toList), ("moea".toList, "MOEA".toList), ("representative periods".toList, "representative periods".toList)]

/-- `model_options_parameter`, pyene_Models.py:73-79 -/
structure XOption where
  name : Option Tok
  value : XCell
  engine : Option Tok
  deriving DecidableEq, Repr

/-- a problem of the sheet, PI:1540-1559, 1618-1620: the first option with the name is changed, or a new one added -/
def xSetProblem : List XOption → Option Tok × Bool × Option Tok → List XOption
  | [], p => [⟨p.1, .bool p.2.1, p.2.2⟩]
  | o :: l, p => if o.name == p.1 then ⟨o.name, .bool p.2.1, p.2.2⟩ :: l else o :: xSetProblem l p

/-- a characteristic of the sheet, PI:1561-1578, 1625-1627: the engine of an option is not changed -/
def xSetOption : List XOption → Option Tok × XCell → List XOption
  | [], p => [⟨p.1, p.2, none⟩]
  | o :: l, p => if o.name == p.1 then ⟨o.name, p.2, o.engine⟩ :: l else o :: xSetOption l p

/-- `len` of a column that may be missing -/
def xLen {α : Type} : Option (List α) → Except PyErr (List α)
  | none => .error .type
  | some l => .ok l

/-- the problems of the sheet, PI:1617-1622 -/
def xProblems (opts : List XOption) (problem : List (Option Tok)) (active : List Bool) (engine : List (Option Tok)) : Except PyErr (List XOption) :=
  if problem.length = active.length ∧ problem.length = engine.length then .ok ((problem.zip (active.zip engine)).foldl xSetProblem opts) else .error .value

/-- the characteristics of the sheet, PI:1624-1629 -/
def xCharacteristics (opts : List XOption) (chars : List (Option Tok)) (options : List XCell) : Except PyErr (List XOption) :=
  if chars.length = options.length then .ok ((chars.zip options).foldl xSetOption opts) else .error .value

/-- `_read_bool_excel`, PI:1467-1504 -/
def xBools (titles : List Tok) (rows : List XRow) : Except PyErr (List Bool) :=
  match xColumnOf titles rows "active".toList with
  | none => .error .value
  | some l => .ok (l.map xActive)

/-- `_read_model_options`, PI:1580-1629: the options, and whether there are paths -/
def xOptions (opts : List XOption) (sheet : XSheet) : Except PyErr (List XOption × Bool) := do
  let titles ← xTitles ((sheet[1]?).getD [])
  let rows := sheet.drop 2
  let active ← xBools titles rows
  let problem ← xReferences titles rows "problem".toList xProblemNames
  let engine ← xReferences titles rows "engine".toList xEngineNames
  let chars ← xReferences titles rows "characteristics".toList xOptionNames
  let problem ← xLen problem
  let engine ← xLen engine
  let opts ← xProblems opts problem active engine
  let chars ← xLen chars
  let options ← xLen (xColumnOf titles rows "options".toList)
  let opts ← xCharacteristics opts chars options
  .ok (opts, (xColumnOf titles rows "paths".toList).isSome)

/-! ## Names -/

/-- the variables of the models, PI:1450-1463 -/
def xVariables : List Tok :=
  ["input".toList, "output".toList, "flow".toList, "surplus".toList, "deficit".toList, "active power generation".toList, "active power generation cost".toList, "active power flow".toList,
   "voltage angle".toList, "generation curtailment".toList, "load curtailment".toList]

/-- `parameters_integer`, PI:1385-1389 -/
def xIntegerNames : List (Tok × Tok) :=
  [("number".toList, "number".toList), ("type node power flow".toList, "typePF".toList), ("typepf".toList, "typePF".toList), ("from".toList, "from".toList), ("to".toList, "to".toList),
   ("pieces".toList, "pieces".toList), ("model".toList, "model".toList), ("hour".toList, "hour".toList)]

/-- `parameters_double`, PI:1391-1394 (the later dictionaries first) -/
def xDoubleNames : List (Tok × Tok) :=
  [("active power max limit".toList, "active power max limit".toList), ("pmax".toList, "active power max limit".toList), ("active power min limit".toList, "Pmin".toList), ("pmin".toList, "Pmin".toList),
   ("fixed active power".toList, "Pfix".toList), ("pfix".toList, "Pfix".toList), ("reactive power max limit".toList, "Qmax".toList), ("qmax".toList, "Qmax".toList),
   ("reactive power min limit".toList, "Qmin".toList), ("qmin".toList, "Qmin".toList), ("fixed reactive power".toList, "Qfix".toList), ("qfix".toList, "Qfix".toList),
   ("cost unit commitment".toList, "cUC".toList), ("cuc".toList, "cUC".toList), ("cost new generator".toList, "cGEP".toList), ("cgep".toList, "cGEP".toList),
   ("fixed operation cost".toList, "fCPg".toList), ("fcpg".toList, "fCPg".toList), ("variable operation cost".toList, "vCPg".toList), ("vcpg".toList, "vCPg".toList),
   ("emissions".toList, "emissions".toList), ("startup".toList, "startup".toList), ("shutdown".toList, "shutdown".toList),
   ("length".toList, "length".toList), ("resistance".toList, "resistance".toList), ("r".toList, "resistance".toList), ("reactance".toList, "reactance".toList), ("x".toList, "reactance".toList),
   ("line charging susceptance".toList, "LCsusceptance".toList), ("shunt susceptance".toList, "LCsusceptance".toList), ("b".toList, "LCsusceptance".toList),
   ("max active power flow".toList, "maxPflow".toList), ("max pflow".toList, "maxPflow".toList), ("cost new branch".toList, "CTEP".toList),
   ("active power demand".toList, "Pd".toList), ("pd".toList, "Pd".toList), ("reactive power demand".toList, "Qd".toList), ("qd".toList, "Qd".toList),
   ("shunt conductance".toList, "Gs".toList), ("gs".toList, "Gs".toList), ("bs".toList, "Bs".toList), ("basev".toList, "baseV".toList),
   ("predefined voltage magnitude".toList, "Vmpr".toList), ("vmpr".toList, "Vmpr".toList), ("predefined voltage angle".toList, "Vapr".toList), ("vapr".toList, "Vapr".toList),
   ("max voltage magnitude".toList, "Vmax".toList), ("vmax".toList, "Vmax".toList), ("min voltage magnitude".toList, "Vmin".toList), ("vmin".toList, "Vmin".toList)]

/-- `parameters_string`, PI:1396-1406 (the later dictionaries first) -/
def xStringNames : List (Tok × Tok) :=
  [("type".toList, "type".toList), ("id".toList, "ID".toList), ("group".toList, "group".toList), ("zone".toList, "zone".toList), ("name".toList, "name".toList),
   ("problem".toList, "problem".toList), ("reference".toList, "reference".toList), ("data device".toList, "data device".toList),
   ("type information".toList, "type information".toList), ("function".toList, "function".toList)] ++ xProblemNames

/-- `parameters_bool`, PI:1408-1411 -/
def xBoolNames : List (Tok × Tok) :=
  [("status".toList, "status".toList), ("tep variable".toList, "vTEP".toList), ("unit commitment".toList, "vUC".toList), ("uc".toList, "vUC".toList), ("gep variable".toList, "vGEP".toList),
   ("vgep".toList, "vGEP".toList)]

/-- `parameters_list_double`, PI:1418-1421 -/
def xDoubleListNames : List (Tok × Tok) := [("cost function".toList, "cost function".toList)]

/-- `parameters_list_string`, PI:1423-1429 -/
def xStringListNames : List (Tok × Tok) :=
  [("subtype".toList, "subtype".toList), ("position tree".toList, "pt".toList), ("representative day".toList, "pt".toList), ("pt".toList, "pt".toList), ("problems".toList, "problems".toList),
   ("variables".toList, "variables".toList)]

/-- `all_list_parameters`, PI:1440-1444 -/
def xListNames : List (Tok × Tok) := xDoubleListNames ++ xStringListNames

/-- `all_unique_parameters`, PI:1433-1438: the later dictionaries win -/
def xUniqueNames : List (Tok × Tok) := xBoolNames ++ xStringNames ++ xDoubleNames ++ xIntegerNames

/-- `all_parameters`, PI:1446-1448 -/
def xAllNames : List (Tok × Tok) := xListNames ++ xUniqueNames

/-- `_check_data_type`, PI:2198-2228 -/
def xDataType (t : Tok) : Option XDt :=
  if (xIntegerNames.lookup (xLower t)).isSome then some .integer
  else if (xDoubleNames.lookup (xLower t)).isSome then some .double
  else if (xStringNames.lookup (xLower t)).isSome then some .string
  else if (xBoolNames.lookup (xLower t)).isSome then some .bool
  else if (xDoubleListNames.lookup (xLower t)).isSome then some .vDouble
  else if (xStringListNames.lookup (xLower t)).isSome then some .vString
  else none

/-- is the text known in a block?  PI:1971, 2153 -/
def xKnown (t : Tok) : Bool := (xAllNames.lookup (xLower t)).isSome || xVariables.contains (xLower t)

/-- the name in the model, PI:1973-1976, 2155-2158 -/
def xNameOf (t : Tok) : Tok := if xVariables.contains (xLower t) then xLower t else (xAllNames.lookup (xLower t)).getD []

/-! ## Blocks -/

/-- a text with the blanks replaced, PI:1965-1966 -/
def xClean : XCell → XCell
  | .text t => .text (xSpaces t)
  | c => c

/-- the outer loop of the sheets with blocks, PI:1957-2015, 2141-2194: `f` reads one row of a block and gives the value that is compared with 'end'; blocks end with it; 20 rows that are not the beginning of a
block end the sheet; the row of the end is read again as a row outside of blocks; `none`: it never returns -/
def xBlocks {S : Type} (start : S → S) (f : S → XRow → Except PyErr (Option XCell × S)) : Bool → Nat → S → List XRow → Except PyErr (Option (List S))
  | false, _, _, [] => .ok (some [])
  | true, _, _, [] => .ok none
  | false, tries, s, row :: rest =>
    if tries < 20 then
      (if (xCell row 0).map xClean = some (.text "begin".toList) then xBlocks start f true 0 (start s) rest else xBlocks start f false (tries + 1) s rest)
    else .ok (some [])
  | true, tries, s, row :: rest => do
    let r ← f s row
    if r.1 = some (.text "end".toList) then do
      let l ← xBlocks start f false 1 r.2 rest
      .ok (l.map (r.2 :: ·))
    else xBlocks start f true tries r.2 rest

/-- state of a block: the characteristics, and the variable `val` (none: not yet assigned) -/
structure XBlockSt where
  chars : List XChar
  val : Option (Option XVal)
  deriving DecidableEq, Repr

/-- `characteristics` of a new block, PI:1959; `val` is kept -/
def XBlockSt.fresh (s : XBlockSt) : XBlockSt := ⟨[], s.val⟩

/-- value of a list of a connection, PI:1983-1988 -/
def xConnItem : XCell → XCell
  | .text t =>
    let u := (xAllNames.lookup (xLower (xSpaces t))).getD (xSpaces t)
    if xVariables.contains (xLower u) then .text (xLower u) else .text u
  | c => c

/-- value of a single characteristic of a connection, PI:1992-2000 -/
def xConnValue : XCell → XCell
  | .text t =>
    (match xAllNames.lookup (xLower (xSpaces t)) with
     | some u => .text u
     | none => if xVariables.contains (xLower (xSpaces t)) || xLower (xSpaces t) == "all".toList then .text (xLower (xSpaces t)) else .text (xSpaces t))
  | c => c

/-- the cells of a row from the second one up to the first empty one, PI:1980-1990, 2161-2171 -/
def xAcross : XRow → List XCell
  | [] => []
  | none :: _ => []
  | some c :: rest => c :: xAcross rest

/-- `if not val: val = None`, PI:2002-2003, 2172-2173 -/
def xNonEmpty : XVal → Option XVal
  | .many [] => none
  | .many l => some (.many l)
  | .one c => if xTrue (some c) then some (.one c) else none

/-- the end of a row of a connection, PI:2004-2006 -/
def xConnAdd (s : XBlockSt) (t : Tok) (val : Option XVal) : XBlockSt :=
  match xDataType t, val with
  | some dt, some v => ⟨s.chars ++ [⟨xNameOf t, v, dt⟩], some val⟩
  | _, _ => ⟨s.chars, some val⟩

/-- one row of a connection with a known name, PI:1972-2006 -/
def xConnKnown (s : XBlockSt) (t : Tok) (row : XRow) : Except PyErr (Option XCell × XBlockSt) :=
  if (xListNames.lookup (xLower t)).isSome then .ok (none, xConnAdd s t (xNonEmpty (.many ((xAcross row.tail).map xConnItem))))
  else if (xUniqueNames.lookup (xLower t)).isSome then
    .ok ((xCell row 1).map xConnValue, xConnAdd s t (((xCell row 1).map xConnValue).bind (fun c => xNonEmpty (.one c))))
  else
    match s.val with
    | none => .error .name
    | some v => .ok (some (.text t), xConnAdd s t (v.bind xNonEmpty))

/-- one row of a connection, PI:1966-2006 -/
def xConnRow (s : XBlockSt) (row : XRow) : Except PyErr (Option XCell × XBlockSt) :=
  match (xCell row 0).map xClean with
  | some (.text t) => if xKnown t then xConnKnown s t row else .ok (some (.text t), s)
  | v => .ok (v, s)

/-- what a block of connections stores, PI:2007-2011 -/
def xConnInfo (s : XBlockSt) : Option XInfo :=
  if s.chars.isEmpty then none else some ⟨s.chars ++ [⟨"name".toList, .one (.text "connection".toList), .string⟩], .bool true, .bool⟩

/-- the blocks of a sheet of connections, PI:1953-2015 -/
def xConnSheet (sheet : XSheet) : Except PyErr (Option (List XInfo)) := do
  let l ← xBlocks XBlockSt.fresh xConnRow false 0 ⟨[], none⟩ (sheet.drop 1)
  .ok (l.map (·.filterMap xConnInfo))

/-- `==` of two characteristics -/
def xValSame (a b : XVal) : Bool :=
  match a, b with
  | .one a, .one b => xEq a b
  | .many a, .many b => a.length == b.length && (a.zip b).all (fun p => xEq p.1 p.2)
  | _, _ => false

/-- `item in value` of a list -/
def xMember (c : XCell) : XVal → Bool
  | .many l => l.any (xEq c)
  | .one _ => false

/-- the cells of a list -/
def XVal.cells : XVal → List XCell
  | .many l => l
  | .one c => [c]

/-- is a connection for all the elements for this one?  PI:2020: it is enough that the subtypes, the group or the zone agree -/
def xConnFor (c p : XInfo) : Bool :=
  (c.has "subtype".toList && p.has "subtype".toList && (c.get "subtype".toList).cells.all (fun i => xMember i (p.get "subtype".toList))) ||
  (c.has "group".toList && p.has "group".toList && xValSame (p.get "group".toList) (c.get "group".toList)) ||
  (c.has "zone".toList && p.has "zone".toList && xValSame (p.get "zone".toList) (c.get "zone".toList)) ||
  (!c.has "subtype".toList && !c.has "group".toList && !c.has "zone".toList)

/-- the IDs that a connection is for, PI:2018-2021 -/
def xConnIds (c : XInfo) (l : List XInfo) : List XVal :=
  l.foldl (fun ids p => if !ids.any (xValSame (p.get "ID".toList)) && xConnFor c p then ids ++ [p.get "ID".toList] else ids) []

/-- `update_characteristic`, pyene_Models.py:58-63 -/
def xUpdateChar (name : Tok) (v : XVal) : List XChar → List XChar
  | [] => []
  | c :: l => if c.name == name then ⟨c.name, v, c.dt⟩ :: l else c :: xUpdateChar name v l

/-- one connection, PI:2016-2025: only those for all the elements of a type reach the model -/
def xConnExpand (d : XData) (c : XInfo) : Except PyErr (List XInfo) :=
  if c.get "ID".toList == .one (.text "all".toList) && c.has "type".toList then
    match c.get "type".toList with
    | .one (.text t) =>
      (match d.lookup t with
       | none => .error .key
       | some l => .ok ((xConnIds c l).map (fun v => ⟨xUpdateChar "ID".toList v c.chars, c.value, c.dt⟩)))
    | _ => .error .key
  else .ok []

/-! ## Outputs -/

/-- value of a list of an output, PI:2165-2169 -/
def xOutItem : XCell → XCell
  | .text t => .text ((xAllNames.lookup (xLower (xSpaces t))).getD (xLower (xSpaces t)))
  | c => c

/-- `"v_" + data_type`, PI:2179-2180 -/
def XDt.list : XDt → XDt
  | .integer => .vInteger
  | .double => .vDouble
  | .string => .vString
  | .bool => .vBool
  | d => d

/-- the single value 'all' or a variable, PI:2175 -/
def xOutFree : List XCell → Bool
  | [.text t] => t == "all".toList || xVariables.contains t
  | _ => false

/-- one row of an output with a known name, PI:2154-2185 -/
def xOutKnown (chars : List XChar) (t : Tok) (row : XRow) : Except PyErr (List XChar) :=
  let l := (xAcross row.tail).map xOutItem
  if l.isEmpty then .ok chars
  else if xOutFree l then .ok (chars ++ [⟨xNameOf t, .many l, .vString⟩])
  else match xDataType t with
    | none => .error .type
    | some dt => .ok (chars ++ [⟨xNameOf t, .many l, dt.list⟩])

/-- one row of an output, PI:2147-2185 -/
def xOutRow (chars : List XChar) (row : XRow) : Except PyErr (Option XCell × List XChar) :=
  match (xCell row 0).map xClean with
  | some (.text t) => if xKnown t then (xOutKnown chars t row).map (fun c => (none, c)) else .ok (some (.text t), chars)
  | v => .ok (v, chars)

/-- the blocks of a sheet of outputs, PI:2132-2194 -/
def xOutSheet (sheet : XSheet) : Except PyErr (Option (List XInfo)) := do
  let l ← xBlocks (fun _ => []) xOutRow false 0 [] (sheet.drop 1)
  .ok (l.map (fun l => (l.filter (fun c => !c.isEmpty)).map (fun c => ⟨c, .bool true, .bool⟩)))

/-! ## Functions -/

/-- a cell of a function: names of the dictionaries are translated, PI:2099-2104 -/
def xFunItem : XCell → XCell
  | .text t => .text ((xAllNames.lookup (xLower (xSpaces t))).getD (xSpaces t))
  | c => c

/-- the titles of a table of functions with their names, PI:2053-2063; `last`: the last known title (none: there has not been one) -/
def xFunTitles : Option Tok → XRow → Except PyErr (List (Tok × Tok) × Option Tok)
  | o, [] => .ok ([], o)
  | o, none :: _ => .ok ([], o)
  | o, some (.text t) :: rest =>
    (match xAllNames.lookup (xLower (xSpaces t)) with
     | some n => do
       let r ← xFunTitles (some (xSpaces t)) rest
       .ok ((xSpaces t, n) :: r.1, r.2)
     | none =>
       match o with
       | none => .error .name
       | some u => do
         let r ← xFunTitles o rest
         .ok ((u, xSpaces t) :: r.1, r.2))
  | _, some _ :: _ => .error .type

/-- what a row of a table does: nothing is read any more; a function; the characteristics so far -/
inductive XFunEnd where
  | stop
  | stored (x : XInfo)
  | keep (chars : List XChar)
  deriving DecidableEq, Repr

/-- the columns of a row, PI:2107-2120; `nu`: the number of the column -/
def xFunColumns (values : List XCell) : Nat → List XChar → List (Tok × Tok) → Except PyErr XFunEnd
  | _, chars, [] => .ok (.keep chars)
  | nu, chars, (o, n) :: rest =>
    if (xUniqueNames.lookup (xLower o)).isSome then
      match values[nu]?, xDataType o with
      | some v, some dt => xFunColumns values (nu + 1) (chars ++ [⟨n, .one v, dt⟩]) rest
      | _, _ => .error .index
    else
      match xDataType o with
      | none => xFunColumns values (nu + 1) chars rest
      | some dt =>
        if rest.isEmpty then .ok (.stored ⟨chars ++ [⟨"name".toList, .one (.text n), .string⟩, ⟨"coefficients".toList, .many (values.drop nu), dt⟩], .bool true, .bool⟩) else .ok .stop

/-- where the reader of functions is: outside of tables, at the titles, inside of a table -/
inductive XFunMode where
  | out (tries : Nat)
  | titles
  | table (titles : List (Tok × Tok)) (chars : List XChar)
  deriving DecidableEq, Repr

/-- `_read_functions`, PI:2036-2130: the functions of a sheet -/
def xFunRows : XFunMode → Option Tok → List XRow → Except PyErr (List XInfo)
  | .out _, _, [] => .ok []
  | .out k, o, row :: rest =>
    if k < 20 then (if (xCell row 0).map xClean = some (.text "begin".toList) then xFunRows .titles o rest else xFunRows (.out (k + 1)) o rest) else .ok []
  | .titles, _, [] => .ok []
  | .titles, o, row :: rest => do
    let r ← xFunTitles o row
    match r.1 with
    | [] => .ok []
    | [p] => if (xUniqueNames.lookup (xLower p.1)).isSome then .error .attribute else .error .name
    | _ => xFunRows (.table r.1 []) r.2 rest
  | .table t chars, _, [] => (xFunColumns [] 0 chars t).map (fun _ => [])
  | .table t chars, o, row :: rest =>
    if xCell row 0 = some (.text "end".toList) then xFunRows (.out 1) o rest
    else do
      let r ← xFunColumns ((xAcross row).map xFunItem) 0 chars t
      match r with
      | .stop => .ok []
      | .stored x => do
        let l ← xFunRows (.table t []) o rest
        .ok (x :: l)
      | .keep chars => xFunRows (.table t chars) o rest

/-- the functions of a sheet, PI:2036-2130 -/
def xFunSheet (sheet : XSheet) : Except PyErr (List XInfo) := xFunRows (.out 0) none (sheet.drop 1)

/-- a function with the characteristics of its element, PI:2390-2400: the first element with the ID of the function, in the order of the types -/
def xFunElement (d : XData) (f : XInfo) : Option XInfo := (d.flatMap (·.2)).find? (fun p => xValSame (p.get "ID".toList) (f.get "ID".toList))

/-- PI:2393-2394 -/
def xFunExtend (d : XData) (f : XInfo) : XInfo :=
  match xFunElement d f with
  | none => f
  | some p => ⟨f.chars ++ p.chars.filter (fun c => c.name != "ID".toList && c.name != "name".toList), f.value, f.dt⟩

/-! ## The whole workbook -/

/-- what has been read: options, data, the tree, profiles, connections of the sheets and of the model, functions, outputs -/
structure XBook where
  opts : List XOption
  data : XData
  tree : List XTree
  profiles : List XProfile
  conns : List XInfo
  model : List XInfo
  funs : List XInfo
  outs : List XInfo
  deriving DecidableEq, Repr

/-- the model after reading: the data with profiles, the nodes of the tree, connections, functions, outputs -/
structure XModel where
  opts : List XOption
  data : XData
  tree : List XNode
  conns : List XInfo
  funs : List XInfo
  outs : List XInfo
  deriving DecidableEq, Repr

/-- kinds of sheets, PI:2452-2476 -/
inductive XSheetKind where
  | options | bus | branch | generator | tree | profile | connections | functions | outputs | unknown
  deriving DecidableEq, Repr

/-- the first cell of a sheet, PI:2454-2476 -/
def xSheetKind (sheet : XSheet) : Except PyErr XSheetKind :=
  match xCell ((sheet[0]?).getD []) 0 with
  | some (.text t) =>
    .ok (if xSpaces t == "model".toList then .options
      else if xSpaces t == "bus".toList then .bus
      else if xSpaces t == "branch".toList then .branch
      else if xSpaces t == "generator".toList then .generator
      else if xSpaces t == "tree".toList then .tree
      else if xSpaces t == "profile".toList then .profile
      else if xSpaces t == "connections energy".toList then .connections
      else if xSpaces t == "functions".toList then .functions
      else if xSpaces t == "outputs".toList then .outputs
      else .unknown)
  | _ => .error .attribute

/-- one sheet, PI:2455-2476; the connections of the sheets read before are expanded again (PI:2016-2025) -/
def xSheetStep (str : XCell → Tok) (b : XBook) (sheet : XSheet) : XSheetKind → Except PyErr (Option XBook)
  | .options => do
    let r ← xOptions b.opts sheet
    if r.2 then .error .type else .ok (some ⟨r.1, b.data, b.tree, b.profiles, b.conns, b.model, b.funs, b.outs⟩)
  | .bus => do
    let d ← xNetwork str xNodeNames "bus".toList sheet b.data
    .ok (some ⟨b.opts, d, b.tree, b.profiles, b.conns, b.model, b.funs, b.outs⟩)
  | .branch => do
    let d ← xNetwork str xBranchNames "branch".toList sheet b.data
    .ok (some ⟨b.opts, d, b.tree, b.profiles, b.conns, b.model, b.funs, b.outs⟩)
  | .generator => do
    let d ← xNetwork str xGeneratorNames "generator".toList sheet b.data
    .ok (some ⟨b.opts, d, b.tree, b.profiles, b.conns, b.model, b.funs, b.outs⟩)
  | .tree => .ok (some ⟨b.opts, b.data, xTreeSheet b.tree sheet, b.profiles, b.conns, b.model, b.funs, b.outs⟩)
  | .profile => do
    let p ← xProfSheet sheet
    .ok (some ⟨b.opts, b.data, b.tree, b.profiles ++ p, b.conns, b.model, b.funs, b.outs⟩)
  | .connections => do
    let c ← xConnSheet sheet
    match c with
    | none => .ok none
    | some c => do
      let m ← (b.conns ++ c).mapM (xConnExpand b.data)
      .ok (some ⟨b.opts, b.data, b.tree, b.profiles, b.conns ++ c, b.model ++ m.flatten, b.funs, b.outs⟩)
  | .functions => do
    let f ← xFunSheet sheet
    .ok (some ⟨b.opts, b.data, b.tree, b.profiles, b.conns, b.model, b.funs ++ f, b.outs⟩)
  | .outputs => do
    let o ← xOutSheet sheet
    match o with
    | none => .ok none
    | some o => .ok (some ⟨b.opts, b.data, b.tree, b.profiles, b.conns, b.model, b.funs, b.outs ++ o⟩)
  | .unknown => .ok (some b)

/-- the sheets in order, PI:2453-2477 -/
def xSheets (str : XCell → Tok) : XBook → List XSheet → Except PyErr (Option XBook)
  | b, [] => .ok (some b)
  | b, s :: rest => do
    let k ← xSheetKind s
    let r ← xSheetStep str b s k
    match r with
    | none => .ok none
    | some b => xSheets str b rest

/-- are profiles used?  PI:2349-2351 -/
def xPeriods (opts : List XOption) : Bool := opts.any (fun o => o.name == some "representative periods".toList && xTrue (some o.value))

/-- `_correlate_information` and the rest, PI:2479-2482 -/
def xFinish (b : XBook) : Except PyErr XModel := do
  let d ← xCorrelate (xPeriods b.opts) b.profiles b.data
  .ok ⟨b.opts, d, xLoadTree b.tree, b.model, b.funs.map (xFunExtend d), b.outs⟩

/-- `read_excel`, PI:2442-2482, for a model with these options and nothing else -/
def xReadExcel (str : XCell → Tok) (opts : List XOption) (book : List XSheet) : Except PyErr (Option XModel) := do
  let r ← xSheets str ⟨opts, [], [], [], [], [], [], []⟩ book
  match r with
  | none => .ok none
  | some b => (xFinish b).map some

end Pyensys
