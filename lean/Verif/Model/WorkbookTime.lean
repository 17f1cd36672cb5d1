import Verif.Model.Workbook

/-!
# Model of the reader of workbooks: trees, profiles, and the correlation of profiles with elements

Source: `excel2pyene`, pyensys/engines/pyeneI.py:895-2482 (PI below).

Simplifications: those of Model/Workbook.lean.  A loop `while tries < 20` over the rows of a sheet ends with the sheet: the rows beyond it are empty and are not read.
-/

namespace Pyensys

/-- `tree_parameters_read`, PI:894-899 -/
structure XTree where
  name : Tok
  level : XCell
  pos : Nat
  value : XCell
  deriving DecidableEq, Repr

/-- `value.lower()` of a text, the value of the others -/
def xLowerCell : XCell → XCell
  | .text t => .text (xLower t)
  | c => c

/-- `_revise_tree_info`, PI:1753-1769: the first entry with the name, level and position gets the value; none if there is no such entry -/
def xRevise (name : Tok) (pos : Nat) (value level : XCell) : List XTree → Option (List XTree)
  | [] => none
  | t :: rest =>
    if t.name == name && xEq t.level level && t.pos == pos then some (⟨t.name, t.level, t.pos, value⟩ :: rest)
    else (xRevise name pos value level rest).map (t :: ·)

/-- the loop over the columns of one level, PI:1788-1796; `row`: the cells from column 2 on -/
def xTreeRow (name : Tok) (level : XCell) : Nat → List XTree → XRow → List XTree
  | _, info, [] => info
  | _, info, none :: _ => info
  | pos, info, some v :: rest =>
    match xRevise name pos (xLowerCell v) level info with
    | some info' => xTreeRow name level pos info' rest
    | none => xTreeRow name level (pos + 1) (info ++ [⟨name, level, pos, xLowerCell v⟩]) rest

/-- titles of the parts of a tree sheet, PI:1816-1827 -/
def xTreeTitle (c : Option XCell) : Option Tok :=
  match c with
  | some (.text t) =>
    if xLower t == "names".toList then some "name".toList
    else if xLower t == "inputs".toList then some "input".toList
    else if xLower t == "outputs".toList then some "output".toList
    else if xLower t == "weights".toList then some "weight".toList
    else none
  | _ => none

/-- state of the reader of a tree sheet: the part that is read, if any (`_read_tree_parameter`), and the rows tried in vain -/
structure XTreeSt where
  part : Option Tok
  tries : Nat
  deriving DecidableEq, Repr

/-- body of the loop of `_read_info_tree` for a row that is not in a part, PI:1814-1830 -/
def xTreeScan (st : XTreeSt) (row : XRow) : XTreeSt :=
  match xTreeTitle (xCell row 0) with
  | some n => ⟨some n, 0⟩
  | none => ⟨none, st.tries + 1⟩

/-- `_read_info_tree` with `_read_tree_parameter`, PI:1771-1830: a part ends with a row whose first cell is empty -/
def xTreeRows : XTreeSt → List XTree → List XRow → List XTree
  | _, info, [] => info
  | st, info, row :: rest =>
    match st.part, xCell row 0 with
    | some n, some level => xTreeRows st (xTreeRow n level 1 info row.tail) rest
    | some _, none => xTreeRows ⟨none, 1⟩ info rest
    | none, _ => if st.tries < 20 then xTreeRows (xTreeScan st row) info rest else info

/-- a sheet of a tree: the rows from row 2 on -/
def xTreeSheet (info : List XTree) (sheet : XSheet) : List XTree := xTreeRows ⟨none, 0⟩ info (sheet.drop 1)

/-- `tree_parameters` of the model -/
structure XNode where
  name : Tok
  level : XCell
  node : XCell
  value : XCell
  deriving DecidableEq, Repr

/-- `_load_balance_tree`, PI:2420-2440: the name of a node is the value of the first entry 'name' of its level and position -/
def xLoadTree (info : List XTree) : List XNode :=
  (info.filter (·.name != "name".toList)).map (fun t =>
    ⟨t.name, t.level,
     match (info.filter (·.name == "name".toList)).find? (fun n => xEq n.level t.level && n.pos == t.pos) with
     | some n => n.value
     | none => .text [], t.value⟩)

/-- `profile_parameter`, PI:901-913; `pt`: the values of the dictionary of the position in the tree -/
structure XProfile where
  name : Tok
  pt : List Tok
  hour : XCell
  id : XCell
  typ : Option Tok
  subtype : Option Tok
  value : XCell
  group : Option XCell
  zone : Option XCell
  deriving DecidableEq, Repr

/-- local variables of `_read_profile`, PI:1843-1849 -/
structure XProfSt where
  typ : Option Tok
  subtype : Option Tok
  pt : List Tok
  name : Option Tok
  group : Option XCell
  zone : Option XCell
  deriving DecidableEq, Repr

/-- what is being read: lines of a block (with the rows tried in vain), the row of the hours, the values -/
inductive XProfMode where
  | scan (tries : Nat)
  | hours
  | data (hours : XRow)
  deriving DecidableEq, Repr

/-- `parameters_profile`, PI:1324-1339 -/
def xProfileTitles : List (Tok × Tok) :=
  [("type".toList, "type".toList), ("name".toList, "name".toList), ("id".toList, "ID".toList), ("group".toList, "group".toList), ("zone".toList, "zone".toList),
   ("subtype".toList, "subtype".toList), ("position tree".toList, "pt".toList), ("representative day".toList, "pt".toList), ("pt".toList, "pt".toList)]

/-- `parameter_elements.get`, PI:1852-1854: the titles of generators go before those of branches and these before those of buses -/
def xElementName (t : Tok) : Option Tok :=
  match xGeneratorNames.lookup t with
  | some n => some n
  | none =>
    match xBranchNames.lookup t with
    | some n => some n
    | none => xNodeNames.lookup t

/-- the loop over the columns of the position in the tree, PI:1887-1894: a cell that is not a text raises an AttributeError -/
def xPosition : XRow → Except PyErr (List Tok)
  | [] => .ok []
  | none :: _ => .ok []
  | some (.text t) :: rest => do
    let l ← xPosition rest
    .ok (xLower t :: l)
  | some _ :: _ => .error .attribute

/-- the type of a block, PI:1861-1866 -/
def xSetType (s : XProfSt) (v : Option XCell) : XProfSt :=
  match v with
  | some (.text t) =>
    if xLower t ∈ ["bus".toList, "branch".toList, "generator".toList] then ⟨some (xLower t), s.subtype, s.pt, s.name, s.group, s.zone⟩ else s
  | _ => s

/-- the name of a block, PI:1897-1902 -/
def xSetName (s : XProfSt) (v : Option XCell) : XProfSt :=
  match v with
  | some (.text t) =>
    (match xElementName (xLower t) with
     | some n => ⟨s.typ, s.subtype, s.pt, some n, s.group, s.zone⟩
     | none => s)
  | _ => s

/-- the subtype of a block, PI:1867-1885: not for buses; a missing value raises an AttributeError -/
def xSetSubtype (s : XProfSt) (v : Option XCell) : Except PyErr XProfSt :=
  match v with
  | some (.text t) => .ok ⟨s.typ, some (xLower t), s.pt, s.name, s.group, s.zone⟩
  | _ => .error .attribute

/-- a text as first cell of a row, PI:1857-1860 -/
def xFirstText (row : XRow) : Option Tok :=
  match xCell row 0 with
  | some (.text t) => some (xLower (xSpaces t))
  | _ => none

/-- is a cell this text (in lower case)?  PI:1913 -/
def xIsText (c : Option XCell) (t : Tok) : Bool :=
  match c with
  | some (.text s) => xLower s == t
  | _ => false

/-- the test for the beginning of the values, PI:1913 -/
def xIsDataset (row : XRow) (next : XRow) : Bool :=
  xFirstText row == some "dataset".toList && xIsText (xCell row 1) "hour".toList && xIsText (xCell next 0) "id".toList

/-- body of the loop of `_read_profile` for one row of a block, PI:1856-1941; `none`: the row is not recognised -/
def xProfLine (s : XProfSt) (row : XRow) : Except PyErr (Option XProfSt) :=
  match (xFirstText row).bind (fun t => xProfileTitles.lookup t) with
  | none => .ok none
  | some k =>
    if k = "type".toList then .ok (some (xSetType s (xCell row 1)))
    else if k = "subtype".toList then
      (if s.typ = some "branch".toList ∨ s.typ = some "generator".toList then (xSetSubtype s (xCell row 1)).map some
       else if s.typ = some "bus".toList ∧ (xCell row 1).isSome then .ok (some s)
       else .ok none)
    else if k = "pt".toList then (xPosition row.tail).map (fun l => some ⟨s.typ, s.subtype, l ++ s.pt.drop l.length, s.name, s.group, s.zone⟩)
    else if k = "name".toList then .ok (some (xSetName s (xCell row 1)))
    else if k = "group".toList then .ok (some ⟨s.typ, s.subtype, s.pt, s.name, (xCell row 1).orElse (fun _ => s.group), s.zone⟩)
    else if k = "zone".toList then .ok (some ⟨s.typ, s.subtype, s.pt, s.name, s.group, (xCell row 1).orElse (fun _ => s.zone)⟩)
    else .ok none

/-- the loop over the values of one ID, PI:1922-1928; `col`: column of the first of the values (from 0) -/
def xProfValues (s : XProfSt) (name : Tok) (id : XCell) (hours : XRow) : Nat → XRow → List XProfile
  | _, [] => []
  | _, none :: _ => []
  | col, some v :: rest =>
    ⟨name, s.pt, (xCell hours col).getD (.int (col - 1 : Nat)), id, s.typ, s.subtype, v, s.group, s.zone⟩ :: xProfValues s name id hours (col + 1) rest

/-- variables after a block, PI:1932-1938 -/
def xProfStart : XProfSt := ⟨none, none, [], none, none, none⟩

/-- one row outside the values, PI:1856-1941 -/
def xProfScan (s : XProfSt) (tries : Nat) (row next : XRow) : Except PyErr (XProfSt × XProfMode) := do
  let r ← xProfLine s row
  match r with
  | some s' => .ok (s', .scan tries)
  | none => if xIsDataset row next then .ok (s, .hours) else .ok (s, .scan (tries + 1))

/-- `_read_profile`, PI:1832-1941: the values end with a row whose first cell is empty; if the block has no name no value is read -/
def xProfRows : XProfSt → XProfMode → List XRow → Except PyErr (List XProfile)
  | _, _, [] => .ok []
  | s, .hours, row :: rest => xProfRows s (.data row) rest
  | s, .scan tries, row :: rest =>
    if tries < 20 then do
      let r ← xProfScan s tries row (rest.headD [])
      xProfRows r.1 r.2 rest
    else .ok []
  | s, .data hours, row :: rest =>
    match s.name, xCell row 0 with
    | some n, some id => do
      let l ← xProfRows s (.data hours) rest
      .ok (xProfValues s n id hours 1 row.tail ++ l)
    | _, _ => do
      let r ← xProfScan xProfStart 0 row (rest.headD [])
      xProfRows r.1 r.2 rest

/-- a sheet of profiles: the rows from row 2 on -/
def xProfSheet (sheet : XSheet) : Except PyErr (List XProfile) := xProfRows xProfStart (.scan 0) (sheet.drop 1)

/-! ## Correlation -/

/-- `self.data[typ]` of a dictionary: a KeyError if there is no sheet of the type -/
def xData (d : XData) (typ : Option Tok) : Except PyErr (List XInfo) :=
  match typ.bind (fun t => d.lookup t) with
  | some l => .ok l
  | none => .error .key

/-- is a text part of a text?  `s in t` -/
def xInfix (s t : Tok) : Bool := decide (s <:+: t)

/-- `value in characteristic`: member of a list, or part of a text (anything else than a text raises a TypeError) -/
def xIn (v : XCell) (c : XVal) : Except PyErr Bool :=
  match c, v with
  | .many l, v => .ok (l.any (xEq v))
  | .one (.text t), .text s => .ok (xInfix s t)
  | .one _, _ => .error .type

/-- the test of `_remove_uncorrelated`, PI:2233: an element without the characteristic is kept -/
def xUncorrelated (name : Tok) (v : XCell) (x : XInfo) : Except PyErr Bool :=
  if x.has name then do
    let b ← xIn v (x.get name)
    .ok (!b || x.has "pt".toList || x.has "hour".toList)
  else .ok false

/-- `_remove_uncorrelated`, PI:2230-2236, for a list of the positions with their elements -/
def xRemoveUncorrelated (name : Tok) (v : Option XCell) (l : List (XInfo × Nat)) : Except PyErr (List (XInfo × Nat)) :=
  match v with
  | none => .ok l
  | some v => do
    let r ← l.mapM (fun p => do
      let b ← xUncorrelated name v p.1
      .ok (p, b))
    .ok ((r.filter (fun p => !p.2)).map (·.1))

/-- the positions that a profile for all the elements is for, PI:2247-2260 -/
def xTargets (p : XProfile) (l : List XInfo) : Except PyErr (List (XInfo × Nat)) := do
  let a := l.zipIdx.filter (fun x => x.1.get "name".toList == .one (.text p.name))
  let b ← xRemoveUncorrelated "subtype".toList (p.subtype.map .text) a
  let c ← xRemoveUncorrelated "group".toList p.group b
  xRemoveUncorrelated "zone".toList p.zone c

/-- is a characteristic this cell? -/
def xValEq (v : XVal) (c : XCell) : Bool :=
  match v with
  | .one a => xEq a c
  | .many _ => false

/-- is an element the one of a profile with an ID?  PI:2274, 2280 -/
def xIsTarget (p : XProfile) (x : XInfo) : Bool := xValEq (x.get "ID".toList) p.id && x.get "name".toList == .one (.text p.name)

/-- is the profile for all the elements?  PI:2247 -/
def XProfile.all (p : XProfile) : Bool := xEq p.id (.text "all".toList)

/-- `_extract_parameters_correlation(network_info, profile)`, PI:2238-2276: the elements the profile is for; `none`: no element has the ID -/
def xSelect (d : XData) (p : XProfile) : Except PyErr (Option (List XInfo)) := do
  let l ← xData d p.typ
  if p.all then do
    let t ← xTargets p l
    .ok (some (t.map (·.1)))
  else .ok ((l.find? (xIsTarget p)).map (fun x => [x]))

/-- `_extract_parameters_correlation(model.data, profile, True)`, PI:2238-2286: the elements without a profile are taken out; without the ID a ValueError -/
def xDelete (d : XData) (p : XProfile) : Except PyErr XData := do
  let l ← xData d p.typ
  if p.all then do
    let t ← xTargets p l
    let pos := (t.filter (fun x => !x.1.has "pt".toList && !x.1.has "hour".toList)).map (·.2)
    .ok (xStore d (p.typ.getD []) ((l.zipIdx.filter (fun x => !decide (x.2 ∈ pos))).map (·.1)))
  else
    match l.findIdx? (xIsTarget p) with
    | none => .error .value
    | some i => .ok (xStore d (p.typ.getD []) (l.eraseIdx i))

/-- `_extract_profiles_correlation`, PI:2287-2303: same type, subtype, name and ID (groups and zones are not compared) -/
def xSame (p q : XProfile) : Bool := p.typ == q.typ && p.subtype == q.subtype && p.name == q.name && xEq p.id q.id

/-- the first test of `_check_profile_existance`, PI:2317: the position in the tree of an element is a list, that of a profile a dictionary, so that they are never equal -/
def xClash (p : XProfile) (x : XInfo) : Bool :=
  x.get "name".toList == .one (.text p.name) && !x.has "pt".toList && x.has "hour".toList && xValEq (x.get "hour".toList) p.hour

/-- `_check_profile_existance`, PI:2305-2338, modelled where no element has an hour without a position in the tree (then it does nothing); otherwise the message raises an AttributeError
(simplification: with a subtype it would go on) -/
def xCheck (d : XData) (p : XProfile) : Except PyErr Unit := do
  let l ← xData d p.typ
  if l.any (xClash p) then .error .attribute else .ok ()

/-- `new_info`, PI:2362-2370 -/
def xScaled (x : XInfo) (p : XProfile) : Except PyErr XInfo :=
  match x.value.number, p.value.number with
  | some a, some b =>
    .ok ⟨x.chars ++ [⟨"pt".toList, .many (p.pt.map .text), .vString⟩, ⟨"hour".toList, .one p.hour, .double⟩], .num (a * b), x.dt⟩
  | _, _ => .error .type

/-- all the products of the elements and the profiles, PI:2359-2371 -/
def xProducts (xs : List XInfo) (ps : List XProfile) : Except PyErr (List XInfo) := do
  let r ← xs.mapM (fun x => ps.mapM (xScaled x))
  .ok r.flatten

/-- body of the loop of `_correlate_information`, PI:2353-2387, for the first profile that is left and those that go with it -/
def xCorrelateOne (net : XData) (d : XData) (p : XProfile) (ps : List XProfile) : Except PyErr XData := do
  let sel ← xSelect net p
  xCheck d p
  let d' ← xDelete d p
  match sel with
  | none => .error .index
  | some xs => do
    let new ← xProducts xs ps
    let l ← xData d' p.typ
    .ok (xStore d' (p.typ.getD []) (l ++ new))

/-- the loop of `_correlate_information`, PI:2352-2387; every turn takes at least one profile out, so that the number of profiles bounds the turns -/
def xCorrelateLoop (net : XData) : Nat → List XProfile → XData → Except PyErr XData
  | 0, _, d => .ok d
  | _ + 1, [], d => .ok d
  | n + 1, p :: ps, d => do
    let d' ← xCorrelateOne net d p ((p :: ps).filter (xSame p))
    xCorrelateLoop net n ((p :: ps).filter (fun q => !xSame p q)) d'

/-- `_correlate_information`, PI:2340-2387, without the functions; `on`: the option 'representative periods' of the model -/
def xCorrelate (on : Bool) (profiles : List XProfile) (d : XData) : Except PyErr XData :=
  if on then xCorrelateLoop d profiles.length profiles d else .ok d

end Pyensys
