import Verif.Model.EngineCost

/-!
# Model of the optimal power flow of the compiled engine

Source: pyensys/engines/energy_models2.cpp (EC below) and energy_models2.h (EH below): `create_edges_network` (EC:228-268), `create_problem_element` (EC:299-341), `declare_dc_opf_variables` (EC:667-759), `declare_dc_opf_constraints` (EC:837-949), `create_dc_opf_matrix` (EC:1054-1419), `create_dc_opf_model` (EC:1454-1601), `matrix_representation` (EH:765-940), `load_model` and `solve` of `clp_model` (EH:1192-1262).

Simplifications: doubles are rationals, and `COIN_DBL_MAX` is no bound. A column or row is named by its vertex and its key (EC:329-339); the engine uses the position that is stored with the key, and as keys are different (`C202_columns_partial`) this is the same. Which failure comes first is not kept. `declare_dc_opf_constraints` ends without `return`; the model takes the code for success. Equal places of the matrix add up. The simplex method is not modelled: what is modelled is the program it is given.
-/

namespace Pyensys

/-- a column or a row: vertex, name and subscripts (with the number of the piece for cost rows), EC:329-339 -/
structure CId where
  node : Nat
  name : Tok
  subs : List CChar
  deriving DecidableEq, Repr

/-- a column, EH:774-780, with the subscript it is active for, EH:795-799 -/
structure CCol where
  id : CId
  lower : Option Rat
  upper : Option Rat
  cost : Rat
  period : List CChar
  active : Bool
  deriving DecidableEq, Repr

/-- a row, EH:781-786 -/
structure CRow where
  id : CId
  lower : Option Rat
  upper : Option Rat
  period : List CChar
  active : Bool
  deriving DecidableEq, Repr

/-- an entry of the matrix, EH:787-792 -/
structure CElem where
  val : Rat
  row : CId
  col : CId
  deriving DecidableEq, Repr

/-- the program -/
structure CProb where
  cols : List CCol
  rows : List CRow
  elems : List CElem
  deriving DecidableEq, Repr

/-- a representative period and an hour -/
abbrev CWhen := List CVal × Rat

/-- a subscript, EC:1541-1554 -/
def cSub (s : CWhen) : List CChar := [⟨"pt".toList, cNA, s.1⟩, ⟨"hour".toList, .dbl s.2, []⟩]

/-- the characteristics of a subscript that are used, EC:675-677 -/
def cExtra (s : CWhen) : List CChar :=
  (if s.1 ≠ [] then [⟨"pt".toList, cNA, s.1⟩] else []) ++ (if s.2 ≠ -1 then [⟨"hour".toList, .dbl s.2, []⟩] else [])

def cIsBus (v : CVertex) : Bool := decide ((cGetChar v.chars "type".toList).value = .str "bus".toList)
def cIsGen (v : CVertex) : Bool := decide ((cGetChar v.chars "type".toList).value = .str "generator".toList)
def cIsBranch (v : CVertex) : Bool := decide ((cGetChar v.chars "type".toList).value = .str "branch".toList)

/-- vertices of a type with their positions, `get_positions`, EH:1034-1038 -/
def cOf (f : CVertex → Bool) (vs : List CVertex) : List (CVertex × Nat) := vs.zipIdx.filter (fun q => f q.1)

/-! ## edges -/

/-- edges from buses to a branch, EC:249-265 -/
def cEnds (v : CVertex) (i : Nat) : Bool → Bool → List (CVertex × Nat) → List (Nat × Nat)
  | _, _, [] => []
  | a, b, (w, j) :: l =>
    if cIsBus w = true ∧ (cGetChar v.chars "from".toList).value = (cGetChar w.chars "number".toList).value then (j, i) :: cEnds v i true b l
    else if cIsBus w = true ∧ (cGetChar v.chars "to".toList).value = (cGetChar w.chars "number".toList).value then (j, i) :: cEnds v i a true l
    else if a = true ∧ b = true then []
    else cEnds v i a b l

/-- the edge from its bus to a generator, EC:235-245 -/
def cHome (vs : List CVertex) (v : CVertex) (i : Nat) : List (Nat × Nat) :=
  match vs.zipIdx.find? (fun q => cIsBus q.1 && decide ((cGetChar v.chars "number".toList).value = (cGetChar q.1.chars "number".toList).value)) with
  | some q => [(q.2, i)]
  | none => []

/-- `create_edges_network`, EC:228-268 -/
def cEdges (vs : List CVertex) : List (Nat × Nat) :=
  vs.zipIdx.flatMap (fun q => if cIsGen q.1 = true then cHome vs q.1 q.2 else if cIsBranch q.1 = true then cEnds q.1 q.2 false false vs.zipIdx else [])

/-! ## costs -/

/-- the cost function of a generator in a period, EC:737-746 -/
def cCostInfo (v : CVertex) (extra : List CChar) : Except CErr (Option CInfo) :=
  match cFetch v "cost function".toList [] with
  | .none => .ok none
  | .one i => .ok (some i)
  | .many =>
    match cFetch v "cost function".toList extra with
    | .none => .ok (some cNone)
    | .one i => .ok (some i)
    | .many => .error (.code (-6))

/-- the lines go to the first entry with all the characteristics, EH:582-603 -/
def cPutLines (lines : List CChar) (chars : List CChar) : List CInfo → List CInfo
  | [] => []
  | e :: l => if cSubset chars e.chars = true then ⟨lines.foldl (fun l c => cSetChar l c true) e.chars, e.value⟩ :: l else e :: cPutLines lines chars l

/-- the lines of the cost of a generator, computed once, EC:747-752 -/
def cAddLines (base : Rat) (v : CVertex) (s : CWhen) : Except CErr CVertex := do
  let info ← cCostInfo v (cExtra s)
  match info with
  | none => .ok v
  | some i =>
    if cHas i.chars "slopes".toList = true then .ok v
    else do
      let max ← cDouble v "active power max limit".toList (cExtra s)
      let min ← cDouble v "Pmin".toList (cExtra s)
      let L ← cLinearise i base max min
      .ok ⟨v.chars, cPutLines (cLineChars L) i.chars v.params⟩

/-- the vertices with the lines of their costs -/
def cPrepare (base : Rat) (subs : List CWhen) (vs : List CVertex) : Except CErr (List CVertex) :=
  vs.mapM (fun v => if cIsGen v = true then subs.foldlM (cAddLines base) v else .ok v)

/-! ## columns -/

/-- `PENALTY`, EH:1396 -/
def cPenalty : Rat := 1000000000

/-- the columns of a bus in a period, EC:672-690 -/
def cBusCols (n : Nat) (s : CWhen) : List CCol :=
  [⟨⟨n, "voltage angle".toList, cExtra s⟩, none, none, 0, cSub s, true⟩,
   ⟨⟨n, "load curtailment".toList, cExtra s⟩, some 0, none, cPenalty, cSub s, true⟩,
   ⟨⟨n, "generation curtailment".toList, cExtra s⟩, some 0, none, cPenalty, cSub s, true⟩]

/-- the linear cost, EC:711-720 -/
def cLinear (v : CVertex) (extra : List CChar) : Except CErr Rat :=
  match cFetch v "vCPg".toList [] with
  | .none => .ok 0
  | .one i => i.value.getDbl
  | .many => cDouble v "vCPg".toList extra

/-- the columns of a generator in a period, EC:694-756 -/
def cGenCols (v : CVertex) (n : Nat) (s : CWhen) : Except CErr (List CCol) := do
  let status ← cBool v "status".toList (cExtra s)
  let cost ← cLinear v (cExtra s)
  let min ← cDouble v "Pmin".toList (cExtra s)
  let max ← cDouble v "active power max limit".toList (cExtra s)
  let info ← cCostInfo v (cExtra s)
  .ok (⟨⟨n, "active power generation".toList, cExtra s⟩, some min, some max, cost, cSub s, status⟩ ::
    (if info.isSome = true then [⟨⟨n, "active power generation cost".toList, cExtra s⟩, some 0, none, 1, cSub s, status⟩] else []))

/-- `declare_dc_opf_variables`, EC:667-759 -/
def cCols (subs : List CWhen) (vs : List CVertex) : Except CErr (List CCol) := do
  let g ← (cOf cIsGen vs).mapM (fun q => subs.mapM (cGenCols q.1 q.2))
  .ok ((cOf cIsBus vs).flatMap (fun q => subs.flatMap (cBusCols q.2)) ++ (g.map List.flatten).flatten)

/-! ## rows -/

/-- the balance of a bus, EC:852-862 -/
def cBusRow (v : CVertex) (n : Nat) (s : CWhen) : Except CErr CRow := do
  let d ← cDouble v "Pd".toList (cExtra s)
  .ok ⟨⟨n, "active power balance".toList, cExtra s⟩, some d, some d, cSub s, true⟩

/-- the row of a piece -/
def cPieceId (n : Nat) (s : CWhen) (k : Nat) : CId := ⟨n, "piecewise generation cost".toList, cExtra s ++ [⟨"piece".toList, .int k, []⟩]⟩

/-- the pieces of the cost of a generator, EC:877-900 -/
def cGenRows (v : CVertex) (n : Nat) (s : CWhen) : Except CErr (List CRow) := do
  let status ← cBool v "status".toList (cExtra s)
  let info ← cCostInfo v (cExtra s)
  match info with
  | none => .ok []
  | some i => do
    let bounds ← cRowBounds i
    .ok (bounds.zipIdx.map (fun q => ⟨cPieceId n s q.2, none, some q.1, cSub s, status⟩))

/-- the angular difference of a branch, EC:917-945 -/
def cBranchRow (v : CVertex) (n : Nat) (s : CWhen) : Except CErr CRow := do
  let m ← cDouble v "maxPflow".toList (cExtra s)
  let x ← cDouble v "reactance".toList (cExtra s)
  let status ← cBool v "status".toList (cExtra s)
  .ok ⟨⟨n, "angular difference".toList, cExtra s⟩, if m = 0 then none else some (-m * x), if m = 0 then none else some (m * x), cSub s, status⟩

/-- `declare_dc_opf_constraints`, EC:837-949 -/
def cRows (subs : List CWhen) (vs : List CVertex) : Except CErr (List CRow) := do
  let b ← (cOf cIsBus vs).mapM (fun q => subs.mapM (cBusRow q.1 q.2))
  let g ← (cOf cIsGen vs).mapM (fun q => subs.mapM (cGenRows q.1 q.2))
  let l ← (cOf cIsBranch vs).mapM (fun q => subs.mapM (cBranchRow q.1 q.2))
  .ok (b.flatten ++ (g.map List.flatten).flatten ++ l.flatten)

/-! ## matrix -/

/-- `TOLERANCE_REACTANCE`, EH:1397 -/
def cTolerance : Rat := 1 / 100000000

/-- the numbers of the buses, EC:1076-1081 -/
def cNumbers (vs : List CVertex) : Except CErr (List Int) := (cOf cIsBus vs).mapM (fun q => (cGetChar q.1.chars "number".toList).value.getInt)

/-- the place of a number, EC:1094-1100 -/
def cPlace (numbers : List Int) (k : Int) : Except CErr Nat :=
  match numbers.findIdx? (fun m => decide (m = k)) with
  | some i => .ok i
  | none => .error (.code (-9))

/-- a branch in the row of susceptances of a bus, EC:1194-1236; the period is not known here -/
def cSusceptance (numbers : List Int) (bus : Nat) (row : List Rat) (v : CVertex) : Except CErr (List Rat) := do
  let status ← cBool v "status".toList []
  let x ← cDouble v "reactance".toList []
  if status = true ∧ cTolerance < |x| then do
    let f ← (cGetChar v.chars "from".toList).value.getInt
    let a ← cPlace numbers f
    let t ← (cGetChar v.chars "to".toList).value.getInt
    let b ← cPlace numbers t
    if bus = a then .ok ((row.modify a (· - 1 / x)).modify b (· + 1 / x))
    else .ok ((row.modify b (· - 1 / x)).modify a (· + 1 / x))
  else .ok row

/-- the neighbours of a bus along its edges, EC:1172-1174 -/
def cNext (vs : List CVertex) (n : Nat) : List (CVertex × Nat) :=
  ((cEdges vs).filter (fun e => decide (e.1 = n))).filterMap (fun e => vs[e.2]?.map (fun v => (v, e.2)))

/-- the entries of the balance of a bus, EC:1090-1279 -/
def cBalance (subs : List CWhen) (vs : List CVertex) (numbers : List Int) (q : CVertex × Nat) : Except CErr (List CElem) := do
  let number ← (cGetChar q.1.chars "number".toList).value.getInt
  let bus ← cPlace numbers number
  let row ← ((cNext vs q.2).filter (fun t => cIsBranch t.1)).foldlM (fun row t => cSusceptance numbers bus row t.1) (List.replicate numbers.length 0)
  let angles ← (cOf cIsBus vs).mapM (fun m => do
    let k ← (cGetChar m.1.chars "number".toList).value.getInt
    let p ← cPlace numbers k
    let y := row[p]?.getD 0
    .ok (if y ≠ 0 then subs.map (fun s => (⟨y, ⟨q.2, "active power balance".toList, cExtra s⟩, ⟨m.2, "voltage angle".toList, cExtra s⟩⟩ : CElem)) else []))
  .ok ((((cNext vs q.2).filter (fun t => cIsGen t.1)).flatMap (fun t => subs.map (fun s => ⟨1, ⟨q.2, "active power balance".toList, cExtra s⟩, ⟨t.2, "active power generation".toList, cExtra s⟩⟩)))
    ++ angles.flatten
    ++ subs.flatMap (fun s => [⟨1, ⟨q.2, "active power balance".toList, cExtra s⟩, ⟨q.2, "load curtailment".toList, cExtra s⟩⟩,
        ⟨-1, ⟨q.2, "active power balance".toList, cExtra s⟩, ⟨q.2, "generation curtailment".toList, cExtra s⟩⟩]))

/-- the cost function whose slopes are used for all periods, EC:1287-1302: it is only asked for again while there is a conflict -/
def cSlopeInfo (v : CVertex) (subs : List CWhen) : Except CErr (Option CInfo) :=
  match cFetch v "cost function".toList [], subs with
  | .none, _ => .ok none
  | .one i, _ => .ok (some i)
  | .many, [] => .ok none
  | .many, s :: _ =>
    match cFetch v "cost function".toList (cExtra s) with
    | .none => .ok (some cNone)
    | .one i => .ok (some i)
    | .many => .error (.code (-9))

/-- the entries of the cost rows of a generator, EC:1283-1325 -/
def cPieces (subs : List CWhen) (rows : List CRow) (q : CVertex × Nat) : Except CErr (List CElem) := do
  let info ← cSlopeInfo q.1 subs
  match info with
  | none => .ok []
  | some i => do
    let slopes ← cRowSlopes i
    let l ← subs.mapM (fun s => slopes.zipIdx.mapM (fun z =>
      if rows.any (fun r => decide (r.id = cPieceId q.2 s z.2)) = true then
        .ok ([⟨z.1, cPieceId q.2 s z.2, ⟨q.2, "active power generation".toList, cExtra s⟩⟩, ⟨-1, cPieceId q.2 s z.2, ⟨q.2, "active power generation cost".toList, cExtra s⟩⟩] : List CElem)
      else .error (.code (-9))))
    .ok (l.map List.flatten).flatten

/-- the entries of the angular difference of a branch, EC:1331-1366 -/
def cAngles (subs : List CWhen) (vs : List CVertex) (n : Nat) : List CElem :=
  let ends := (cEdges vs).filter (fun e => decide (e.2 = n))
  ends.zipIdx.flatMap (fun e => subs.map (fun s =>
    ⟨if (ends.length - e.2) % 2 = 0 then 1 else -1, ⟨n, "angular difference".toList, cExtra s⟩, ⟨e.1.1, "voltage angle".toList, cExtra s⟩⟩))

/-- `create_dc_opf_matrix`, EC:1054-1419 -/
def cElems (subs : List CWhen) (vs : List CVertex) (rows : List CRow) : Except CErr (List CElem) := do
  let numbers ← cNumbers vs
  let b ← (cOf cIsBus vs).mapM (cBalance subs vs numbers)
  let g ← (cOf cIsGen vs).mapM (cPieces subs rows)
  .ok (b.flatten ++ g.flatten ++ (cOf cIsBranch vs).flatMap (fun q => cAngles subs vs q.2))

/-- the program, EC:1558-1600 -/
def cProblem (subs : List CWhen) (vs : List CVertex) : Except CErr CProb := do
  let cols ← cCols subs vs
  let rows ← cRows subs vs
  let elems ← cElems subs vs rows
  .ok ⟨cols, rows, elems⟩

/-! ## what the solver is given -/

/-- a value within bounds -/
def cWithin (lower upper : Option Rat) (x : Rat) : Prop := (∀ l, lower = some l → l ≤ x) ∧ (∀ u, upper = some u → x ≤ u)

/-- a column is active in a period -/
def cActive (p : CProb) (period : List CChar) (id : CId) : Bool := p.cols.any (fun c => c.active && decide (c.period = period) && decide (c.id = id))

/-- a row in the reduced program of a period, EH:1219-1223 -/
def cRowValue (p : CProb) (period : List CChar) (x : CId → Rat) (r : CId) : Rat :=
  ((p.elems.filter (fun e => decide (e.row = r) && cActive p period e.col)).map (fun e => e.val * x e.col)).sum

/-- the reduced program of a period: its points -/
def cFeasible (p : CProb) (period : List CChar) (x : CId → Rat) : Prop :=
  (∀ c ∈ p.cols, c.active = true → c.period = period → cWithin c.lower c.upper (x c.id)) ∧
  (∀ r ∈ p.rows, r.active = true → r.period = period → cWithin r.lower r.upper (cRowValue p period x r.id))

/-- the reduced program of a period: its objective -/
def cObjective (p : CProb) (period : List CChar) (x : CId → Rat) : Rat :=
  ((p.cols.filter (fun c => c.active && decide (c.period = period))).map (fun c => c.cost * x c.id)).sum

/-! ## periods -/

/-- the representative period of a parameter, EC:1470-1487 -/
def cPtStep (acc : List (List CVal)) (i : CInfo) : List (List CVal) :=
  match i.chars.find? (fun c => decide (c.name = "pt".toList)) with
  | some c => if c.values ∈ acc then acc else acc ++ [c.values]
  | none => acc

/-- the representative periods of the parameters of a vertex, EC:1466-1490 -/
def cPts (params : List CInfo) : List (List CVal) := params.foldl cPtStep []

/-- of the first vertex that has any, EC:1462-1498 -/
def cPeriods : List CVertex → Except CErr (List (List CVal))
  | [] => .error (.code (-4))
  | v :: vs => if cPts v.params = [] then cPeriods vs else .ok (cPts v.params)

/-- the hour of a parameter, EC:1512-1527 -/
def cHrStep (acc : List Rat) (i : CInfo) : Except CErr (List Rat) :=
  match i.chars.find? (fun c => decide (c.name = "hour".toList)) with
  | some c => do
    let h ← c.value.getDbl
    .ok (if h ∈ acc then acc else acc ++ [h])
  | none => .ok acc

/-- the hours of the parameters of a vertex, EC:1508-1530 -/
def cHrs (params : List CInfo) : Except CErr (List Rat) := params.foldlM cHrStep []

/-- of the first vertex that has any, EC:1504-1538 -/
def cHours : List CVertex → Except CErr (List Rat)
  | [] => .error (.code (-5))
  | v :: vs => do
    let h ← cHrs v.params
    if h = [] then cHours vs else .ok h

/-- the representative periods, EC:1459-1499 -/
def cPs (periods : Bool) (vs : List CVertex) : Except CErr (List (List CVal)) := if periods = true then cPeriods vs else .ok [[]]

/-- the hours, EC:1500-1539 -/
def cHs (multi : Bool) (vs : List CVertex) : Except CErr (List Rat) := if multi = true then cHours vs else .ok [-1]

/-- all subscripts, EC:1541-1556 -/
def cSubs (periods multi : Bool) (vs : List CVertex) : Except CErr (List CWhen) := do
  let ps ← cPs periods vs
  let hs ← cHs multi vs
  .ok (ps.flatMap (fun p => hs.map (fun h => (p, h))))

/-- `create_dc_opf_model`, EC:1454-1601 -/
def cModel (base : Rat) (periods multi : Bool) (vs : List CVertex) : Except CErr (List CVertex × CProb) := do
  let vs ← cPerUnit base vs
  let subs ← cSubs periods multi vs
  let vs ← cPrepare base subs vs
  let p ← cProblem subs vs
  .ok (vs, p)

end Pyensys
