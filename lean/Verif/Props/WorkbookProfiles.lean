import Verif.Model.WorkbookTime

/-!
# Sheets of profiles

C185: what is read from such a sheet.
-/

namespace Pyensys

/-- a block of a profile sheet: type, subtype, name, position in the tree, group, zone, the row of the hours, the rows of the elements (ID and values), and the empty rows after it -/
structure XBlock where
  typ : Tok
  subtype : Option Tok
  name : Tok
  pt : List Tok
  group : Option XCell
  zone : Option XCell
  hours : XRow
  rows : List (XCell × List XCell)
  gap : Nat
  deriving DecidableEq, Repr

/-- a line with a title and one value -/
def xLine (title : String) (v : XCell) : XRow := [some (.text title.toList), some v]

/-- an optional line -/
def xLineOf (title : String) (v : Option XCell) : List XRow :=
  match v with
  | some c => [xLine title c]
  | none => []

/-- the lines of a block before the values -/
def XBlock.heading (b : XBlock) : List XRow :=
  [xLine "Type" (.text b.typ)] ++ (xLineOf "Subtype" (b.subtype.map .text) ++ ([xLine "Name" (.text b.name)] ++
    ([some (.text "Position tree".toList) :: b.pt.map (fun t => some (.text t))] ++ (xLineOf "Group" b.group ++ xLineOf "Zone" b.zone))))

/-- the values: a row for each element -/
def XBlock.dataRows (b : XBlock) : List XRow := b.rows.map (fun r => some r.1 :: r.2.map some)

/-- all the rows of a block -/
def XBlock.sheetRows (b : XBlock) : List XRow :=
  b.heading ++ (xLine "Dataset" (.text "Hour".toList) :: (some (.text "ID".toList) :: b.hours) :: (b.dataRows ++ List.replicate b.gap []))

/-- a block as it should be: one of the three types, a known name, at least one and at most 19 empty rows after it -/
structure XBlock.Ok (b : XBlock) (name : Tok) : Prop where
  typ : xLower b.typ ∈ ["bus".toList, "branch".toList, "generator".toList]
  name : xElementName (xLower b.name) = some name
  gap : 1 ≤ b.gap ∧ b.gap ≤ 19

/-- the profiles of a block: one for each value, with the hour of its column (or the number of the column, from 0, if the hour is empty); buses have no subtype -/
def XBlock.profiles (b : XBlock) (name : Tok) : List XProfile :=
  b.rows.flatMap (fun r => r.2.zipIdx.map (fun v =>
    ⟨name, b.pt.map xLower, (xCell b.hours v.2).getD (.int v.2), r.1, some (xLower b.typ), if xLower b.typ = "bus".toList then none else b.subtype.map xLower,
     v.1, b.group, b.zone⟩))

theorem xScan_step (s s' : XProfSt) (k : Nat) (row : XRow) (rest : List XRow) (hk : k < 20) (h : xProfLine s row = .ok (some s')) :
    xProfRows s (.scan k) (row :: rest) = xProfRows s' (.scan k) rest := by
  rw [xProfRows.eq_def]
  dsimp only
  rw [if_pos hk]
  unfold xProfScan
  simp only [h, bind, Except.bind]

theorem xBlank_line (s : XProfSt) : xProfLine s [] = .ok none := rfl

theorem xScan_other (s : XProfSt) (k : Nat) (row : XRow) (rest : List XRow) (hk : k < 20) (h : xProfLine s row = .ok none) (hd : xFirstText row ≠ some "dataset".toList) :
    xProfRows s (.scan k) (row :: rest) = xProfRows s (.scan (k + 1)) rest := by
  rw [xProfRows.eq_def]
  dsimp only
  rw [if_pos hk]
  unfold xProfScan
  have : xIsDataset row (rest.headD []) = false := by
    unfold xIsDataset
    have : (xFirstText row == some "dataset".toList) = false := by rw [beq_eq_false_iff_ne]; exact hd
    rw [this]
    rfl
  simp only [h, bind, Except.bind, this]
  rfl

theorem xBlanks (s : XProfSt) : ∀ (g k : Nat) (rest : List XRow), k + g ≤ 20 →
    xProfRows s (.scan k) (List.replicate g [] ++ rest) = xProfRows s (.scan (k + g)) rest
  | 0, k, rest, _ => rfl
  | g + 1, k, rest, h => by
      rw [List.replicate_succ, List.cons_append, xScan_other s k [] _ (by omega) rfl (by decide +kernel), xBlanks s g (k + 1) rest (by omega)]
      congr 2
      omega

theorem xProfLine_title (s : XProfSt) (title : String) (cells : XRow) (key : Tok)
    (h : xProfileTitles.lookup (xLower (xSpaces title.toList)) = some key) :
    xProfLine s (some (.text title.toList) :: cells) =
      (if key = "type".toList then .ok (some (xSetType s (xCell cells 0)))
       else if key = "subtype".toList then
        (if s.typ = some "branch".toList ∨ s.typ = some "generator".toList then (xSetSubtype s (xCell cells 0)).map some
         else if s.typ = some "bus".toList ∧ (xCell cells 0).isSome then .ok (some s)
         else .ok none)
       else if key = "pt".toList then (xPosition cells).map (fun l => some ⟨s.typ, s.subtype, l ++ s.pt.drop l.length, s.name, s.group, s.zone⟩)
       else if key = "name".toList then .ok (some (xSetName s (xCell cells 0)))
       else if key = "group".toList then .ok (some ⟨s.typ, s.subtype, s.pt, s.name, (xCell cells 0).orElse (fun _ => s.group), s.zone⟩)
       else if key = "zone".toList then .ok (some ⟨s.typ, s.subtype, s.pt, s.name, s.group, (xCell cells 0).orElse (fun _ => s.zone)⟩)
       else .ok none) := by
  have hb : (xFirstText (some (.text title.toList) :: cells)).bind (fun t => xProfileTitles.lookup t) = some key := h
  unfold xProfLine
  rw [hb]
  rfl

theorem xPosition_texts : ∀ l : List Tok, xPosition (l.map (fun t => some (.text t))) = .ok (l.map xLower)
  | [] => rfl
  | t :: l => by
      rw [List.map_cons, xPosition, xPosition_texts l]
      rfl

/-- the local variables after the lines of a block -/
def XBlock.state (b : XBlock) (name : Tok) : XProfSt :=
  ⟨some (xLower b.typ), if xLower b.typ = "bus".toList then none else b.subtype.map xLower, b.pt.map xLower, some name, b.group, b.zone⟩

theorem xHeading_read (b : XBlock) (name : Tok) (h : b.Ok name) (k : Nat) (hk : k < 20) (rest : List XRow) :
    xProfRows xProfStart (.scan k) (b.heading ++ rest) = xProfRows (b.state name) (.scan k) rest := by
  unfold XBlock.heading
  rw [List.append_assoc, List.singleton_append, List.append_assoc, List.append_assoc, List.append_assoc, List.append_assoc]
  -- the type
  have h1 : xProfLine xProfStart (xLine "Type" (.text b.typ)) = .ok (some ⟨some (xLower b.typ), none, [], none, none, none⟩) := by
    unfold xLine
    rw [xProfLine_title _ _ _ "type".toList (by decide +kernel), if_pos rfl]
    show Except.ok (some (xSetType xProfStart (some (.text b.typ)))) = _
    unfold xSetType
    dsimp only
    rw [if_pos h.typ]
    rfl
  rw [xScan_step _ _ k _ _ hk h1]
  -- the subtype
  have h2 : ∀ rest, xProfRows ⟨some (xLower b.typ), none, [], none, none, none⟩ (.scan k) (xLineOf "Subtype" (b.subtype.map .text) ++ rest)
      = xProfRows ⟨some (xLower b.typ), if xLower b.typ = "bus".toList then none else b.subtype.map xLower, [], none, none, none⟩ (.scan k) rest := by
    intro rest
    cases hs : b.subtype with
    | none =>
      simp [xLineOf]
    | some st =>
      show xProfRows _ _ (xLine "Subtype" (.text st) :: rest) = _
      apply xScan_step _ _ k _ _ hk
      unfold xLine
      rw [xProfLine_title _ _ _ "subtype".toList (by decide +kernel), if_neg (by decide +kernel), if_pos rfl]
      have ht := h.typ
      simp only [List.mem_cons, List.not_mem_nil, or_false] at ht
      dsimp only
      rcases ht with ht | ht | ht
      · rw [ht, if_neg (by decide +kernel), if_pos ⟨rfl, rfl⟩, if_pos rfl]
      · rw [ht, if_pos (Or.inl rfl), if_neg (by decide +kernel)]
        rfl
      · rw [ht, if_pos (Or.inr rfl), if_neg (by decide +kernel)]
        rfl
  rw [h2]
  generalize hst : (if xLower b.typ = "bus".toList then none else b.subtype.map xLower) = st
  -- the name
  rw [List.singleton_append]
  have h3 : xProfLine ⟨some (xLower b.typ), st, [], none, none, none⟩ (xLine "Name" (.text b.name)) = .ok (some ⟨some (xLower b.typ), st, [], some name, none, none⟩) := by
    unfold xLine
    rw [xProfLine_title _ _ _ "name".toList (by decide +kernel), if_neg (by decide +kernel), if_neg (by decide +kernel), if_neg (by decide +kernel), if_pos rfl]
    show Except.ok (some (xSetName _ (some (.text b.name)))) = _
    unfold xSetName
    dsimp only
    rw [h.name]
  rw [xScan_step _ _ k _ _ hk h3]
  -- the position in the tree
  rw [List.singleton_append]
  have h4 : xProfLine ⟨some (xLower b.typ), st, [], some name, none, none⟩ (some (.text "Position tree".toList) :: b.pt.map (fun t => some (.text t)))
      = .ok (some ⟨some (xLower b.typ), st, b.pt.map xLower, some name, none, none⟩) := by
    rw [xProfLine_title _ _ _ "pt".toList (by decide +kernel), if_neg (by decide +kernel), if_neg (by decide +kernel), if_pos rfl, xPosition_texts]
    simp [Except.map]
  rw [xScan_step _ _ k _ _ hk h4]
  -- group and zone
  have h5 : ∀ rest, xProfRows ⟨some (xLower b.typ), st, b.pt.map xLower, some name, none, none⟩ (.scan k) (xLineOf "Group" b.group ++ rest)
      = xProfRows ⟨some (xLower b.typ), st, b.pt.map xLower, some name, b.group, none⟩ (.scan k) rest := by
    intro rest
    cases hg : b.group with
    | none => rfl
    | some g =>
      show xProfRows _ _ (xLine "Group" g :: rest) = _
      apply xScan_step _ _ k _ _ hk
      unfold xLine
      rw [xProfLine_title _ _ _ "group".toList (by decide +kernel), if_neg (by decide +kernel), if_neg (by decide +kernel), if_neg (by decide +kernel),
        if_neg (by decide +kernel), if_pos rfl]
      rfl
  have h6 : ∀ rest, xProfRows ⟨some (xLower b.typ), st, b.pt.map xLower, some name, b.group, none⟩ (.scan k) (xLineOf "Zone" b.zone ++ rest)
      = xProfRows ⟨some (xLower b.typ), st, b.pt.map xLower, some name, b.group, b.zone⟩ (.scan k) rest := by
    intro rest
    cases hg : b.zone with
    | none => rfl
    | some g =>
      show xProfRows _ _ (xLine "Zone" g :: rest) = _
      apply xScan_step _ _ k _ _ hk
      unfold xLine
      rw [xProfLine_title _ _ _ "zone".toList (by decide +kernel), if_neg (by decide +kernel), if_neg (by decide +kernel), if_neg (by decide +kernel),
        if_neg (by decide +kernel), if_neg (by decide +kernel), if_pos rfl]
      rfl
  rw [h5, h6]
  unfold XBlock.state
  rw [hst]

theorem xProfValues_row (s : XProfSt) (name : Tok) (id c0 : XCell) (hours : XRow) : ∀ (vs : List XCell) (i : Nat),
    xProfValues s name id (some c0 :: hours) (i + 1) (vs.map some)
      = (vs.zipIdx i).map (fun v => ⟨name, s.pt, (xCell hours v.2).getD (.int v.2), id, s.typ, s.subtype, v.1, s.group, s.zone⟩)
  | [], i => rfl
  | v :: vs, i => by
      rw [List.map_cons, xProfValues, xProfValues_row s name id c0 hours vs (i + 1), List.zipIdx_cons, List.map_cons]
      simp [xCell]

theorem xData_read (s : XProfSt) (name : Tok) (hn : s.name = some name) (c0 : XCell) (hours : XRow) (next : List XProfile) : ∀ (rows : List (XCell × List XCell)) (rest : List XRow),
    xProfRows s (.data (some c0 :: hours)) rest = .ok next →
    xProfRows s (.data (some c0 :: hours)) (rows.map (fun r => some r.1 :: r.2.map some) ++ rest)
      = .ok (rows.flatMap (fun r => r.2.zipIdx.map (fun v => ⟨name, s.pt, (xCell hours v.2).getD (.int v.2), r.1, s.typ, s.subtype, v.1, s.group, s.zone⟩)) ++ next)
  | [], rest, h => h
  | r :: rows, rest, h => by
      have ih := xData_read s name hn c0 hours next rows rest h
      rw [List.map_cons, List.cons_append, xProfRows.eq_def]
      dsimp only
      rw [hn]
      show (Except.bind _ _) = _
      rw [ih]
      dsimp only [Except.bind]
      rw [List.tail_cons, show (1 : Nat) = 0 + 1 from rfl, xProfValues_row, List.flatMap_cons, List.append_assoc]

theorem xBlocks_read : ∀ (bs : List (XBlock × Tok)) (k : Nat), k < 20 → (∀ b ∈ bs, b.1.Ok b.2) →
    xProfRows xProfStart (.scan k) (bs.flatMap (fun b => b.1.sheetRows)) = .ok (bs.flatMap (fun b => b.1.profiles b.2))
  | [], k, _, _ => rfl
  | (b, name) :: bs, k, hk, h => by
      have hb := h (b, name) List.mem_cons_self
      dsimp only at hb
      rw [List.flatMap_cons, List.flatMap_cons]
      dsimp only
      unfold XBlock.sheetRows
      rw [List.append_assoc, xHeading_read b name hb k hk]
      rw [List.cons_append, List.cons_append]
      -- the line 'Dataset'
      rw [xProfRows.eq_def]
      dsimp only
      rw [if_pos hk]
      have hscan : xProfScan (b.state name) k (xLine "Dataset" (.text "Hour".toList)) (some (.text "ID".toList) :: b.hours) = .ok (b.state name, .hours) := by
        unfold xProfScan
        have h0 : xProfLine (b.state name) (xLine "Dataset" (.text "Hour".toList)) = .ok none := rfl
        have h1 : xIsDataset (xLine "Dataset" (.text "Hour".toList)) (some (.text "ID".toList) :: b.hours) = true := by
          show ((_ && _) && _) = true
          rfl
        simp only [h0, bind, Except.bind, h1, if_true]
      rw [List.headD_cons, hscan]
      show xProfRows (b.state name) .hours _ = _
      rw [xProfRows.eq_def]
      dsimp only
      unfold XBlock.dataRows
      rw [List.append_assoc]
      obtain ⟨g, hg⟩ : ∃ g, b.gap = g + 1 := ⟨b.gap - 1, by have := hb.gap; omega⟩
      have hgap := hb.gap
      have ih := xBlocks_read bs (1 + g) (by omega) (fun q hq => h q (List.mem_cons_of_mem _ hq))
      have hrest : xProfRows (b.state name) (.data (some (.text "ID".toList) :: b.hours)) (List.replicate b.gap [] ++ bs.flatMap (fun b => b.1.sheetRows))
          = .ok (bs.flatMap (fun b => b.1.profiles b.2)) := by
        rw [hg, List.replicate_succ, List.cons_append, xProfRows.eq_def]
        show xProfRows xProfStart (.scan 1) _ = _
        rw [xBlanks xProfStart g 1 _ (by omega)]
        exact ih
      exact (xData_read (b.state name) name rfl (.text "ID".toList) b.hours _ b.rows _ hrest)

/-- C185.  A sheet of profiles: the values of every block, element by element and hour by hour, with the type, subtype, name, position in the tree, group and zone of the block. -/
theorem C185_sheet_partial (first : XRow) (gap : Nat) (hg : gap < 20) (bs : List (XBlock × Tok)) (h : ∀ b ∈ bs, b.1.Ok b.2) :
    xProfSheet (first :: (List.replicate gap [] ++ bs.flatMap (fun b => b.1.sheetRows))) = .ok (bs.flatMap (fun b => b.1.profiles b.2)) := by
  unfold xProfSheet
  rw [List.drop_one, List.tail_cons, xBlanks xProfStart gap 0 _ (by omega), Nat.zero_add]
  exact xBlocks_read bs gap hg h

/-- a row that is neither a line of a block nor the beginning of the values, such as a row of values -/
def XPlainRow (row : XRow) : Prop := ∀ t, xFirstText row = some t → xProfileTitles.lookup t = none ∧ t ≠ "dataset".toList

theorem xPlain_line (s : XProfSt) (row : XRow) (h : XPlainRow row) : xProfLine s row = .ok none ∧ xFirstText row ≠ some "dataset".toList := by
  constructor
  · unfold xProfLine
    cases hf : xFirstText row with
    | none => rfl
    | some t =>
      rw [Option.bind_some, (h t hf).1]
  · intro hc
    exact (h _ hc).2 rfl

/-- C185 (what a user can run into).  A block whose name is not known gives nothing; if it has 20 or more elements nothing that follows it in the sheet is read either, without an error. -/
theorem C185_unknownName_violated (s : XProfSt) (hn : s.name = none) (hours : XRow) (rows rest : List XRow) (hp : ∀ r ∈ rows, XPlainRow r) (h20 : 20 ≤ rows.length) :
    xProfRows s (.data hours) (rows ++ rest) = .ok [] := by
  have hskip : ∀ (rows : List XRow) (k : Nat), (∀ r ∈ rows, XPlainRow r) → 20 ≤ k + rows.length → k ≤ 20 →
      xProfRows xProfStart (.scan k) (rows ++ rest) = .ok [] := by
    intro rows
    induction rows with
    | nil =>
      intro k _ h1 h2
      have : k = 20 := by simp at h1; omega
      subst this
      cases rest with
      | nil => rfl
      | cons r rest =>
        rw [List.nil_append, xProfRows.eq_def]
        dsimp only
        rw [if_neg (by omega)]
    | cons r rows ih =>
      intro k h1 h2 h3
      rw [List.cons_append]
      by_cases hk : k < 20
      · obtain ⟨a, b⟩ := xPlain_line xProfStart r (h1 r List.mem_cons_self)
        rw [xScan_other xProfStart k r _ hk a b]
        exact ih (k + 1) (fun q hq => h1 q (List.mem_cons_of_mem _ hq)) (by simp at h2; omega) (by omega)
      · rw [xProfRows.eq_def]
        dsimp only
        rw [if_neg hk]
  cases rows with
  | nil => simp at h20
  | cons r rows =>
    rw [List.cons_append, xProfRows.eq_def]
    dsimp only
    rw [hn]
    dsimp only
    obtain ⟨a, b⟩ := xPlain_line xProfStart r (hp r List.mem_cons_self)
    have hscan : ∀ next, xProfScan xProfStart 0 r next = .ok (xProfStart, .scan 1) := by
      intro next
      unfold xProfScan
      have : xIsDataset r next = false := by
        unfold xIsDataset
        have : (xFirstText r == some "dataset".toList) = false := by rw [beq_eq_false_iff_ne]; exact b
        rw [this]
        rfl
      simp only [a, bind, Except.bind, this]
      rfl
    rw [hscan]
    show xProfRows xProfStart (.scan 1) _ = _
    exact hskip rows 1 (fun q hq => hp q (List.mem_cons_of_mem _ hq)) (by simp at h20; omega) (by omega)

/-- C185 (what a user can run into).  The name 'Shunt susceptance' in a block of buses is taken for that of branches. -/
theorem C185_shunt_violated : xElementName "shunt susceptance".toList = some "LCsusceptance".toList ∧ xNodeNames.lookup "shunt susceptance".toList = some "Bs".toList := by
  decide +kernel

/-- but all the other titles of the three kinds of elements mean the same in a profile -/
theorem C185_names_partial : ∀ p ∈ xNodeNames ++ xBranchNames ++ xGeneratorNames, p ≠ ("shunt susceptance".toList, "Bs".toList) → xElementName p.1 = some p.2 := by
  have : (xNodeNames ++ xBranchNames ++ xGeneratorNames).all (fun p => decide (p = ("shunt susceptance".toList, "Bs".toList)) || decide (xElementName p.1 = some p.2)) = true := by
    decide +kernel
  rw [List.all_eq_true] at this
  intro p hp hne
  have := this p hp
  rw [Bool.or_eq_true, decide_eq_true_iff, decide_eq_true_iff] at this
  exact this.resolve_left hne

/-- an example: two blocks, the second for all the hydro generators; the hour of the third value is missing -/
def xBlockExample : List (XBlock × Tok) :=
  [(⟨"Bus".toList, none, "Pd".toList, ["Winter".toList, "Weekday".toList], none, none, [some (.int 7), some (.int 8), none],
      [(.text "n1".toList, [.num (1 / 2), .int 1, .num (3 / 2)]), (.text "n2".toList, [.int 2])], 1⟩, "Pd".toList),
   (⟨"generator".toList, some "Hydro".toList, "Pmax".toList, [], some (.text "g".toList), none, [some (.int 1)], [(.text "all".toList, [.num (9 / 10)])], 2⟩,
      "active power max limit".toList)]

theorem C185_witness :
    (xProfSheet ([some (.text "profile".toList)] :: (List.replicate 1 [] ++ xBlockExample.flatMap (fun b => b.1.sheetRows)))).toOption
      = some [⟨"Pd".toList, ["winter".toList, "weekday".toList], .int 7, .text "n1".toList, some "bus".toList, none, .num (1 / 2), none, none⟩,
         ⟨"Pd".toList, ["winter".toList, "weekday".toList], .int 8, .text "n1".toList, some "bus".toList, none, .int 1, none, none⟩,
         ⟨"Pd".toList, ["winter".toList, "weekday".toList], .int 2, .text "n1".toList, some "bus".toList, none, .num (3 / 2), none, none⟩,
         ⟨"Pd".toList, ["winter".toList, "weekday".toList], .int 7, .text "n2".toList, some "bus".toList, none, .int 2, none, none⟩,
         ⟨"active power max limit".toList, [], .int 1, .text "all".toList, some "generator".toList, some "hydro".toList, .num (9 / 10), some (.text "g".toList), none⟩] ∧
    (∀ b ∈ xBlockExample, xLower b.1.typ ∈ ["bus".toList, "branch".toList, "generator".toList] ∧ xElementName (xLower b.1.name) = some b.2 ∧ 1 ≤ b.1.gap ∧ b.1.gap ≤ 19) := by
  constructor <;> decide +kernel

end Pyensys
