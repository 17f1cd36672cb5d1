import Verif.Props.WorkbookBlocks

/-!
# Outputs and functions of a workbook

C189: the sheet 'outputs'.  C190: the sheet 'functions'.
-/

namespace Pyensys

theorem xAll_tables : (∀ p ∈ xAllNames, xVariables.contains p.1 = false ∧ xLower p.1 = p.1 ∧ (xDataType p.1).isSome = true) ∧
    (∀ v ∈ xVariables, xAllNames.lookup v = none ∧ xIntegerNames.lookup v = none ∧ xDoubleNames.lookup v = none ∧ xStringNames.lookup v = none ∧ xBoolNames.lookup v = none ∧
      xDoubleListNames.lookup v = none ∧ xStringListNames.lookup v = none) := by
  constructor <;> decide +kernel

theorem xNameOf_all {t n : Tok} (hn : xAllNames.lookup (xLower t) = some n) : xKnown t = true ∧ xNameOf t = n ∧ ∃ dt, xDataType t = some dt := by
  obtain ⟨h1, h2, h3⟩ := xAll_tables.1 _ (lookup_key hn)
  have h1 : xVariables.contains (xLower t) = false := h1
  have h2 : xLower (xLower t) = xLower t := h2
  have h3 : (xDataType (xLower t)).isSome = true := h3
  refine ⟨?_, ?_, ?_⟩
  · unfold xKnown
    rw [hn]; rfl
  · unfold xNameOf
    rw [if_neg (by rw [h1]; simp), hn]; rfl
  · have : xDataType (xLower t) = xDataType t := by
      unfold xDataType
      rw [h2]
    rw [← this]
    exact Option.isSome_iff_exists.mp h3

theorem xNameOf_variable {t : Tok} (hv : xLower t ∈ xVariables) : xKnown t = true ∧ xNameOf t = xLower t ∧ xDataType t = none := by
  obtain ⟨h0, d1, d2, d3, d4, d5, d6⟩ := xAll_tables.2 _ hv
  refine ⟨?_, ?_, ?_⟩
  · unfold xKnown
    rw [Bool.or_eq_true, List.contains_iff_mem]
    exact Or.inr hv
  · unfold xNameOf
    rw [if_pos (by rw [List.contains_iff_mem]; exact hv)]
  · unfold xDataType
    rw [d1, d2, d3, d4, d5, d6]
    rfl

/-! ## Outputs -/

/-- a single value that asks for everything: 'all', or the name of a variable -/
def XFree (cells : List XCell) : Prop := ∃ t : Tok, cells = [.text t] ∧ (xLower (xSpaces t) = "all".toList ∨ xLower (xSpaces t) ∈ xVariables)

/-- what a row of an output says -/
inductive XOutLine : XRow → Option XChar → Prop
  /-- a name with values -/
  | values (row : XRow) (t n : Tok) (dt : XDt) (cells : List XCell) (h0 : xCell row 0 = some (.text t)) (hn : xAllNames.lookup (xLower (xSpaces t)) = some n) (hr : XRight row cells) (hne : cells ≠ [])
      (hdt : xDataType (xSpaces t) = some dt) (hf : ¬ XFree cells) : XOutLine row (some ⟨n, .many (cells.map xOutItem), dt.list⟩)
  /-- a name with 'all' or a variable -/
  | all (row : XRow) (t n : Tok) (cells : List XCell) (h0 : xCell row 0 = some (.text t)) (hn : xAllNames.lookup (xLower (xSpaces t)) = some n ∨ (xLower (xSpaces t) ∈ xVariables ∧ n = xLower (xSpaces t)))
      (hr : XRight row cells) (hf : XFree cells) : XOutLine row (some ⟨n, .many (cells.map xOutItem), .vString⟩)
  /-- a name without a value -/
  | empty (row : XRow) (t : Tok) (h0 : xCell row 0 = some (.text t)) (hk : xKnown (xSpaces t) = true) (h1 : xCell row 1 = none) : XOutLine row none
  /-- a remark -/
  | text (row : XRow) (t : Tok) (h0 : xCell row 0 = some (.text t)) (hk : xKnown (xSpaces t) = false) (he : xSpaces t ≠ "end".toList) : XOutLine row none
  /-- anything else -/
  | other (row : XRow) (h0 : ∀ t, xCell row 0 ≠ some (.text t)) : XOutLine row none

/-- **C189.** The values of a row: names of the dictionaries are translated, other texts are written in lower case, numbers as they are. -/
theorem C189_item_partial (c : XCell) : (∀ t n, c = .text t → xAllNames.lookup (xLower (xSpaces t)) = some n → xOutItem c = .text n) ∧
    (∀ t, c = .text t → xAllNames.lookup (xLower (xSpaces t)) = none → xOutItem c = .text (xLower (xSpaces t))) ∧ ((∀ t, c ≠ .text t) → xOutItem c = c) := by
  refine ⟨?_, ?_, ?_⟩
  · rintro t n rfl h
    show XCell.text ((xAllNames.lookup (xLower (xSpaces t))).getD _) = _
    rw [h]; rfl
  · rintro t rfl h
    show XCell.text ((xAllNames.lookup (xLower (xSpaces t))).getD _) = _
    rw [h]; rfl
  · intro h
    cases c with
    | text t => exact absurd rfl (h t)
    | int n => rfl
    | num q => rfl
    | bool b => rfl

theorem xOutFree_iff (cells : List XCell) : xOutFree (cells.map xOutItem) = true ↔ XFree cells := by
  have hall : xAllNames.lookup "all".toList = none := by decide +kernel
  have hvv : ∀ p ∈ xAllNames, xVariables.contains p.2 = false ∧ p.2 ≠ "all".toList := by decide +kernel
  constructor
  · intro h
    match cells, h with
    | [.text t], h =>
      refine ⟨t, rfl, ?_⟩
      have h : (((xAllNames.lookup (xLower (xSpaces t))).getD (xLower (xSpaces t)) == "all".toList) || xVariables.contains ((xAllNames.lookup (xLower (xSpaces t))).getD (xLower (xSpaces t)))) = true := h
      cases hl : xAllNames.lookup (xLower (xSpaces t)) with
      | none =>
        rw [hl, Option.getD_none, Bool.or_eq_true, beq_iff_eq, List.contains_iff_mem] at h
        exact h
      | some n =>
        obtain ⟨a, b⟩ := hvv _ (lookup_key hl)
        have a : xVariables.contains n = false := a
        rw [hl, Option.getD_some, a, Bool.or_false, beq_iff_eq] at h
        exact absurd h b
  · rintro ⟨t, rfl, h⟩
    show (((xAllNames.lookup (xLower (xSpaces t))).getD (xLower (xSpaces t)) == "all".toList) || xVariables.contains ((xAllNames.lookup (xLower (xSpaces t))).getD (xLower (xSpaces t)))) = true
    have hn : xAllNames.lookup (xLower (xSpaces t)) = none := by
      rcases h with h | h
      · rw [h]; exact hall
      · exact (xAll_tables.2 _ h).1
    rw [hn, Option.getD_none, Bool.or_eq_true, beq_iff_eq, List.contains_iff_mem]
    exact h

theorem xOutRow_known (s : List XChar) (row : XRow) (t : Tok) (h0 : xCell row 0 = some (.text t)) (hk : xKnown (xSpaces t) = true) :
    xOutRow s row = (xOutKnown s (xSpaces t) row).map (fun c => (none, c)) := by
  unfold xOutRow
  rw [h0]
  show (if xKnown (xSpaces t) = true then _ else _) = _
  rw [if_pos hk]

theorem xOut_line (s : List XChar) (row : XRow) (c : Option XChar) (h : XOutLine row c) :
    ∃ v s', xOutRow s row = .ok (v, s') ∧ v ≠ some (.text "end".toList) ∧ s' = s ++ c.toList := by
  cases h with
  | values t n dt cells h0 hn hr hne hdt hf =>
    obtain ⟨h1, h2, _⟩ := xNameOf_all hn
    rw [xOutRow_known s row t h0 h1]
    unfold xOutKnown
    rw [xAcross_right row cells hr]
    have h3 : (cells.map xOutItem).isEmpty = false := by
      cases cells with
      | nil => exact absurd rfl hne
      | cons a l => rfl
    have h4 : ¬ xOutFree (cells.map xOutItem) = true := fun h => hf ((xOutFree_iff cells).mp h)
    dsimp only
    rw [h3, if_neg (by simp), if_neg h4, hdt, h2]
    exact ⟨_, _, rfl, by simp, rfl⟩
  | all t n cells h0 hn hr hf =>
    have hkn : xKnown (xSpaces t) = true ∧ xNameOf (xSpaces t) = n := by
      rcases hn with hn | ⟨hv, hn⟩
      · exact ⟨(xNameOf_all hn).1, (xNameOf_all hn).2.1⟩
      · rw [hn]
        exact ⟨(xNameOf_variable hv).1, (xNameOf_variable hv).2.1⟩
    rw [xOutRow_known s row t h0 hkn.1]
    unfold xOutKnown
    rw [xAcross_right row cells hr]
    have h3 : (cells.map xOutItem).isEmpty = false := by
      obtain ⟨u, rfl, _⟩ := hf
      rfl
    dsimp only
    rw [h3, if_neg (by simp), if_pos ((xOutFree_iff cells).mpr hf), hkn.2]
    exact ⟨_, _, rfl, by simp, rfl⟩
  | empty t h0 hk h1 =>
    rw [xOutRow_known s row t h0 hk]
    unfold xOutKnown
    rw [xAcross_right row [] ⟨fun i c h => by simp at h, h1⟩]
    exact ⟨_, _, rfl, by simp, by simp⟩
  | text t h0 hk he =>
    unfold xOutRow
    rw [h0]
    show ∃ v s', (if xKnown (xSpaces t) = true then _ else _) = _ ∧ _
    rw [if_neg (by rw [hk]; simp)]
    refine ⟨_, _, rfl, ?_, by simp⟩
    intro e
    injection e with e
    injection e with e
    exact he e
  | other h0 =>
    unfold xOutRow
    cases hc : xCell row 0 with
    | none => exact ⟨_, _, rfl, by simp, by simp⟩
    | some c =>
      cases c with
      | text t => exact absurd hc (h0 t)
      | int n => exact ⟨_, _, rfl, by simp [xClean], by simp⟩
      | num q => exact ⟨_, _, rfl, by simp [xClean], by simp⟩
      | bool b => exact ⟨_, _, rfl, by simp [xClean], by simp⟩

theorem xOut_end (s : List XChar) (row : XRow) (h : (xCell row 0).map xClean = some (.text "end".toList)) : xOutRow s row = .ok (some (.text "end".toList), s) := by
  unfold xOutRow
  rw [h]
  show (if xKnown "end".toList = true then _ else _) = _
  rw [if_neg (by decide +kernel)]

/-- **C189.** A sheet of outputs: every block with something in it gives one output, with the characteristics of its rows in order; every characteristic is a list. -/
theorem C189_sheet_partial (first : XRow) (gap : List XRow) (pieces : List XPiece) (hg : ∀ r ∈ gap, XOutside r) (hl : gap.length < 20) (h : ∀ p ∈ pieces, p.Ok XOutLine) :
    xOutSheet (first :: (gap ++ pieces.flatMap XPiece.rows)) = .ok (some ((pieces.filter (fun p => !p.chars.isEmpty)).map (fun p => ⟨p.chars, .bool true, .bool⟩))) := by
  unfold xOutSheet
  rw [List.drop_one, List.tail_cons, xBlocks_outside _ _ _ gap 0 _ hg (by omega)]
  obtain ⟨ss, h1, h2⟩ := xBlocks_sheet (fun _ : List XChar => ([] : List XChar)) xOutRow id XOutLine (fun _ => rfl) xOut_line xOut_end pieces (0 + gap.length) [] (by omega) h
  rw [h1]
  rw [List.map_id] at h2
  show Except.ok (some ((ss.filter (fun c => !c.isEmpty)).map (fun c => (⟨c, .bool true, .bool⟩ : XInfo)))) = _
  rw [h2, List.filter_map, List.map_map]
  rfl

/-- **C189.** Kinds of data: every characteristic of an output is a list. -/
theorem C189_lists_partial (row : XRow) (c : XChar) (h : XOutLine row (some c)) : (∃ l, c.value = .many l ∧ l ≠ []) ∧ c.dt ∈ [XDt.vInteger, .vDouble, .vString, .vBool] := by
  cases h with
  | values t n dt cells h0 hn hr hne hdt hf =>
    refine ⟨⟨_, rfl, by simpa using hne⟩, ?_⟩
    cases dt <;> simp [XDt.list]
  | all t n cells h0 hn hr hf =>
    obtain ⟨u, rfl, _⟩ := hf
    exact ⟨⟨_, rfl, by simp⟩, by simp⟩

/-- C189 fails: an ID is written in lower case, so that the output of the generator G1 asks for an element that the model does not have. -/
theorem C189_lower_violated : xOutItem (.text "G1".toList) = .text "g1".toList ∧ xOutItem (.text "Gen North".toList) = .text "gen north".toList := by decide +kernel

/-- C189 (what a user can run into).  A row with the name of a variable in front and any values but 'all' or a variable raises. -/
theorem C189_variable_partial (s : List XChar) (row : XRow) (t : Tok) (cells : List XCell) (h0 : xCell row 0 = some (.text t)) (hv : xLower (xSpaces t) ∈ xVariables) (hr : XRight row cells) (hne : cells ≠ [])
    (hf : ¬ XFree cells) : xOutRow s row = .error .type := by
  obtain ⟨h1, h2, h3⟩ := xNameOf_variable hv
  rw [xOutRow_known s row t h0 h1]
  unfold xOutKnown
  rw [xAcross_right row cells hr]
  have h4 : (cells.map xOutItem).isEmpty = false := by
    cases cells with
    | nil => exact absurd rfl hne
    | cons a l => rfl
  have h5 : ¬ xOutFree (cells.map xOutItem) = true := fun h => hf ((xOutFree_iff cells).mp h)
  dsimp only
  rw [h4, if_neg (by simp), if_neg h5, h3]
  rfl

/-- C189 (what a user can run into).  A block without 'end' is never finished. -/
theorem C189_endless_violated (first head : XRow) (lines : List (XRow × Option XChar)) (hh : (xCell head 0).map xClean = some (.text "begin".toList)) (h : ∀ l ∈ lines, XOutLine l.1 l.2) :
    xOutSheet (first :: head :: lines.map (·.1)) = .ok none := by
  have hbody : ∀ (ls : List (XRow × Option XChar)) (s : List XChar), (∀ l ∈ ls, XOutLine l.1 l.2) → ∃ t, XBody xOutRow s (ls.map (·.1)) t := by
    intro ls
    induction ls with
    | nil => intro s _; exact ⟨s, rfl⟩
    | cons l ls ih =>
      intro s hl
      obtain ⟨v, s', a, b, _⟩ := xOut_line s l.1 l.2 (hl l List.mem_cons_self)
      obtain ⟨t, e⟩ := ih s' (fun q hq => hl q (List.mem_cons_of_mem _ hq))
      exact ⟨t, v, s', a, b, e⟩
  obtain ⟨t, ht⟩ := hbody lines [] h
  unfold xOutSheet
  rw [List.drop_one, List.tail_cons, xBlocks.eq_def]
  dsimp only
  rw [if_pos (by omega), if_pos hh, xBlocks_endless _ _ _ _ _ t ht]
  rfl

/-- an example: the generation of two generators in all the hours -/
def xOutExample : XPiece :=
  ⟨[some (.text "begin".toList)],
   [([some (.text "Problem".toList), some (.text "DC OPF".toList), some (.text "BT".toList)], some ⟨"problem".toList, .many [.text "DC OPF".toList, .text "BT".toList], .vString⟩),
    ([some (.text "Variables".toList), some (.text "all".toList)], some ⟨"variables".toList, .many [.text "all".toList], .vString⟩),
    ([none], none),
    ([some (.text "ID".toList), some (.text "g1".toList), some (.int 7)], some ⟨"ID".toList, .many [.text "g1".toList, .int 7], .vString⟩)],
   [some (.text "end".toList)], [[]]⟩

theorem C189_witness : xOutExample.Ok XOutLine := by
  refine ⟨by decide +kernel, by decide +kernel, ?_, ?_, by decide⟩
  · intro l hl
    unfold xOutExample at hl
    simp only [List.mem_cons, List.not_mem_nil, or_false] at hl
    rcases hl with rfl | rfl | rfl | rfl
    · have e : (some ⟨"problem".toList, .many [.text "DC OPF".toList, .text "BT".toList], .vString⟩ : Option XChar) =
          some ⟨"problem".toList, .many ([.text "DC OPF".toList, .text "BT".toList].map xOutItem), XDt.list .string⟩ := by decide +kernel
      dsimp only
      rw [e]
      exact XOutLine.values _ "Problem".toList _ .string _ rfl (by decide +kernel) (xRight_example _ _ _) (by simp) (by decide +kernel) (by rintro ⟨t, h, _⟩; simp at h)
    · have e : (some ⟨"variables".toList, .many [.text "all".toList], .vString⟩ : Option XChar) = some ⟨"variables".toList, .many ([.text "all".toList].map xOutItem), .vString⟩ := by decide +kernel
      dsimp only
      rw [e]
      refine XOutLine.all _ "Variables".toList _ _ rfl (Or.inl (by decide +kernel)) ⟨?_, rfl⟩ ⟨_, rfl, Or.inl (by decide +kernel)⟩
      intro i c hi
      match i, hi with
      | 0, hi => injection hi with hi; subst hi; rfl
      | i + 1, hi => simp at hi
    · exact XOutLine.other _ (fun t h => by simp [xCell] at h)
    · have e : (some ⟨"ID".toList, .many [.text "g1".toList, .int 7], .vString⟩ : Option XChar) = some ⟨"ID".toList, .many ([.text "g1".toList, .int 7].map xOutItem), XDt.list .string⟩ := by decide +kernel
      dsimp only
      rw [e]
      exact XOutLine.values _ "ID".toList _ .string _ rfl (by decide +kernel) (xRight_example _ _ _) (by simp) (by decide +kernel) (by rintro ⟨t, h, _⟩; simp at h)
  · intro r hr
    have : r = [] := by
      unfold xOutExample at hr
      simpa using hr
    subst this
    unfold XOutside
    decide +kernel

/-! ## Functions -/

/-- the cells of a row from the first one -/
def XCellsFrom (row : XRow) (cells : List XCell) : Prop :=
  (∀ (i : Nat) (c : XCell), cells[i]? = some c → xCell row i = some c) ∧ xCell row cells.length = none

/-- a column of a table of functions with one value: title, name, kind of data -/
structure XFunColumn where
  title : Tok
  name : Tok
  dt : XDt

/-- the title is accepted -/
def XFunColumn.Ok (c : XFunColumn) : Prop := xUniqueNames.lookup (xLower (xSpaces c.title)) = some c.name ∧ xDataType (xSpaces c.title) = some c.dt

/-- a table: the row with 'begin', columns, the title of the coefficients with its name, rows with their cells, the row with 'end', rows after it -/
structure XTable where
  head : XRow
  titles : XRow
  columns : List XFunColumn
  coeff : Tok
  name : Tok
  lines : List (XRow × List XCell)
  last : XRow
  gap : List XRow

/-- the rows of a table -/
def XTable.rows (p : XTable) : List XRow := p.head :: p.titles :: (p.lines.map (·.1) ++ p.last :: p.gap)

/-- a table that is written properly -/
structure XTable.Ok (p : XTable) : Prop where
  head : (xCell p.head 0).map xClean = some (.text "begin".toList)
  titles : XCellsFrom p.titles (p.columns.map (fun c => .text c.title) ++ [.text p.coeff])
  columns : ∀ c ∈ p.columns, c.Ok
  some : p.columns ≠ []
  coeff : xListNames.lookup (xLower (xSpaces p.coeff)) = .some p.name
  lines : ∀ l ∈ p.lines, XCellsFrom l.1 l.2 ∧ p.columns.length ≤ l.2.length ∧ xCell l.1 0 ≠ .some (.text "end".toList)
  last : xCell p.last 0 = .some (.text "end".toList)
  gap : ∀ r ∈ p.gap, XOutside r
  short : p.gap.length < 19

/-- the function of a row: one value for each column, the name of the coefficients and the rest of the row -/
def XTable.function (p : XTable) (cells : List XCell) : XInfo :=
  ⟨(p.columns.zip (cells.map xFunItem)).map (fun q => ⟨q.1.name, .one q.2, q.1.dt⟩) ++
    [⟨"name".toList, .one (.text p.name), .string⟩,
     ⟨"coefficients".toList, .many ((cells.drop p.columns.length).map xFunItem), if p.name = "cost function".toList then .vDouble else .vString⟩], .bool true, .bool⟩

theorem xUnique_all {t n : Tok} (hn : xUniqueNames.lookup (xLower t) = some n) : xAllNames.lookup (xLower t) = some n := by
  obtain ⟨_, h2⟩ := xNames_tables.2 _ (lookup_key hn)
  have h2 : xListNames.lookup (xLower t) = none := h2
  unfold xAllNames
  rw [lookup_append', h2, hn]
  rfl

theorem xList_all {t n : Tok} (hn : xListNames.lookup (xLower t) = some n) : xAllNames.lookup (xLower t) = some n := by
  unfold xAllNames
  rw [lookup_append', hn]
  rfl

/-- titles as cells of a row -/
theorem xFunTitles_eq : ∀ (row : XRow) (ts : List (Tok × Tok)) (o : Option Tok), (∀ p ∈ ts, xAllNames.lookup (xLower (xSpaces p.1)) = some p.2) →
    xAcross row = ts.map (fun p => .text p.1) → ts ≠ [] → ∃ o', xFunTitles o row = .ok (ts.map (fun p => (xSpaces p.1, p.2)), o')
  | row, [], _, _, _, hne => absurd rfl hne
  | [], p :: ts, _, _, h, _ => by simp [xAcross] at h
  | none :: row, p :: ts, _, _, h, _ => by simp [xAcross] at h
  | some c :: row, p :: ts, o, hk, h, _ => by
      rw [xAcross, List.map_cons] at h
      injection h with h1 h2
      subst h1
      rw [xFunTitles.eq_def]
      dsimp only
      rw [hk p List.mem_cons_self]
      dsimp only
      cases ts with
      | nil =>
        have : ∃ o', xFunTitles (some (xSpaces p.1)) row = .ok ([], o') := by
          cases row with
          | nil => exact ⟨_, rfl⟩
          | cons a row =>
            cases a with
            | none => exact ⟨_, rfl⟩
            | some a => simp [xAcross] at h2
        obtain ⟨o', e⟩ := this
        rw [e]
        exact ⟨o', rfl⟩
      | cons q ts =>
        obtain ⟨o', e⟩ := xFunTitles_eq row (q :: ts) (some (xSpaces p.1)) (fun r hr => hk r (List.mem_cons_of_mem _ hr)) h2 (by simp)
        rw [e]
        exact ⟨o', rfl⟩

theorem xFunColumns_eq (values : List XCell) (coeff name : Tok) (hc : xListNames.lookup (xLower coeff) = some name) :
    ∀ (cols : List XFunColumn) (nu : Nat) (chars : List XChar), (∀ c ∈ cols, c.Ok) → nu + cols.length ≤ values.length →
      xFunColumns values nu chars (cols.map (fun c => (xSpaces c.title, c.name)) ++ [(coeff, name)]) =
        .ok (.stored ⟨chars ++ ((cols.zip (values.drop nu)).map (fun q => (⟨q.1.name, .one q.2, q.1.dt⟩ : XChar)) ++
          [⟨"name".toList, .one (.text name), .string⟩, ⟨"coefficients".toList, .many (values.drop (nu + cols.length)), if name = "cost function".toList then .vDouble else .vString⟩]), .bool true, .bool⟩)
  | [], nu, chars, _, _ => by
      rw [List.map_nil, List.nil_append, xFunColumns]
      have hu : (xUniqueNames.lookup (xLower coeff)).isSome = false := by
        cases h : xUniqueNames.lookup (xLower coeff) with
        | none => rfl
        | some n =>
          have := (xNameOf_one h).2.2
          rw [hc] at this
          exact absurd this (by simp)
      rw [hu, if_neg (by simp), (xNameOf_list hc).2.2]
      rfl
  | c :: cols, nu, chars, hk, hl => by
      rw [List.length_cons] at hl
      obtain ⟨h1, h2⟩ := hk c List.mem_cons_self
      rw [List.map_cons, List.cons_append, xFunColumns, if_pos (by rw [h1]; rfl)]
      have hv : values[nu]? = some (values[nu]'(by omega)) := List.getElem?_eq_getElem (by omega)
      rw [hv, h2]
      dsimp only
      rw [xFunColumns_eq values coeff name hc cols (nu + 1) _ (fun q hq => hk q (List.mem_cons_of_mem _ hq)) (by omega)]
      rw [List.drop_eq_getElem_cons (by omega : nu < values.length), List.zip_cons_cons, List.map_cons, List.append_assoc, List.length_cons]
      rw [show nu + 1 + cols.length = nu + (cols.length + 1) by omega]
      rfl

theorem xFunRows_outside (o : Option Tok) : ∀ (gap : List XRow) (k : Nat) (rest : List XRow), (∀ r ∈ gap, XOutside r) → k + gap.length ≤ 20 →
    xFunRows (.out k) o (gap ++ rest) = xFunRows (.out (k + gap.length)) o rest
  | [], k, rest, _, _ => by simp
  | r :: gap, k, rest, h, hl => by
      rw [List.length_cons] at hl
      rw [List.cons_append, xFunRows.eq_def]
      dsimp only
      rw [if_pos (by omega), if_neg (h r List.mem_cons_self), xFunRows_outside o gap (k + 1) rest (fun q hq => h q (List.mem_cons_of_mem _ hq)) (by omega), List.length_cons]
      congr 2
      omega

/-- the titles of a table, in the form of the reader -/
def XTable.read (p : XTable) : List (Tok × Tok) := p.columns.map (fun c => (xSpaces c.title, c.name)) ++ [(xSpaces p.coeff, p.name)]

theorem xFunRows_lines (p : XTable) (hp : p.Ok) (o : Option Tok) (rest : List XRow) : ∀ (ls : List (XRow × List XCell)),
    (∀ l ∈ ls, XCellsFrom l.1 l.2 ∧ p.columns.length ≤ l.2.length ∧ xCell l.1 0 ≠ some (.text "end".toList)) →
    xFunRows (.table p.read []) o (ls.map (·.1) ++ p.last :: rest) = (do
      let l ← xFunRows (.out 1) o rest
      .ok (ls.map (fun q => p.function q.2) ++ l))
  | [], _ => by
      rw [List.map_nil, List.nil_append, xFunRows.eq_def]
      dsimp only
      rw [if_pos hp.last]
      cases xFunRows (.out 1) o rest <;> rfl
  | q :: ls, h => by
      obtain ⟨h1, h2, h3⟩ := h q List.mem_cons_self
      rw [List.map_cons, List.cons_append, xFunRows.eq_def]
      dsimp only
      rw [if_neg h3, xAcross_eq q.1 q.2 h1.1 h1.2]
      unfold XTable.read
      rw [xFunColumns_eq (q.2.map xFunItem) _ _ hp.coeff p.columns 0 [] hp.columns (by rw [List.length_map]; omega)]
      show (do
        let l ← xFunRows (.table p.read []) o (ls.map (fun l : XRow × List XCell => l.1) ++ p.last :: rest)
        .ok (_ :: l)) = _
      rw [xFunRows_lines p hp o rest ls (fun r hr => h r (List.mem_cons_of_mem _ hr))]
      cases xFunRows (.out 1) o rest with
      | error e => rfl
      | ok l =>
        show Except.ok (_ :: (ls.map (fun q => p.function q.2) ++ l)) = Except.ok (p.function q.2 :: (ls.map (fun q => p.function q.2) ++ l))
        congr 2
        unfold XTable.function
        rw [List.drop_zero, Nat.zero_add, List.nil_append, List.map_drop]

theorem xFunRows_tables : ∀ (tables : List XTable) (k : Nat) (o : Option Tok), k < 20 → (∀ p ∈ tables, p.Ok) →
    xFunRows (.out k) o (tables.flatMap XTable.rows) = .ok (tables.flatMap (fun p => p.lines.map (fun l => p.function l.2)))
  | [], _, _, _, _ => rfl
  | p :: tables, k, o, hk, h => by
      have hp := h p List.mem_cons_self
      rw [List.flatMap_cons, List.flatMap_cons]
      show xFunRows (.out k) o (p.head :: p.titles :: (p.lines.map (·.1) ++ p.last :: p.gap) ++ tables.flatMap XTable.rows) = _
      rw [List.cons_append, List.cons_append, xFunRows.eq_def]
      dsimp only
      rw [if_pos hk, if_pos hp.head, xFunRows.eq_def]
      dsimp only
      obtain ⟨o', ho⟩ := xFunTitles_eq p.titles (p.columns.map (fun c => (c.title, c.name)) ++ [(p.coeff, p.name)]) o (by
        intro q hq
        rcases List.mem_append.mp hq with hq | hq
        · obtain ⟨c, hc, rfl⟩ := List.mem_map.mp hq
          exact xUnique_all (hp.columns c hc).1
        · rw [List.mem_singleton] at hq
          subst hq
          exact xList_all hp.coeff) (by
        rw [xAcross_eq p.titles _ hp.titles.1 hp.titles.2, List.map_append, List.map_map]
        rfl) (by simp)
      have e : (p.columns.map (fun c => (c.title, c.name)) ++ [(p.coeff, p.name)]).map (fun q : Tok × Tok => (xSpaces q.1, q.2)) = p.read := by
        unfold XTable.read
        rw [List.map_append, List.map_map]
        rfl
      rw [e] at ho
      rw [ho]
      have h2 : ∃ a b l, p.read = a :: b :: l := by
        unfold XTable.read
        have hs := hp.some
        cases hcol : p.columns with
        | nil => exact absurd hcol hs
        | cons c cs =>
          cases cs with
          | nil => exact ⟨_, _, _, rfl⟩
          | cons d ds => exact ⟨_, _, _, rfl⟩
      obtain ⟨a, b, l, hread⟩ := h2
      simp only [bind, Except.bind]
      have hm : (match p.read with
          | [] => Except.ok []
          | [q] => if (xUniqueNames.lookup (xLower q.1)).isSome then Except.error PyErr.attribute else Except.error PyErr.name
          | _ => xFunRows (.table p.read []) o' (p.lines.map (fun l : XRow × List XCell => l.1) ++ p.last :: p.gap ++ tables.flatMap XTable.rows)) =
          xFunRows (.table p.read []) o' (p.lines.map (·.1) ++ p.last :: p.gap ++ tables.flatMap XTable.rows) := by
        rw [hread]
      refine Eq.trans hm ?_
      rw [List.append_assoc, List.cons_append, xFunRows_lines p hp o' _ p.lines hp.lines]
      rw [xFunRows_outside o' p.gap 1 _ hp.gap (by have := hp.short; omega)]
      rw [xFunRows_tables tables (1 + p.gap.length) o' (by have := hp.short; omega) (fun q hq => h q (List.mem_cons_of_mem _ hq))]
      rfl

/-- **C190.** A sheet of functions: every row of every table gives one function, with the values of the columns, the name and the coefficients. -/
theorem C190_sheet_partial (first : XRow) (gap : List XRow) (tables : List XTable) (hg : ∀ r ∈ gap, XOutside r) (hl : gap.length < 20) (h : ∀ p ∈ tables, p.Ok) :
    xFunSheet (first :: (gap ++ tables.flatMap XTable.rows)) = .ok (tables.flatMap (fun p => p.lines.map (fun l => p.function l.2))) := by
  unfold xFunSheet
  rw [List.drop_one, List.tail_cons, xFunRows_outside none gap 0 _ hg (by omega)]
  exact xFunRows_tables tables _ none (by omega) h

/-- **C190.** The cells of a row: names of the dictionaries are translated, other texts and numbers as they are. -/
theorem C190_item_partial (c : XCell) : (∀ t n, c = .text t → xAllNames.lookup (xLower (xSpaces t)) = some n → xFunItem c = .text n) ∧
    (∀ t, c = .text t → xAllNames.lookup (xLower (xSpaces t)) = none → xFunItem c = .text (xSpaces t)) ∧ ((∀ t, c ≠ .text t) → xFunItem c = c) := by
  refine ⟨?_, ?_, ?_⟩
  · rintro t n rfl h
    show XCell.text ((xAllNames.lookup (xLower (xSpaces t))).getD _) = _
    rw [h]; rfl
  · rintro t rfl h
    show XCell.text ((xAllNames.lookup (xLower (xSpaces t))).getD _) = _
    rw [h]; rfl
  · intro h
    cases c with
    | text t => exact absurd rfl (h t)
    | int n => rfl
    | num q => rfl
    | bool b => rfl

/-- **C190.** A function gets the characteristics of the first element with its ID (but not the ID and the name); without such an element it stays as it is. -/
theorem C190_element_partial (d : XData) (f : XInfo) :
    (∀ (before after : List XInfo) (p : XInfo), d.flatMap (·.2) = before ++ p :: after → (∀ q ∈ before, xValSame (q.get "ID".toList) (f.get "ID".toList) = false) →
      xValSame (p.get "ID".toList) (f.get "ID".toList) = true →
      xFunExtend d f = ⟨f.chars ++ p.chars.filter (fun c => c.name != "ID".toList && c.name != "name".toList), f.value, f.dt⟩) ∧
    ((∀ q ∈ d.flatMap (·.2), xValSame (q.get "ID".toList) (f.get "ID".toList) = false) → xFunExtend d f = f) := by
  constructor
  · intro before after p hd hb hp
    unfold xFunExtend xFunElement
    rw [hd, List.find?_append, List.find?_eq_none.mpr (fun q hq => by rw [hb q hq]; simp), List.find?_cons, hp]
    rfl
  · intro h
    unfold xFunExtend xFunElement
    rw [List.find?_eq_none.mpr (fun q hq => by rw [h q hq]; simp)]

/-- C190 fails: the element is searched by its ID alone, so that a function of a generator takes the characteristics of a bus with the same ID. -/
theorem C190_type_violated :
    xFunExtend [("bus".toList, [⟨[⟨"ID".toList, .one (.text "1".toList), .string⟩, ⟨"type".toList, .one (.text "bus".toList), .string⟩], .int 0, .double⟩]),
        ("generator".toList, [⟨[⟨"ID".toList, .one (.text "1".toList), .string⟩, ⟨"type".toList, .one (.text "generator".toList), .string⟩], .int 0, .double⟩])]
      ⟨[⟨"ID".toList, .one (.text "1".toList), .string⟩, ⟨"name".toList, .one (.text "cost function".toList), .string⟩], .bool true, .bool⟩ =
    ⟨[⟨"ID".toList, .one (.text "1".toList), .string⟩, ⟨"name".toList, .one (.text "cost function".toList), .string⟩, ⟨"type".toList, .one (.text "bus".toList), .string⟩], .bool true, .bool⟩ := by
  decide +kernel

/-- C190 (what a user can run into).  A row with fewer values than columns raises. -/
theorem C190_short_violated (values : List XCell) (rest : List (Tok × Tok)) : ∀ (cols : List XFunColumn) (nu : Nat) (chars : List XChar), (∀ c ∈ cols, c.Ok) → nu ≤ values.length → values.length < nu + cols.length →
    xFunColumns values nu chars (cols.map (fun c => (xSpaces c.title, c.name)) ++ rest) = .error .index
  | [], nu, chars, _, h0, h => by
      rw [List.length_nil] at h
      omega
  | c :: cols, nu, chars, hk, h0, hl => by
      rw [List.length_cons] at hl
      obtain ⟨h1, h2⟩ := hk c List.mem_cons_self
      rw [List.map_cons, List.cons_append, xFunColumns, if_pos (by rw [h1]; rfl), h2]
      by_cases hv : nu < values.length
      · rw [List.getElem?_eq_getElem hv]
        exact C190_short_violated values rest cols (nu + 1) _ (fun q hq => hk q (List.mem_cons_of_mem _ hq)) (by omega) (by omega)
      · rw [List.getElem?_eq_none (by omega)]

/-- C190 fails: coefficients that are not in the last column end the reading without an error, whatever comes after. -/
theorem C190_order_violated (values : List XCell) (coeff name : Tok) (hc : xListNames.lookup (xLower coeff) = some name) (rest : List (Tok × Tok)) (hr : rest ≠ []) :
    ∀ (cols : List XFunColumn) (nu : Nat) (chars : List XChar), (∀ c ∈ cols, c.Ok) → nu + cols.length ≤ values.length →
      xFunColumns values nu chars (cols.map (fun c => (xSpaces c.title, c.name)) ++ (coeff, name) :: rest) = .ok .stop
  | [], nu, chars, _, _ => by
      rw [List.map_nil, List.nil_append, xFunColumns]
      have hu : (xUniqueNames.lookup (xLower coeff)).isSome = false := by
        cases h : xUniqueNames.lookup (xLower coeff) with
        | none => rfl
        | some n =>
          have := (xNameOf_one h).2.2
          rw [hc] at this
          exact absurd this (by simp)
      rw [hu, if_neg (by simp), (xNameOf_list hc).2.2]
      cases rest with
      | nil => exact absurd rfl hr
      | cons a l => rfl
  | c :: cols, nu, chars, hk, hl => by
      rw [List.length_cons] at hl
      obtain ⟨h1, h2⟩ := hk c List.mem_cons_self
      rw [List.map_cons, List.cons_append, xFunColumns, if_pos (by rw [h1]; rfl)]
      rw [List.getElem?_eq_getElem (by omega : nu < values.length), h2]
      exact C190_order_violated values coeff name hc rest hr cols (nu + 1) _ (fun q hq => hk q (List.mem_cons_of_mem _ hq)) (by omega)

/-- C190 fails: a table without coefficients gives no function. -/
theorem C190_none_violated (values : List XCell) : ∀ (cols : List XFunColumn) (nu : Nat) (chars : List XChar), (∀ c ∈ cols, c.Ok) → nu + cols.length ≤ values.length →
    ∃ chars', xFunColumns values nu chars (cols.map (fun c => (xSpaces c.title, c.name))) = .ok (.keep chars')
  | [], nu, chars, _, _ => ⟨chars, rfl⟩
  | c :: cols, nu, chars, hk, hl => by
      rw [List.length_cons] at hl
      obtain ⟨h1, h2⟩ := hk c List.mem_cons_self
      rw [List.map_cons, xFunColumns, if_pos (by rw [h1]; rfl)]
      rw [List.getElem?_eq_getElem (by omega : nu < values.length), h2]
      exact C190_none_violated values cols (nu + 1) _ (fun q hq => hk q (List.mem_cons_of_mem _ hq)) (by omega)

/-- C190 (what a user can run into).  A table with the coefficients only raises, whatever its rows. -/
theorem C190_single_violated (o : Option Tok) (titles : XRow) (rest : List XRow) (t n : Tok) (hn : xListNames.lookup (xLower (xSpaces t)) = some n) (ht : XCellsFrom titles [.text t]) :
    xFunRows .titles o (titles :: rest) = .error .name := by
  obtain ⟨o', ho⟩ := xFunTitles_eq titles [(t, n)] o (by
    intro q hq
    rw [List.mem_singleton] at hq
    subst hq
    exact xList_all hn) (xAcross_eq titles _ ht.1 ht.2) (by simp)
  rw [xFunRows.eq_def]
  dsimp only
  rw [ho]
  have hu : (xUniqueNames.lookup (xLower (xSpaces t))).isSome = false := by
    cases h : xUniqueNames.lookup (xLower (xSpaces t)) with
    | none => rfl
    | some m =>
      have := (xNameOf_one h).2.2
      rw [hn] at this
      exact absurd this (by simp)
  show (if (xUniqueNames.lookup (xLower (xSpaces t))).isSome = true then Except.error PyErr.attribute else Except.error PyErr.name) = _
  rw [hu]
  rfl

/-- an example: the costs of two generators -/
def xTableExample : XTable :=
  ⟨[some (.text "begin".toList)], [some (.text "ID".toList), some (.text "Pieces".toList), some (.text "Cost Function".toList)],
   [⟨"ID".toList, "ID".toList, .string⟩, ⟨"Pieces".toList, "pieces".toList, .integer⟩], "Cost Function".toList, "cost function".toList,
   [([some (.text "g1".toList), some (.int 1), some (.int 10), some (.int 2)], [.text "g1".toList, .int 1, .int 10, .int 2]), ([some (.text "g2".toList), some (.int 0)], [.text "g2".toList, .int 0])],
   [some (.text "end".toList)], [[]]⟩

theorem xCellsFrom_some (cells : List XCell) : XCellsFrom (cells.map some) cells := by
  refine ⟨fun i c h => ?_, ?_⟩
  · unfold xCell
    rw [List.getElem?_map, h]
    rfl
  · unfold xCell
    rw [List.getElem?_eq_none (by simp)]
    rfl

theorem C190_witness : xTableExample.Ok ∧ (xFunSheet ([some (.text "functions".toList)] :: ([] ++ [xTableExample].flatMap XTable.rows))).toOption.map (·.map (fun f => (f.get "ID".toList, f.get "coefficients".toList)))
    = some [(.one (.text "g1".toList), .many [.int 10, .int 2]), (.one (.text "g2".toList), .many [])] := by
  refine ⟨⟨by decide +kernel, xCellsFrom_some _, ?_, by simp [xTableExample], by decide +kernel, ?_, rfl, ?_, by decide⟩, by decide +kernel⟩
  · intro c hc
    unfold xTableExample at hc
    simp only [List.mem_cons, List.not_mem_nil, or_false] at hc
    rcases hc with rfl | rfl
    · constructor <;> decide +kernel
    · constructor <;> decide +kernel
  · intro l hl
    unfold xTableExample at hl
    simp only [List.mem_cons, List.not_mem_nil, or_false] at hl
    rcases hl with rfl | rfl
    · exact ⟨xCellsFrom_some [.text "g1".toList, .int 1, .int 10, .int 2], by decide, by decide +kernel⟩
    · exact ⟨xCellsFrom_some [.text "g2".toList, .int 0], by decide, by decide +kernel⟩
  · intro r hr
    have : r = [] := by
      unfold xTableExample at hr
      simpa using hr
    subst this
    unfold XOutside
    decide +kernel

end Pyensys
