import Verif.Model.WorkbookMore
import Verif.Props.Workbook

/-!
# Connections and outputs of a workbook

C188: the sheet 'connections energy'.  C189: the sheet 'outputs'.
-/

namespace Pyensys

/-- a row that is not the beginning of a block -/
def XOutside (row : XRow) : Prop := (xCell row 0).map xClean ≠ some (.text "begin".toList)

theorem xBlocks_outside {S : Type} (start : S → S) (f : S → XRow → Except PyErr (Option XCell × S)) (s : S) : ∀ (gap : List XRow) (tries : Nat) (rest : List XRow), (∀ r ∈ gap, XOutside r) →
    tries + gap.length ≤ 20 → xBlocks start f false tries s (gap ++ rest) = xBlocks start f false (tries + gap.length) s rest
  | [], tries, rest, _, _ => by simp
  | r :: gap, tries, rest, h, hl => by
      rw [List.length_cons] at hl
      rw [List.cons_append, xBlocks.eq_def]
      dsimp only
      rw [if_pos (by omega), if_neg (h r List.mem_cons_self), xBlocks_outside start f s gap (tries + 1) rest (fun q hq => h q (List.mem_cons_of_mem _ hq)) (by omega), List.length_cons]
      congr 1
      omega

/-- the rows of a block that do not end it, from one state to another -/
def XBody {S : Type} (f : S → XRow → Except PyErr (Option XCell × S)) : S → List XRow → S → Prop
  | s, [], t => s = t
  | s, r :: rows, t => ∃ v s', f s r = .ok (v, s') ∧ v ≠ some (.text "end".toList) ∧ XBody f s' rows t

theorem xBlocks_body {S : Type} (start : S → S) (f : S → XRow → Except PyErr (Option XCell × S)) (rest : List XRow) :
    ∀ (rows : List XRow) (tries : Nat) (s : S) (last : XRow) (t u : S), XBody f s rows t → f t last = .ok (some (.text "end".toList), u) →
      xBlocks start f true tries s (rows ++ last :: rest) = (do
        let l ← xBlocks start f false 1 u rest
        .ok (l.map (u :: ·)))
  | [], tries, s, last, t, u, hb, hl => by
      have hb : s = t := hb
      subst hb
      rw [List.nil_append, xBlocks.eq_def]
      dsimp only
      rw [hl]
      rfl
  | r :: rows, tries, s, last, t, u, hb, hl => by
      obtain ⟨v, s', h1, h2, h3⟩ := hb
      rw [List.cons_append, xBlocks.eq_def]
      dsimp only
      rw [h1]
      simp only [bind, Except.bind]
      rw [if_neg h2]
      exact xBlocks_body start f rest rows tries s' last t u h3 hl

/-- **Blocks without an end.** The reader never returns. -/
theorem xBlocks_endless {S : Type} (start : S → S) (f : S → XRow → Except PyErr (Option XCell × S)) : ∀ (rows : List XRow) (tries : Nat) (s t : S), XBody f s rows t →
    xBlocks start f true tries s rows = .ok none
  | [], _, _, _, _ => rfl
  | r :: rows, tries, s, t, hb => by
      obtain ⟨v, s', h1, h2, h3⟩ := hb
      rw [xBlocks.eq_def]
      dsimp only
      rw [h1]
      simp only [bind, Except.bind]
      rw [if_neg h2]
      exact xBlocks_endless start f rows tries s' t h3

/-- a block of a sheet: rows with what each of them says (nothing: a remark), the row with 'begin', the row with 'end', rows after it -/
structure XPiece where
  head : XRow
  lines : List (XRow × Option XChar)
  last : XRow
  gap : List XRow

/-- the characteristics of a block -/
def XPiece.chars (p : XPiece) : List XChar := p.lines.filterMap (·.2)

/-- the rows of a block -/
def XPiece.rows (p : XPiece) : List XRow := p.head :: (p.lines.map (·.1) ++ p.last :: p.gap)

/-- a block that is written properly; `line`: what a row says -/
structure XPiece.Ok (line : XRow → Option XChar → Prop) (p : XPiece) : Prop where
  head : (xCell p.head 0).map xClean = some (.text "begin".toList)
  last : (xCell p.last 0).map xClean = some (.text "end".toList)
  lines : ∀ l ∈ p.lines, line l.1 l.2
  gap : ∀ r ∈ p.gap, XOutside r
  short : p.gap.length < 19

theorem xBlocks_sheet {S : Type} (start : S → S) (f : S → XRow → Except PyErr (Option XCell × S)) (chars : S → List XChar) (line : XRow → Option XChar → Prop)
    (hstart : ∀ s, chars (start s) = [])
    (hline : ∀ s row c, line row c → ∃ v s', f s row = .ok (v, s') ∧ v ≠ some (.text "end".toList) ∧ chars s' = chars s ++ c.toList)
    (hend : ∀ s row, (xCell row 0).map xClean = some (.text "end".toList) → f s row = .ok (some (.text "end".toList), s)) :
    ∀ (pieces : List XPiece) (tries : Nat) (s : S), tries < 20 → (∀ p ∈ pieces, p.Ok line) →
      ∃ ss, xBlocks start f false tries s (pieces.flatMap XPiece.rows) = .ok (some ss) ∧ ss.map chars = pieces.map XPiece.chars
  | [], _, _, _, _ => ⟨[], rfl, rfl⟩
  | p :: pieces, tries, s, ht, h => by
      have hp := h p List.mem_cons_self
      have hbody : ∀ (ls : List (XRow × Option XChar)) (s : S), (∀ l ∈ ls, line l.1 l.2) → ∃ t, XBody f s (ls.map (·.1)) t ∧ chars t = chars s ++ ls.filterMap (·.2) := by
        intro ls
        induction ls with
        | nil => intro s _; exact ⟨s, rfl, by simp⟩
        | cons l ls ih =>
          intro s hl
          obtain ⟨v, s', a, b, c⟩ := hline s l.1 l.2 (hl l List.mem_cons_self)
          obtain ⟨t, d, e⟩ := ih s' (fun q hq => hl q (List.mem_cons_of_mem _ hq))
          refine ⟨t, ⟨v, s', a, b, d⟩, ?_⟩
          rw [e, c, List.append_assoc]
          congr 1
          rw [List.filterMap_cons]
          cases l.2 with
          | none => rfl
          | some c => rfl
      obtain ⟨t, h1, h2⟩ := hbody p.lines (start s) hp.lines
      rw [List.flatMap_cons]
      show ∃ ss, xBlocks start f false tries s (p.head :: (p.lines.map (·.1) ++ p.last :: p.gap) ++ pieces.flatMap XPiece.rows) = _ ∧ _
      rw [List.cons_append, xBlocks.eq_def]
      dsimp only
      rw [if_pos ht, if_pos hp.head, List.append_assoc, List.cons_append]
      rw [xBlocks_body start f _ _ 0 (start s) p.last t t h1 (hend t p.last hp.last)]
      rw [xBlocks_outside start f t p.gap 1 _ hp.gap (by have := hp.short; omega)]
      obtain ⟨ss, h3, h4⟩ := xBlocks_sheet start f chars line hstart hline hend pieces (1 + p.gap.length) t (by have := hp.short; omega) (fun q hq => h q (List.mem_cons_of_mem _ hq))
      rw [h3]
      refine ⟨t :: ss, rfl, ?_⟩
      rw [List.map_cons, List.map_cons, h4, h2, hstart, List.nil_append]
      rfl

/-! ## Connections -/

/-- the cells to the right of the first one -/
def XRight (row : XRow) (cells : List XCell) : Prop :=
  (∀ (i : Nat) (c : XCell), cells[i]? = some c → xCell row (i + 1) = some c) ∧ xCell row (cells.length + 1) = none

theorem xAcross_eq : ∀ (row : XRow) (cells : List XCell), (∀ (i : Nat) (c : XCell), cells[i]? = some c → xCell row i = some c) → xCell row cells.length = none → xAcross row = cells
  | [], cells, h, _ => by
      cases cells with
      | nil => rfl
      | cons c cells =>
        have := h 0 c rfl
        simp [xCell] at this
  | none :: row, cells, h, _ => by
      cases cells with
      | nil => rfl
      | cons c cells =>
        have := h 0 c rfl
        simp [xCell] at this
  | some a :: row, [], _, h0 => by simp [xCell] at h0
  | some a :: row, c :: cells, h, h0 => by
      have := h 0 c rfl
      have hac : a = c := by simpa [xCell] using this
      subst hac
      unfold xAcross
      rw [xAcross_eq row cells (fun i e he => by
        have := h (i + 1) e (by simpa using he)
        simpa [xCell] using this) (by simpa [xCell] using h0)]

theorem xAcross_right (row : XRow) (cells : List XCell) (h : XRight row cells) : xAcross row.tail = cells := by
  have hc : ∀ i, xCell row.tail i = xCell row (i + 1) := by
    intro i
    unfold xCell
    rw [List.getElem?_tail]
  apply xAcross_eq
  · intro i c hi
    rw [hc]
    exact h.1 i c hi
  · rw [hc]
    exact h.2

/-- what a row of a connection says -/
inductive XConnLine : XRow → Option XChar → Prop
  /-- a list: subtypes, position in the tree, problems, variables, cost function -/
  | list (row : XRow) (t n : Tok) (cells : List XCell) (h0 : xCell row 0 = some (.text t)) (hn : xListNames.lookup (xLower (xSpaces t)) = some n) (hr : XRight row cells) (hne : cells ≠ []) :
      XConnLine row (some ⟨n, .many (cells.map xConnItem), if n = "cost function".toList then .vDouble else .vString⟩)
  /-- one value -/
  | one (row : XRow) (t n : Tok) (dt : XDt) (c : XCell) (h0 : xCell row 0 = some (.text t)) (hn : xUniqueNames.lookup (xLower (xSpaces t)) = some n) (hdt : xDataType (xSpaces t) = some dt)
      (h1 : xCell row 1 = some c) (hc : xTrue (some (xConnValue c)) = true) (he : xConnValue c ≠ .text "end".toList) : XConnLine row (some ⟨n, .one (xConnValue c), dt⟩)
  /-- a remark -/
  | text (row : XRow) (t : Tok) (h0 : xCell row 0 = some (.text t)) (hk : xKnown (xSpaces t) = false) (he : xSpaces t ≠ "end".toList) : XConnLine row none
  /-- anything else -/
  | other (row : XRow) (h0 : ∀ t, xCell row 0 ≠ some (.text t)) : XConnLine row none

theorem lookup_key {l : List (Tok × Tok)} {k v : Tok} (h : l.lookup k = some v) : (k, v) ∈ l := by
  induction l with
  | nil => simp at h
  | cons p l ih =>
    rw [List.lookup_cons] at h
    split at h
    · rename_i heq
      rw [beq_iff_eq] at heq
      injection h with h
      subst heq
      rw [← h]
      exact List.mem_cons_self
    · exact List.mem_cons_of_mem _ (ih h)

theorem lookup_append' (l m : List (Tok × Tok)) (k : Tok) : (l ++ m).lookup k = (l.lookup k).or (m.lookup k) := by
  induction l with
  | nil => simp
  | cons p l ih =>
    rw [List.cons_append, List.lookup_cons, List.lookup_cons]
    split
    · rfl
    · exact ih

theorem xNames_tables : (∀ p ∈ xListNames, xVariables.contains p.1 = false ∧ xLower p.1 = p.1 ∧ xAllNames.lookup p.1 = some p.2 ∧
      xDataType p.1 = some (if p.2 = "cost function".toList then .vDouble else .vString)) ∧
    (∀ p ∈ xUniqueNames, xVariables.contains p.1 = false ∧ xListNames.lookup p.1 = none) := by
  constructor <;> decide +kernel

theorem xNameOf_list {t n : Tok} (hn : xListNames.lookup (xLower t) = some n) :
    xKnown t = true ∧ xNameOf t = n ∧ xDataType t = some (if n = "cost function".toList then .vDouble else .vString) := by
  obtain ⟨h1, h2, h3, h4⟩ := xNames_tables.1 _ (lookup_key hn)
  have h1 : xVariables.contains (xLower t) = false := h1
  have h2 : xLower (xLower t) = xLower t := h2
  have h3 : xAllNames.lookup (xLower t) = some n := h3
  refine ⟨?_, ?_, ?_⟩
  · unfold xKnown
    rw [h3]; rfl
  · unfold xNameOf
    rw [if_neg (by rw [h1]; simp), h3]; rfl
  · have h4 : xDataType (xLower t) = _ := h4
    rw [← h4]
    unfold xDataType
    rw [h2]

theorem xNameOf_one {t n : Tok} (hn : xUniqueNames.lookup (xLower t) = some n) : xKnown t = true ∧ xNameOf t = n ∧ xListNames.lookup (xLower t) = none := by
  obtain ⟨h1, h2⟩ := xNames_tables.2 _ (lookup_key hn)
  have h1 : xVariables.contains (xLower t) = false := h1
  have h2 : xListNames.lookup (xLower t) = none := h2
  have h3 : xAllNames.lookup (xLower t) = some n := by
    unfold xAllNames
    rw [lookup_append', h2, hn]
    rfl
  refine ⟨?_, ?_, h2⟩
  · unfold xKnown
    rw [h3]; rfl
  · unfold xNameOf
    rw [if_neg (by rw [h1]; simp), h3]; rfl

theorem xConn_line (s : XBlockSt) (row : XRow) (c : Option XChar) (h : XConnLine row c) :
    ∃ v s', xConnRow s row = .ok (v, s') ∧ v ≠ some (.text "end".toList) ∧ s'.chars = s.chars ++ c.toList := by
  cases h with
  | list t n cells h0 hn hr hne =>
    obtain ⟨h1, h2, h3⟩ := xNameOf_list hn
    unfold xConnRow
    rw [h0]
    show ∃ v s', (if xKnown (xSpaces t) = true then xConnKnown s (xSpaces t) row else _) = _ ∧ _
    rw [if_pos h1]
    unfold xConnKnown
    rw [if_pos (by rw [hn]; rfl), xAcross_right row cells hr]
    refine ⟨none, _, rfl, by simp, ?_⟩
    have : xNonEmpty (.many (cells.map xConnItem)) = some (.many (cells.map xConnItem)) := by
      cases cells with
      | nil => exact absurd rfl hne
      | cons a l => rfl
    rw [this]
    unfold xConnAdd
    rw [h3, h2]
    rfl
  | one t n dt cc h0 hn hdt h1c hc he =>
    obtain ⟨h1, h2, h3⟩ := xNameOf_one hn
    unfold xConnRow
    rw [h0]
    show ∃ v s', (if xKnown (xSpaces t) = true then xConnKnown s (xSpaces t) row else _) = _ ∧ _
    rw [if_pos h1]
    unfold xConnKnown
    rw [if_neg (by rw [h3]; simp), if_pos (by rw [hn]; rfl), h1c]
    refine ⟨_, _, rfl, ?_, ?_⟩
    · intro e
      injection e with e
      exact he e
    · show (xConnAdd s (xSpaces t) (if xTrue (some (xConnValue cc)) = true then some (.one (xConnValue cc)) else none)).chars = _
      rw [if_pos hc]
      unfold xConnAdd
      rw [hdt, h2]
      rfl
  | text t h0 hk he =>
    unfold xConnRow
    rw [h0]
    show ∃ v s', (if xKnown (xSpaces t) = true then xConnKnown s (xSpaces t) row else _) = _ ∧ _
    rw [if_neg (by rw [hk]; simp)]
    refine ⟨_, _, rfl, ?_, by simp⟩
    intro e
    injection e with e
    injection e with e
    exact he e
  | other h0 =>
    unfold xConnRow
    cases hc : xCell row 0 with
    | none => exact ⟨_, _, rfl, by simp, by simp⟩
    | some c =>
      cases c with
      | text t => exact absurd hc (h0 t)
      | int n => exact ⟨_, _, rfl, by simp [xClean], by simp⟩
      | num q => exact ⟨_, _, rfl, by simp [xClean], by simp⟩
      | bool b => exact ⟨_, _, rfl, by simp [xClean], by simp⟩

theorem xConn_end (s : XBlockSt) (row : XRow) (h : (xCell row 0).map xClean = some (.text "end".toList)) : xConnRow s row = .ok (some (.text "end".toList), s) := by
  unfold xConnRow
  rw [h]
  show (if xKnown "end".toList = true then _ else _) = _
  rw [if_neg (by decide +kernel)]

/-- **C188.** A sheet of connections: every block with something in it gives one connection, with the characteristics of its rows in order. -/
theorem C188_sheet_partial (first : XRow) (gap : List XRow) (pieces : List XPiece) (hg : ∀ r ∈ gap, XOutside r) (hl : gap.length < 20) (h : ∀ p ∈ pieces, p.Ok XConnLine) :
    xConnSheet (first :: (gap ++ pieces.flatMap XPiece.rows)) = .ok (some ((pieces.filter (fun p => !p.chars.isEmpty)).map (fun p =>
      ⟨p.chars ++ [⟨"name".toList, .one (.text "connection".toList), .string⟩], .bool true, .bool⟩))) := by
  unfold xConnSheet
  rw [List.drop_one, List.tail_cons, xBlocks_outside _ _ _ gap 0 _ hg (by omega)]
  obtain ⟨ss, h1, h2⟩ := xBlocks_sheet XBlockSt.fresh xConnRow XBlockSt.chars XConnLine (fun _ => rfl) xConn_line xConn_end pieces (0 + gap.length) ⟨[], none⟩ (by omega) h
  rw [h1]
  show Except.ok (some (ss.filterMap xConnInfo)) = _
  congr 2
  have key : ∀ (ss : List XBlockSt) (ps : List XPiece), ss.map XBlockSt.chars = ps.map XPiece.chars → ss.filterMap xConnInfo =
      (ps.filter (fun p => !p.chars.isEmpty)).map (fun p => (⟨p.chars ++ [⟨"name".toList, .one (.text "connection".toList), .string⟩], .bool true, .bool⟩ : XInfo)) := by
    intro ss
    induction ss with
    | nil =>
      intro ps e
      cases ps with
      | nil => rfl
      | cons p ps => simp at e
    | cons s ss ih =>
      intro ps e
      cases ps with
      | nil => simp at e
      | cons p ps =>
        rw [List.map_cons, List.map_cons] at e
        injection e with e1 e2
        rw [List.filterMap_cons, List.filter_cons, ih ps e2]
        unfold xConnInfo
        rw [e1]
        cases hp : p.chars with
        | nil => rfl
        | cons c l =>
          simp only [List.isEmpty_cons, Bool.false_eq_true, if_false, Bool.not_false, if_true, List.map_cons, hp]
  exact key ss pieces h2

/-- **C188.** The values of a row: names of the dictionaries are translated, variables in lower case, other texts and numbers as they are. -/
theorem C188_item_partial (c : XCell) : (∀ t n, c = .text t → xAllNames.lookup (xLower (xSpaces t)) = some n → xConnItem c = .text n) ∧
    (∀ t, c = .text t → xLower (xSpaces t) ∈ xVariables → xConnItem c = .text (xLower (xSpaces t))) ∧
    (∀ t, c = .text t → xAllNames.lookup (xLower (xSpaces t)) = none → xLower (xSpaces t) ∉ xVariables → xConnItem c = .text (xSpaces t)) ∧
    ((∀ t, c ≠ .text t) → xConnItem c = c) := by
  have hv : ∀ p ∈ xAllNames, xVariables.contains (xLower p.2) = false := by decide +kernel
  have hk : ∀ v ∈ xVariables, xAllNames.lookup v = none := by decide +kernel
  refine ⟨?_, ?_, ?_, ?_⟩
  · rintro t n rfl h
    show (if xVariables.contains (xLower ((xAllNames.lookup (xLower (xSpaces t))).getD (xSpaces t))) = true then _ else _) = _
    have h0 : xVariables.contains (xLower n) = false := hv _ (lookup_key h)
    rw [h, Option.getD_some, if_neg (by rw [h0]; simp)]
  · rintro t rfl h
    show (if xVariables.contains (xLower ((xAllNames.lookup (xLower (xSpaces t))).getD (xSpaces t))) = true then _ else _) = _
    rw [hk _ h, Option.getD_none, if_pos (by rw [List.contains_iff_mem]; exact h)]
  · rintro t rfl h1 h2
    show (if xVariables.contains (xLower ((xAllNames.lookup (xLower (xSpaces t))).getD (xSpaces t))) = true then _ else _) = _
    rw [h1, Option.getD_none, if_neg (by rw [List.contains_iff_mem]; exact h2)]
  · intro h
    cases c with
    | text t => exact absurd rfl (h t)
    | int n => rfl
    | num q => rfl
    | bool b => rfl

/-- **C188.** A single value: names of the dictionaries are translated, variables and 'all' in lower case, other texts and numbers as they are. -/
theorem C188_value_partial (c : XCell) : (∀ t n, c = .text t → xAllNames.lookup (xLower (xSpaces t)) = some n → xConnValue c = .text n) ∧
    (∀ t, c = .text t → xLower (xSpaces t) ∈ xVariables ∨ xLower (xSpaces t) = "all".toList → xConnValue c = .text (xLower (xSpaces t))) ∧
    (∀ t, c = .text t → xAllNames.lookup (xLower (xSpaces t)) = none → xLower (xSpaces t) ∉ xVariables → xLower (xSpaces t) ≠ "all".toList → xConnValue c = .text (xSpaces t)) ∧
    ((∀ t, c ≠ .text t) → xConnValue c = c) := by
  have hk : ∀ v ∈ xVariables ++ ["all".toList], xAllNames.lookup v = none := by decide +kernel
  refine ⟨?_, ?_, ?_, ?_⟩
  · rintro t n rfl h
    unfold xConnValue
    dsimp only
    rw [h]
  · rintro t rfl h
    unfold xConnValue
    dsimp only
    rw [hk _ (by rw [List.mem_append, List.mem_singleton]; exact h)]
    dsimp only
    rw [if_pos (by rw [Bool.or_eq_true, List.contains_iff_mem, beq_iff_eq]; exact h)]
  · rintro t rfl h1 h2 h3
    unfold xConnValue
    dsimp only
    rw [h1]
    dsimp only
    rw [if_neg (by rw [Bool.or_eq_true, List.contains_iff_mem, beq_iff_eq]; rintro (h | h); exacts [h2 h, h3 h])]
  · intro h
    cases c with
    | text t => exact absurd rfl (h t)
    | int n => rfl
    | num q => rfl
    | bool b => rfl

/-- **C188.** Which elements a connection for all is for: those that have all its subtypes, or its group, or its zone; all if it says nothing of these. -/
theorem C188_for_partial (c p : XInfo) : xConnFor c p = true ↔
    (c.has "subtype".toList = true ∧ p.has "subtype".toList = true ∧ ∀ i ∈ (c.get "subtype".toList).cells, ∃ l, p.get "subtype".toList = .many l ∧ ∃ j ∈ l, xEq i j = true) ∨
    (c.has "group".toList = true ∧ p.has "group".toList = true ∧ xValSame (p.get "group".toList) (c.get "group".toList) = true) ∨
    (c.has "zone".toList = true ∧ p.has "zone".toList = true ∧ xValSame (p.get "zone".toList) (c.get "zone".toList) = true) ∨
    (c.has "subtype".toList = false ∧ c.has "group".toList = false ∧ c.has "zone".toList = false) := by
  unfold xConnFor
  have hm : ∀ i v, xMember i v = true ↔ ∃ l, v = .many l ∧ ∃ j ∈ l, xEq i j = true := by
    intro i v
    cases v with
    | one a => simp [xMember]
    | many l => simp [xMember, List.any_eq_true]
  simp only [Bool.or_eq_true, Bool.and_eq_true, Bool.not_eq_true', List.all_eq_true, hm, and_assoc, or_assoc]

/-! ## Connections of the model -/

/-- **C188.** A connection for all the elements of a type: the model gets one connection for each ID of an element that it is for, every ID once, in the order of the elements. -/
theorem C188_all_partial (d : XData) (c : XInfo) (t : Tok) (l : List XInfo) (hid : c.get "ID".toList = .one (.text "all".toList)) (ht : c.has "type".toList = true)
    (htt : c.get "type".toList = .one (.text t)) (hl : d.lookup t = some l) :
    ∃ ids : List XVal, xConnExpand d c = .ok (ids.map (fun v => ⟨xUpdateChar "ID".toList v c.chars, c.value, c.dt⟩)) ∧
      (∀ v ∈ ids, ∃ p ∈ l, xConnFor c p = true ∧ p.get "ID".toList = v) ∧
      (∀ p ∈ l, xConnFor c p = true → ∃ v ∈ ids, xValSame (p.get "ID".toList) v = true) ∧
      ids.Pairwise (fun a b => xValSame b a = false) := by
  refine ⟨xConnIds c l, ?_, ?_⟩
  · unfold xConnExpand
    rw [hid, ht, htt]
    dsimp only
    rw [hl]
    rfl
  · have key : ∀ (l done : List XInfo) (ids : List XVal), (∀ v ∈ ids, ∃ p ∈ done, xConnFor c p = true ∧ p.get "ID".toList = v) →
        (∀ p ∈ done, xConnFor c p = true → ∃ v ∈ ids, xValSame (p.get "ID".toList) v = true) → ids.Pairwise (fun a b => xValSame b a = false) →
        let r := l.foldl (fun ids p => if !ids.any (xValSame (p.get "ID".toList)) && xConnFor c p then ids ++ [p.get "ID".toList] else ids) ids
        (∀ v ∈ r, ∃ p ∈ done ++ l, xConnFor c p = true ∧ p.get "ID".toList = v) ∧
        (∀ p ∈ done ++ l, xConnFor c p = true → ∃ v ∈ r, xValSame (p.get "ID".toList) v = true) ∧ r.Pairwise (fun a b => xValSame b a = false) := by
      intro l
      induction l with
      | nil =>
        intro done ids h1 h2 h3
        rw [List.append_nil]
        exact ⟨h1, h2, h3⟩
      | cons p l ih =>
        intro done ids h1 h2 h3
        dsimp only
        rw [List.foldl_cons]
        have e : done ++ p :: l = (done ++ [p]) ++ l := by simp
        rw [e]
        apply ih
        · intro v hv
          split at hv
          · rename_i hc
            rw [Bool.and_eq_true] at hc
            rcases List.mem_append.mp hv with hv | hv
            · obtain ⟨q, hq, hh⟩ := h1 v hv
              exact ⟨q, List.mem_append_left _ hq, hh⟩
            · rw [List.mem_singleton] at hv
              exact ⟨p, by simp, hc.2, hv.symm⟩
          · obtain ⟨q, hq, hh⟩ := h1 v hv
            exact ⟨q, List.mem_append_left _ hq, hh⟩
        · intro q hq hf
          by_cases hc : (!ids.any (xValSame (p.get "ID".toList)) && xConnFor c p) = true
          · rw [if_pos hc]
            rcases List.mem_append.mp hq with hq | hq
            · obtain ⟨v, hv, hh⟩ := h2 q hq hf
              exact ⟨v, List.mem_append_left _ hv, hh⟩
            · rw [List.mem_singleton] at hq
              subst hq
              refine ⟨q.get "ID".toList, by simp, ?_⟩
              cases q.get "ID".toList with
              | one a =>
                cases a <;> simp [xValSame, xEq]
              | many m =>
                show (m.length == m.length && (m.zip m).all (fun p => xEq p.1 p.2)) = true
                rw [beq_self_eq_true, Bool.true_and, List.all_eq_true]
                intro pr hpr
                have : pr.1 = pr.2 := by
                  rw [List.mem_iff_getElem?] at hpr
                  obtain ⟨i, hi⟩ := hpr
                  rw [List.getElem?_zip_eq_some] at hi
                  have := hi.1.symm.trans hi.2
                  injection this
                rw [this]
                cases pr.2 <;> simp [xEq]
          · rw [if_neg hc]
            rcases List.mem_append.mp hq with hq | hq
            · exact h2 q hq hf
            · rw [List.mem_singleton] at hq
              subst hq
              rw [hf, Bool.and_true] at hc
              simp only [Bool.not_eq_true', Bool.not_eq_false] at hc
              rw [List.any_eq_true] at hc
              exact hc
        · by_cases hc : (!ids.any (xValSame (p.get "ID".toList)) && xConnFor c p) = true
          · rw [if_pos hc, List.pairwise_append]
            refine ⟨h3, List.pairwise_singleton _ _, ?_⟩
            intro a ha b hb
            rw [List.mem_singleton] at hb
            subst hb
            rw [Bool.and_eq_true, Bool.not_eq_true', List.any_eq_false] at hc
            have := hc.1 a ha
            simpa using this
          · rw [if_neg hc]
            exact h3
    have := key l [] [] (fun v hv => by simp at hv) (fun p hp => by simp at hp) List.Pairwise.nil
    rw [List.nil_append] at this
    exact this

/-- **C188.** What the connection of an ID says: the ID, and everything else as in the sheet. -/
theorem C188_update_partial (v : XVal) : ∀ chars : List XChar, (chars.any (fun c => c.name == "ID".toList)) = true →
    (⟨xUpdateChar "ID".toList v chars, .bool true, .bool⟩ : XInfo).get "ID".toList = v ∧
    ∀ n, n ≠ "ID".toList → (⟨xUpdateChar "ID".toList v chars, .bool true, .bool⟩ : XInfo).get n = (⟨chars, .bool true, .bool⟩ : XInfo).get n
  | [], h => by simp at h
  | c :: l, h => by
      unfold xUpdateChar
      by_cases hc : (c.name == "ID".toList) = true
      · rw [if_pos hc]
        refine ⟨?_, ?_⟩
        · unfold XInfo.get
          dsimp only
          rw [List.find?_cons]
          dsimp only
          rw [hc]
        · intro n hn
          unfold XInfo.get
          dsimp only
          rw [List.find?_cons, List.find?_cons]
          dsimp only
          rw [beq_iff_eq] at hc
          have : (c.name == n) = false := by
            rw [beq_eq_false_iff_ne, hc]
            exact fun e => hn e.symm
          rw [this]
      · rw [if_neg hc]
        have hc' : (c.name == "ID".toList) = false := by simpa using hc
        rw [List.any_cons, hc', Bool.false_or] at h
        obtain ⟨h1, h2⟩ := C188_update_partial v l h
        unfold XInfo.get at h1 h2 ⊢
        dsimp only at h1 h2 ⊢
        refine ⟨?_, ?_⟩
        · rw [List.find?_cons, hc']
          exact h1
        · intro n hn
          rw [List.find?_cons, List.find?_cons]
          cases c.name == n with
          | true => rfl
          | false => exact h2 n hn

/-- C188 fails: a connection for a single element never reaches the model. -/
theorem C188_single_violated (d : XData) (c : XInfo) (h : c.get "ID".toList ≠ .one (.text "all".toList)) : xConnExpand d c = .ok [] := by
  unfold xConnExpand
  have : (c.get "ID".toList == .one (.text "all".toList)) = false := by rw [beq_eq_false_iff_ne]; exact h
  rw [this]
  rfl

/-- C188 fails: a connection for the hydro generators of one group is also one for all the other generators of the group. -/
theorem C188_or_violated :
    xConnFor ⟨[⟨"subtype".toList, .many [.text "hydro".toList], .vString⟩, ⟨"group".toList, .one (.text "north".toList), .string⟩], .bool true, .bool⟩
      ⟨[⟨"subtype".toList, .many [.text "thermal".toList], .vString⟩, ⟨"group".toList, .one (.text "north".toList), .string⟩], .int 1, .double⟩ = true := by decide +kernel

/-- C188 (what a user can run into).  A block without 'end' is never finished. -/
theorem C188_endless_violated (first head : XRow) (lines : List (XRow × Option XChar)) (hh : (xCell head 0).map xClean = some (.text "begin".toList)) (h : ∀ l ∈ lines, XConnLine l.1 l.2) :
    xConnSheet (first :: head :: lines.map (·.1)) = .ok none := by
  have hbody : ∀ (ls : List (XRow × Option XChar)) (s : XBlockSt), (∀ l ∈ ls, XConnLine l.1 l.2) → ∃ t, XBody xConnRow s (ls.map (·.1)) t := by
    intro ls
    induction ls with
    | nil => intro s _; exact ⟨s, rfl⟩
    | cons l ls ih =>
      intro s hl
      obtain ⟨v, s', a, b, _⟩ := xConn_line s l.1 l.2 (hl l List.mem_cons_self)
      obtain ⟨t, e⟩ := ih s' (fun q hq => hl q (List.mem_cons_of_mem _ hq))
      exact ⟨t, v, s', a, b, e⟩
  obtain ⟨t, ht⟩ := hbody lines (XBlockSt.fresh ⟨[], none⟩) h
  unfold xConnSheet
  rw [List.drop_one, List.tail_cons, xBlocks.eq_def]
  dsimp only
  rw [if_pos (by omega), if_pos hh, xBlocks_endless _ _ _ _ _ t ht]
  rfl

/-- C188 (what a user can run into).  A row with the name of a variable in front says nothing; as the first known row of a sheet it raises. -/
theorem C188_variable_violated (s : XBlockSt) (row : XRow) (t : Tok) (h0 : xCell row 0 = some (.text t)) (hv : xLower (xSpaces t) ∈ xVariables) :
    (s.val = none → xConnRow s row = .error .name) ∧ (∀ v, s.val = some v → ∃ s', xConnRow s row = .ok (some (.text (xSpaces t)), s') ∧ s'.chars = s.chars) := by
  have hk : ∀ v ∈ xVariables, xListNames.lookup v = none ∧ xUniqueNames.lookup v = none := by decide +kernel
  have hk2 : ∀ v ∈ xVariables, xIntegerNames.lookup v = none ∧ xDoubleNames.lookup v = none ∧ xStringNames.lookup v = none ∧ xBoolNames.lookup v = none ∧
      xDoubleListNames.lookup v = none ∧ xStringListNames.lookup v = none := by decide +kernel
  obtain ⟨a, b⟩ := hk _ hv
  obtain ⟨d1, d2, d3, d4, d5, d6⟩ := hk2 _ hv
  have hdt : xDataType (xSpaces t) = none := by
    unfold xDataType
    rw [d1, d2, d3, d4, d5, d6]
    rfl
  have hkn : xKnown (xSpaces t) = true := by
    unfold xKnown
    rw [Bool.or_eq_true, List.contains_iff_mem]
    exact Or.inr hv
  have hrow : xConnRow s row = xConnKnown s (xSpaces t) row := by
    unfold xConnRow
    rw [h0]
    show (if xKnown (xSpaces t) = true then xConnKnown s (xSpaces t) row else _) = _
    rw [if_pos hkn]
  rw [hrow]
  unfold xConnKnown
  rw [if_neg (by rw [a]; simp), if_neg (by rw [b]; simp)]
  refine ⟨fun h => by rw [h], fun v h => ?_⟩
  rw [h]
  refine ⟨_, rfl, ?_⟩
  unfold xConnAdd
  rw [hdt]

/-- C188 (what a user can run into).  'UC' among the problems of a connection becomes the name of a variable. -/
theorem C188_uc_violated : xConnItem (.text "UC".toList) = .text "vUC".toList ∧ xConnItem (.text "DC OPF".toList) = .text "DC OPF".toList ∧ xConnItem (.text "Input".toList) = .text "input".toList := by
  decide +kernel

/-- an element with an ID only -/
def xInfoOf (id : String) : XInfo := ⟨[⟨"ID".toList, .one (.text id.toList), .string⟩], .int 1, .double⟩

/-- an example: the inputs of the tree with the generation of all the hydro generators -/
def xConnExample : XPiece :=
  ⟨[some (.text "begin".toList)],
   [([some (.text "Problems".toList), some (.text "BT".toList), some (.text "dc opf".toList)], some ⟨"problems".toList, .many [.text "BT".toList, .text "DC OPF".toList], .vString⟩),
    ([some (.text "Variables".toList), some (.text "Input".toList), some (.text "Active Power Generation".toList)],
      some ⟨"variables".toList, .many [.text "input".toList, .text "active power generation".toList], .vString⟩),
    ([none, some (.text "a remark".toList)], none),
    ([some (.text "ID".toList), some (.text "All".toList)], some ⟨"ID".toList, .one (.text "all".toList), .string⟩),
    ([some (.text "Type".toList), some (.text "generator".toList)], some ⟨"type".toList, .one (.text "generator".toList), .string⟩)],
   [some (.text "end".toList)], [[], []]⟩

theorem xRight_example (a b : XCell) (t : Option XCell) : XRight [t, some a, some b] [a, b] := by
  refine ⟨?_, rfl⟩
  intro i c hi
  match i, hi with
  | 0, hi => injection hi with hi; subst hi; rfl
  | 1, hi => injection hi with hi; subst hi; rfl
  | i + 2, hi => simp at hi

theorem C188_witness : xConnExample.Ok XConnLine ∧
    ((xConnSheet ([some (.text "connections energy".toList)] :: ([[]] ++ [xConnExample].flatMap XPiece.rows))).toOption.map (fun o => o.map (fun l => l.map (fun c =>
      (xConnExpand [("generator".toList, [xInfoOf "g1", xInfoOf "g1", xInfoOf "g2"])] c).toOption.map (·.map (fun x => x.get "ID".toList)))))
      = some (some [some [.one (.text "g1".toList), .one (.text "g2".toList)]])) := by
  refine ⟨⟨by decide +kernel, by decide +kernel, ?_, ?_, by decide⟩, by decide +kernel⟩
  · intro l hl
    unfold xConnExample at hl
    simp only [List.mem_cons, List.not_mem_nil, or_false] at hl
    rcases hl with rfl | rfl | rfl | rfl | rfl
    · have e : (some ⟨"problems".toList, .many [.text "BT".toList, .text "DC OPF".toList], .vString⟩ : Option XChar) =
          some ⟨"problems".toList, .many ([.text "BT".toList, .text "dc opf".toList].map xConnItem), if "problems".toList = "cost function".toList then .vDouble else .vString⟩ := by decide +kernel
      dsimp only
      rw [e]
      exact XConnLine.list _ "Problems".toList _ [.text "BT".toList, .text "dc opf".toList] rfl (by decide +kernel) (xRight_example _ _ _) (by simp)
    · have e : (some ⟨"variables".toList, .many [.text "input".toList, .text "active power generation".toList], .vString⟩ : Option XChar) =
          some ⟨"variables".toList, .many ([.text "Input".toList, .text "Active Power Generation".toList].map xConnItem), if "variables".toList = "cost function".toList then .vDouble else .vString⟩ := by
        decide +kernel
      dsimp only
      rw [e]
      exact XConnLine.list _ "Variables".toList _ [.text "Input".toList, .text "Active Power Generation".toList] rfl (by decide +kernel) (xRight_example _ _ _) (by simp)
    · exact XConnLine.other _ (fun t h => by simp [xCell] at h)
    · have e : (some ⟨"ID".toList, .one (.text "all".toList), .string⟩ : Option XChar) = some ⟨"ID".toList, .one (xConnValue (.text "All".toList)), .string⟩ := by decide +kernel
      dsimp only
      rw [e]
      exact XConnLine.one _ "ID".toList _ .string (.text "All".toList) rfl (by decide +kernel) (by decide +kernel) rfl (by decide +kernel) (by decide +kernel)
    · have e : (some ⟨"type".toList, .one (.text "generator".toList), .string⟩ : Option XChar) = some ⟨"type".toList, .one (xConnValue (.text "generator".toList)), .string⟩ := by decide +kernel
      dsimp only
      rw [e]
      exact XConnLine.one _ "Type".toList _ .string (.text "generator".toList) rfl (by decide +kernel) (by decide +kernel) rfl (by decide +kernel) (by decide +kernel)
  · intro r hr
    have : r = [] := by
      unfold xConnExample at hr
      simpa using hr
    subst this
    unfold XOutside
    decide +kernel

end Pyensys
