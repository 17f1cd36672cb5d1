import Verif.Model.WorkbookTime

/-!
# Sheets of balance trees

C184: what is read from such a sheet and what the model gets.
-/

namespace Pyensys

/-- one level of a part of a tree sheet: the level and the values, one for each node of the level -/
structure XLevel where
  level : XCell
  values : List XCell
  deriving DecidableEq, Repr

/-- a part of a tree sheet: its title, the parameter it is about, its levels, and the empty rows after it -/
structure XPart where
  title : Tok
  name : Tok
  levels : List XLevel
  gap : Nat
  deriving DecidableEq, Repr

/-- row of a level -/
def XLevel.row (l : XLevel) : XRow := some l.level :: l.values.map some

/-- rows of a part -/
def XPart.rows (p : XPart) : List XRow := [some (.text p.title)] :: (p.levels.map XLevel.row ++ List.replicate p.gap [])

/-- the title of a part says what it is about; there are 1 to 19 empty rows after it -/
structure XPart.Ok (p : XPart) : Prop where
  title : (xLower p.title, p.name) ∈
    [("names".toList, "name".toList), ("inputs".toList, "input".toList), ("outputs".toList, "output".toList), ("weights".toList, "weight".toList)]
  gap : 1 ≤ p.gap ∧ p.gap ≤ 19

/-- all the levels of a sheet with the parameters they are for -/
def xLevels (parts : List XPart) : List (Tok × XLevel) := parts.flatMap (fun p => p.levels.map (fun l => (p.name, l)))

/-- entries of one level: the values in lower case, numbered from 1 -/
def xEntries (a : Tok × XLevel) : List XTree := (a.2.values.zipIdx 1).map (fun v => ⟨a.1, a.2.level, v.2, xLowerCell v.1⟩)

theorem xRevise_none (name : Tok) (pos : Nat) (value level : XCell) : ∀ info : List XTree,
    (∀ t ∈ info, ¬ (t.name = name ∧ xEq t.level level = true ∧ t.pos = pos)) → xRevise name pos value level info = none
  | [], _ => rfl
  | t :: rest, h => by
      rw [xRevise, if_neg, xRevise_none name pos value level rest (fun t ht => h t (List.mem_cons_of_mem _ ht))]
      · rfl
      · intro hc
        simp only [Bool.and_eq_true, beq_iff_eq] at hc
        exact h t List.mem_cons_self ⟨hc.1.1, hc.1.2, hc.2⟩

theorem xTreeRow_fresh (name : Tok) (level : XCell) : ∀ (vs : List XCell) (pos : Nat) (info : List XTree),
    (∀ t ∈ info, ¬ (t.name = name ∧ xEq t.level level = true ∧ pos ≤ t.pos)) →
    xTreeRow name level pos info (vs.map some) = info ++ (vs.zipIdx pos).map (fun v => ⟨name, level, v.2, xLowerCell v.1⟩)
  | [], pos, info, _ => by simp [xTreeRow]
  | v :: vs, pos, info, h => by
      rw [List.map_cons, xTreeRow, xRevise_none]
      · dsimp only
        rw [xTreeRow_fresh name level vs (pos + 1)]
        · rw [List.zipIdx_cons, List.map_cons, List.append_assoc]
          rfl
        · intro t ht hc
          rw [List.mem_append, List.mem_singleton] at ht
          rcases ht with ht | rfl
          · exact h t ht ⟨hc.1, hc.2.1, by omega⟩
          · have := hc.2.2
            dsimp only at this
            omega
      · intro t ht hc
        exact h t ht ⟨hc.1, hc.2.1, by omega⟩

/-- entries that come from the levels read so far -/
def XFrom (info : List XTree) (done : List (Tok × XLevel)) : Prop := ∀ t ∈ info, ∃ a ∈ done, t.name = a.1 ∧ t.level = a.2.level

/-- two levels are not the same level of the same parameter -/
def XApart (a b : Tok × XLevel) : Prop := ¬ (a.1 = b.1 ∧ xEq a.2.level b.2.level = true)

theorem xLevels_read (n : Tok) (tr : Nat) : ∀ (ls : List XLevel) (info : List XTree) (done : List (Tok × XLevel)) (rest : List XRow),
    XFrom info done → (done ++ ls.map (fun l => (n, l))).Pairwise XApart →
    xTreeRows ⟨some n, tr⟩ info (ls.map XLevel.row ++ rest) = xTreeRows ⟨some n, tr⟩ (info ++ ls.flatMap (fun l => xEntries (n, l))) rest ∧
      XFrom (info ++ ls.flatMap (fun l => xEntries (n, l))) (done ++ ls.map (fun l => (n, l)))
  | [], info, done, rest, hf, _ => by simpa using hf
  | l :: ls, info, done, rest, hf, hp => by
      have hfresh : ∀ t ∈ info, ¬ (t.name = n ∧ xEq t.level l.level = true ∧ 1 ≤ t.pos) := by
        rintro t ht ⟨h1, h2, _⟩
        obtain ⟨a, ha, h3, h4⟩ := hf t ht
        rw [List.pairwise_append] at hp
        refine hp.2.2 a ha (n, l) (by simp) ⟨h3.symm.trans h1, ?_⟩
        rw [← h4]
        exact h2
      have hf' : XFrom (info ++ xEntries (n, l)) (done ++ [(n, l)]) := by
        intro t ht
        rw [List.mem_append] at ht
        rcases ht with ht | ht
        · obtain ⟨a, ha, h⟩ := hf t ht
          exact ⟨a, List.mem_append_left _ ha, h⟩
        · unfold xEntries at ht
          rw [List.mem_map] at ht
          obtain ⟨v, _, rfl⟩ := ht
          exact ⟨(n, l), by simp, rfl, rfl⟩
      have hp' : (done ++ [(n, l)] ++ ls.map (fun l => (n, l))).Pairwise XApart := by
        rw [List.append_assoc]; exact hp
      obtain ⟨h1, h2⟩ := xLevels_read n tr ls (info ++ xEntries (n, l)) (done ++ [(n, l)]) rest hf' hp'
      constructor
      · have hrow := xTreeRow_fresh n l.level l.values 1 info hfresh
        rw [List.map_cons, List.cons_append, xTreeRows.eq_def]
        show xTreeRows ⟨some n, tr⟩ (xTreeRow n l.level 1 info (l.values.map some)) _ = _
        rw [hrow]
        rw [List.flatMap_cons, ← List.append_assoc]
        exact h1
      · rw [List.flatMap_cons, List.map_cons, ← List.append_assoc]
        rw [List.append_assoc (as := done)] at h2
        exact h2

theorem xGap_read (info : List XTree) : ∀ (g k : Nat) (rest : List XRow), k + g ≤ 20 →
    xTreeRows ⟨none, k⟩ info (List.replicate g [] ++ rest) = xTreeRows ⟨none, k + g⟩ info rest
  | 0, k, rest, _ => rfl
  | g + 1, k, rest, h => by
      rw [List.replicate_succ, List.cons_append, xTreeRows.eq_def]
      dsimp only
      rw [if_pos (by omega)]
      show xTreeRows ⟨none, k + 1⟩ info _ = _
      rw [xGap_read info g (k + 1) rest (by omega)]
      congr 2
      omega

theorem xTitle_ok (p : XPart) (h : p.Ok) : xTreeTitle (some (.text p.title)) = some p.name := by
  have := h.title
  simp only [List.mem_cons, List.not_mem_nil, or_false, Prod.mk.injEq] at this
  unfold xTreeTitle
  dsimp only
  rcases this with ⟨h1, h2⟩ | ⟨h1, h2⟩ | ⟨h1, h2⟩ | ⟨h1, h2⟩
  all_goals
    rw [h1, h2]
    decide +kernel

theorem xParts_read : ∀ (parts : List XPart) (k : Nat) (info : List XTree) (done : List (Tok × XLevel)),
    k < 20 → (∀ p ∈ parts, p.Ok) → XFrom info done → (done ++ xLevels parts).Pairwise XApart →
    xTreeRows ⟨none, k⟩ info (parts.flatMap XPart.rows) = info ++ (xLevels parts).flatMap xEntries
  | [], k, info, done, _, _, _, _ => by simp [xLevels, xTreeRows]
  | p :: parts, k, info, done, hk, hok, hf, hp => by
      have hpo := hok p List.mem_cons_self
      have hL : xLevels (p :: parts) = p.levels.map (fun l => (p.name, l)) ++ xLevels parts := rfl
      rw [hL, ← List.append_assoc] at hp
      obtain ⟨h1, h2⟩ := xLevels_read p.name 0 p.levels info done (List.replicate p.gap [] ++ parts.flatMap XPart.rows) hf (List.pairwise_append.mp hp).1
      rw [List.flatMap_cons, show p.rows = [some (.text p.title)] :: (p.levels.map XLevel.row ++ List.replicate p.gap []) from rfl,
        List.cons_append, xTreeRows.eq_def]
      dsimp only
      rw [if_pos hk]
      unfold xTreeScan
      have ht : xTreeTitle (xCell [some (.text p.title)] 0) = some p.name := xTitle_ok p hpo
      rw [ht]
      dsimp only
      rw [List.append_assoc, h1]
      obtain ⟨g, hg⟩ : ∃ g, p.gap = g + 1 := ⟨p.gap - 1, by have := hpo.gap; omega⟩
      rw [hg, List.replicate_succ, List.cons_append, xTreeRows.eq_def]
      show xTreeRows ⟨none, 1⟩ _ _ = _
      have hgap := hpo.gap
      rw [xGap_read _ g 1 _ (by omega)]
      have ih := xParts_read parts (1 + g) _ _ (by omega) (fun q hq => hok q (List.mem_cons_of_mem _ hq)) h2 hp
      refine ih.trans ?_
      rw [hL, List.flatMap_append, List.append_assoc, List.flatMap_map]

/-- C184.  A tree sheet: the values of every part, level by level, numbered from 1; texts in lower case.  (Row 1 names the sheet; the parts are 'Names', 'Inputs', 'Outputs' and 'Weights', with an empty row
after each; no level is given twice for the same part.) -/
theorem C184_sheet_partial (first : XRow) (gap : Nat) (parts : List XPart) (hg : gap < 20) (hok : ∀ p ∈ parts, p.Ok) (hd : (xLevels parts).Pairwise XApart) :
    xTreeSheet [] (first :: (List.replicate gap [] ++ parts.flatMap XPart.rows)) = (xLevels parts).flatMap xEntries := by
  unfold xTreeSheet
  rw [List.drop_one, List.tail_cons, xGap_read [] gap 0 _ (by omega), Nat.zero_add]
  have := xParts_read parts gap [] [] hg hok (by intro t ht; cases ht) (by simpa using hd)
  simpa using this

/-- the name of a node: the value of the part 'Names' at its level and position -/
def XNodeName (parts : List XPart) (level : XCell) (pos : Nat) (c : XCell) : Prop :=
  (∃ l ∈ xLevels parts, l.1 = "name".toList ∧ xEq l.2.level level = true ∧ ∃ v, l.2.values[pos - 1]? = some v ∧ 1 ≤ pos ∧ c = xLowerCell v) ∨
  ((∀ l ∈ xLevels parts, l.1 = "name".toList → xEq l.2.level level = true → ¬ (1 ≤ pos ∧ pos ≤ l.2.values.length)) ∧ c = .text [])

theorem xEntries_mem (a : Tok × XLevel) (t : XTree) : t ∈ xEntries a ↔
    t.name = a.1 ∧ t.level = a.2.level ∧ 1 ≤ t.pos ∧ ∃ v, a.2.values[t.pos - 1]? = some v ∧ t.value = xLowerCell v := by
  unfold xEntries
  rw [List.mem_map]
  constructor
  · rintro ⟨⟨v, i⟩, hv, rfl⟩
    rw [List.mem_zipIdx_iff_le_and_getElem?_sub] at hv
    exact ⟨rfl, rfl, by simpa using hv.1, v, by simpa using hv.2, rfl⟩
  · rintro ⟨h1, h2, h3, v, h4, h5⟩
    refine ⟨(v, t.pos), ?_, ?_⟩
    · rw [List.mem_zipIdx_iff_le_and_getElem?_sub]
      exact ⟨h3, h4⟩
    · obtain ⟨n, l, p, w⟩ := t
      dsimp only at h1 h2 h5 ⊢
      rw [h1, h2, h5]

theorem forall₂_map_self {α β : Type} (R : α → β → Prop) (f : α → β) : ∀ l : List α, (∀ x ∈ l, R x (f x)) → List.Forall₂ R l (l.map f)
  | [], _ => .nil
  | x :: l, h => .cons (h x List.mem_cons_self) (forall₂_map_self R f l (fun y hy => h y (List.mem_cons_of_mem _ hy)))

/-- C184.  The model gets one entry for each value of the parts 'Inputs', 'Outputs' and 'Weights', in the order of the sheet, with the level and the name of the node. -/
theorem C184_model_partial (parts : List XPart) : List.Forall₂ (fun (t : XTree) (n : XNode) =>
      n.name = t.name ∧ n.level = t.level ∧ n.value = t.value ∧ XNodeName parts t.level t.pos n.node)
    (((xLevels parts).flatMap xEntries).filter (fun t => t.name != "name".toList)) (xLoadTree ((xLevels parts).flatMap xEntries)) := by
  unfold xLoadTree
  apply forall₂_map_self
  intro t _
  refine ⟨rfl, rfl, rfl, ?_⟩
  dsimp only
  cases hf : (((xLevels parts).flatMap xEntries).filter (fun t => t.name == "name".toList)).find? (fun n => xEq n.level t.level && n.pos == t.pos) with
  | some n =>
    left
    have hm := List.mem_of_find?_eq_some hf
    have hs := List.find?_some hf
    simp only [Bool.and_eq_true, beq_iff_eq] at hs
    rw [List.mem_filter, List.mem_flatMap] at hm
    obtain ⟨⟨a, ha, hna⟩, hnm⟩ := hm
    rw [beq_iff_eq] at hnm
    rw [xEntries_mem] at hna
    obtain ⟨h1, h2, h3, v, h4, h5⟩ := hna
    refine ⟨a, ha, h1.symm.trans hnm, ?_, v, ?_, ?_, h5⟩
    · rw [← h2]; exact hs.1
    · rw [← hs.2]; exact h4
    · rw [← hs.2]; exact h3
  | none =>
    right
    refine ⟨?_, rfl⟩
    intro l hl hn hlev hpos
    rw [List.find?_eq_none] at hf
    have hlt : t.pos - 1 < l.2.values.length := by omega
    refine hf ⟨l.1, l.2.level, t.pos, xLowerCell (l.2.values[t.pos - 1])⟩ ?_ ?_
    · rw [List.mem_filter, List.mem_flatMap]
      refine ⟨⟨l, hl, ?_⟩, ?_⟩
      · rw [xEntries_mem]
        exact ⟨rfl, rfl, hpos.1, _, List.getElem?_eq_getElem hlt, rfl⟩
      · rw [beq_iff_eq]; exact hn
    · simp only [Bool.and_eq_true, beq_iff_eq]
      exact ⟨hlev, trivial⟩

/-- C184.  A level that is given again: its values are all written to the first node of the level, one after the other; the other nodes keep their values. -/
theorem C184_repeated_violated (name : Tok) (level v0 : XCell) (info rest : List XTree) (hfirst : ∀ t ∈ info, ¬ (t.name = name ∧ xEq t.level level = true ∧ t.pos = 1)) :
    ∀ (vs : List XCell) (l' : XCell), xEq l' level = true →
    xTreeRow name level 1 (info ++ ⟨name, l', 1, v0⟩ :: rest) (vs.map some)
      = info ++ ⟨name, l', 1, (vs.map xLowerCell).getLastD v0⟩ :: rest
  | [], l', _ => rfl
  | v :: vs, l', hl => by
      have hrev : ∀ (info : List XTree) (w : XCell), (∀ t ∈ info, ¬ (t.name = name ∧ xEq t.level level = true ∧ t.pos = 1)) →
          xRevise name 1 w level (info ++ ⟨name, l', 1, v0⟩ :: rest) = some (info ++ ⟨name, l', 1, w⟩ :: rest) := by
        intro info w
        induction info with
        | nil =>
          intro _
          rw [List.nil_append, xRevise, if_pos]
          · rfl
          · simp only [Bool.and_eq_true, beq_self_eq_true, and_true, true_and]
            exact hl
        | cons t info ih =>
          intro h
          rw [List.cons_append, xRevise, if_neg, ih (fun t ht => h t (List.mem_cons_of_mem _ ht))]
          · rfl
          · intro hc
            simp only [Bool.and_eq_true, beq_iff_eq] at hc
            exact h t List.mem_cons_self ⟨hc.1.1, hc.1.2, hc.2⟩
      rw [List.map_cons, xTreeRow, hrev info _ hfirst]
      dsimp only
      rw [C184_repeated_violated name level (xLowerCell v) info rest hfirst vs l' hl]
      cases vs with
      | nil => rfl
      | cons w vs => simp [List.getLastD]

/-- C184.  Without an empty row between two parts the title of the second one is read as a level of the first one. -/
theorem C184_noGap_violated (n title : Tok) (tries : Nat) (info : List XTree) (rest : List XRow) (cells : List XCell) :
    xTreeRows ⟨some n, tries⟩ info (([some (.text title)] ++ cells.map some) :: rest)
      = xTreeRows ⟨some n, tries⟩ (xTreeRow n (.text title) 1 info (cells.map some)) rest := by
  rw [xTreeRows.eq_def]
  rfl

/-- an example: a tree with two levels -/
def xTreeExample : List XPart :=
  [⟨"Names".toList, "name".toList, [⟨.int 1, [.text "Year".toList]⟩, ⟨.int 2, [.text "Winter".toList, .text "Summer".toList]⟩], 1⟩,
   ⟨"Weights".toList, "weight".toList, [⟨.int 2, [.int 30, .num (45 / 2)]⟩], 3⟩,
   ⟨"inputs".toList, "input".toList, [⟨.int 1, [.int 100, .int 5]⟩], 1⟩]

theorem C184_witness :
    xTreeExample.all (fun p => decide ((xLower p.title, p.name) ∈
      [("names".toList, "name".toList), ("inputs".toList, "input".toList), ("outputs".toList, "output".toList), ("weights".toList, "weight".toList)])) = true ∧
    xLoadTree (xTreeSheet [] ([some (.text "tree".toList)] :: (List.replicate 2 [] ++ xTreeExample.flatMap XPart.rows)))
      = [⟨"weight".toList, .int 2, .text "winter".toList, .int 30⟩, ⟨"weight".toList, .int 2, .text "summer".toList, .num (45 / 2)⟩,
         ⟨"input".toList, .int 1, .text "year".toList, .int 100⟩, ⟨"input".toList, .int 1, .text [], .int 5⟩] := by
  decide +kernel

end Pyensys
