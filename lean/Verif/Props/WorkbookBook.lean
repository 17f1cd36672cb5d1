import Verif.Props.WorkbookOutputs
import Verif.Props.WorkbookOptions

/-!
# The whole workbook

C191: `read_excel` reads the sheets of a workbook by the text in their first cell.
-/

namespace Pyensys

/-- the text in the first cell of a sheet -/
def XSays (sheet : XSheet) (name : String) : Prop := ∃ t : Tok, xCell ((sheet[0]?).getD []) 0 = some (.text t) ∧ xSpaces t = name.toList

/-- the texts that the reader knows -/
def xKindName : XSheetKind → String
  | .options => "model"
  | .bus => "bus"
  | .branch => "branch"
  | .generator => "generator"
  | .tree => "tree"
  | .profile => "profile"
  | .connections => "connections energy"
  | .functions => "functions"
  | .outputs => "outputs"
  | .unknown => ""

/-- **C191.** The kind of a sheet is what the first cell says; every other text is reported and the sheet left out; without a text there the reader raises. -/
theorem C191_kind_partial (sheet : XSheet) : (∀ k, k ≠ .unknown → (xSheetKind sheet = .ok k ↔ XSays sheet (xKindName k))) ∧
    (xSheetKind sheet = .ok .unknown ↔ (∃ t, xCell ((sheet[0]?).getD []) 0 = some (.text t)) ∧ ∀ k, k ≠ .unknown → ¬ XSays sheet (xKindName k)) ∧
    ((∀ t, xCell ((sheet[0]?).getD []) 0 ≠ some (.text t)) → xSheetKind sheet = .error .attribute) := by
  unfold XSays xSheetKind
  cases hc : xCell ((sheet[0]?).getD []) 0 with
  | none =>
    refine ⟨fun k _ => ⟨fun h => by simp at h, fun h => ?_⟩, ⟨fun h => by simp at h, fun h => ?_⟩, fun _ => rfl⟩
    · obtain ⟨t, h, _⟩ := h
      simp at h
    · obtain ⟨⟨t, h⟩, _⟩ := h
      simp at h
  | some c =>
    cases c with
    | int n =>
      refine ⟨fun k _ => ⟨fun h => by simp at h, fun h => ?_⟩, ⟨fun h => by simp at h, fun h => ?_⟩, fun _ => rfl⟩
      · obtain ⟨t, h, _⟩ := h
        simp at h
      · obtain ⟨⟨t, h⟩, _⟩ := h
        simp at h
    | num q =>
      refine ⟨fun k _ => ⟨fun h => by simp at h, fun h => ?_⟩, ⟨fun h => by simp at h, fun h => ?_⟩, fun _ => rfl⟩
      · obtain ⟨t, h, _⟩ := h
        simp at h
      · obtain ⟨⟨t, h⟩, _⟩ := h
        simp at h
    | bool b =>
      refine ⟨fun k _ => ⟨fun h => by simp at h, fun h => ?_⟩, ⟨fun h => by simp at h, fun h => ?_⟩, fun _ => rfl⟩
      · obtain ⟨t, h, _⟩ := h
        simp at h
      · obtain ⟨⟨t, h⟩, _⟩ := h
        simp at h
    | text t =>
      dsimp only
      have hex : ∀ u : Tok, (∃ t' : Tok, some (XCell.text t) = some (XCell.text t') ∧ xSpaces t' = u) ↔ xSpaces t = u := by
        intro u
        constructor
        · rintro ⟨t', h1, h2⟩
          injection h1 with h1
          injection h1 with h1
          rw [h1]; exact h2
        · intro h
          exact ⟨t, rfl, h⟩
      simp only [hex]
      generalize xSpaces t = s
      have key : ∀ s : Tok, (∀ k, k ≠ .unknown → ((if s == "model".toList then XSheetKind.options else if s == "bus".toList then .bus else if s == "branch".toList then .branch
          else if s == "generator".toList then .generator else if s == "tree".toList then .tree else if s == "profile".toList then .profile else if s == "connections energy".toList then .connections
          else if s == "functions".toList then .functions else if s == "outputs".toList then .outputs else .unknown) = k ↔ s = (xKindName k).toList)) := by
        intro s k hk
        constructor
        · intro h
          split_ifs at h <;> first | (subst h; rename_i h1; rw [beq_iff_eq] at h1; exact h1) | (exact absurd h.symm hk)
        · intro h
          subst h
          cases k <;> first | (exact absurd rfl hk) | decide +kernel
      refine ⟨fun k hk => ?_, ?_, fun h => absurd rfl (h t)⟩
      · rw [Except.ok.injEq]
        exact key s k hk
      · rw [Except.ok.injEq]
        constructor
        · intro h
          refine ⟨⟨t, rfl⟩, fun k hk e => ?_⟩
          have := (key s k hk).mpr e
          rw [h] at this
          exact hk this.symm
        · rintro ⟨_, h⟩
          by_contra hn
          exact h _ hn ((key s _ hn).mp rfl)

/-- the sheets of a kind -/
def xOfKind (k : XSheetKind) (book : List XSheet) : List XSheet := book.filter (fun s => decide ((xSheetKind s).toOption = some k))

/-- the elements of a sheet of buses, branches or generators -/
def xNetworkStep (str : XCell → Tok) (d : XData) (s : XSheet) : Except PyErr XData :=
  match xSheetKind s with
  | .ok .bus => xNetwork str xNodeNames "bus".toList s d
  | .ok .branch => xNetwork str xBranchNames "branch".toList s d
  | .ok .generator => xNetwork str xGeneratorNames "generator".toList s d
  | _ => .ok d

/-- the options of a sheet; a column of paths raises -/
def xOptionsStep (o : List XOption) (s : XSheet) : Except PyErr (List XOption) := do
  let r ← xOptions o s
  if r.2 then .error .type else .ok r.1

/-- the outputs of a sheet that is finished -/
def XOuts (s : XSheet) (l : List XInfo) : Prop := xOutSheet s = .ok (some l)

/-- the parts of what has been read: every kind of sheet alone, in the order of its sheets -/
structure XParts (str : XCell → Tok) (b b' : XBook) (book : List XSheet) : Prop where
  kinds : ∀ s ∈ book, ∃ k, xSheetKind s = .ok k ∧ k ≠ .connections
  opts : (xOfKind .options book).foldlM xOptionsStep b.opts = .ok b'.opts
  data : book.foldlM (xNetworkStep str) b.data = .ok b'.data
  tree : b'.tree = (xOfKind .tree book).foldl xTreeSheet b.tree
  profiles : ∃ ps, List.Forall₂ (fun s p => xProfSheet s = .ok p) (xOfKind .profile book) ps ∧ b'.profiles = b.profiles ++ ps.flatten
  conns : b'.conns = b.conns ∧ b'.model = b.model
  funs : ∃ fs, List.Forall₂ (fun s f => xFunSheet s = .ok f) (xOfKind .functions book) fs ∧ b'.funs = b.funs ++ fs.flatten
  outs : ∃ os, List.Forall₂ XOuts (xOfKind .outputs book) os ∧ b'.outs = b.outs ++ os.flatten

theorem xOfKind_cons (k : XSheetKind) (s : XSheet) (book : List XSheet) (k' : XSheetKind) (h : xSheetKind s = .ok k') :
    xOfKind k (s :: book) = if k' = k then s :: xOfKind k book else xOfKind k book := by
  unfold xOfKind
  rw [List.filter_cons, h]
  by_cases e : k' = k
  · subst e
    simp [Except.toOption]
  · simp [Except.toOption, e]

theorem xOfKind_append (k : XSheetKind) (l m : List XSheet) : xOfKind k (l ++ m) = xOfKind k l ++ xOfKind k m := List.filter_append ..

theorem forall₂_append_iff {α β : Type} (R : α → β → Prop) : ∀ (l m : List α) (ys : List β), List.Forall₂ R (l ++ m) ys ↔ ∃ a b, ys = a ++ b ∧ List.Forall₂ R l a ∧ List.Forall₂ R m b
  | [], m, ys => by
      constructor
      · intro h
        exact ⟨[], ys, rfl, .nil, h⟩
      · rintro ⟨a, b, rfl, ha, hb⟩
        cases ha
        exact hb
  | x :: l, m, ys => by
      constructor
      · intro h
        cases h with
        | cons h1 h2 =>
          obtain ⟨a, b, rfl, ha, hb⟩ := (forall₂_append_iff R l m _).mp h2
          exact ⟨_ :: a, b, rfl, .cons h1 ha, hb⟩
      · rintro ⟨a, b, rfl, ha, hb⟩
        cases ha with
        | cons h1 h2 => exact .cons h1 ((forall₂_append_iff R l m _).mpr ⟨_, b, rfl, h2, hb⟩)

theorem xParts_append (str : XCell → Tok) (b b' : XBook) (l m : List XSheet) : XParts str b b' (l ++ m) ↔ ∃ b1, XParts str b b1 l ∧ XParts str b1 b' m := by
  constructor
  · rintro ⟨h1, h2, h3, h4, ⟨ps, h5, h5'⟩, h6, ⟨fs, h7, h7'⟩, ⟨os, h8, h8'⟩⟩
    rw [xOfKind_append, List.foldlM_append, except_bind_ok] at h2
    obtain ⟨o1, h2a, h2b⟩ := h2
    rw [List.foldlM_append, except_bind_ok] at h3
    obtain ⟨d1, h3a, h3b⟩ := h3
    rw [xOfKind_append, List.foldl_append] at h4
    rw [xOfKind_append, forall₂_append_iff] at h5 h7 h8
    obtain ⟨p1, p2, rfl, h5a, h5b⟩ := h5
    obtain ⟨f1, f2, rfl, h7a, h7b⟩ := h7
    obtain ⟨u1, u2, rfl, h8a, h8b⟩ := h8
    refine ⟨⟨o1, d1, (xOfKind .tree l).foldl xTreeSheet b.tree, b.profiles ++ p1.flatten, b.conns, b.model, b.funs ++ f1.flatten, b.outs ++ u1.flatten⟩, ?_, ?_⟩
    · exact ⟨fun s hs => h1 s (List.mem_append_left _ hs), h2a, h3a, rfl, ⟨p1, h5a, rfl⟩, ⟨rfl, rfl⟩, ⟨f1, h7a, rfl⟩, ⟨u1, h8a, rfl⟩⟩
    · refine ⟨fun s hs => h1 s (List.mem_append_right _ hs), h2b, h3b, h4, ⟨p2, h5b, ?_⟩, h6, ⟨f2, h7b, ?_⟩, ⟨u2, h8b, ?_⟩⟩
      · rw [h5', List.flatten_append, List.append_assoc]
      · rw [h7', List.flatten_append, List.append_assoc]
      · rw [h8', List.flatten_append, List.append_assoc]
  · rintro ⟨b1, ⟨h1, h2, h3, h4, ⟨ps, h5, h5'⟩, h6, ⟨fs, h7, h7'⟩, ⟨os, h8, h8'⟩⟩, ⟨g1, g2, g3, g4, ⟨ps', g5, g5'⟩, g6, ⟨fs', g7, g7'⟩, ⟨os', g8, g8'⟩⟩⟩
    refine ⟨?_, ?_, ?_, ?_, ⟨ps ++ ps', ?_, ?_⟩, ⟨g6.1.trans h6.1, g6.2.trans h6.2⟩, ⟨fs ++ fs', ?_, ?_⟩, ⟨os ++ os', ?_, ?_⟩⟩
    · intro s hs
      rcases List.mem_append.mp hs with hs | hs
      · exact h1 s hs
      · exact g1 s hs
    · rw [xOfKind_append, List.foldlM_append, except_bind_ok]
      exact ⟨_, h2, g2⟩
    · rw [List.foldlM_append, except_bind_ok]
      exact ⟨_, h3, g3⟩
    · rw [xOfKind_append, List.foldl_append, ← h4]
      exact g4
    · rw [xOfKind_append, forall₂_append_iff]
      exact ⟨ps, ps', rfl, h5, g5⟩
    · rw [g5', h5', List.flatten_append, List.append_assoc]
    · rw [xOfKind_append, forall₂_append_iff]
      exact ⟨fs, fs', rfl, h7, g7⟩
    · rw [g7', h7', List.flatten_append, List.append_assoc]
    · rw [xOfKind_append, forall₂_append_iff]
      exact ⟨os, os', rfl, h8, g8⟩
    · rw [g8', h8', List.flatten_append, List.append_assoc]

theorem forall₂_one {α β : Type} (R : α → β → Prop) (x : α) (ys : List β) : List.Forall₂ R [x] ys ↔ ∃ y, ys = [y] ∧ R x y := by
  constructor
  · intro h
    cases h with
    | cons h1 h2 =>
      cases h2
      exact ⟨_, rfl, h1⟩
  · rintro ⟨y, rfl, h⟩
    exact .cons h .nil

theorem xParts_one (str : XCell → Tok) (b b' : XBook) (s : XSheet) (k : XSheetKind) (hk : xSheetKind s = .ok k) (hc : k ≠ .connections) :
    XParts str b b' [s] ↔ xSheetStep str b s k = .ok (some b') := by
  have hof : ∀ k', xOfKind k' [s] = if k = k' then [s] else [] := fun k' => by
    rw [xOfKind_cons k' s [] k hk]
    rfl
  obtain ⟨o, d, t, p, c, m, f, u⟩ := b
  obtain ⟨o', d', t', p', c', m', f', u'⟩ := b'
  have hx : XParts str ⟨o, d, t, p, c, m, f, u⟩ ⟨o', d', t', p', c', m', f', u'⟩ [s] ↔
      (if k = .options then xOptionsStep o s = .ok o' else o' = o) ∧ xNetworkStep str d s = .ok d' ∧ (t' = if k = .tree then xTreeSheet t s else t) ∧
      (if k = .profile then ∃ x, xProfSheet s = .ok x ∧ p' = p ++ x else p' = p) ∧ (c' = c ∧ m' = m) ∧
      (if k = .functions then ∃ x, xFunSheet s = .ok x ∧ f' = f ++ x else f' = f) ∧ (if k = .outputs then ∃ x, xOutSheet s = .ok (some x) ∧ u' = u ++ x else u' = u) := by
    constructor
    · rintro ⟨_, h2, h3, h4, ⟨ps, h5, h5'⟩, h6, ⟨fs, h7, h7'⟩, ⟨os, h8, h8'⟩⟩
      rw [hof] at h2 h4 h5 h7 h8
      refine ⟨?_, ?_, ?_, ?_, h6, ?_, ?_⟩
      · split at h2
        · rw [if_pos ‹_›]
          simpa [List.foldlM_cons, except_bind_ok] using h2
        · rw [if_neg ‹_›]
          injection h2 with h2
          exact h2.symm
      · simpa [List.foldlM_cons, except_bind_ok] using h3
      · split at h4
        · rw [if_pos ‹_›]; exact h4
        · rw [if_neg ‹_›]; exact h4
      · split at h5
        · rw [if_pos ‹_›]
          obtain ⟨y, rfl, hy⟩ := (forall₂_one _ _ _).mp h5
          exact ⟨y, hy, by simpa using h5'⟩
        · rw [if_neg ‹_›]
          cases h5
          simpa using h5'
      · split at h7
        · rw [if_pos ‹_›]
          obtain ⟨y, rfl, hy⟩ := (forall₂_one _ _ _).mp h7
          exact ⟨y, hy, by simpa using h7'⟩
        · rw [if_neg ‹_›]
          cases h7
          simpa using h7'
      · split at h8
        · rw [if_pos ‹_›]
          obtain ⟨y, rfl, hy⟩ := (forall₂_one _ _ _).mp h8
          exact ⟨y, hy, by simpa using h8'⟩
        · rw [if_neg ‹_›]
          cases h8
          simpa using h8'
    · rintro ⟨h2, h3, h4, h5, h6, h7, h8⟩
      refine ⟨?_, ?_, ?_, ?_, ?_, h6, ?_, ?_⟩
      · intro q hq
        rw [List.mem_singleton] at hq
        subst hq
        exact ⟨k, hk, hc⟩
      · rw [hof]
        split at h2
        · rw [if_pos ‹_›]
          simpa [List.foldlM_cons, except_bind_ok] using h2
        · rw [if_neg ‹_›, h2]
          rfl
      · simpa [List.foldlM_cons, except_bind_ok] using h3
      · rw [hof]
        split at h4
        · rw [if_pos ‹_›]; exact h4
        · rw [if_neg ‹_›]; exact h4
      · rw [hof]
        split at h5
        · obtain ⟨x, hx, hp⟩ := h5
          rw [if_pos ‹_›]
          exact ⟨[x], .cons hx .nil, by simpa using hp⟩
        · rw [if_neg ‹_›]
          exact ⟨[], .nil, by simpa using h5⟩
      · rw [hof]
        split at h7
        · obtain ⟨x, hx, hp⟩ := h7
          rw [if_pos ‹_›]
          exact ⟨[x], .cons hx .nil, by simpa using hp⟩
        · rw [if_neg ‹_›]
          exact ⟨[], .nil, by simpa using h7⟩
      · rw [hof]
        split at h8
        · obtain ⟨x, hx, hp⟩ := h8
          rw [if_pos ‹_›]
          exact ⟨[x], .cons hx .nil, by simpa using hp⟩
        · rw [if_neg ‹_›]
          exact ⟨[], .nil, by simpa using h8⟩
  rw [hx]
  unfold xNetworkStep
  rw [hk]
  cases k with
  | connections => exact absurd rfl hc
  | options =>
    simp only [reduceCtorEq, if_true, if_false, Except.ok.injEq]
    show _ ↔ (do
      let r ← xOptions o s
      if r.2 then Except.error PyErr.type else .ok (some (⟨r.1, d, t, p, c, m, f, u⟩ : XBook))) = _
    unfold xOptionsStep
    simp only [except_bind_ok]
    constructor
    · rintro ⟨⟨r, h1, h2⟩, rfl, rfl, rfl, ⟨rfl, rfl⟩, rfl, rfl⟩
      refine ⟨r, h1, ?_⟩
      split at h2
      · exact absurd h2 (by simp)
      · rw [if_neg ‹_›]
        injection h2 with h2
        rw [h2]
    · rintro ⟨r, h1, h2⟩
      split at h2
      · exact absurd h2 (by simp)
      · rename_i hr
        simp only [Except.ok.injEq, Option.some.injEq, XBook.mk.injEq] at h2
        obtain ⟨e1, e2, e3, e4, e5, e6, e7, e8⟩ := h2
        refine ⟨⟨r, h1, ?_⟩, e2, e3.symm, e4.symm, ⟨e5.symm, e6.symm⟩, e7.symm, e8.symm⟩
        rw [if_neg hr, e1]
  | bus =>
    simp only [reduceCtorEq, if_false]
    show _ ↔ (do
      let x ← xNetwork str xNodeNames "bus".toList s d
      .ok (some (⟨o, x, t, p, c, m, f, u⟩ : XBook))) = _
    simp only [except_bind_ok, Except.ok.injEq, Option.some.injEq, XBook.mk.injEq]
    constructor
    · rintro ⟨rfl, h, rfl, rfl, ⟨rfl, rfl⟩, rfl, rfl⟩
      exact ⟨_, h, rfl, rfl, rfl, rfl, rfl, rfl, rfl, rfl⟩
    · rintro ⟨x, h, rfl, rfl, rfl, rfl, rfl, rfl, rfl, rfl⟩
      exact ⟨rfl, h, rfl, rfl, ⟨rfl, rfl⟩, rfl, rfl⟩
  | branch =>
    simp only [reduceCtorEq, if_false]
    show _ ↔ (do
      let x ← xNetwork str xBranchNames "branch".toList s d
      .ok (some (⟨o, x, t, p, c, m, f, u⟩ : XBook))) = _
    simp only [except_bind_ok, Except.ok.injEq, Option.some.injEq, XBook.mk.injEq]
    constructor
    · rintro ⟨rfl, h, rfl, rfl, ⟨rfl, rfl⟩, rfl, rfl⟩
      exact ⟨_, h, rfl, rfl, rfl, rfl, rfl, rfl, rfl, rfl⟩
    · rintro ⟨x, h, rfl, rfl, rfl, rfl, rfl, rfl, rfl, rfl⟩
      exact ⟨rfl, h, rfl, rfl, ⟨rfl, rfl⟩, rfl, rfl⟩
  | generator =>
    simp only [reduceCtorEq, if_false]
    show _ ↔ (do
      let x ← xNetwork str xGeneratorNames "generator".toList s d
      .ok (some (⟨o, x, t, p, c, m, f, u⟩ : XBook))) = _
    simp only [except_bind_ok, Except.ok.injEq, Option.some.injEq, XBook.mk.injEq]
    constructor
    · rintro ⟨rfl, h, rfl, rfl, ⟨rfl, rfl⟩, rfl, rfl⟩
      exact ⟨_, h, rfl, rfl, rfl, rfl, rfl, rfl, rfl, rfl⟩
    · rintro ⟨x, h, rfl, rfl, rfl, rfl, rfl, rfl, rfl, rfl⟩
      exact ⟨rfl, h, rfl, rfl, ⟨rfl, rfl⟩, rfl, rfl⟩
  | tree =>
    simp only [reduceCtorEq, if_true, if_false, Except.ok.injEq]
    show _ ↔ Except.ok (some (⟨o, d, xTreeSheet t s, p, c, m, f, u⟩ : XBook)) = _
    simp only [Except.ok.injEq, Option.some.injEq, XBook.mk.injEq]
    constructor
    · rintro ⟨rfl, rfl, rfl, rfl, ⟨rfl, rfl⟩, rfl, rfl⟩
      exact ⟨rfl, rfl, rfl, rfl, rfl, rfl, rfl, rfl⟩
    · rintro ⟨rfl, rfl, rfl, rfl, rfl, rfl, rfl, rfl⟩
      exact ⟨rfl, rfl, rfl, rfl, ⟨rfl, rfl⟩, rfl, rfl⟩
  | profile =>
    simp only [reduceCtorEq, if_true, if_false, Except.ok.injEq]
    show _ ↔ (do
      let x ← xProfSheet s
      .ok (some (⟨o, d, t, p ++ x, c, m, f, u⟩ : XBook))) = _
    simp only [except_bind_ok, Except.ok.injEq, Option.some.injEq, XBook.mk.injEq]
    constructor
    · rintro ⟨rfl, rfl, rfl, ⟨x, h, rfl⟩, ⟨rfl, rfl⟩, rfl, rfl⟩
      exact ⟨x, h, rfl, rfl, rfl, rfl, rfl, rfl, rfl, rfl⟩
    · rintro ⟨x, h, rfl, rfl, rfl, rfl, rfl, rfl, rfl, rfl⟩
      exact ⟨rfl, rfl, rfl, ⟨x, h, rfl⟩, ⟨rfl, rfl⟩, rfl, rfl⟩
  | functions =>
    simp only [reduceCtorEq, if_true, if_false, Except.ok.injEq]
    show _ ↔ (do
      let x ← xFunSheet s
      .ok (some (⟨o, d, t, p, c, m, f ++ x, u⟩ : XBook))) = _
    simp only [except_bind_ok, Except.ok.injEq, Option.some.injEq, XBook.mk.injEq]
    constructor
    · rintro ⟨rfl, rfl, rfl, rfl, ⟨rfl, rfl⟩, ⟨x, h, rfl⟩, rfl⟩
      exact ⟨x, h, rfl, rfl, rfl, rfl, rfl, rfl, rfl, rfl⟩
    · rintro ⟨x, h, rfl, rfl, rfl, rfl, rfl, rfl, rfl, rfl⟩
      exact ⟨rfl, rfl, rfl, rfl, ⟨rfl, rfl⟩, ⟨x, h, rfl⟩, rfl⟩
  | outputs =>
    simp only [reduceCtorEq, if_true, if_false, Except.ok.injEq]
    show _ ↔ (do
      let x ← xOutSheet s
      match x with
      | none => .ok none
      | some x => .ok (some (⟨o, d, t, p, c, m, f, u ++ x⟩ : XBook))) = _
    simp only [except_bind_ok]
    constructor
    · rintro ⟨rfl, rfl, rfl, rfl, ⟨rfl, rfl⟩, rfl, ⟨x, h, rfl⟩⟩
      exact ⟨some x, h, rfl⟩
    · rintro ⟨x, h, hx⟩
      cases x with
      | none => exact absurd hx (by simp)
      | some x =>
        simp only [Except.ok.injEq, Option.some.injEq, XBook.mk.injEq] at hx
        obtain ⟨rfl, rfl, rfl, rfl, rfl, rfl, rfl, rfl⟩ := hx
        exact ⟨rfl, rfl, rfl, rfl, ⟨rfl, rfl⟩, rfl, ⟨x, h, rfl⟩⟩
  | unknown =>
    simp only [reduceCtorEq, if_false, Except.ok.injEq]
    show _ ↔ Except.ok (some (⟨o, d, t, p, c, m, f, u⟩ : XBook)) = _
    simp only [Except.ok.injEq, Option.some.injEq, XBook.mk.injEq]
    constructor
    · rintro ⟨rfl, rfl, rfl, rfl, ⟨rfl, rfl⟩, rfl, rfl⟩
      exact ⟨rfl, rfl, rfl, rfl, rfl, rfl, rfl, rfl⟩
    · rintro ⟨rfl, rfl, rfl, rfl, rfl, rfl, rfl, rfl⟩
      exact ⟨rfl, rfl, rfl, rfl, ⟨rfl, rfl⟩, rfl, rfl⟩

/-- **C191.** A workbook without connections: what is read is, for every kind of sheet, what the sheets of this kind give one after the other. -/
theorem C191_parts_partial (str : XCell → Tok) : ∀ (book : List XSheet) (b b' : XBook), (∀ s ∈ book, xSheetKind s ≠ .ok .connections) →
    (xSheets str b book = .ok (some b') ↔ XParts str b b' book)
  | [], b, b', _ => by
      obtain ⟨o, d, t, p, c, m, f, u⟩ := b
      obtain ⟨o', d', t', p', c', m', f', u'⟩ := b'
      constructor
      · intro h
        have h : Except.ok (some _) = Except.ok (some _) := h
        simp only [Except.ok.injEq, Option.some.injEq, XBook.mk.injEq] at h
        obtain ⟨rfl, rfl, rfl, rfl, rfl, rfl, rfl, rfl⟩ := h
        exact ⟨fun s hs => by simp at hs, rfl, rfl, rfl, ⟨[], .nil, by simp⟩, ⟨rfl, rfl⟩, ⟨[], .nil, by simp⟩, ⟨[], .nil, by simp⟩⟩
      · rintro ⟨_, h2, h3, h4, ⟨ps, h5, h5'⟩, ⟨h6, h6'⟩, ⟨fs, h7, h7'⟩, ⟨os, h8, h8'⟩⟩
        cases h5
        cases h7
        cases h8
        injection h2 with h2
        injection h3 with h3
        dsimp only at *
        subst h2 h3 h4 h5' h6 h6' h7' h8'
        show Except.ok (some _) = Except.ok (some _)
        simp
  | s :: book, b, b', h => by
      rw [show s :: book = [s] ++ book from rfl, xParts_append]
      show xSheets str b (s :: book) = _ ↔ _
      unfold xSheets
      rw [except_bind_ok]
      constructor
      · rintro ⟨k, hk, h1⟩
        rw [except_bind_ok] at h1
        obtain ⟨r, h1, h2⟩ := h1
        cases r with
        | none => exact absurd h2 (by simp)
        | some b1 =>
          dsimp only at h2
          have hc : k ≠ .connections := fun e => h s List.mem_cons_self (by rw [hk, e])
          exact ⟨b1, (xParts_one str b b1 s k hk hc).mpr h1, (C191_parts_partial str book b1 b' (fun q hq => h q (List.mem_cons_of_mem _ hq))).mp h2⟩
      · rintro ⟨b1, h1, h2⟩
        obtain ⟨k, hk, hc⟩ := h1.kinds s (by simp)
        refine ⟨k, hk, ?_⟩
        rw [except_bind_ok]
        exact ⟨some b1, (xParts_one str b b1 s k hk hc).mp h1, (C191_parts_partial str book b1 b' (fun q hq => h q (List.mem_cons_of_mem _ hq))).mpr h2⟩

/-- the sheets of elements -/
def xElementSheets (book : List XSheet) : List XSheet :=
  book.filter (fun s => decide ((xSheetKind s).toOption = some .bus ∨ (xSheetKind s).toOption = some .branch ∨ (xSheetKind s).toOption = some .generator))

theorem xNetwork_filter (str : XCell → Tok) : ∀ (book : List XSheet) (d : XData), book.foldlM (xNetworkStep str) d = (xElementSheets book).foldlM (xNetworkStep str) d
  | [], _ => rfl
  | s :: book, d => by
      unfold xElementSheets
      rw [List.filter_cons]
      by_cases h : (xSheetKind s).toOption = some .bus ∨ (xSheetKind s).toOption = some .branch ∨ (xSheetKind s).toOption = some .generator
      · rw [if_pos (by simpa using h), List.foldlM_cons, List.foldlM_cons]
        congr 1
        funext x
        exact xNetwork_filter str book x
      · rw [if_neg (by simpa using h), List.foldlM_cons]
        have hs : xNetworkStep str d s = .ok d := by
          unfold xNetworkStep
          cases hk : xSheetKind s with
          | error e => rfl
          | ok k =>
            rw [hk] at h
            cases k <;> first | rfl | (exact absurd (by simp [Except.toOption]) h)
        rw [hs]
        exact xNetwork_filter str book d

/-- **C191.** The order of sheets of different kinds does not matter: two workbooks without connections, with the same sheets of every kind in the same order (and the same sheets of buses, branches
and generators in the same order), give the same. -/
theorem C191_order_partial (str : XCell → Tok) (book other : List XSheet) (b b' : XBook) (hperm : ∀ s ∈ other, s ∈ book) (hc : ∀ s ∈ book, xSheetKind s ≠ .ok .connections)
    (hel : xElementSheets other = xElementSheets book) (hk : ∀ k ∈ [XSheetKind.options, .tree, .profile, .functions, .outputs], xOfKind k other = xOfKind k book)
    (h : xSheets str b book = .ok (some b')) : xSheets str b other = .ok (some b') := by
  rw [C191_parts_partial str book b b' hc] at h
  rw [C191_parts_partial str other b b' (fun s hs => hc s (hperm s hs))]
  obtain ⟨h1, h2, h3, h4, h5, h6, h7, h8⟩ := h
  refine ⟨fun s hs => h1 s (hperm s hs), ?_, ?_, ?_, ?_, h6, ?_, ?_⟩
  · rw [hk _ (by simp)]; exact h2
  · rw [xNetwork_filter, hel, ← xNetwork_filter]; exact h3
  · rw [hk _ (by simp)]; exact h4
  · rw [hk _ (by simp)]; exact h5
  · rw [hk _ (by simp)]; exact h7
  · rw [hk _ (by simp)]; exact h8

theorem xSheets_append (str : XCell → Tok) : ∀ (l m : List XSheet) (b b1 : XBook), xSheets str b l = .ok (some b1) → xSheets str b (l ++ m) = xSheets str b1 m
  | [], m, b, b1, h => by
      have h : Except.ok (some b) = Except.ok (some b1) := h
      simp only [Except.ok.injEq, Option.some.injEq] at h
      rw [h]
      rfl
  | s :: l, m, b, b1, h => by
      unfold xSheets at h
      rw [except_bind_ok] at h
      obtain ⟨k, hk, h⟩ := h
      rw [except_bind_ok] at h
      obtain ⟨r, hr, h⟩ := h
      rw [List.cons_append, xSheets.eq_def]
      dsimp only
      rw [hk]
      simp only [bind, Except.bind]
      rw [hr]
      cases r with
      | none => exact absurd h (by simp)
      | some b2 => exact xSheets_append str l m b2 b1 h

/-- **C191.** A sheet of connections after the sheets with the elements: the connections for all the elements of a type become connections of the model. -/
theorem C191_connections_partial (str : XCell → Tok) (book : List XSheet) (c : XSheet) (b b1 : XBook) (conns : List XInfo) (exp : List (List XInfo)) (hb : xSheets str b book = .ok (some b1)) (h0 : b1.conns = [])
    (hk : XSays c "connections energy") (hc : xConnSheet c = .ok (some conns)) (he : List.Forall₂ (fun x l => xConnExpand b1.data x = .ok l) conns exp) :
    xSheets str b (book ++ [c]) = .ok (some ⟨b1.opts, b1.data, b1.tree, b1.profiles, conns, b1.model ++ exp.flatten, b1.funs, b1.outs⟩) := by
  rw [xSheets_append str book [c] b b1 hb]
  have hkind : xSheetKind c = .ok .connections := ((C191_kind_partial c).1 .connections (by simp)).mpr hk
  unfold xSheets
  rw [hkind]
  have hm : (b1.conns ++ conns).mapM (xConnExpand b1.data) = .ok exp := by
    rw [h0, List.nil_append, mapM_ok_iff]
    exact he
  have hstep : xSheetStep str b1 c .connections = .ok (some ⟨b1.opts, b1.data, b1.tree, b1.profiles, conns, b1.model ++ exp.flatten, b1.funs, b1.outs⟩) := by
    show (do
      let x ← xConnSheet c
      match x with
      | none => .ok none
      | some x => do
        let m ← (b1.conns ++ x).mapM (xConnExpand b1.data)
        .ok (some (⟨b1.opts, b1.data, b1.tree, b1.profiles, b1.conns ++ x, b1.model ++ m.flatten, b1.funs, b1.outs⟩ : XBook))) = _
    rw [hc]
    simp only [bind, Except.bind]
    rw [hm]
    simp only [h0, List.nil_append]
  simp only [bind, Except.bind]
  rw [hstep]
  rfl

/-- C191 fails: a sheet of connections before the sheet with the elements raises a KeyError. -/
theorem C191_before_violated (str : XCell → Tok) (c : XSheet) (rest : List XSheet) (b : XBook) (x : XInfo) (t : Tok) (hk : XSays c "connections energy") (hc : xConnSheet c = .ok (some [x])) (h0 : b.conns = [])
    (hid : x.get "ID".toList = .one (.text "all".toList)) (ht : x.has "type".toList = true) (htt : x.get "type".toList = .one (.text t)) (hd : b.data.lookup t = none) :
    xSheets str b (c :: rest) = .error .key := by
  have hkind : xSheetKind c = .ok .connections := ((C191_kind_partial c).1 .connections (by simp)).mpr hk
  have he : xConnExpand b.data x = .error .key := by
    unfold xConnExpand
    rw [hid, ht, htt]
    dsimp only
    rw [hd]
    rfl
  have hstep : xSheetStep str b c .connections = .error .key := by
    show (do
      let x ← xConnSheet c
      match x with
      | none => .ok none
      | some x => do
        let m ← (b.conns ++ x).mapM (xConnExpand b.data)
        .ok (some (⟨b.opts, b.data, b.tree, b.profiles, b.conns ++ x, b.model ++ m.flatten, b.funs, b.outs⟩ : XBook))) = _
    rw [hc]
    simp only [bind, Except.bind]
    rw [h0, List.nil_append, List.mapM_cons, he]
    rfl
  unfold xSheets
  rw [hkind]
  simp only [bind, Except.bind]
  rw [hstep]

/-- C191 fails: with a second sheet of connections those of the first one reach the model twice. -/
theorem C191_twice_violated (str : XCell → Tok) (c e : XSheet) (b : XBook) (x : XInfo) (l : List XInfo) (hk : XSays c "connections energy") (hk2 : XSays e "connections energy") (h0 : b.conns = [])
    (h1 : b.model = []) (hc : xConnSheet c = .ok (some [x])) (he : xConnSheet e = .ok (some [])) (hx : xConnExpand b.data x = .ok l) :
    xSheets str b [c, e] = .ok (some ⟨b.opts, b.data, b.tree, b.profiles, [x], l ++ l, b.funs, b.outs⟩) := by
  have hkind : xSheetKind c = .ok .connections := ((C191_kind_partial c).1 .connections (by simp)).mpr hk
  have hkind2 : xSheetKind e = .ok .connections := ((C191_kind_partial e).1 .connections (by simp)).mpr hk2
  have first := C191_connections_partial str [] c b b [x] [l] rfl h0 hk hc (.cons hx .nil)
  rw [List.nil_append] at first
  rw [show [c, e] = [c] ++ [e] from rfl, xSheets_append str [c] [e] b _ first]
  unfold xSheets
  rw [hkind2]
  have hstep : xSheetStep str ⟨b.opts, b.data, b.tree, b.profiles, [x], b.model ++ [l].flatten, b.funs, b.outs⟩ e .connections =
      .ok (some ⟨b.opts, b.data, b.tree, b.profiles, [x], l ++ l, b.funs, b.outs⟩) := by
    show (do
      let y ← xConnSheet e
      match y with
      | none => .ok none
      | some y => do
        let m ← ([x] ++ y).mapM (xConnExpand b.data)
        .ok (some (⟨b.opts, b.data, b.tree, b.profiles, [x] ++ y, b.model ++ [l].flatten ++ m.flatten, b.funs, b.outs⟩ : XBook))) = _
    rw [he]
    simp only [bind, Except.bind]
    rw [List.append_nil, List.mapM_cons, hx]
    simp only [bind, Except.bind, List.mapM_nil, pure, Except.pure, h1, List.flatten_cons, List.flatten_nil, List.append_nil, List.nil_append]
  simp only [bind, Except.bind]
  rw [hstep]
  rfl

/-- **C191.** The model after reading: options, outputs and connections as read, the tree of the sheets, the data with the profiles, functions with the characteristics of their elements. -/
theorem C191_model_partial (str : XCell → Tok) (opts : List XOption) (book : List XSheet) (m : XModel) : xReadExcel str opts book = .ok (some m) ↔
    ∃ b, xSheets str ⟨opts, [], [], [], [], [], [], []⟩ book = .ok (some b) ∧ xCorrelate (xPeriods b.opts) b.profiles b.data = .ok m.data ∧ m.opts = b.opts ∧ m.tree = xLoadTree b.tree ∧
      m.conns = b.model ∧ m.outs = b.outs ∧ m.funs = b.funs.map (xFunExtend m.data) := by
  unfold xReadExcel
  rw [except_bind_ok]
  constructor
  · rintro ⟨r, h1, h2⟩
    cases r with
    | none => exact absurd h2 (by simp)
    | some b =>
      dsimp only at h2
      unfold xFinish at h2
      cases hd : xCorrelate (xPeriods b.opts) b.profiles b.data with
      | error e =>
        rw [hd] at h2
        exact absurd h2 (by simp [bind, Except.bind, Except.map])
      | ok d =>
        rw [hd] at h2
        have h2 : Except.ok (some _) = Except.ok (some m) := h2
        simp only [Except.ok.injEq, Option.some.injEq] at h2
        subst h2
        exact ⟨b, h1, hd, rfl, rfl, rfl, rfl, rfl⟩
  · rintro ⟨b, h1, h2, h3, h4, h5, h6, h7⟩
    refine ⟨some b, h1, ?_⟩
    dsimp only
    unfold xFinish
    rw [h2]
    show Except.ok (some _) = Except.ok (some m)
    rw [← h3, ← h4, ← h5, ← h6, ← h7]

/-- **C191.** Profiles are used exactly when an option 'representative periods' is on. -/
theorem C191_periods_partial (opts : List XOption) (n : Int) (hn : n ≠ 0) (o : XOption) (ho : o ∈ opts) (hname : o.name = some "representative periods".toList) (hv : o.value = .int n) : xPeriods opts = true := by
  unfold xPeriods
  rw [List.any_eq_true]
  refine ⟨o, ho, ?_⟩
  rw [hname, hv]
  simp only [beq_self_eq_true, Bool.true_and, xTrue, XCell.number]
  simpa using hn

/-- C191 fails: profiles are left out without a word if the workbook does not say 'representative periods', whatever they say. -/
theorem C191_silent_violated (profiles : List XProfile) (d : XData) (opts : List XOption) (h : ∀ o ∈ opts, o.name ≠ some "representative periods".toList) :
    xCorrelate (xPeriods opts) profiles d = .ok d := by
  have : xPeriods opts = false := by
    unfold xPeriods
    rw [List.any_eq_false]
    intro o ho
    have : (o.name == some "representative periods".toList) = false := by
      rw [beq_eq_false_iff_ne]
      exact h o ho
    rw [this]
    simp
  rw [this]
  rfl

/-- C191 fails: a workbook cannot name further workbooks: a column 'paths' (with a cell below it) always raises. -/
theorem C191_paths_violated (str : XCell → Tok) (b : XBook) (s : XSheet) (rest : List XSheet) (opts : List XOption) (hk : XSays s "model") (ho : xOptions b.opts s = .ok (opts, true)) :
    xSheets str b (s :: rest) = .error .type := by
  have hkind : xSheetKind s = .ok .options := ((C191_kind_partial s).1 .options (by simp)).mpr hk
  unfold xSheets
  rw [hkind]
  simp only [bind, Except.bind]
  have hstep : xSheetStep str b s .options = .error .type := by
    show (do
      let r ← xOptions b.opts s
      if r.2 then Except.error PyErr.type else .ok (some (⟨r.1, b.data, b.tree, b.profiles, b.conns, b.model, b.funs, b.outs⟩ : XBook))) = _
    rw [ho]
    rfl
  rw [hstep]

/-- an example: a sheet of generators, the costs of them, and a connection for all of them -/
def xBookExample : List XSheet :=
  [[[some (.text "generator".toList)], [some (.text "ID".toList), some (.text "Pmax".toList)], [some (.text "g1".toList), some (.int 5)], [some (.text "g2".toList), some (.int 7)]],
   [some (.text "functions".toList)] :: ([] ++ [xTableExample].flatMap XTable.rows),
   [some (.text "connections energy".toList)] :: ([[]] ++ [xConnExample].flatMap XPiece.rows),
   [[some (.text "Notes".toList)], [some (.text "made by hand".toList)]]]

theorem C191_witness :
    (xReadExcel (fun _ => []) [] xBookExample).toOption.map (fun r => r.map (fun m => (m.conns.map (fun x => x.get "ID".toList), m.funs.map (fun f => (f.get "ID".toList, f.get "type".toList))))) =
      some (some ([.one (.text "g1".toList), .one (.text "g2".toList)],
        [(.one (.text "g1".toList), .one (.text "generator".toList)), (.one (.text "g2".toList), .one (.text "generator".toList))])) ∧
    xReadExcel (fun _ => []) [] xBookExample.reverse = .error .key ∧
    (∃ b, xSheets (fun _ => []) ⟨[], [], [], [], [], [], [], []⟩ (xBookExample.take 2) = .ok (some b) ∧ xSheets (fun _ => []) ⟨[], [], [], [], [], [], [], []⟩ (xBookExample.take 2).reverse = .ok (some b)) := by
  refine ⟨by decide +kernel, by decide +kernel, ?_⟩
  have h : (xSheets (fun _ => []) ⟨[], [], [], [], [], [], [], []⟩ (xBookExample.take 2)).toOption.join.isSome = true := by decide +kernel
  rw [Option.isSome_iff_exists] at h
  obtain ⟨b, hb⟩ := h
  have hx : xSheets (fun _ => []) ⟨[], [], [], [], [], [], [], []⟩ (xBookExample.take 2) = .ok (some b) := by
    cases hs : xSheets (fun _ => []) ⟨[], [], [], [], [], [], [], []⟩ (xBookExample.take 2) with
    | error e => rw [hs] at hb; simp [Except.toOption] at hb
    | ok r =>
      rw [hs] at hb
      cases r with
      | none => simp [Except.toOption] at hb
      | some r =>
        simp [Except.toOption] at hb
        rw [hb]
  refine ⟨b, hx, C191_order_partial _ _ _ _ _ (fun s hs => List.mem_reverse.mp hs) ?_ (by decide +kernel) (by decide +kernel) hx⟩
  have : ∀ s ∈ xBookExample.take 2, (xSheetKind s).toOption ≠ some .connections := by decide +kernel
  intro s hs e
  exact this s hs (by rw [e]; rfl)

end Pyensys
