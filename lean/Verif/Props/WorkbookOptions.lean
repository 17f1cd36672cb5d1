import Verif.Model.WorkbookMore
import Verif.Props.Workbook
import Verif.Props.AttestOptions
import Verif.Props.Multipliers

/-!
# Options of a workbook

C187: the sheet 'model'.
-/

namespace Pyensys

/-- below the first column with a title (in row 2) there are exactly these cells, from row 3 on -/
def XUnder (sheet : XSheet) (titles : List Tok) (title : Tok) (cells : List XCell) : Prop :=
  cells ≠ [] ∧ ∃ k : Nat, titles[k]? = some title ∧ (∀ j : Nat, j < k → titles[j]? ≠ some title) ∧
    (∀ (i : Nat) (c : XCell), cells[i]? = some c → xCell ((sheet[2 + i]?).getD []) k = some c) ∧ xCell ((sheet[2 + cells.length]?).getD []) k = none

theorem xDown_eq (k : Nat) : ∀ (rows : List XRow) (cells : List XCell), (∀ (i : Nat) (c : XCell), cells[i]? = some c → xCell ((rows[i]?).getD []) k = some c) →
    xCell ((rows[cells.length]?).getD []) k = none → xDown k rows = cells
  | [], cells, h, _ => by
      cases cells with
      | nil => rfl
      | cons c cells =>
        have := h 0 c rfl
        simp [xCell] at this
  | row :: rows, [], _, h0 => by
      simp only [List.length_nil, List.getElem?_cons_zero, Option.getD_some] at h0
      unfold xDown
      rw [h0]
  | row :: rows, c :: cells, h, h0 => by
      have hc := h 0 c rfl
      simp only [List.getElem?_cons_zero, Option.getD_some] at hc
      unfold xDown
      rw [hc]
      dsimp only
      rw [xDown_eq k rows cells (fun i e he => by
        have := h (i + 1) e (by simpa using he)
        simpa using this) (by simpa using h0)]

theorem find_first_column {β : Type} (title : Tok) (f : Nat → List β) : ∀ (titles : List Tok) (o k : Nat), titles[k]? = some title → (∀ j : Nat, j < k → titles[j]? ≠ some title) → f (k + o) ≠ [] →
    (((titles.zipIdx o).filter (fun p => p.1 == title)).map (fun p => f p.2)).find? (fun l => !l.isEmpty) = some (f (k + o))
  | [], o, k, h, _, _ => by simp at h
  | t :: titles, o, 0, h, _, hne => by
      simp only [List.getElem?_cons_zero, Option.some.injEq] at h
      subst h
      rw [List.zipIdx_cons, List.filter_cons]
      simp only [beq_self_eq_true, if_true, List.map_cons]
      rw [List.find?_cons]
      have : (!(f o).isEmpty) = true := by
        cases hf : f o with
        | nil => rw [Nat.zero_add] at hne; exact absurd hf hne
        | cons a l => rfl
      rw [this, Nat.zero_add]
  | t :: titles, o, k + 1, h, hmin, hne => by
      have ht : t ≠ title := by
        intro e
        exact hmin 0 (by omega) (by simp [e])
      rw [List.zipIdx_cons, List.filter_cons]
      have : ((t, o).1 == title) = false := by
        rw [beq_eq_false_iff_ne]
        exact ht
      rw [this]
      simp only [Bool.false_eq_true, if_false]
      have e : k + 1 + o = k + (o + 1) := by omega
      rw [e] at hne ⊢
      exact find_first_column title f titles (o + 1) k (by simpa using h) (fun j hj => by
        have := hmin (j + 1) (by omega)
        simpa using this) hne

theorem xColumnOf_under (sheet : XSheet) (titles : List Tok) (title : Tok) (cells : List XCell) (h : XUnder sheet titles title cells) :
    xColumnOf titles (sheet.drop 2) title = some cells := by
  obtain ⟨hne, k, h1, h2, h3, h4⟩ := h
  have hd : xDown k (sheet.drop 2) = cells := by
    apply xDown_eq
    · intro i c hc
      rw [List.getElem?_drop]
      exact h3 i c hc
    · rw [List.getElem?_drop]
      exact h4
  unfold xColumnOf
  have := find_first_column title (fun n => xDown n (sheet.drop 2)) titles 0 k h1 h2 (by rw [Nat.add_zero, hd]; exact hne)
  rw [this, Nat.add_zero, hd]

theorem xColumnOf_none (titles : List Tok) (rows : List XRow) (title : Tok) (h : title ∉ titles) : xColumnOf titles rows title = none := by
  unfold xColumnOf
  have : titles.zipIdx.filter (fun p => p.1 == title) = [] := by
    rw [List.filter_eq_nil_iff]
    intro p hp hc
    rw [beq_iff_eq] at hc
    have := List.mem_map_of_mem (f := Prod.fst) hp
    rw [List.zipIdx_map_fst] at this
    rw [hc] at this
    exact h this
  rw [this]
  rfl

/-- an option by name -/
def xOption (l : List XOption) (n : Option Tok) : Option XOption := l.find? (fun o => o.name == n)

theorem xSetProblem_find : ∀ (l : List XOption) (p : Option Tok × Bool × Option Tok) (n : Option Tok),
    xOption (xSetProblem l p) n = if n = p.1 then some ⟨p.1, .bool p.2.1, p.2.2⟩ else xOption l n
  | [], p, n => by
      unfold xSetProblem xOption
      rw [List.find?_cons]
      by_cases h : n = p.1
      · rw [if_pos h]; simp [h]
      · rw [if_neg h]
        have : (p.1 == n) = false := by rw [beq_eq_false_iff_ne]; exact fun e => h e.symm
        simp [this]
  | o :: l, p, n => by
      unfold xSetProblem
      by_cases ho : (o.name == p.1) = true
      · rw [if_pos ho]
        rw [beq_iff_eq] at ho
        unfold xOption
        rw [List.find?_cons, List.find?_cons]
        dsimp only
        rw [ho]
        by_cases h : n = p.1
        · rw [if_pos h]; simp [h]
        · rw [if_neg h]
          have : (p.1 == n) = false := by rw [beq_eq_false_iff_ne]; exact fun e => h e.symm
          rw [this]
      · rw [if_neg ho]
        have ih := xSetProblem_find l p n
        unfold xOption at ih ⊢
        rw [List.find?_cons, List.find?_cons]
        by_cases hn : (o.name == n) = true
        · rw [hn]
          dsimp only
          rw [if_neg]
          intro e
          rw [e] at hn
          exact ho hn
        · have hn' : (o.name == n) = false := by simpa using hn
          rw [hn']
          dsimp only
          exact ih

theorem xSetOption_find : ∀ (l : List XOption) (p : Option Tok × XCell) (n : Option Tok),
    xOption (xSetOption l p) n = if n = p.1 then some ⟨p.1, p.2, (xOption l n).bind (·.engine)⟩ else xOption l n
  | [], p, n => by
      unfold xSetOption xOption
      rw [List.find?_cons]
      by_cases h : n = p.1
      · rw [if_pos h]; simp [h]
      · rw [if_neg h]
        have : (p.1 == n) = false := by rw [beq_eq_false_iff_ne]; exact fun e => h e.symm
        simp [this]
  | o :: l, p, n => by
      unfold xSetOption
      by_cases ho : (o.name == p.1) = true
      · rw [if_pos ho]
        rw [beq_iff_eq] at ho
        unfold xOption
        rw [List.find?_cons, List.find?_cons]
        dsimp only
        rw [ho]
        by_cases h : n = p.1
        · rw [if_pos h]; simp [h]
        · rw [if_neg h]
          have : (p.1 == n) = false := by rw [beq_eq_false_iff_ne]; exact fun e => h e.symm
          rw [this]
      · rw [if_neg ho]
        have ih := xSetOption_find l p n
        unfold xOption at ih ⊢
        rw [List.find?_cons, List.find?_cons]
        by_cases hn : (o.name == n) = true
        · rw [hn]
          dsimp only
          rw [if_neg]
          intro e
          rw [e] at hn
          exact ho hn
        · have hn' : (o.name == n) = false := by simpa using hn
          rw [hn']
          dsimp only
          exact ih

theorem xSetProblem_names : ∀ (l : List XOption) (p : Option Tok × Bool × Option Tok),
    (xSetProblem l p).map (·.name) = if p.1 ∈ l.map (·.name) then l.map (·.name) else l.map (·.name) ++ [p.1]
  | [], p => by simp [xSetProblem]
  | o :: l, p => by
      unfold xSetProblem
      by_cases ho : (o.name == p.1) = true
      · rw [if_pos ho]
        rw [beq_iff_eq] at ho
        rw [if_pos (by simp [ho])]
        rfl
      · rw [if_neg ho]
        rw [beq_iff_eq] at ho
        rw [List.map_cons, xSetProblem_names l p, List.map_cons]
        by_cases h : p.1 ∈ l.map (·.name)
        · rw [if_pos h, if_pos (List.mem_cons_of_mem _ h)]
        · rw [if_neg h, if_neg]
          · rfl
          · rintro hm
            rcases List.mem_cons.mp hm with e | e
            · exact ho e.symm
            · exact h e

theorem xSetOption_names : ∀ (l : List XOption) (p : Option Tok × XCell),
    (xSetOption l p).map (·.name) = if p.1 ∈ l.map (·.name) then l.map (·.name) else l.map (·.name) ++ [p.1]
  | [], p => by simp [xSetOption]
  | o :: l, p => by
      unfold xSetOption
      by_cases ho : (o.name == p.1) = true
      · rw [if_pos ho]
        rw [beq_iff_eq] at ho
        rw [if_pos (by simp [ho])]
        rfl
      · rw [if_neg ho]
        rw [beq_iff_eq] at ho
        rw [List.map_cons, xSetOption_names l p, List.map_cons]
        by_cases h : p.1 ∈ l.map (·.name)
        · rw [if_pos h, if_pos (List.mem_cons_of_mem _ h)]
        · rw [if_neg h, if_neg]
          · rfl
          · rintro hm
            rcases List.mem_cons.mp hm with e | e
            · exact ho e.symm
            · exact h e

theorem nodup_step (l l' : List (Option Tok)) (n : Option Tok) (h : l.Nodup) (e : l' = if n ∈ l then l else l ++ [n]) : l'.Nodup := by
  rw [e]
  by_cases hn : n ∈ l
  · rw [if_pos hn]; exact h
  · rw [if_neg hn, List.nodup_append]
    refine ⟨h, List.nodup_singleton _, ?_⟩
    intro a ha b hb
    rw [List.mem_singleton] at hb
    subst hb
    exact fun e => hn (e ▸ ha)

/-- the last one that is given counts -/
theorem xSetProblem_fold (n : Option Tok) : ∀ (ps : List (Option Tok × Bool × Option Tok)) (l : List XOption),
    ((l.map (·.name)).Nodup → ((ps.foldl xSetProblem l).map (·.name)).Nodup) ∧
    (∀ a p b, ps = a ++ p :: b → p.1 = n → (∀ q ∈ b, q.1 ≠ n) → xOption (ps.foldl xSetProblem l) n = some ⟨n, .bool p.2.1, p.2.2⟩) ∧
    ((∀ q ∈ ps, q.1 ≠ n) → xOption (ps.foldl xSetProblem l) n = xOption l n)
  | [], l => ⟨fun h => h, fun a p b h => by simp at h, fun _ => rfl⟩
  | q :: ps, l => by
      obtain ⟨i1, i2, i3⟩ := xSetProblem_fold n ps (xSetProblem l q)
      rw [List.foldl_cons]
      refine ⟨fun h => i1 (nodup_step _ _ q.1 h (xSetProblem_names l q)), ?_, ?_⟩
      · intro a p b h hp hb
        cases a with
        | nil =>
          rw [List.nil_append] at h
          injection h with h1 h2
          subst h1
          subst h2
          rw [i3 hb, xSetProblem_find, if_pos hp.symm, hp]
        | cons a0 a =>
          rw [List.cons_append] at h
          injection h with h1 h2
          exact i2 a p b h2 hp hb
      · intro h
        rw [i3 (fun r hr => h r (List.mem_cons_of_mem _ hr)), xSetProblem_find, if_neg (fun e => h q List.mem_cons_self e.symm)]

theorem xSetOption_fold (n : Option Tok) : ∀ (ps : List (Option Tok × XCell)) (l : List XOption),
    ((l.map (·.name)).Nodup → ((ps.foldl xSetOption l).map (·.name)).Nodup) ∧
    (∀ a p b, ps = a ++ p :: b → p.1 = n → (∀ q ∈ b, q.1 ≠ n) → xOption (ps.foldl xSetOption l) n = some ⟨n, p.2, (xOption l n).bind (·.engine)⟩) ∧
    ((∀ q ∈ ps, q.1 ≠ n) → xOption (ps.foldl xSetOption l) n = xOption l n)
  | [], l => ⟨fun h => h, fun a p b h => by simp at h, fun _ => rfl⟩
  | q :: ps, l => by
      obtain ⟨i1, i2, i3⟩ := xSetOption_fold n ps (xSetOption l q)
      rw [List.foldl_cons]
      refine ⟨fun h => i1 (nodup_step _ _ q.1 h (xSetOption_names l q)), ?_, ?_⟩
      · intro a p b h hp hb
        cases a with
        | nil =>
          rw [List.nil_append] at h
          injection h with h1 h2
          subst h1
          subst h2
          rw [i3 hb, xSetOption_find, if_pos hp.symm, hp]
        | cons a0 a =>
          rw [List.cons_append] at h
          injection h with h1 h2
          rw [i2 a p b h2 hp hb, xSetOption_find]
          by_cases hq : n = q.1
          · rw [if_pos hq]
            rfl
          · rw [if_neg hq]
      · intro h
        rw [i3 (fun r hr => h r (List.mem_cons_of_mem _ hr)), xSetOption_find, if_neg (fun e => h q List.mem_cons_self e.symm)]

/-- the code of a name of the user: in any case, with hard or soft blanks -/
def xCode (names : List (Tok × Tok)) (t : Tok) : Option Tok := names.lookup (xLower (xSpaces t))

theorem xReferences_ok (sheet : XSheet) (titles : List Tok) (title : Tok) (names : List (Tok × Tok)) (ts : List Tok) (h : XUnder sheet titles title (ts.map .text)) :
    xReferences titles (sheet.drop 2) title names = .ok (some (ts.map (xCode names))) := by
  unfold xReferences
  rw [xColumnOf_under sheet titles title _ h]
  show (List.mapM (xReference names) (ts.map XCell.text)).map some = _
  have : (ts.map XCell.text).mapM (xReference names) = Except.ok (ts.map (xCode names)) := by
    rw [List.mapM_map]
    apply mapM_all
    intro t _
    rfl
  rw [this]
  rfl

/-- the names of problems and of characteristics are different -/
theorem xNames_disjoint (s t n : Tok) (h1 : xCode xProblemNames s = some n) (h2 : xCode xOptionNames t = some n) : False := by
  have key : ∀ (l : List (Tok × Tok)) (k v : Tok), l.lookup k = some v → v ∈ l.map (·.2) := by
    intro l
    induction l with
    | nil => intro k v h; simp at h
    | cons p l ih =>
      intro k v h
      rw [List.lookup_cons] at h
      split at h
      · injection h with h
        rw [← h]
        exact List.mem_cons_self
      · exact List.mem_cons_of_mem _ (ih k v h)
  have a := key _ _ _ h1
  have b := key _ _ _ h2
  have c : ∀ v ∈ xProblemNames.map (·.2), v ∉ xOptionNames.map (·.2) := by decide +kernel
  exact c n a b

/-- **C187.** A sheet of options with its five columns: afterwards there is one option for each name; a problem that the sheet gives has the state and the engine of its last row, a characteristic the value of
its last row; all the others are as before. -/
theorem C187_options (opts : List XOption) (sheet : XSheet) (titles : List Tok) (ht : xTitles ((sheet[1]?).getD []) = .ok titles)
    (problems : List (Tok × XCell × Tok)) (chars : List (Tok × XCell))
    (h1 : XUnder sheet titles "problem".toList (problems.map (fun p => .text p.1))) (h2 : XUnder sheet titles "active".toList (problems.map (fun p => p.2.1)))
    (h3 : XUnder sheet titles "engine".toList (problems.map (fun p => .text p.2.2))) (h4 : XUnder sheet titles "characteristics".toList (chars.map (fun p => .text p.1)))
    (h5 : XUnder sheet titles "options".toList (chars.map (fun p => p.2))) (h6 : "paths".toList ∉ titles) :
    ∃ r, xOptions opts sheet = .ok (r, false) ∧
      ((opts.map (·.name)).Nodup → (r.map (·.name)).Nodup) ∧
      (∀ (n : Tok) (a : List (Tok × XCell × Tok)) (p : Tok × XCell × Tok) (b : List (Tok × XCell × Tok)), problems = a ++ p :: b → xCode xProblemNames p.1 = some n →
        (∀ q ∈ b, xCode xProblemNames q.1 ≠ some n) → xOption r (some n) = some ⟨some n, .bool (xActive p.2.1), xCode xEngineNames p.2.2⟩) ∧
      (∀ (n : Tok) (a : List (Tok × XCell)) (p : Tok × XCell) (b : List (Tok × XCell)), chars = a ++ p :: b → xCode xOptionNames p.1 = some n →
        (∀ q ∈ b, xCode xOptionNames q.1 ≠ some n) → xOption r (some n) = some ⟨some n, p.2, (xOption opts (some n)).bind (·.engine)⟩) ∧
      (∀ n : Tok, (∀ q ∈ problems, xCode xProblemNames q.1 ≠ some n) → (∀ q ∈ chars, xCode xOptionNames q.1 ≠ some n) → xOption r (some n) = xOption opts (some n)) := by
  have e1 := xReferences_ok sheet titles "problem".toList xProblemNames (problems.map (·.1)) (by rw [List.map_map]; exact h1)
  have e3 := xReferences_ok sheet titles "engine".toList xEngineNames (problems.map (·.2.2)) (by rw [List.map_map]; exact h3)
  have e4 := xReferences_ok sheet titles "characteristics".toList xOptionNames (chars.map (·.1)) (by rw [List.map_map]; exact h4)
  have e2 := xColumnOf_under sheet titles _ _ h2
  have e5 := xColumnOf_under sheet titles _ _ h5
  have e6 := xColumnOf_none titles (sheet.drop 2) _ h6
  let P : List (Option Tok × Bool × Option Tok) := problems.map (fun p => (xCode xProblemNames p.1, xActive p.2.1, xCode xEngineNames p.2.2))
  let C : List (Option Tok × XCell) := chars.map (fun p => (xCode xOptionNames p.1, p.2))
  have z1 : ((problems.map (·.1)).map (xCode xProblemNames)).zip (((problems.map (fun p => p.2.1)).map xActive).zip ((problems.map (·.2.2)).map (xCode xEngineNames))) = P := by
    show _ = problems.map _
    rw [List.map_map, List.map_map, List.map_map, List.zip_map', List.zip_map']
    rfl
  have z2 : ((chars.map (·.1)).map (xCode xOptionNames)).zip (chars.map (fun p => p.2)) = C := by
    show _ = chars.map _
    rw [List.map_map, List.zip_map']
    rfl
  have hr : xOptions opts sheet = .ok (C.foldl xSetOption (P.foldl xSetProblem opts), false) := by
    unfold xOptions
    rw [ht]
    simp only [bind, Except.bind]
    unfold xBools
    rw [e2]
    dsimp only
    rw [e1]
    dsimp only
    rw [e3]
    dsimp only
    rw [e4]
    dsimp only [xLen]
    unfold xProblems
    rw [if_pos (by simp)]
    dsimp only
    rw [e5]
    dsimp only
    unfold xCharacteristics
    rw [if_pos (by simp)]
    dsimp only
    rw [e6, z1, z2]
    rfl
  have hCn : ∀ s n : Tok, xCode xProblemNames s = some n → ∀ q ∈ C, q.1 ≠ some n := by
    intro s n hs q hq hqn
    obtain ⟨c, _, rfl⟩ := List.mem_map.mp hq
    exact xNames_disjoint s c.1 n hs hqn
  have hPn : ∀ s n : Tok, xCode xOptionNames s = some n → ∀ q ∈ P, q.1 ≠ some n := by
    intro s n hs q hq hqn
    obtain ⟨c, _, rfl⟩ := List.mem_map.mp hq
    exact xNames_disjoint c.1 s n hqn hs
  refine ⟨_, hr, ?_, ?_, ?_, ?_⟩
  · intro h
    exact (xSetOption_fold none C _).1 ((xSetProblem_fold none P opts).1 h)
  · intro n a p b he hn hb
    rw [(xSetOption_fold (some n) C _).2.2 (hCn p.1 n hn)]
    exact (xSetProblem_fold (some n) P opts).2.1 (a.map (fun p => (xCode xProblemNames p.1, xActive p.2.1, xCode xEngineNames p.2.2)))
      (xCode xProblemNames p.1, xActive p.2.1, xCode xEngineNames p.2.2) (b.map (fun p => (xCode xProblemNames p.1, xActive p.2.1, xCode xEngineNames p.2.2)))
      (by show problems.map _ = _; rw [he, List.map_append, List.map_cons]) hn (by
        intro q hq
        obtain ⟨c, hc, rfl⟩ := List.mem_map.mp hq
        exact hb c hc)
  · intro n a p b he hn hb
    have := (xSetOption_fold (some n) C (P.foldl xSetProblem opts)).2.1 (a.map (fun p => (xCode xOptionNames p.1, p.2)))
      (xCode xOptionNames p.1, p.2) (b.map (fun p => (xCode xOptionNames p.1, p.2)))
      (by show chars.map _ = _; rw [he, List.map_append, List.map_cons]) hn (by
        intro q hq
        obtain ⟨c, hc, rfl⟩ := List.mem_map.mp hq
        exact hb c hc)
    rw [this, (xSetProblem_fold (some n) P opts).2.2 (hPn p.1 n hn)]
  · intro n hp hc
    rw [(xSetOption_fold (some n) C _).2.2 (by
        intro q hq
        obtain ⟨c, hcm, rfl⟩ := List.mem_map.mp hq
        exact hc c hcm),
      (xSetProblem_fold (some n) P opts).2.2 (by
        intro q hq
        obtain ⟨c, hcm, rfl⟩ := List.mem_map.mp hq
        exact hp c hcm)]

/-- **C187.** Without a column 'active': ValueError. -/
theorem C187_noActive (opts : List XOption) (sheet : XSheet) (titles : List Tok) (ht : xTitles ((sheet[1]?).getD []) = .ok titles) (h : "active".toList ∉ titles) :
    xOptions opts sheet = .error .value := by
  unfold xOptions
  rw [ht]
  simp only [bind, Except.bind]
  unfold xBools
  rw [xColumnOf_none titles _ _ h]

/-- **C187.** Columns of different lengths: ValueError. -/
theorem C187_lengths (opts : List XOption) (sheet : XSheet) (titles : List Tok) (ht : xTitles ((sheet[1]?).getD []) = .ok titles)
    (ps es cs : List Tok) (as : List XCell) (h1 : XUnder sheet titles "problem".toList (ps.map .text)) (h2 : XUnder sheet titles "active".toList as)
    (h3 : XUnder sheet titles "engine".toList (es.map .text)) (h4 : XUnder sheet titles "characteristics".toList (cs.map .text)) (hne : ps.length ≠ as.length ∨ ps.length ≠ es.length) :
    xOptions opts sheet = .error .value := by
  unfold xOptions
  rw [ht]
  simp only [bind, Except.bind]
  unfold xBools
  rw [xColumnOf_under sheet titles _ _ h2]
  dsimp only
  rw [xReferences_ok sheet titles _ _ ps h1]
  dsimp only
  rw [xReferences_ok sheet titles _ _ es h3]
  dsimp only
  rw [xReferences_ok sheet titles _ _ cs h4]
  dsimp only [xLen]
  unfold xProblems
  rw [if_neg]
  simp only [List.length_map]
  omega

/-- **C187.** Without a column of problems (but with the others): TypeError, not a message about the column. -/
theorem C187_noProblem (opts : List XOption) (sheet : XSheet) (titles : List Tok) (ht : xTitles ((sheet[1]?).getD []) = .ok titles)
    (es cs : List Tok) (as : List XCell) (h1 : "problem".toList ∉ titles) (h2 : XUnder sheet titles "active".toList as)
    (h3 : XUnder sheet titles "engine".toList (es.map .text)) (h4 : XUnder sheet titles "characteristics".toList (cs.map .text)) :
    xOptions opts sheet = .error .type := by
  unfold xOptions
  rw [ht]
  simp only [bind, Except.bind]
  unfold xBools
  rw [xColumnOf_under sheet titles _ _ h2]
  dsimp only
  unfold xReferences
  rw [xColumnOf_none titles _ _ h1]
  dsimp only
  have e3 := xReferences_ok sheet titles "engine".toList xEngineNames es h3
  have e4 := xReferences_ok sheet titles "characteristics".toList xOptionNames cs h4
  unfold xReferences at e3 e4
  rw [e3]
  dsimp only
  rw [e4]
  rfl

/-- C187 (what a user can run into).  What counts as active: True, 1, and the texts; a number 1.0 or the text 'yes' does not, without a message. -/
theorem C187_active : (∀ t, xLower t = "true".toList ∨ xLower t = "=true".toList → xActive (.text t) = true) ∧ xActive (.int 1) = true ∧ xActive (.bool true) = true ∧
    xActive (.num 1) = false ∧ xActive (.text "yes".toList) = false ∧ xActive (.int 2) = false := by
  refine ⟨?_, by decide +kernel, by decide +kernel, by decide +kernel, by decide +kernel, by decide +kernel⟩
  intro t h
  show (xLower t == "=true".toList || xLower t == "true".toList) = true
  rcases h with h | h
  · rw [h]; decide +kernel
  · rw [h]; decide +kernel

/-- C187 (what a user can run into).  'Losses' is not known, only 'Lossess'; all the names that are not known share one option without a name, which is overwritten in turn. -/
theorem C187_losses : xCode xOptionNames "Losses".toList = none ∧ xCode xOptionNames "Lossess".toList = some "loss".toList ∧
    (∀ (l : List XOption) (a b : Option Tok × XCell), a.1 = none → b.1 = none → xOption (xSetOption (xSetOption l a) b) none = some ⟨none, b.2, (xOption l none).bind (·.engine)⟩) := by
  refine ⟨by decide +kernel, by decide +kernel, ?_⟩
  intro l a b ha hb
  rw [xSetOption_find, if_pos hb.symm, hb, xSetOption_find, if_pos ha.symm]
  rfl

/-- an example -/
def xOptionsExample : XSheet :=
  [[some (.text "model".toList)],
   [some (.text "Problem".toList), some (.text "Active".toList), some (.text "Engine".toList), some (.text "Characteristics".toList), some (.text "Options".toList)],
   [some (.text "Balance Tree".toList), some (.bool true), some (.text "Pyene".toList), some (.text "Solver".toList), some (.text "CLP".toList)],
   [some (.text "dc opf".toList), some (.int 0), some (.text "pyene".toList), some (.text "Representative periods".toList), some (.bool true)],
   [some (.text "BT".toList), some (.text "TRUE".toList), some (.text "FDIF".toList)]]

theorem C187_witness : (xOptions [] xOptionsExample).toOption = some ([⟨some "BT".toList, .bool true, some "fdif".toList⟩, ⟨some "DC OPF".toList, .bool false, some "pyene".toList⟩,
    ⟨some "solver".toList, .text "CLP".toList, none⟩, ⟨some "representative periods".toList, .bool true, none⟩], false) ∧
    (XUnder xOptionsExample ["problem".toList, "active".toList, "engine".toList, "characteristics".toList, "options".toList] "engine".toList
      [.text "Pyene".toList, .text "pyene".toList, .text "FDIF".toList]) := by
  refine ⟨by decide +kernel, by simp, 2, by decide +kernel, ?_, ?_, by decide +kernel⟩
  · intro j hj
    match j, hj with
    | 0, _ => decide +kernel
    | 1, _ => decide +kernel
  · intro i c hc
    match i, hc with
    | 0, hc => injection hc with hc; subst hc; decide +kernel
    | 1, hc => injection hc with hc; subst hc; decide +kernel
    | 2, hc => injection hc with hc; subst hc; decide +kernel
    | i + 3, hc => simp at hc

end Pyensys
