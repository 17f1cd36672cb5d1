import Verif.Model.SaveJson

/-!
# C240-C242: saving a plan, reading an input file by its path
-/

namespace Pyensys

/-! ## Vocabulary -/

/-- the cell of a saved table, by column and row -/
def SjDict.cell (d : SjDict) (column : String) (row : Nat) : Option SjCell := ((d.find? (fun c => c.1 = column)).bind (fun c => c.2.find? (fun v => v.1 = row))).map (·.2)

/-- a saved entry holds exactly the cells of a frame -/
structure SjHolds (f : SjFrame) (d : SjDict) : Prop where
  columns : d.map (·.1) = f.columns
  cells : ∀ (i j : Nat) (c : String) (r : List SjCell) (v : SjCell), f.columns[j]? = some c → f.rows[i]? = some r → r[j]? = some v → d.cell c i = some v
  only : ∀ (i : Nat) (c : String) (v : SjCell), d.cell c i = some v → ∃ (j : Nat) (r : List SjCell), f.columns[j]? = some c ∧ f.rows[i]? = some r ∧ r[j]? = some v

/-! ## Lemmas -/

theorem sj_find_aux (rows : List (List SjCell)) (j i : Nat) : ∀ k : Nat,
    ((rows.zipIdx k).filterMap (fun r => (r.1[j]?).map (fun v => (r.2, v)))).find? (fun v => v.1 = k + i) = (rows[i]?).bind (fun r => (r[j]?).map (fun v => (k + i, v))) := by
  induction rows generalizing i with
  | nil => intro k; simp
  | cons r rs ih =>
    intro k
    rw [List.zipIdx_cons, List.filterMap_cons]
    cases i with
    | zero =>
      cases hv : r[j]? with
      | some v => simp [hv]
      | none =>
        simp only [hv, Option.map_none, List.getElem?_cons_zero, Option.bind_some]
        rw [List.find?_eq_none]
        intro x hx
        obtain ⟨a, ha, hb⟩ := List.mem_filterMap.1 hx
        have hle : k + 1 ≤ a.2 := by
          have := List.le_snd_of_mem_zipIdx ha
          exact this
        cases hq : a.1[j]? with
        | none => rw [hq] at hb; cases hb
        | some w =>
          rw [hq] at hb
          injection hb with hb
          rw [← hb]
          simp
          omega
    | succ i =>
      have he : k + (i + 1) = (k + 1) + i := by omega
      have := ih i (k + 1)
      rw [List.getElem?_cons_succ]
      cases hv : r[j]? with
      | none =>
        simp only [hv, Option.map_none]
        rw [he]
        exact this
      | some v =>
        simp only [hv, Option.map_some]
        rw [List.find?_cons_of_neg (by simp), he]
        exact this

theorem sj_find (rows : List (List SjCell)) (j i : Nat) :
    (rows.zipIdx.filterMap (fun r => (r.1[j]?).map (fun v => (r.2, v)))).find? (fun v => v.1 = i) = (rows[i]?).bind (fun r => (r[j]?).map (fun v => (i, v))) := by
  have := sj_find_aux rows j i 0
  simpa using this

theorem sj_column_aux (g : Nat → List (Nat × SjCell)) (c : String) : ∀ (cols : List String) (k j : Nat), cols.Nodup → cols[j]? = some c →
    ((cols.zipIdx k).map (fun x => (x.1, g x.2))).find? (fun x => x.1 = c) = some (c, g (k + j)) := by
  intro cols
  induction cols with
  | nil => intro k j _ h; simp at h
  | cons a as ih =>
    intro k j hnd h
    rw [List.zipIdx_cons, List.map_cons]
    cases j with
    | zero =>
      simp only [List.getElem?_cons_zero, Option.some.injEq] at h
      subst h
      simp
    | succ j =>
      rw [List.getElem?_cons_succ] at h
      have hne : a ≠ c := fun e => (List.nodup_cons.1 hnd).1 (e ▸ List.mem_of_getElem? h)
      rw [List.find?_cons_of_neg (by simpa using hne), ih (k + 1) j (List.nodup_cons.1 hnd).2 h]
      congr 3
      omega

theorem sj_cell (f : SjFrame) (hnd : f.columns.Nodup) (j i : Nat) (c : String) (hj : f.columns[j]? = some c) :
    (sjToDict f).cell c i = (f.rows[i]?).bind (fun r => r[j]?) := by
  unfold SjDict.cell sjToDict
  rw [sj_column_aux (fun j => f.rows.zipIdx.filterMap (fun r => (r.1[j]?).map (fun v => (r.2, v)))) c f.columns 0 j hnd hj]
  simp only [Option.bind_some, Nat.zero_add, sj_find]
  cases f.rows[i]? with
  | none => rfl
  | some r => cases h : r[j]? <;> simp [h]

theorem sj_holds (f : SjFrame) (hnd : f.columns.Nodup) : SjHolds f (sjToDict f) := by
  refine ⟨?_, ?_, ?_⟩
  · unfold sjToDict
    rw [List.map_map]
    have : ((fun x : String × List (Nat × SjCell) => x.1) ∘ fun c : String × Nat => (c.1, f.rows.zipIdx.filterMap (fun r => (r.1[c.2]?).map (fun v => (r.2, v))))) = Prod.fst := rfl
    rw [this]
    exact List.zipIdx_map_fst 0 f.columns
  · intro i j c r v hj hr hv
    rw [sj_cell f hnd j i c hj, hr]
    exact hv
  · intro i c v h
    have hc : c ∈ f.columns := by
      unfold SjDict.cell sjToDict at h
      cases hf : (f.columns.zipIdx.map (fun c => (c.1, f.rows.zipIdx.filterMap (fun r => (r.1[c.2]?).map (fun v => (r.2, v)))))).find? (fun x => x.1 = c) with
      | none => rw [hf] at h; cases h
      | some x =>
        have h1 := List.mem_of_find?_eq_some hf
        have h2 := List.find?_some hf
        obtain ⟨y, hy, he⟩ := List.mem_map.1 h1
        simp only [decide_eq_true_eq] at h2
        rw [← h2, ← he]
        exact List.fst_mem_of_mem_zipIdx hy
    obtain ⟨j, hj⟩ := List.getElem?_of_mem hc
    rw [sj_cell f hnd j i c hj] at h
    cases hr : f.rows[i]? with
    | none => rw [hr] at h; cases h
    | some r => rw [hr] at h; exact ⟨j, r, hj, rfl, h⟩

theorem sjLoop_frames (l : List (String × SjFrame)) :
    sjLoop (l.map (fun e => .entry e.1 (.frame e.2))) = (l.map (fun e => .entry e.1 (.dict (sjToDict e.2))), none) := by
  induction l with
  | nil => rfl
  | cons e l ih => simp only [List.map_cons, sjLoop, sjItem, ih]

/-! ## C240 -/

/-- **C240.** A list of tables (the first component of what the access function returns) is saved without an exception, whatever the file held before: the file has the same groups in
the same order and exactly the cells of the tables. -/
theorem C240_saved_partial (l : List (String × SjFrame)) (hl : ∀ e ∈ l, e.2.columns.Nodup) (file : Option (List SjItem)) :
    ∃ ds : List (String × SjDict), (sjSave (l.map (fun e => .entry e.1 (.frame e.2))) file).error = none ∧
      (sjSave (l.map (fun e => .entry e.1 (.frame e.2))) file).file = some (ds.map (fun e => .entry e.1 (.dict e.2))) ∧
      List.Forall₂ (fun (e : String × SjFrame) (d : String × SjDict) => d.1 = e.1 ∧ SjHolds e.2 d.2) l ds := by
  refine ⟨l.map (fun e => (e.1, sjToDict e.2)), ?_, ?_, ?_⟩
  · unfold sjSave; rw [sjLoop_frames]
  · unfold sjSave
    rw [sjLoop_frames, List.map_map]
    rfl
  · clear file
    induction l with
    | nil => exact List.Forall₂.nil
    | cons e l ih =>
      exact List.Forall₂.cons ⟨rfl, sj_holds e.2 (hl e (List.mem_cons_self ..))⟩ (ih (fun x hx => hl x (List.mem_cons_of_mem _ hx)))

/-- **C240.** For the tables of a plan: the saved file shows every row of the three tables and no other. -/
theorem C240_plan_partial (t : Tables) (file : Option (List SjItem)) :
    ∃ d1 d2 d3 : SjDict, (sjSave (sjTables t) file).error = none ∧
      (sjSave (sjTables t) file).file = some [.entry "lines" (.dict d1), .entry "investment_costs" (.dict d2), .entry "operation_costs" (.dict d3)] ∧
      (∀ (i : Nat) (s : Nat) (y : Int) (p : Pos), t.lines[i]? = some (s, y, p) ↔
        (d1.cell "scenario" i = some (.num s) ∧ d1.cell "year" i = some (.num y) ∧ d1.cell "line_index" i = some (.pos p))) ∧
      (∀ (i : Nat) (s : Nat) (c : Option Rat), t.investment[i]? = some (s, c) ↔ (d2.cell "scenario" i = some (.num s) ∧ d2.cell "cost" i = some (.cost c))) ∧
      (∀ (i : Nat) (s : Nat) (c : Option Rat), t.operation[i]? = some (s, c) ↔ (d3.cell "scenario" i = some (.num s) ∧ d3.cell "cost" i = some (.cost c))) := by
  refine ⟨_, _, _, rfl, rfl, ?_, ?_, ?_⟩
  · intro i s y p
    rw [sj_cell _ (by simp) 0 i "scenario" rfl, sj_cell _ (by simp) 1 i "year" rfl, sj_cell _ (by simp) 2 i "line_index" rfl]
    simp only [List.getElem?_map]
    cases t.lines[i]? with
    | none => simp
    | some r =>
      obtain ⟨a, b, c⟩ := r
      simp
  · intro i s c
    rw [sj_cell _ (by simp) 0 i "scenario" rfl, sj_cell _ (by simp) 1 i "cost" rfl]
    simp only [List.getElem?_map]
    cases t.investment[i]? with
    | none => simp
    | some r =>
      obtain ⟨a, b⟩ := r
      simp
  · intro i s c
    rw [sj_cell _ (by simp) 0 i "scenario" rfl, sj_cell _ (by simp) 1 i "cost" rfl]
    simp only [List.getElem?_map]
    cases t.operation[i]? with
    | none => simp
    | some r =>
      obtain ⟨a, b⟩ := r
      simp

/-- **C240 fails for what the access function returns:** whatever the problem, the search and the file, saving the returned value raises TypeError and the file stays as it was. -/
theorem C240_violated (na : Bool) (cfg : Cfg) (td : TreeData) (fuel : Nat) (r : Option Tables) (_ : accessFunction na cfg td fuel = .ok r) (file : Option (List SjItem)) :
    (sjSaveReturned r file).error = some .type ∧ (sjSaveReturned r file).file = file := by
  cases r with
  | none => exact ⟨rfl, rfl⟩
  | some t => exact ⟨rfl, rfl⟩

/-! ## C241 -/

/-- **C241 fails:** saving replaces the tables in the value that is saved; saving the same value again raises AttributeError and leaves the file as it was. -/
theorem C241_violated (e : String × SjFrame) (l : List (String × SjFrame)) (file file' : Option (List SjItem)) :
    (∀ x ∈ (sjSave ((e :: l).map (fun e => .entry e.1 (.frame e.2))) file).items, ∀ g f, x ≠ .entry g (.frame f)) ∧
    (sjSave (sjSave ((e :: l).map (fun e => .entry e.1 (.frame e.2))) file).items file').error = some .attribute ∧
    (sjSave (sjSave ((e :: l).map (fun e => .entry e.1 (.frame e.2))) file).items file').file = file' := by
  have h : (sjSave ((e :: l).map (fun e => .entry e.1 (.frame e.2))) file).items = (e :: l).map (fun e => .entry e.1 (.dict (sjToDict e.2))) := by
    unfold sjSave; rw [sjLoop_frames]
  rw [h]
  refine ⟨?_, rfl, rfl⟩
  intro x hx g f
  obtain ⟨y, _, rfl⟩ := List.mem_map.1 hx
  intro he
  injection he with _ he
  cases he

/-- **C241.** What the file holds after a save that succeeded is what the value holds then: the file is never written from anything else, and a save that failed writes nothing. -/
theorem C241_file_partial (items : List SjItem) (file : Option (List SjItem)) :
    ((sjSave items file).error = none → (sjSave items file).file = some (sjSave items file).items) ∧
    ((sjSave items file).error ≠ none → (sjSave items file).file = file) := by
  unfold sjSave
  split
  · exact ⟨(fun h => by cases h), fun _ => rfl⟩
  · exact ⟨fun _ => rfl, fun h => absurd rfl h⟩

/-! ## C242 -/

theorem sj_takeWhile {l : List Char} {c : Char} (h : c ∉ l) (r : List Char) : (l ++ c :: r).takeWhile (· ≠ c) = l := by
  induction l with
  | nil => simp
  | cons a as ih =>
    have ha : a ≠ c := fun e => h (e ▸ List.mem_cons_self ..)
    rw [List.cons_append, List.takeWhile_cons_of_pos (by simpa using ha), ih (fun hc => h (List.mem_cons_of_mem _ hc))]

theorem sj_takeWhile_all {l : List Char} {c : Char} (h : c ∉ l) : l.takeWhile (· ≠ c) = l := by
  induction l with
  | nil => rfl
  | cons a as ih =>
    have ha : a ≠ c := fun e => h (e ▸ List.mem_cons_self ..)
    rw [List.takeWhile_cons_of_pos (by simpa using ha), ih (fun hc => h (List.mem_cons_of_mem _ hc))]

/-- the name of a path: with or without directories -/
theorem sjName_eq (dir name : List Char) (h : '/' ∉ name) : sjName name = name ∧ sjName (dir ++ '/' :: name) = name := by
  have h' : '/' ∉ name.reverse := by simpa using h
  constructor
  · unfold sjName
    rw [sj_takeWhile_all h', List.reverse_reverse]
  · unfold sjName
    rw [List.reverse_append, List.reverse_cons, List.append_assoc, List.singleton_append, sj_takeWhile h', List.reverse_reverse]

/-- the extension of a name whose first letter is no dot -/
theorem sjExt_eq (path : List Char) (a : Char) (stem e : List Char) (hn : sjName path = a :: stem ++ '.' :: e) (ha : a ≠ '.') (he : '.' ∉ e) : sjExt path = '.' :: e := by
  have hd : (sjName path).dropWhile (· = '.') = a :: stem ++ '.' :: e := by
    rw [hn, List.cons_append, List.dropWhile_cons_of_neg (by simpa using ha)]
  have he' : '.' ∉ e.reverse := by simpa using he
  unfold sjExt
  rw [hd, if_pos (by simp)]
  rw [List.reverse_append, List.reverse_cons, List.append_assoc, List.singleton_append, sj_takeWhile he', List.reverse_reverse]

/-- **C242.** A file `name.json`, in any directory (the name does not begin with a dot), is read: the parameters are those of its document, and a document or file that cannot be read
is an exception. -/
theorem C242_json_partial {P T : Type} (env : ReadEnv P T) (dir name : List Char) (a : Char) (hs : '/' ∉ a :: name) (ha : a ≠ '.') (doc : Except PyErr (List (String × Json)))
    (path : List Char) (hp : path = a :: name ++ ".json".toList ∨ path = dir ++ '/' :: (a :: name ++ ".json".toList)) :
    sjRead env path doc = match doc with
      | .ok d => readDocument env {} d
      | .error e => .error e := by
  have hslash : '/' ∉ a :: name ++ ".json".toList := by
    intro h
    rcases List.mem_append.1 h with h | h
    · exact hs h
    · revert h; decide
  have hn : sjName path = a :: name ++ '.' :: "json".toList := by
    rcases hp with rfl | rfl
    · exact (sjName_eq dir _ hslash).1
    · exact (sjName_eq dir _ hslash).2
  have hx : sjExt path = ".json".toList := sjExt_eq path a name "json".toList hn ha (by decide)
  unfold sjRead
  rw [if_pos hx]
  cases doc <;> rfl

/-- **C242 fails for other extensions:** a file whose extension is anything else, for example `.JSON` or `.xlsx`, is not read and not rejected: all settings are the defaults. -/
theorem C242_violated {P T : Type} (env : ReadEnv P T) (dir name e : List Char) (a : Char) (hs : '/' ∉ a :: name ++ '.' :: e) (ha : a ≠ '.') (he : '.' ∉ e) (hj : e ≠ "json".toList)
    (doc : Except PyErr (List (String × Json))) : sjRead env (dir ++ '/' :: (a :: name ++ '.' :: e)) doc = .ok ({} : Params P T) := by
  have hx : sjExt (dir ++ '/' :: (a :: name ++ '.' :: e)) = '.' :: e := sjExt_eq _ a name e (sjName_eq dir _ hs).2 ha he
  unfold sjRead
  rw [if_neg]
  rw [hx]
  intro h
  apply hj
  have h2 : ".json".toList = '.' :: "json".toList := rfl
  rw [h2] at h
  injection h

/-! ## cases -/

/-- a plan with two lines -/
def sjEx : Tables := ⟨[(1, 2020, .single 3), (2, 2030, .cluster [1, 4])], [(1, some 5), (2, none)], [(1, some 7)]⟩

example : (sjSave (sjTables sjEx) none).error = none ∧
    (match (sjSave (sjTables sjEx) none).file with
      | some (.entry "lines" (.dict d) :: _) => d.cell "line_index" 1
      | _ => none) = some (.pos (.cluster [1, 4])) := by decide

example : sjExt "data/.hidden".toList = [] ∧ sjExt "a.b/c".toList = [] ∧ sjExt "a.b/c.d.json".toList = ".json".toList ∧ sjExt "case.JSON".toList = ".JSON".toList := by decide

end Pyensys
