import Verif.Props.EngineLimits

/-!
# Other updates of the compiled engine, and examples

C205, violated: updates that are ignored, that end the program or that leave the engine without a program.
-/

namespace Pyensys

/-! ## updates that are ignored -/

/-- **C205** violated: every parameter of the network but the maximum power and the status is ignored, and so is the status of anything but branches: the engine stays as it is, and the code is that of success. -/
theorem C205_ignored_violated (cand : CInfo) (e : CEngine) (name type : Tok) (h1 : (cGetChar cand.chars "problem".toList).value = .str "DC OPF".toList) (h2 : (cGetChar cand.chars "name".toList).value = .str name)
    (h3 : (cGetChar cand.chars "type".toList).value = .str type) (h : (name ≠ "active power max limit".toList ∧ name ≠ "status".toList) ∨ (name = "status".toList ∧ type ≠ "branch".toList)) :
    cUpdateParameter cand e = .ok (e, 0) := by
  unfold cUpdateParameter
  rw [h1, getStr_bind]
  beta_reduce
  rw [if_neg (c := "DC OPF".toList = "BT".toList) (by decide), if_pos (c := "DC OPF".toList = "DC OPF".toList) rfl, h2, getStr_bind]
  beta_reduce
  rcases h with ⟨a, b⟩ | ⟨rfl, b⟩
  · rw [if_neg (c := name = "active power max limit".toList) a, if_neg (c := name = "status".toList) b]
  · rw [if_neg (c := "status".toList = "active power max limit".toList) (by decide), if_pos (c := "status".toList = "status".toList) rfl]
    unfold cUpdateStatus
    rw [h3, getStr_bind]
    beta_reduce
    rw [if_neg b]

/-! ## updates that end the program -/

/-- **C205** violated: a new limit for an element that does not exist is not refused: the engine writes outside its data. -/
theorem C205_unknown_violated (cand : CInfo) (e : CEngine) (m : Rat) (type : Tok) (h1 : (cGetChar cand.chars "problem".toList).value = .str "DC OPF".toList) (h2 : (cGetChar cand.chars "name".toList).value = .str "active power max limit".toList)
    (h3 : (cGetChar cand.chars "type".toList).value = .str type) (hm : cand.value = .dbl m)
    (hno : ∀ v ∈ e.verts, ¬ ((cGetChar v.chars "type".toList).value = .str type ∧ cIdent v = (cGetChar cand.chars "ID".toList).value)) : cUpdateParameter cand e = .error .undefined := by
  have hpos : cPosition e type (cGetChar cand.chars "ID".toList).value = none := by
    unfold cPosition
    rw [Option.map_eq_none_iff, List.find?_eq_none]
    intro q hq hh
    rw [Bool.and_eq_true] at hh
    exact hno q.1 (by
      rw [List.mem_zipIdx_iff_getElem?] at hq
      exact List.mem_of_getElem? hq) ⟨of_decide_eq_true hh.1, of_decide_eq_true hh.2⟩
  rw [cUpdate_max h1 h2]
  unfold cUpdateMax
  rw [hm, h3]
  show (Except.map _ (match cPosition e type (cGetChar cand.chars "ID".toList).value with | none => _ | some n => _)) = _
  rw [hpos]
  rfl

theorem cTarget_length (chars : List CChar) (h : cHas chars "pt".toList = false ∨ cHas chars "hour".toList = false) : (cTarget chars).length ≤ 2 := by
  have one : ∀ (l : List CChar) (c : CChar), (cSetChar l c false).length ≤ l.length + 1 := by
    intro l c
    induction l with
    | nil => exact le_refl _
    | cons a l ih =>
      unfold cSetChar
      split
      · simp
      · simpa using ih
  unfold cTarget
  rcases h with h | h
  · rw [h]
    dsimp only
    rw [if_neg (c := false = true) (by simp)]
    split
    · exact one _ _
    · simp
  · rw [h]
    dsimp only
    rw [if_neg (c := false = true) (by simp)]
    split
    · exact one _ _
    · simp

/-- **C205** violated: in a model with representative periods and hours, a new limit for all of them (a representative period or an hour is not given) is not refused: the engine writes outside its data. -/
theorem C205_whole_violated (subs : List CWhen) (ws : List CVertex) (p : CProb) (hP : CProgram subs ws p) (hsub : ∀ s ∈ subs, s.1 ≠ [] ∧ s.2 ≠ -1) (e : CEngine) (he : CLive ws p e)
    (cand : CInfo) (m : Rat) (type : Tok) (h1 : (cGetChar cand.chars "problem".toList).value = .str "DC OPF".toList) (h2 : (cGetChar cand.chars "name".toList).value = .str "active power max limit".toList)
    (h3 : (cGetChar cand.chars "type".toList).value = .str type) (hm : cand.value = .dbl m) (hno : cHas cand.chars "pt".toList = false ∨ cHas cand.chars "hour".toList = false) :
    cUpdateParameter cand e = .error .undefined := by
  have hp := cParts_of hP.prob
  have hvar : ∀ n, cVarAt e.cols n (cTarget cand.chars) = none := by
    intro n
    rw [cVarAt_none, he.cols]
    rintro c hc ⟨_, hkey⟩
    obtain ⟨s, hs, _, h⟩ := cCol_period hp hc
    have hlen := cTarget_length cand.chars hno
    rw [← hkey] at hlen
    unfold cKey at hlen
    rw [h, (cWith_sub [] s (hsub s hs).1 (hsub s hs).2).1] at hlen
    unfold cSub at hlen
    simp at hlen
  rw [cUpdate_max h1 h2]
  unfold cUpdateMax
  rw [hm, h3]
  show (Except.map _ (match cPosition e type (cGetChar cand.chars "ID".toList).value with | none => _ | some n => _)) = _
  cases cPosition e type (cGetChar cand.chars "ID".toList).value with
  | none => rfl
  | some n =>
    dsimp only
    rw [hvar n]
    rfl

/-! ## the status of a branch -/

theorem cUpdate_status {cand : CInfo} {e : CEngine} (h1 : (cGetChar cand.chars "problem".toList).value = .str "DC OPF".toList) (h2 : (cGetChar cand.chars "name".toList).value = .str "status".toList) :
    cUpdateParameter cand e = cUpdateStatus cand e := by
  unfold cUpdateParameter
  rw [h1, h2, getStr_bind]
  beta_reduce
  rw [if_neg (c := "DC OPF".toList = "BT".toList) (by decide), if_pos (c := "DC OPF".toList = "DC OPF".toList) rfl, getStr_bind]
  beta_reduce
  rw [if_neg (c := "status".toList = "active power max limit".toList) (by decide), if_pos (c := "status".toList = "status".toList) rfl]

/-- an evaluation of an engine whose solver has no solution fails -/
theorem cEvaluate_empty {e : CEngine} (h : e.loaded.cols = []) (hne : cOf cIsBus e.verts ≠ [] ∨ cOf cIsGen e.verts ≠ []) (x : CId → Rat) (cand : List CChar) (e' : CEngine) : cEvaluate x cand e ≠ .ok e' := by
  have hs : cSolve e.loaded (cAsked cand) x e.sol = [] := by
    unfold cSolve
    rw [h]
    rfl
  have bad : ∀ (node : Nat) (name : Tok) (vals vals' : List Rat), cStore e.cols [] (cAsked cand) node name vals ≠ .ok vals' := by
    intro node name vals vals' hh
    unfold cStore cStoreAt at hh
    split at hh
    · cases hh
    · simp at hh
  intro hh
  unfold cEvaluate at hh
  rw [hs] at hh
  obtain ⟨vals, h1, _⟩ := (bindE_iff _ _ _).1 hh
  unfold cStoreAll at h1
  obtain ⟨v, h2, h3⟩ := (bindE_iff _ _ _).1 h1
  rcases hne with hne | hne
  · cases hb : cOf cIsBus e.verts with
    | nil => exact absurd hb hne
    | cons q l =>
      rw [hb, foldE_cons] at h2
      obtain ⟨w, h4, _⟩ := (bindE_iff _ _ _).1 h2
      unfold cStoreBus at h4
      obtain ⟨u, h5, _⟩ := (bindE_iff _ _ _).1 h4
      exact bad _ _ _ _ h5
  · cases hg : cOf cIsGen e.verts with
    | nil => exact absurd hg hne
    | cons q l =>
      rw [hg, foldE_cons] at h3
      obtain ⟨w, h4, _⟩ := (bindE_iff _ _ _).1 h3
      unfold cStoreGen at h4
      obtain ⟨u, h5, _⟩ := (bindE_iff _ _ _).1 h4
      exact bad _ _ _ _ h5

/-- **C205** violated: a new status of a branch. The status that is given does not matter; if the update succeeds, the network is the one that the building of a model makes of the network of the engine, which is in per unit already; and no evaluation succeeds after it. -/
theorem C205_status_violated (cand : CInfo) (e : CEngine) (h1 : (cGetChar cand.chars "problem".toList).value = .str "DC OPF".toList) (h2 : (cGetChar cand.chars "name".toList).value = .str "status".toList)
    (h3 : (cGetChar cand.chars "type".toList).value = .str "branch".toList) :
    (∀ val, cUpdateParameter ⟨cand.chars, val⟩ e = cUpdateParameter cand e) ∧
    ∀ e' code, cUpdateParameter cand e = .ok (e', code) → code = 0 ∧ (∃ p, cModel e.base e.periods e.multi e.verts = .ok (e'.verts, p)) ∧
      ((cOf cIsBus e'.verts ≠ [] ∨ cOf cIsGen e'.verts ≠ []) → ∀ x asked e'', cEvaluate x asked e' ≠ .ok e'') := by
  refine ⟨fun val => ?_, ?_⟩
  · rw [cUpdate_status (cand := cand) h1 h2, cUpdate_status (cand := ⟨cand.chars, val⟩) h1 h2]
    rfl
  · intro e' code h
    rw [cUpdate_status h1 h2] at h
    unfold cUpdateStatus at h
    rw [h3, getStr_bind] at h
    beta_reduce at h
    rw [if_pos (c := "branch".toList = "branch".toList) rfl] at h
    cases hpos : cPosition e "branch".toList (cGetChar cand.chars "ID".toList).value with
    | none => rw [hpos] at h; cases h
    | some n =>
      rw [hpos] at h
      dsimp only at h
      cases hm : cModel e.base e.periods e.multi e.verts with
      | error err => rw [hm] at h; cases h
      | ok m =>
        rw [hm] at h
        cases h
        exact ⟨rfl, ⟨m.2, rfl⟩, fun hne x asked e'' => cEvaluate_empty rfl hne x asked e''⟩

/-! ## examples -/

/-- a representative period: a week day or a day of a weekend -/
def cExDay (d : String) : Tok × CVal × Bool := ("pt".toList, .str d.toList, true)

def cExWhen (d : String) (h : Rat) : CWhen := ([.str d.toList], h)

/-- demands of a bus in megawatts for each day and hour -/
def cExDayBus (id : String) (k : Int) (ds : List (String × Rat × Rat)) : List CInfo :=
  ds.map (fun d => cExParam id "bus" [("number".toList, .int k, false), cExDay d.1, ("hour".toList, .dbl d.2.1, false)] "Pd" (.dbl d.2.2))

/-- two buses, with demands at the second; two generators at the first; a line -/
def cExWeekData : List CInfo := cExDayBus "b1" 1 [("w", 1, 0), ("w", 2, 0), ("e", 1, 0), ("e", 2, 0)] ++ cExDayBus "b2" 2 [("w", 1, 50), ("w", 2, 70), ("e", 1, 30), ("e", 2, 40)] ++
  cExGen "g1" 1 100 [cExPoly "g1" 1 [] [20, 0]] ++ cExGen "g2" 1 40 [] ++ cExLine "l1" 1 2 (1/10) 60

def cExWeekStart : List Rat := List.replicate 36 0

def cExWeek : CEngine := okD (cInitialise 100 true true cExWeekData cExWeekStart) ⟨0, false, false, [], [], [], ⟨[], [], []⟩, [], []⟩

def cExSubs : List CWhen := [cExWhen "w" 1, cExWhen "w" 2, cExWhen "e" 1, cExWhen "e" 2]

/-- the solution of an hour: 50 MW from the first generator -/
def cExWeekSol (i : CId) : Rat :=
  if i.node = 2 ∧ i.name = "active power generation".toList then 1/2
  else if i.node = 2 ∧ i.name = "active power generation cost".toList then 1000
  else if i.node = 1 ∧ i.name = "voltage angle".toList then -1/20
  else 0

def cExHistory : List CAct := [.limit (.str "g1".toList) (cExWhen "w" 2) 45, .run (cExWhen "w" 1) cExWeekSol, .limit (.str "g1".toList) (cExWhen "w" 2) 60]

theorem cExWeek_ok : (cInitialise 100 true true cExWeekData cExWeekStart).toOption = some cExWeek ∧ (cProblem cExSubs cExWeek.verts).toOption = some cExWeek.loaded := by
  refine ⟨by decide +kernel, by decide +kernel⟩

theorem C204_witness : CProgram cExSubs cExWeek.verts cExWeek.loaded ∧ CLive cExWeek.verts cExWeek.loaded cExWeek ∧ cExWeek.cols.length = 36 ∧ (cOf cIsBus cExWeek.verts).length = 2 ∧ (cOf cIsGen cExWeek.verts).length = 2 ∧
    (∀ s ∈ cExSubs, s.1 ≠ [] ∧ s.2 ≠ -1) ∧ cFeasible cExWeek.loaded (cSub (cExWhen "w" 1)) cExWeekSol ∧
    ((cEvaluate cExWeekSol (cSub (cExWhen "w" 1)) cExWeek).toOption.map (fun e => cValue e 2 "active power generation".toList (cExWhen "w" 1))) = some (some (1/2)) := by
  refine ⟨⟨?_, by decide +kernel⟩, ⟨rfl, by decide +kernel, by decide +kernel, by decide +kernel, rfl, rfl, rfl⟩, by decide +kernel, by decide +kernel, by decide +kernel, by decide +kernel, by decide +kernel, by decide +kernel⟩
  have := cExWeek_ok.2
  revert this
  cases cProblem cExSubs cExWeek.verts with
  | error _ => intro h; cases h
  | ok p => intro h; cases h; rfl

theorem C205_witness : CNetOk cExWeek.verts ∧ (∀ q ∈ cOf cIsGen cExWeek.verts, cFetch q.1 "cost function".toList [] ≠ .many) ∧ CGensApart cExWeek.verts ∧ (∀ a ∈ cExHistory, CActOk cExSubs cExWeek.verts a) ∧
    cLastLimit (.str "g1".toList) (cExWhen "w" 2) cExHistory = some 60 ∧ cLastLimit (.str "g1".toList) (cExWhen "w" 1) cExHistory = none ∧
    ((cActs cExWeek cExHistory).toOption.map (fun e => ((e.loaded.cols.filter (fun c => decide (c.id.node = 2 ∧ c.id.name = "active power generation".toList))).map (·.upper)))) = some [some 1, some (3/5), some 1, some 1] := by
  refine ⟨by decide +kernel, by decide +kernel, by unfold CGensApart; decide +kernel, ?_, by decide +kernel, by decide +kernel, by decide +kernel⟩
  intro a ha
  have mem : ∀ s ∈ cExSubs, s.1 ≠ [] ∧ s.2 ≠ -1 := by decide +kernel
  have gen : ∃ q ∈ cOf cIsGen cExWeek.verts, cIdent q.1 = .str "g1".toList := by decide +kernel
  have in1 : cExWhen "w" 1 ∈ cExSubs := by decide +kernel
  have in2 : cExWhen "w" 2 ∈ cExSubs := by decide +kernel
  unfold cExHistory at ha
  rcases List.mem_cons.1 ha with rfl | ha
  · exact ⟨in2, (mem _ in2).1, (mem _ in2).2, gen⟩
  rcases List.mem_cons.1 ha with rfl | ha
  · exact ⟨in1, (mem _ in1).1, (mem _ in1).2⟩
  rcases List.mem_cons.1 ha with rfl | ha
  · exact ⟨in2, (mem _ in2).1, (mem _ in2).2, gen⟩
  cases ha

/-- the line out of service -/
def cExOpen : CInfo := ⟨[⟨"problem".toList, .str "DC OPF".toList, []⟩, ⟨"name".toList, .str "status".toList, []⟩, ⟨"type".toList, .str "branch".toList, []⟩, ⟨"ID".toList, .str "l1".toList, []⟩], .bool false⟩

/-- the network of a result of an update -/
def cNetOf (r : Except CErr (CEngine × Int)) : List CVertex := match r with | .ok q => q.1.verts | .error _ => []

/-- **C205** violated: taking a line out of service: the update succeeds, the line stays in service and the demands are divided by the base power a second time. -/
theorem C205_twice_violated : (cUpdateParameter cExOpen cExWeek).toOption.isSome = true ∧
    (cNetOf (cUpdateParameter cExOpen cExWeek)).map (fun v => cVal v "Pd".toList (cExWhen "w" 2)) = cExWeek.verts.map (fun v => cVal v "Pd".toList (cExWhen "w" 2) / 100) ∧
    (cNetOf (cUpdateParameter cExOpen cExWeek)).map (fun v => cOn v (cExWhen "w" 2)) = cExWeek.verts.map (fun v => cOn v (cExWhen "w" 2)) ∧
    (∃ v ∈ cExWeek.verts, cVal v "Pd".toList (cExWhen "w" 2) = 7/10) ∧ ∃ v ∈ cExWeek.verts, cIsBranch v = true ∧ cOn v (cExWhen "w" 2) = true := by
  refine ⟨by decide +kernel, by decide +kernel, by decide +kernel, by decide +kernel, by decide +kernel⟩

end Pyensys
