import Verif.Props.EngineState

/-!
# Histories of evaluations of the compiled engine

C204, continued: sequences of evaluations, and the options for which no evaluation gives results.
-/

namespace Pyensys

/-! ## the engine after `initialise` -/

theorem cModel_parts {base : Rat} {pr mu : Bool} {vs ws : List CVertex} {p : CProb} (h : cModel base pr mu vs = .ok (ws, p)) :
    ∃ us subs, cPerUnit base vs = .ok us ∧ cSubs pr mu us = .ok subs ∧ cPrepare base subs us = .ok ws ∧ cProblem subs ws = .ok p := by
  unfold cModel at h
  obtain ⟨us, h1, h⟩ := (bindE_iff _ _ _).1 h
  obtain ⟨subs, h2, h⟩ := (bindE_iff _ _ _).1 h
  obtain ⟨ws', h3, h⟩ := (bindE_iff _ _ _).1 h
  obtain ⟨p', h4, h⟩ := (bindE_iff _ _ _).1 h
  have e := Except.ok.inj h
  cases e
  exact ⟨us, subs, h1, h2, h3, h4⟩

theorem cSubs_plain {pr mu : Bool} {vs : List CVertex} {subs : List CWhen} (h : cSubs pr mu vs = .ok subs) : (pr = false → ∀ s ∈ subs, s.1 = []) ∧ (mu = false → ∀ s ∈ subs, s.2 = -1) := by
  unfold cSubs at h
  obtain ⟨ps, h1, h⟩ := (bindE_iff _ _ _).1 h
  obtain ⟨hs, h2, h⟩ := (bindE_iff _ _ _).1 h
  cases h
  have mem : ∀ s ∈ ps.flatMap (fun p => hs.map (fun h => (p, h))), s.1 ∈ ps ∧ s.2 ∈ hs := by
    intro s hs'
    obtain ⟨a, ha, hs'⟩ := List.mem_flatMap.1 hs'
    obtain ⟨b, hb, rfl⟩ := List.mem_map.1 hs'
    exact ⟨ha, hb⟩
  refine ⟨?_, ?_⟩
  · rintro rfl s hs'
    unfold cPs at h1
    rw [if_neg (by simp)] at h1
    cases h1
    exact List.mem_singleton.1 (mem s hs').1
  · rintro rfl s hs'
    unfold cHs at h2
    rw [if_neg (by simp)] at h2
    cases h2
    exact List.mem_singleton.1 (mem s hs').2

/-- **C204.** `initialise` makes such an engine, with the periods of the data. -/
theorem C204_start_partial (base : Rat) (pr mu : Bool) (params : List CInfo) (start : List Rat) (e : CEngine) (h : cInitialise base pr mu params start = .ok e) (hl : start.length = e.cols.length) :
    ∃ subs ws p, CProgram subs ws p ∧ CLive ws p e ∧ cModel base pr mu (cNodes params) = .ok (ws, p) ∧ e.loaded = p ∧ e.sol = start ∧ (pr = false → ∀ s ∈ subs, s.1 = []) ∧ (mu = false → ∀ s ∈ subs, s.2 = -1) := by
  unfold cInitialise at h
  obtain ⟨⟨ws, p⟩, h1, h⟩ := (bindE_iff _ _ _).1 h
  cases h
  obtain ⟨us, subs, h2, h3, h4, h5⟩ := cModel_parts h1
  have hd := (C203_periods_partial pr mu us subs h3).1
  exact ⟨subs, ws, p, ⟨h5, hd⟩, ⟨rfl, rfl, by simp, hl, rfl, rfl, rfl⟩, h1, rfl, rfl, cSubs_plain h3⟩

/-! ## histories -/

/-- evaluations one after the other -/
def cEvaluates (e : CEngine) (hist : List (CWhen × (CId → Rat))) : Except CErr CEngine := hist.foldlM (fun e r => cEvaluate r.2 (cSub r.1) e) e

/-- the last point that was found for a period -/
def cLatest (s : CWhen) (hist : List (CWhen × (CId → Rat))) : Option (CId → Rat) := (hist.reverse.find? (fun r => decide (r.1 = s))).map (·.2)

theorem cLatest_cons (s : CWhen) (r : CWhen × (CId → Rat)) (hist : List (CWhen × (CId → Rat))) : cLatest s (r :: hist) = (cLatest s hist).or (if r.1 = s then some r.2 else none) := by
  unfold cLatest
  rw [List.reverse_cons, List.find?_append]
  cases h : hist.reverse.find? (fun r => decide (r.1 = s)) with
  | some a => rfl
  | none =>
    rw [Option.none_or, Option.map_none, Option.none_or]
    by_cases hs : r.1 = s
    · rw [List.find?_cons_of_pos (by simpa using hs), if_pos hs]; rfl
    · rw [List.find?_cons_of_neg (by simpa using hs), if_neg hs]; rfl

/-- **C204.** After any sequence of evaluations of periods, each variable of a bus has in each period the value that the solver found in the last evaluation of that period, or its first value if there was none; so has the output of each generator in service, and its cost. -/
theorem C204_history_partial (subs : List CWhen) (ws : List CVertex) (p : CProb) (hP : CProgram subs ws p) : ∀ (hist : List (CWhen × (CId → Rat))) (e : CEngine), CLive ws p e →
    (∀ r ∈ hist, r.1 ∈ subs ∧ r.1.1 ≠ [] ∧ r.1.2 ≠ -1) → ∃ e', cEvaluates e hist = .ok e' ∧ CLive ws p e' ∧ e'.loaded = e.loaded ∧ ∀ s,
      (∀ q ∈ cOf cIsBus ws, ∀ name, (name = "voltage angle".toList ∨ name = "load curtailment".toList ∨ name = "generation curtailment".toList) →
        cValue e' q.2 name s = match cLatest s hist with | some x => some (x ⟨q.2, name, cExtra s⟩) | none => cValue e q.2 name s) ∧
      (∀ q ∈ cOf cIsGen ws, cOn q.1 s = true → ∀ name, (name = "active power generation".toList ∨ (name = "active power generation cost".toList ∧ cFetch q.1 "cost function".toList [] ≠ .none)) →
        cValue e' q.2 name s = match cLatest s hist with | some x => some (x ⟨q.2, name, cExtra s⟩) | none => cValue e q.2 name s)
  | [], e, he, _ => ⟨e, rfl, he, rfl, fun s => ⟨fun _ _ _ _ => rfl, fun _ _ _ _ _ => rfl⟩⟩
  | r :: hist, e, he, hr => by
    obtain ⟨hs, h1, h2⟩ := hr r List.mem_cons_self
    obtain ⟨e1, a1, a2, a3, _, a5, a6, a7, _⟩ := C204_values_partial subs ws p hP e he r.1 hs h1 h2 r.2
    obtain ⟨e2, b1, b2, b3, b4⟩ := C204_history_partial subs ws p hP hist e1 a2 (fun t ht => hr t (List.mem_cons_of_mem _ ht))
    refine ⟨e2, ?_, b2, b3.trans a3, fun s => ⟨?_, ?_⟩⟩
    · unfold cEvaluates
      rw [foldE_cons, a1]
      exact b1
    · intro q hq name hname
      rw [(b4 s).1 q hq name hname, cLatest_cons]
      cases cLatest s hist with
      | some x => rfl
      | none =>
        rw [Option.none_or]
        by_cases hrs : r.1 = s
        · rw [if_pos hrs]
          have := a5 q hq name hname
          rw [hrs] at this
          exact this
        · rw [if_neg hrs]
          exact a7 s (fun h => hrs h.symm) _ _
    · intro q hq hon name hname
      rw [(b4 s).2 q hq hon name hname, cLatest_cons]
      cases cLatest s hist with
      | some x => rfl
      | none =>
        rw [Option.none_or]
        by_cases hrs : r.1 = s
        · rw [if_pos hrs]
          subst hrs
          rcases hname with rfl | ⟨rfl, hne⟩
          · exact (a6 q hq hon).1
          · exact (a6 q hq hon).2 hne
        · rw [if_neg hrs]
          exact a7 s (fun h => hrs h.symm) _ _

/-! ## options without results -/

theorem cCol_period {subs : List CWhen} {ws : List CVertex} {p : CProb} (hp : CParts subs ws p) {c : CCol} (hc : c ∈ p.cols) : ∃ s ∈ subs, c.period = cSub s ∧ c.id.subs = cExtra s := by
  rcases (cCols_mem hp c).1 hc with ⟨q, hq, s, hs, h⟩ | ⟨q, hq, s, hs, h⟩
  · refine ⟨s, hs, ?_⟩
    unfold cBusCols at h
    rcases List.mem_cons.1 h with rfl | h
    · exact ⟨rfl, rfl⟩
    rcases List.mem_cons.1 h with rfl | h
    · exact ⟨rfl, rfl⟩
    rcases List.mem_cons.1 h with rfl | h
    · exact ⟨rfl, rfl⟩
    cases h
  · refine ⟨s, hs, ?_⟩
    rcases (cGenCols_mem hp hq hs c).1 h with rfl | ⟨_, rfl⟩ <;> exact ⟨rfl, rfl⟩

theorem cStoreAt_ok {sol vals vals' : List Rat} {pos : Option Nat} (h : cStoreAt sol vals pos = .ok vals') : ∃ k, pos = some k := by
  cases pos with
  | none => cases h
  | some k => exact ⟨k, rfl⟩

/-- an evaluation that succeeds has found a variable under the key that is asked for -/
theorem cEvaluate_found {x : CId → Rat} {cand : List CChar} {e e' : CEngine} (h : cEvaluate x cand e = .ok e') (hne : cOf cIsBus e.verts ≠ [] ∨ cOf cIsGen e.verts ≠ []) :
    ∃ c ∈ e.cols, ∃ name, cKey c.id = cWith [cNamed name] (cAsked cand) := by
  unfold cEvaluate at h
  obtain ⟨vals, h1, _⟩ := (bindE_iff _ _ _).1 h
  unfold cStoreAll at h1
  obtain ⟨v, h2, h3⟩ := (bindE_iff _ _ _).1 h1
  have find : ∀ (sol : List Rat) (node : Nat) (name : Tok) (vals vals' : List Rat), cStore e.cols sol (cAsked cand) node name vals = .ok vals' → ∃ c ∈ e.cols, ∃ name, cKey c.id = cWith [cNamed name] (cAsked cand) := by
    intro sol node name vals vals' hs
    obtain ⟨k, hk⟩ := cStoreAt_ok hs
    obtain ⟨c, hc, _, hkey⟩ := cVarAt_some hk
    exact ⟨c, List.mem_of_getElem? hc, name, hkey⟩
  rcases hne with hne | hne
  · cases hb : cOf cIsBus e.verts with
    | nil => exact absurd hb hne
    | cons q l =>
      rw [hb, foldE_cons] at h2
      obtain ⟨w, h4, _⟩ := (bindE_iff _ _ _).1 h2
      unfold cStoreBus at h4
      obtain ⟨u, h5, _⟩ := (bindE_iff _ _ _).1 h4
      exact find _ _ _ _ _ h5
  · cases hg : cOf cIsGen e.verts with
    | nil => exact absurd hg hne
    | cons q l =>
      rw [hg, foldE_cons] at h3
      obtain ⟨w, h4, _⟩ := (bindE_iff _ _ _).1 h3
      unfold cStoreGen at h4
      obtain ⟨u, h5, _⟩ := (bindE_iff _ _ _).1 h4
      exact find _ _ _ _ _ h5

/-- a solver that has no active column for the subscripts finds nothing -/
theorem cSolve_idle {ws : List CVertex} {p : CProb} {e : CEngine} (he : CLive ws p e) (period : List CChar) (x : CId → Rat) (h : ∀ c ∈ p.cols, c.period ≠ period) : cSolve e.loaded period x e.sol = e.sol := by
  have hlen : e.loaded.cols.length = p.cols.length := by
    have := congrArg List.length he.tags
    simpa using this
  apply List.ext_getElem?
  intro k
  by_cases hk : k < p.cols.length
  · rw [cSolve_at he period x k p.cols[k] (List.getElem?_eq_getElem hk), if_neg]
    exact fun hh => h _ (List.getElem_mem hk) hh.2
  · rw [List.getElem?_eq_none (by rw [cSolve_length _ _ _ _ (he.sol.trans hlen.symm), hlen]; omega), List.getElem?_eq_none (by rw [he.sol]; omega)]

theorem cWith_two (name : Tok) (s : CWhen) : cWith [cNamed name] (cSub s) = cNamed name :: cSub s := by
  unfold cWith cSub
  rfl

theorem cExtra_sub {s t : CWhen} (h : cExtra s = cSub t) : s.1 ≠ [] ∧ s.2 ≠ -1 := by
  unfold cExtra cSub at h
  by_cases h1 : s.1 ≠ [] <;> by_cases h2 : s.2 ≠ -1
  · exact ⟨h1, h2⟩
  · rw [if_pos h1, if_neg h2] at h
    exact absurd (congrArg List.length h) (by simp)
  · rw [if_neg h1, if_pos h2] at h
    exact absurd (congrArg List.length h) (by simp)
  · rw [if_neg h1, if_neg h2] at h
    exact absurd (congrArg List.length h) (by simp)

/-- **C204** violated: unless both representative periods and hours are used, no evaluation gives results: whatever subscripts are given, it fails or leaves the solution as it was. -/
theorem C204_options_violated (subs : List CWhen) (ws : List CVertex) (p : CProb) (hP : CProgram subs ws p) (e : CEngine) (he : CLive ws p e)
    (hopt : (∀ s ∈ subs, s.1 = []) ∨ (∀ s ∈ subs, s.2 = -1)) (hne : cOf cIsBus ws ≠ [] ∨ cOf cIsGen ws ≠ []) (x : CId → Rat) (cand : List CChar) (e' : CEngine) (h : cEvaluate x cand e = .ok e') : e'.sol = e.sol := by
  have hp := cParts_of hP.prob
  have hsol : e'.sol = cSolve e.loaded (cAsked cand) x e.sol := by
    unfold cEvaluate at h
    obtain ⟨vals, _, h⟩ := (bindE_iff _ _ _).1 h
    cases h
    rfl
  rw [hsol]
  apply cSolve_idle he
  intro c hc hper
  obtain ⟨s, hs, h1, _⟩ := cCol_period hp hc
  rw [hper] at h1
  obtain ⟨d, hd, name, hkey⟩ := cEvaluate_found h (by rw [he.verts]; exact hne)
  rw [he.cols] at hd
  obtain ⟨t, ht, _, h2⟩ := cCol_period hp hd
  rw [h1, cWith_two] at hkey
  unfold cKey at hkey
  injection hkey with _ hkey
  rw [h2] at hkey
  have := cExtra_sub hkey
  rcases hopt with hopt | hopt
  · exact this.1 (hopt t ht)
  · exact this.2 (hopt t ht)

/-- an evaluation of an engine without the variables that are asked for fails -/
theorem cEvaluate_fails {e : CEngine} (hne : cOf cIsBus e.verts ≠ [] ∨ cOf cIsGen e.verts ≠ []) (x : CId → Rat) (cand : List CChar) (h : ∀ c ∈ e.cols, ∀ name, cKey c.id ≠ cWith [cNamed name] (cAsked cand)) :
    cEvaluate x cand e = .error .badGet := by
  have none' : ∀ (node : Nat) (name : Tok), cVarAt e.cols node (cWith [cNamed name] (cAsked cand)) = none := by
    intro node name
    rw [cVarAt_none]
    exact fun c hc hh => h c hc name hh.2
  have bad : ∀ (sol : List Rat) (node : Nat) (name : Tok) (vals : List Rat), cStore e.cols sol (cAsked cand) node name vals = .error .badGet := by
    intro sol node name vals
    unfold cStore
    rw [none']
    rfl
  have key : ∀ sol, cStoreAll e sol (cAsked cand) = .error .badGet := by
    intro sol
    unfold cStoreAll
    cases hb : cOf cIsBus e.verts with
    | cons q l =>
      rw [foldE_cons]
      unfold cStoreBus
      rw [bad]
      rfl
    | nil =>
      cases hg : cOf cIsGen e.verts with
      | nil => rcases hne with hne | hne <;> contradiction
      | cons q l =>
        show (List.foldlM (cStoreGen e.cols sol (cAsked cand)) e.vals (q :: l)) = _
        rw [foldE_cons]
        unfold cStoreGen
        rw [bad]
        rfl
  unfold cEvaluate
  show (cStoreAll e _ (cAsked cand) >>= _) = _
  rw [key]
  rfl

/-- **C204** violated: a model without representative periods or without hours is solved but its results cannot be read: an evaluation without subscripts ends the program. -/
theorem C204_single_violated (subs : List CWhen) (ws : List CVertex) (p : CProb) (hP : CProgram subs ws p) (e : CEngine) (he : CLive ws p e)
    (hopt : (∀ s ∈ subs, s.1 = []) ∨ (∀ s ∈ subs, s.2 = -1)) (hne : cOf cIsBus ws ≠ [] ∨ cOf cIsGen ws ≠ []) (x : CId → Rat) : cEvaluate x [] e = .error .badGet := by
  have hp := cParts_of hP.prob
  refine cEvaluate_fails (by rw [he.verts]; exact hne) x [] ?_
  intro c hc name hkey
  rw [he.cols] at hc
  obtain ⟨t, ht, _, h3⟩ := cCol_period hp hc
  have hask : cAsked [] = cSub ([], -1) := rfl
  rw [hask, cWith_two] at hkey
  unfold cKey at hkey
  injection hkey with _ hkey
  rw [h3] at hkey
  rcases hopt with hopt | hopt
  · exact (cExtra_sub hkey).1 (hopt t ht)
  · exact (cExtra_sub hkey).2 (hopt t ht)

/-- **C204** violated: with representative periods only, or hours only, an evaluation with the one subscript there is succeeds although nothing is solved: the results are the values that the solver had before. -/
theorem C204_one_violated (subs : List CWhen) (ws : List CVertex) (p : CProb) (hP : CProgram subs ws p) (e : CEngine) (he : CLive ws p e) (s : CWhen) (hs : s ∈ subs)
    (hone : (s.1 = [] ∧ s.2 ≠ -1) ∨ (s.1 ≠ [] ∧ s.2 = -1)) (x : CId → Rat) :
    ∃ e', cEvaluate x (cExtra s) e = .ok e' ∧ e'.sol = e.sol ∧ ∀ node name, cValue e' node name s = cBeside e.cols e.sol ⟨node, name, cExtra s⟩ := by
  have hp := cParts_of hP.prob
  have hn := C202_columns_partial subs ws p hP.prob hP.nodup
  have hex : cAsked (cExtra s) = cExtra s := by
    unfold cAsked cExtra
    rcases hone with ⟨a, b⟩ | ⟨a, b⟩
    · rw [if_neg (c := s.1 ≠ []) (fun h => h a), if_pos b, if_neg (by simp)]
    · rw [if_pos a, if_neg (c := s.2 ≠ -1) (fun h => h b), if_neg (by simp)]
  have hkey : ∀ name, cWith [cNamed name] (cAsked (cExtra s)) = cKey ⟨0, name, cExtra s⟩ := by
    intro name
    rw [hex]
    unfold cExtra cKey
    rcases hone with ⟨a, b⟩ | ⟨a, b⟩
    · rw [if_neg (fun h => h a), if_pos b]; rfl
    · rw [if_pos a, if_neg (fun h => h b)]; rfl
  obtain ⟨e', h1, h2, _, _, _, _, _, h5, h6⟩ := cEvaluate_live hP he hs hkey x
  have hidle : e'.sol = e.sol := by
    rw [h5]
    apply cSolve_idle he
    intro c hc hper
    obtain ⟨t, _, h7, _⟩ := cCol_period hp hc
    rw [hper, hex] at h7
    have := cExtra_sub h7
    rcases hone with ⟨a, _⟩ | ⟨_, b⟩
    · exact this.1 a
    · exact this.2 b
  refine ⟨e', h1, hidle, fun node name => ?_⟩
  unfold cValue
  by_cases hc : ∃ c ∈ p.cols, c.id = ⟨node, name, cExtra s⟩
  · obtain ⟨c, hc, hid⟩ := hc
    obtain ⟨k, hk⟩ := List.mem_iff_getElem?.1 hc
    have hk' : k < p.cols.length := (List.getElem?_eq_some_iff.1 hk).1
    rw [← hid, cValue_at hP h2 hk, h6 k c hk, if_pos (by rw [hid]), hidle, List.getElem?_eq_getElem (by rw [he.sol]; exact hk')]
    exact (cBeside_at _ _ k c _ (by rw [he.cols]; exact hn) (by rw [he.cols]; exact hk) (List.getElem?_eq_getElem _)).symm
  · rw [cBeside_none _ _ _ (by rw [h2.cols]; exact fun c h he => hc ⟨c, h, he⟩), cBeside_none _ _ _ (by rw [he.cols]; exact fun c h he => hc ⟨c, h, he⟩)]

/-- **C204** violated: the order of the subscripts matters: with the hour before the representative period an evaluation ends the program. -/
theorem C204_order_violated (subs : List CWhen) (ws : List CVertex) (p : CProb) (hP : CProgram subs ws p) (e : CEngine) (he : CLive ws p e) (s : CWhen) (hne : cOf cIsBus ws ≠ [] ∨ cOf cIsGen ws ≠ []) (x : CId → Rat) :
    cEvaluate x (cSub s).reverse e = .error .badGet := by
  have hp := cParts_of hP.prob
  refine cEvaluate_fails (by rw [he.verts]; exact hne) x _ ?_
  intro c hc name hkey
  rw [he.cols] at hc
  obtain ⟨t, ht, _, h3⟩ := cCol_period hp hc
  have e1 : cWith [cNamed name] (cAsked (cSub s).reverse) = cNamed name :: (cSub s).reverse := rfl
  rw [e1] at hkey
  unfold cKey at hkey
  injection hkey with _ hkey
  rw [h3] at hkey
  unfold cExtra cSub at hkey
  by_cases h1 : t.1 ≠ [] <;> by_cases h2 : t.2 ≠ -1
  · rw [if_pos h1, if_pos h2] at hkey
    simp at hkey
  · rw [if_pos h1, if_neg h2] at hkey
    exact absurd (congrArg List.length hkey) (by simp)
  · rw [if_neg h1, if_pos h2] at hkey
    exact absurd (congrArg List.length hkey) (by simp)
  · rw [if_neg h1, if_neg h2] at hkey
    exact absurd (congrArg List.length hkey) (by simp)

end Pyensys
