import Verif.Props.EngineUpdate

/-!
# Histories of updates and evaluations of the compiled engine

C205, continued: what the program of the engine is after any sequence of evaluations and of new limits of generators, and what the other updates do.
-/

namespace Pyensys

/-! ## Specification -/

/-- what is said of a new limit: the problem, the name of the parameter, the generator and the period -/
def cLimitOrder (id : CVal) (s : CWhen) : List CChar :=
  [⟨"problem".toList, .str "DC OPF".toList, []⟩, ⟨"name".toList, .str "active power max limit".toList, []⟩, ⟨"type".toList, .str "generator".toList, []⟩, ⟨"ID".toList, id, []⟩,
   ⟨"pt".toList, cNA, s.1⟩, ⟨"hour".toList, .dbl s.2, []⟩]

/-- the ID of an element -/
def cIdent (v : CVertex) : CVal := (cGetChar v.chars "ID".toList).value

/-- generators have different IDs -/
def CGensApart (ws : List CVertex) : Prop := ∀ q ∈ cOf cIsGen ws, ∀ r ∈ cOf cIsGen ws, cIdent q.1 = cIdent r.1 → q = r

/-- what can be done with an engine: a period is evaluated, or the limit of a generator in a period is changed -/
inductive CAct where
  | run (s : CWhen) (x : CId → Rat)
  | limit (id : CVal) (s : CWhen) (m : Rat)

/-- one action; a code other than 0 would be a failure -/
def cAct (e : CEngine) : CAct → Except CErr CEngine
  | .run s x => cEvaluate x (cSub s) e
  | .limit id s m => (cUpdateParameter ⟨cLimitOrder id s, .dbl m⟩ e).map (·.1)

def cActs (e : CEngine) (hist : List CAct) : Except CErr CEngine := hist.foldlM cAct e

/-- the last limit that was given for a generator and a period -/
def cLastLimit (id : CVal) (s : CWhen) (hist : List CAct) : Option Rat :=
  (hist.reverse.findSome? (fun a => match a with | .limit i t m => if i = id ∧ t = s then some m else none | .run _ _ => none))

/-- the last point that was found for a period -/
def cLastRun (s : CWhen) (hist : List CAct) : Option (CId → Rat) :=
  (hist.reverse.findSome? (fun a => match a with | .run t x => if t = s then some x else none | .limit _ _ _ => none))

/-! ## Lemmas -/

theorem cGetChar_perm {l m : List CChar} (hp : l.Perm m) (hn : (m.map (·.name)).Nodup) {c : CChar} (hc : c ∈ m) : cGetChar l c.name = c ∧ cHas l c.name = true := by
  have hcl : c ∈ l := hp.symm.subset hc
  have hnl : (l.map (·.name)).Nodup := (hp.map _).nodup_iff.2 hn
  refine ⟨?_, ?_⟩
  · unfold cGetChar
    cases h : l.find? (fun d => decide (d.name = c.name)) with
    | none =>
      have := List.find?_eq_none.1 h c hcl
      simp at this
    | some d =>
      have h1 := List.find?_some h
      have h2 := List.mem_of_find?_eq_some h
      rw [Option.getD_some]
      exact List.inj_on_of_nodup_map hnl h2 hcl (of_decide_eq_true h1)
  · unfold cHas
    rw [List.any_eq_true]
    exact ⟨c, hcl, by simp⟩

theorem cLimitOrder_names (id : CVal) (s : CWhen) : ((cLimitOrder id s).map (·.name)).Nodup := by
  show ["problem".toList, "name".toList, "type".toList, "ID".toList, "pt".toList, "hour".toList].Nodup
  decide +kernel

/-- a generator is found by its ID -/
theorem cPosition_gen {ws : List CVertex} {e : CEngine} (he : e.verts = ws) (ha : CGensApart ws) {q : CVertex × Nat} (hq : q ∈ cOf cIsGen ws) : cPosition e "generator".toList (cIdent q.1) = some q.2 := by
  unfold cPosition
  rw [he]
  obtain ⟨h1, h2⟩ := cOf_mem.1 hq
  cases h : ws.zipIdx.find? (fun q' => decide ((cGetChar q'.1.chars "type".toList).value = .str "generator".toList) && decide ((cGetChar q'.1.chars "ID".toList).value = cIdent q.1)) with
  | none =>
    have := List.find?_eq_none.1 h q (List.mem_zipIdx_iff_getElem?.2 h1)
    rw [Bool.and_eq_true, not_and] at this
    exact absurd (decide_eq_true (rfl : cIdent q.1 = cIdent q.1)) (this h2)
  | some r =>
    have h3 := List.find?_some h
    have h4 := List.mem_of_find?_eq_some h
    rw [Bool.and_eq_true] at h3
    have hr : r ∈ cOf cIsGen ws := cOf_mem.2 ⟨List.mem_zipIdx_iff_getElem?.1 h4, h3.1⟩
    have := ha r hr q hq (of_decide_eq_true h3.2)
    rw [Option.map_some, this]

theorem cSetUpper_rebound {p : CProb} (hn : (p.cols.map (·.id)).Nodup) (up : CId → Rat) {k : Nat} {c : CCol} (hc : p.cols[k]? = some c) (hname : c.id.name = "active power generation".toList) (b : Rat) :
    cSetUpper (cRebound p up) k b = cRebound p (Function.update up c.id b) := by
  unfold cSetUpper cRebound
  congr 1
  apply List.ext_getElem?
  intro j
  rw [List.getElem?_modify, List.getElem?_map, List.getElem?_map]
  cases hj : p.cols[j]? with
  | none => rfl
  | some d =>
    simp only [Option.map_some, Functor.map]
    by_cases hkj : k = j
    · subst hkj
      rw [hc] at hj
      cases hj
      rw [if_pos hname, if_pos hname, if_pos rfl, Function.update_self]
    · have hne : d.id ≠ c.id := by
        intro hid
        have e := List.inj_on_of_nodup_map hn (List.mem_of_getElem? hj) (List.mem_of_getElem? hc) hid
        obtain ⟨hj', hdj⟩ := List.getElem?_eq_some_iff.1 hj
        obtain ⟨hk', hdk⟩ := List.getElem?_eq_some_iff.1 hc
        exact hkj ((List.Nodup.getElem_inj_iff (List.Nodup.of_map _ hn)).1 (by rw [hdk, hdj, e]))
      rw [if_neg hkj, Function.update_of_ne hne]

theorem cTarget_order {chars : List CChar} {id : CVal} {s : CWhen} (hp : chars.Perm (cLimitOrder id s)) : cTarget chars = cNamed "active power generation".toList :: cSub s := by
  have h1 := cGetChar_perm hp (cLimitOrder_names id s) (c := ⟨"pt".toList, cNA, s.1⟩) (by unfold cLimitOrder; simp)
  have h2 := cGetChar_perm hp (cLimitOrder_names id s) (c := ⟨"hour".toList, .dbl s.2, []⟩) (by unfold cLimitOrder; simp)
  dsimp only at h1 h2
  unfold cTarget
  rw [h1.1, h1.2, h2.1, h2.2]
  rfl

theorem getStr_bind {β : Type} (t : Tok) (f : Tok → Except CErr β) : ((CVal.str t).getStr >>= f) = f t := rfl

theorem cUpdate_max {cand : CInfo} {e : CEngine} (h1 : (cGetChar cand.chars "problem".toList).value = .str "DC OPF".toList) (h2 : (cGetChar cand.chars "name".toList).value = .str "active power max limit".toList) :
    cUpdateParameter cand e = (cUpdateMax cand e).map (fun e => (e, 0)) := by
  unfold cUpdateParameter
  rw [h1, h2, getStr_bind]
  beta_reduce
  rw [if_neg (c := "DC OPF".toList = "BT".toList) (by decide), if_pos (c := "DC OPF".toList = "DC OPF".toList) rfl, getStr_bind]
  beta_reduce
  rw [if_pos (c := "active power max limit".toList = "active power max limit".toList) rfl]
  cases cUpdateMax cand e <;> rfl

/-! ## C205 -/

/-- **C205.** A new limit of a generator for a period, given in any order of its characteristics, is set to the given power divided by the base power, in the program of that period and of that generator alone; no result changes. -/
theorem C205_limit_partial (subs : List CWhen) (ws : List CVertex) (p : CProb) (hP : CProgram subs ws p) (ha : CGensApart ws) (e : CEngine) (he : CLive ws p e) (up : CId → Rat) (hup : e.loaded = cRebound p up)
    (q : CVertex × Nat) (hq : q ∈ cOf cIsGen ws) (s : CWhen) (hs : s ∈ subs) (h1 : s.1 ≠ []) (h2 : s.2 ≠ -1) (chars : List CChar) (hc : chars.Perm (cLimitOrder (cIdent q.1) s)) (m : Rat) :
    ∃ e', cUpdateParameter ⟨chars, .dbl m⟩ e = .ok (e', 0) ∧ CLive ws p e' ∧ e'.base = e.base ∧ e'.vals = e.vals ∧ e'.sol = e.sol ∧ e'.last = e.last ∧
      e'.loaded = cRebound p (Function.update up ⟨q.2, "active power generation".toList, cExtra s⟩ (m / e.base)) := by
  have hp := cParts_of hP.prob
  have hn := C202_columns_partial subs ws p hP.prob hP.nodup
  have get : ∀ c ∈ cLimitOrder (cIdent q.1) s, cGetChar chars c.name = c := fun c h => (cGetChar_perm hc (cLimitOrder_names _ s) h).1
  have g1 := get ⟨"problem".toList, .str "DC OPF".toList, []⟩ (by unfold cLimitOrder; simp)
  have g2 := get ⟨"name".toList, .str "active power max limit".toList, []⟩ (by unfold cLimitOrder; simp)
  have g3 := get ⟨"type".toList, .str "generator".toList, []⟩ (by unfold cLimitOrder; simp)
  have g4 := get ⟨"ID".toList, cIdent q.1, []⟩ (by unfold cLimitOrder; simp)
  dsimp only at g1 g2 g3 g4
  have hmem := (cCols_mem hp _).2 (Or.inr ⟨q, hq, s, hs, (cGenCols_mem hp hq hs _).2 (Or.inl rfl)⟩)
  obtain ⟨k, hk1, hk2⟩ := cVarAt_of hn hmem
  have hkl : k < p.cols.length := (List.getElem?_eq_some_iff.1 hk2).1
  have hkey : cTarget chars = cKey ⟨q.2, "active power generation".toList, cExtra s⟩ := by
    rw [cTarget_order hc, (cWith_sub "active power generation".toList s h1 h2).1]
    rfl
  have hmax : cUpdateMax ⟨chars, .dbl m⟩ e = .ok ⟨e.base, e.periods, e.multi, e.verts, e.cols, e.vals, cSetUpper e.loaded k (m / e.base), e.sol, e.last⟩ := by
    unfold cUpdateMax
    dsimp only
    rw [g3, g4]
    show (match cPosition e "generator".toList (cIdent q.1) with | none => _ | some n => _) = _
    rw [cPosition_gen he.verts ha hq]
    dsimp only
    rw [hkey, he.cols, hk1]
    dsimp only
    rw [if_pos]
    rw [hup]
    unfold cRebound
    rw [List.length_map]
    exact hkl
  refine ⟨⟨e.base, e.periods, e.multi, e.verts, e.cols, e.vals, cSetUpper e.loaded k (m / e.base), e.sol, e.last⟩, ?_, ?_, rfl, rfl, rfl, rfl, ?_⟩
  · rw [cUpdate_max (cand := ⟨chars, .dbl m⟩) (by dsimp only; rw [g1]) (by dsimp only; rw [g2]), hmax]
    rfl
  · refine ⟨he.verts, he.cols, he.vals, he.sol, ?_, he.rows, he.elems⟩
    dsimp only
    rw [hup, cSetUpper_rebound hn up hk2 rfl]
    unfold cRebound
    rw [List.map_map]
    apply List.map_congr_left
    intro c _
    exact cRebound_tag _ c
  · dsimp only
    rw [hup, cSetUpper_rebound hn up hk2 rfl]

/-- **C205.** The limits of the program of `initialise` are those of the data. -/
theorem C205_first_partial (subs : List CWhen) (ws : List CVertex) (p : CProb) (hP : CProgram subs ws p) : ∃ up, p = cRebound p up ∧
    ∀ q ∈ cOf cIsGen ws, ∀ s ∈ subs, up ⟨q.2, "active power generation".toList, cExtra s⟩ = cVal q.1 "active power max limit".toList s := by
  have hp := cParts_of hP.prob
  have hn := C202_columns_partial subs ws p hP.prob hP.nodup
  let up : CId → Rat := fun id => match p.cols.find? (fun c => decide (c.id = id)) with | some c => c.upper.getD 0 | none => 0
  have at' : ∀ c ∈ p.cols, up c.id = c.upper.getD 0 := by
    intro c hc
    show (match p.cols.find? (fun d => decide (d.id = c.id)) with | some c => c.upper.getD 0 | none => 0) = _
    cases h : p.cols.find? (fun d => decide (d.id = c.id)) with
    | none =>
      have := List.find?_eq_none.1 h c hc
      simp at this
    | some d =>
      have h9 := List.find?_some h
      have := List.inj_on_of_nodup_map hn (List.mem_of_find?_eq_some h) hc (of_decide_eq_true h9)
      dsimp only
      rw [this]
  refine ⟨up, ?_, ?_⟩
  · unfold cRebound
    have : p.cols = p.cols.map (fun c => if c.id.name = "active power generation".toList then ⟨c.id, c.lower, some (up c.id), c.cost, c.period, c.active⟩ else c) := by
      symm
      conv => rhs; rw [← List.map_id p.cols]
      apply List.map_congr_left
      intro c hc
      by_cases hname : c.id.name = "active power generation".toList
      · rw [if_pos hname, at' c hc]
        have : ∃ u, c.upper = some u := by
          rcases (cCols_mem hp c).1 hc with ⟨q, hq, t, ht, hct⟩ | ⟨q, hq, t, ht, hct⟩
          · exfalso
            unfold cBusCols at hct
            rcases List.mem_cons.1 hct with rfl | hct
            · exact cNames_apart.1 hname
            rcases List.mem_cons.1 hct with rfl | hct
            · exact cNames_apart.2.1 hname
            rcases List.mem_cons.1 hct with rfl | hct
            · exact cNames_apart.2.2.1 hname
            cases hct
          · rcases (cGenCols_mem hp hq ht c).1 hct with rfl | ⟨_, rfl⟩
            · exact ⟨_, rfl⟩
            · exact absurd hname cNames_apart.2.2.2
        obtain ⟨u, hu⟩ := this
        obtain ⟨i, l, w, k, per, act⟩ := c
        dsimp only at hu ⊢
        rw [hu]
        rfl
      · rw [if_neg hname]
        rfl
    rw [← this]
  · intro q hq s hs
    have hmem := (cCols_mem hp _).2 (Or.inr ⟨q, hq, s, hs, (cGenCols_mem hp hq hs _).2 (Or.inl rfl)⟩)
    exact at' _ hmem

theorem cLastLimit_cons (id : CVal) (s : CWhen) (a : CAct) (hist : List CAct) :
    cLastLimit id s (a :: hist) = (cLastLimit id s hist).or (match a with | .limit i t m => if i = id ∧ t = s then some m else none | .run _ _ => none) := by
  unfold cLastLimit
  rw [List.reverse_cons, List.findSome?_append]
  congr 1
  simp [List.findSome?]
  split <;> simp_all

theorem cLastRun_cons (s : CWhen) (a : CAct) (hist : List CAct) :
    cLastRun s (a :: hist) = (cLastRun s hist).or (match a with | .run t x => if t = s then some x else none | .limit _ _ _ => none) := by
  unfold cLastRun
  rw [List.reverse_cons, List.findSome?_append]
  congr 1
  simp [List.findSome?]
  split <;> simp_all

theorem cObjective_rebound (p : CProb) (up : CId → Rat) (period : List CChar) (x : CId → Rat) : cObjective (cRebound p up) period x = cObjective p period x := by
  unfold cObjective cRebound
  dsimp only
  rw [List.filter_map, List.map_map]
  have h1 : p.cols.filter ((fun c : CCol => c.active && decide (c.period = period)) ∘ fun c => if c.id.name = "active power generation".toList then ⟨c.id, c.lower, some (up c.id), c.cost, c.period, c.active⟩ else c) = p.cols.filter (fun c => c.active && decide (c.period = period)) := by
    apply List.filter_congr
    intro c _
    rw [Function.comp]
    split <;> rfl
  rw [h1]
  congr 1
  apply List.map_congr_left
  intro c _
  rw [Function.comp]
  split <;> rfl

/-- what an action may be: a period of the program; a generator of the network -/
def CActOk (subs : List CWhen) (ws : List CVertex) : CAct → Prop
  | .run s _ => s ∈ subs ∧ s.1 ≠ [] ∧ s.2 ≠ -1
  | .limit id s _ => s ∈ subs ∧ s.1 ≠ [] ∧ s.2 ≠ -1 ∧ ∃ q ∈ cOf cIsGen ws, cIdent q.1 = id

/-- the engine after any history -/
theorem cActs_spec (subs : List CWhen) (ws : List CVertex) (p : CProb) (hP : CProgram subs ws p) (ha : CGensApart ws) : ∀ (hist : List CAct) (e : CEngine) (up : CId → Rat), CLive ws p e → e.loaded = cRebound p up →
    (∀ a ∈ hist, CActOk subs ws a) → ∃ e' up', cActs e hist = .ok e' ∧ CLive ws p e' ∧ e'.base = e.base ∧ e'.loaded = cRebound p up' ∧
      (∀ q ∈ cOf cIsGen ws, ∀ s, up' ⟨q.2, "active power generation".toList, cExtra s⟩ = match cLastLimit (cIdent q.1) s hist with | some m => m / e.base | none => up ⟨q.2, "active power generation".toList, cExtra s⟩) ∧
      ∀ s, (∀ q ∈ cOf cIsBus ws, ∀ name, (name = "voltage angle".toList ∨ name = "load curtailment".toList ∨ name = "generation curtailment".toList) →
          cValue e' q.2 name s = match cLastRun s hist with | some x => some (x ⟨q.2, name, cExtra s⟩) | none => cValue e q.2 name s) ∧
        (∀ q ∈ cOf cIsGen ws, cOn q.1 s = true → ∀ name, (name = "active power generation".toList ∨ (name = "active power generation cost".toList ∧ cFetch q.1 "cost function".toList [] ≠ .none)) →
          cValue e' q.2 name s = match cLastRun s hist with | some x => some (x ⟨q.2, name, cExtra s⟩) | none => cValue e q.2 name s)
  | [], e, up, he, hup, _ => ⟨e, up, rfl, he, rfl, hup, fun _ _ _ => rfl, fun s => ⟨fun _ _ _ _ => rfl, fun _ _ _ _ _ => rfl⟩⟩
  | .run s x :: hist, e, up, he, hup, hok => by
    obtain ⟨hs, h1, h2⟩ := hok (.run s x) List.mem_cons_self
    obtain ⟨e1, a1, a2, a3, _, a5, a6, a7, _⟩ := C204_values_partial subs ws p hP e he s hs h1 h2 x
    have hbase : e1.base = e.base := by
      unfold cEvaluate at a1
      obtain ⟨v, _, a1⟩ := (bindE_iff _ _ _).1 a1
      cases a1
      rfl
    obtain ⟨e2, up2, b1, b2, b3, b4, b5, b6⟩ := cActs_spec subs ws p hP ha hist e1 up a2 (a3.trans hup) (fun a h => hok a (List.mem_cons_of_mem _ h))
    refine ⟨e2, up2, ?_, b2, b3.trans hbase, b4, ?_, fun t => ⟨?_, ?_⟩⟩
    · unfold cActs
      rw [foldE_cons]
      show (cEvaluate x (cSub s) e >>= _) = _
      rw [a1]
      exact b1
    · intro q hq t
      rw [b5 q hq t, cLastLimit_cons, Option.or_none, hbase]
    · intro q hq name hname
      rw [(b6 t).1 q hq name hname, cLastRun_cons]
      cases cLastRun t hist with
      | some y => rfl
      | none =>
        rw [Option.none_or]
        dsimp only
        by_cases hst : s = t
        · rw [if_pos hst]
          subst hst
          exact a5 q hq name hname
        · rw [if_neg hst]
          exact a7 t (fun h => hst h.symm) _ _
    · intro q hq hon name hname
      rw [(b6 t).2 q hq hon name hname, cLastRun_cons]
      cases cLastRun t hist with
      | some y => rfl
      | none =>
        rw [Option.none_or]
        dsimp only
        by_cases hst : s = t
        · rw [if_pos hst]
          subst hst
          rcases hname with rfl | ⟨rfl, hne⟩
          · exact (a6 q hq hon).1
          · exact (a6 q hq hon).2 hne
        · rw [if_neg hst]
          exact a7 t (fun h => hst h.symm) _ _
  | .limit id s m :: hist, e, up, he, hup, hok => by
    obtain ⟨hs, h1, h2, q0, hq0, rfl⟩ := hok (.limit id s m) List.mem_cons_self
    obtain ⟨e1, a1, a2, a3, a4, a5, a6, a7⟩ := C205_limit_partial subs ws p hP ha e he up hup q0 hq0 s hs h1 h2 _ (List.Perm.refl _) m
    obtain ⟨e2, up2, b1, b2, b3, b4, b5, b6⟩ := cActs_spec subs ws p hP ha hist e1 _ a2 a7 (fun a h => hok a (List.mem_cons_of_mem _ h))
    have hv : ∀ node name t, cValue e1 node name t = cValue e node name t := by
      intro node name t
      unfold cValue
      rw [a4, a2.cols, he.cols]
    refine ⟨e2, up2, ?_, b2, b3.trans a3, b4, ?_, fun t => ⟨?_, ?_⟩⟩
    · unfold cActs
      rw [foldE_cons]
      show ((cUpdateParameter ⟨cLimitOrder (cIdent q0.1) s, .dbl m⟩ e).map (·.1) >>= _) = _
      rw [a1]
      exact b1
    · intro q hq t
      rw [b5 q hq t, cLastLimit_cons, a3]
      cases cLastLimit (cIdent q.1) t hist with
      | some y => rfl
      | none =>
        rw [Option.none_or]
        dsimp only
        by_cases hst : cIdent q0.1 = cIdent q.1 ∧ s = t
        · rw [if_pos hst]
          have := ha q0 hq0 q hq hst.1
          subst this
          rw [hst.2, Function.update_self]
        · rw [if_neg hst, Function.update_of_ne]
          intro heq
          apply hst
          injection heq with g1 _ g3
          have := cOf_inj hq hq0 g1
          exact ⟨by rw [this], (cExtra_inj g3).symm⟩
    · intro q hq name hname
      rw [(b6 t).1 q hq name hname, cLastRun_cons, Option.or_none, hv]
    · intro q hq hon name hname
      rw [(b6 t).2 q hq hon name hname, cLastRun_cons, Option.or_none, hv]

/-- **C205.** After any history of evaluations and of new limits, from the engine of `initialise`: the program of each period is the optimal power flow of the data in which each generator has the limit of that period that was given last, divided by the base power, and that of the data if none was given; its objective is that of the data; and the results of each period are those of its last evaluation. -/
theorem C205_history_partial (subs : List CWhen) (ws : List CVertex) (p : CProb) (hP : CProgram subs ws p) (hnet : CNetOk ws) (hcost : ∀ q ∈ cOf cIsGen ws, cFetch q.1 "cost function".toList [] ≠ .many) (ha : CGensApart ws)
    (e : CEngine) (he : CLive ws p e) (hl : e.loaded = p) (hist : List CAct) (hok : ∀ a ∈ hist, CActOk subs ws a) : ∃ e', cActs e hist = .ok e' ∧ CLive ws p e' ∧
      (∀ s ∈ subs, ∀ up : Nat → Rat, (∀ q ∈ cOf cIsGen ws, up q.2 = match cLastLimit (cIdent q.1) s hist with | some m => m / e.base | none => cVal q.1 "active power max limit".toList s) →
        ∀ x, (cFeasible e'.loaded (cSub s) x ↔ CDcOpfMax ws s up x) ∧ cObjective e'.loaded (cSub s) x = cObjective p (cSub s) x) ∧
      ∀ s, (∀ q ∈ cOf cIsBus ws, ∀ name, (name = "voltage angle".toList ∨ name = "load curtailment".toList ∨ name = "generation curtailment".toList) →
          cValue e' q.2 name s = match cLastRun s hist with | some x => some (x ⟨q.2, name, cExtra s⟩) | none => cValue e q.2 name s) ∧
        (∀ q ∈ cOf cIsGen ws, cOn q.1 s = true → ∀ name, (name = "active power generation".toList ∨ (name = "active power generation cost".toList ∧ cFetch q.1 "cost function".toList [] ≠ .none)) →
          cValue e' q.2 name s = match cLastRun s hist with | some x => some (x ⟨q.2, name, cExtra s⟩) | none => cValue e q.2 name s) := by
  obtain ⟨up0, h0, h1⟩ := C205_first_partial subs ws p hP
  obtain ⟨e', up', b1, b2, b3, b4, b5, b6⟩ := cActs_spec subs ws p hP ha hist e up0 he (hl.trans h0) hok
  refine ⟨e', b1, b2, ?_, b6⟩
  intro s hs up hup x
  rw [b4]
  refine ⟨?_, cObjective_rebound _ _ _ _⟩
  rw [C205_feasible_partial subs ws p hP.prob hnet hP.nodup hcost up' s hs x]
  have key : ∀ q ∈ cOf cIsGen ws, up q.2 = up' ⟨q.2, "active power generation".toList, cExtra s⟩ := by
    intro q hq
    rw [hup q hq, b5 q hq s]
    cases cLastLimit (cIdent q.1) s hist with
    | some m => rfl
    | none => exact (h1 q hq s hs).symm
  constructor
  · rintro ⟨a, b, c, d, f, g⟩
    exact ⟨a, b, c, fun q hq hon => by rw [key q hq]; exact d q hq hon, f, g⟩
  · rintro ⟨a, b, c, d, f, g⟩
    exact ⟨a, b, c, fun q hq hon => by rw [← key q hq]; exact d q hq hon, f, g⟩

end Pyensys
