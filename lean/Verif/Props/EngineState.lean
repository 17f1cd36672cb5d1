import Verif.Model.EngineState
import Verif.Props.EngineExamples

/-!
# Evaluations of the compiled engine

C204: after an evaluation the values of the variables of the period that was asked for are those the solver found, and no others change.
-/

namespace Pyensys

/-! ## Specification -/

/-- the value beside the column with an identity -/
def cBeside (cols : List CCol) (vals : List Rat) (id : CId) : Option Rat := ((cols.zip vals).find? (fun q => decide (q.1.id = id))).map (·.2)

/-- the value that the engine has for a variable of an element in a period -/
def cValue (e : CEngine) (node : Nat) (name : Tok) (s : CWhen) : Option Rat := cBeside e.cols e.vals ⟨node, name, cExtra s⟩

/-- what tells columns apart: bounds and costs are left out -/
def cTag (c : CCol) : CId × List CChar × Bool := (c.id, c.period, c.active)

/-- an engine that has a program: the columns of its variables and of its solver are those of the program (bounds of the solver may have been changed) -/
structure CLive (ws : List CVertex) (p : CProb) (e : CEngine) : Prop where
  verts : e.verts = ws
  cols : e.cols = p.cols
  vals : e.vals.length = p.cols.length
  sol : e.sol.length = p.cols.length
  tags : e.loaded.cols.map cTag = p.cols.map cTag
  rows : e.loaded.rows = p.rows
  elems : e.loaded.elems = p.elems

/-- the program of the engine, for the vertices `ws` and the periods `subs` -/
structure CProgram (subs : List CWhen) (ws : List CVertex) (p : CProb) : Prop where
  prob : cProblem subs ws = .ok p
  nodup : subs.Nodup

/-! ## Lemmas -/

theorem cBeside_at : ∀ (cols : List CCol) (vals : List Rat) (k : Nat) (c : CCol) (v : Rat), (cols.map (·.id)).Nodup → cols[k]? = some c → vals[k]? = some v → cBeside cols vals c.id = some v
  | [], _, k, c, v, _, h, _ => by simp at h
  | d :: cols, [], k, c, v, _, _, h => by simp at h
  | d :: cols, w :: vals, 0, c, v, _, hc, hv => by
    simp only [List.getElem?_cons_zero, Option.some.injEq] at hc hv
    subst hc; subst hv
    unfold cBeside
    rw [List.zip_cons_cons, List.find?_cons_of_pos (by simp)]
    rfl
  | d :: cols, w :: vals, k + 1, c, v, hn, hc, hv => by
    rw [List.map_cons, List.nodup_cons] at hn
    simp only [List.getElem?_cons_succ] at hc hv
    have hne : d.id ≠ c.id := fun he => hn.1 (List.mem_map.2 ⟨c, List.mem_of_getElem? hc, he.symm⟩)
    have := cBeside_at cols vals k c v hn.2 hc hv
    unfold cBeside at this ⊢
    rw [List.zip_cons_cons, List.find?_cons_of_neg (by simpa using hne)]
    exact this

theorem cBeside_none (cols : List CCol) (vals : List Rat) (id : CId) (h : ∀ c ∈ cols, c.id ≠ id) : cBeside cols vals id = none := by
  unfold cBeside
  rw [List.find?_eq_none.2 ?_]
  · rfl
  · rintro ⟨c, v⟩ hq
    simpa using h c (List.of_mem_zip hq).1

theorem cKey_inj {a b : CId} (hn : a.node = b.node) (h : cKey a = cKey b) : a = b := by
  obtain ⟨n, m, s⟩ := a
  obtain ⟨n', m', s'⟩ := b
  unfold cKey cNamed at h
  simp only [List.cons.injEq, CChar.mk.injEq, CVal.str.injEq, true_and, and_true] at h
  dsimp only at hn
  rw [hn, h.1, h.2]

theorem cVarAt_some {cols : List CCol} {node : Nat} {key : List CChar} {k : Nat} (h : cVarAt cols node key = some k) : ∃ c, cols[k]? = some c ∧ c.id.node = node ∧ cKey c.id = key := by
  unfold cVarAt at h
  rw [List.findIdx?_eq_some_iff_getElem] at h
  obtain ⟨hk, h, _⟩ := h
  simp only [Bool.and_eq_true, decide_eq_true_eq] at h
  exact ⟨cols[k], List.getElem?_eq_getElem hk, h⟩

theorem cVarAt_none {cols : List CCol} {node : Nat} {key : List CChar} : cVarAt cols node key = none ↔ ∀ c ∈ cols, ¬ (c.id.node = node ∧ cKey c.id = key) := by
  unfold cVarAt
  rw [List.findIdx?_eq_none_iff]
  simp

/-- a column is found under its own key -/
theorem cVarAt_of {cols : List CCol} (hn : (cols.map (·.id)).Nodup) {c : CCol} (hc : c ∈ cols) : ∃ k, cVarAt cols c.id.node (cKey c.id) = some k ∧ cols[k]? = some c := by
  cases h : cVarAt cols c.id.node (cKey c.id) with
  | none => exact absurd ⟨rfl, rfl⟩ (cVarAt_none.1 h c hc)
  | some k =>
    obtain ⟨d, h1, h2, h3⟩ := cVarAt_some h
    have hid := cKey_inj h2 h3
    exact ⟨k, rfl, by rw [h1, List.inj_on_of_nodup_map hn (List.mem_of_getElem? h1) hc hid]⟩

/-- some columns got their values from the solution -/
def CWrote (cols : List CCol) (sol : List Rat) (ids : List CId) (a b : List Rat) : Prop :=
  b.length = a.length ∧ ∀ (k : Nat) (c : CCol), cols[k]? = some c → b[k]? = if c.id ∈ ids then sol[k]? else a[k]?

theorem CWrote.trans {cols : List CCol} {sol : List Rat} {i j : List CId} {a b c : List Rat} (h1 : CWrote cols sol i a b) (h2 : CWrote cols sol j b c) : CWrote cols sol (i ++ j) a c := by
  refine ⟨h2.1.trans h1.1, fun k d hd => ?_⟩
  rw [h2.2 k d hd, h1.2 k d hd]
  by_cases hj : d.id ∈ j
  · rw [if_pos hj, if_pos (List.mem_append_right _ hj)]
  · rw [if_neg hj]
    by_cases hi : d.id ∈ i
    · rw [if_pos hi, if_pos (List.mem_append_left _ hi)]
    · rw [if_neg hi, if_neg (by rw [List.mem_append]; rintro (h | h) <;> contradiction)]

theorem CWrote.refl (cols : List CCol) (sol a : List Rat) : CWrote cols sol [] a a := ⟨rfl, fun k c _ => by simp⟩

theorem CWrote.congr {cols : List CCol} {sol : List Rat} {i j : List CId} {a b : List Rat} (h : CWrote cols sol i a b) (he : ∀ c ∈ cols, c.id ∈ i ↔ c.id ∈ j) : CWrote cols sol j a b := by
  refine ⟨h.1, fun k c hc => ?_⟩
  rw [h.2 k c hc]
  have := he c (List.mem_of_getElem? hc)
  by_cases hi : c.id ∈ i
  · rw [if_pos hi, if_pos (this.1 hi)]
  · rw [if_neg hi, if_neg (fun h => hi (this.2 h))]

/-- the key of a variable in a period in which both subscripts are used -/
theorem cWith_sub (name : Tok) (s : CWhen) (h1 : s.1 ≠ []) (h2 : s.2 ≠ -1) : cExtra s = cSub s ∧ cWith [cNamed name] (cSub s) = cKey ⟨0, name, cExtra s⟩ := by
  unfold cExtra cSub cKey
  rw [if_pos h1, if_pos h2]
  exact ⟨rfl, rfl⟩

theorem cStore_ok {cols : List CCol} (hn : (cols.map (·.id)).Nodup) {sol : List Rat} (hs : sol.length = cols.length) {last : List CChar} {node : Nat} {name : Tok} {subs : List CChar}
    (hkey : cWith [cNamed name] last = cKey ⟨0, name, subs⟩) {c : CCol} (hc : c ∈ cols) (hid : c.id = ⟨node, name, subs⟩) (vals : List Rat) (hv : vals.length = cols.length) :
    ∃ vals', cStore cols sol last node name vals = .ok vals' ∧ CWrote cols sol [⟨node, name, subs⟩] vals vals' := by
  obtain ⟨k, h1, h2⟩ := cVarAt_of hn hc
  rw [hid] at h1
  have hkey' : cWith [cNamed name] last = cKey ⟨node, name, subs⟩ := hkey
  have hk : k < cols.length := (List.getElem?_eq_some_iff.1 h2).1
  unfold cStore cStoreAt
  rw [hkey', h1]
  dsimp only
  rw [List.getElem?_eq_getElem (by omega : k < sol.length)]
  dsimp only
  refine ⟨_, rfl, by simp, fun j d hd => ?_⟩
  have hj : j < cols.length := (List.getElem?_eq_some_iff.1 hd).1
  rw [List.getElem?_set]
  by_cases hjk : k = j
  · subst hjk
    have : d = c := by rw [h2] at hd; exact (Option.some.inj hd).symm
    rw [if_pos rfl, if_pos (by omega), this, hid, if_pos (by simp), List.getElem?_eq_getElem (by omega)]
  · rw [if_neg hjk, if_neg]
    intro hm
    rw [List.mem_singleton, ← hid] at hm
    have e := List.inj_on_of_nodup_map hn (List.mem_of_getElem? hd) hc hm
    obtain ⟨hj', hdj⟩ := List.getElem?_eq_some_iff.1 hd
    obtain ⟨hk', hdk⟩ := List.getElem?_eq_some_iff.1 h2
    have hnd : cols.Nodup := List.Nodup.of_map _ hn
    exact hjk ((List.Nodup.getElem_inj_iff hnd).1 (by rw [hdk, hdj, e]))

theorem cStoreIf_none {cols : List CCol} {sol : List Rat} {last : List CChar} {node : Nat} {name : Tok} {subs : List CChar} (hkey : cWith [cNamed name] last = cKey ⟨0, name, subs⟩)
    (h : ∀ c ∈ cols, c.id ≠ ⟨node, name, subs⟩) (vals : List Rat) : cStoreIf cols sol last node name vals = .ok vals := by
  have hkey' : cWith [cNamed name] last = cKey ⟨node, name, subs⟩ := hkey
  have : cVarAt cols node (cWith [cNamed name] last) = none := by
    rw [cVarAt_none]
    rintro c hc ⟨h1, h2⟩
    exact h c hc (cKey_inj h1 (h2.trans hkey'))
  unfold cStoreIf
  rw [this]
  rfl

theorem cStoreIf_ok {cols : List CCol} (hn : (cols.map (·.id)).Nodup) {sol : List Rat} (hs : sol.length = cols.length) {last : List CChar} {node : Nat} {name : Tok} {subs : List CChar}
    (hkey : cWith [cNamed name] last = cKey ⟨0, name, subs⟩) {c : CCol} (hc : c ∈ cols) (hid : c.id = ⟨node, name, subs⟩) (vals : List Rat) (hv : vals.length = cols.length) :
    ∃ vals', cStoreIf cols sol last node name vals = .ok vals' ∧ CWrote cols sol [⟨node, name, subs⟩] vals vals' := by
  obtain ⟨k, h1, h2⟩ := cVarAt_of hn hc
  rw [hid] at h1
  have hkey' : cWith [cNamed name] last = cKey ⟨node, name, subs⟩ := hkey
  unfold cStoreIf
  rw [hkey', h1, if_pos (show (some k).isSome = true from rfl)]
  exact cStore_ok hn hs hkey hc hid vals hv

/-- a loop of writers -/
theorem foldE_wrote {α : Type} {cols : List CCol} {sol : List Rat} (f : List Rat → α → Except CErr (List Rat)) (ids : α → List CId) : ∀ (l : List α),
    (∀ q ∈ l, ∀ vals : List Rat, vals.length = cols.length → ∃ vals', f vals q = .ok vals' ∧ CWrote cols sol (ids q) vals vals') →
    ∀ vals : List Rat, vals.length = cols.length → ∃ vals', l.foldlM f vals = .ok vals' ∧ CWrote cols sol (l.flatMap ids) vals vals'
  | [], _, vals, _ => ⟨vals, rfl, CWrote.refl _ _ _⟩
  | q :: l, h, vals, hv => by
    obtain ⟨v1, h1, h2⟩ := h q List.mem_cons_self vals hv
    obtain ⟨v2, h3, h4⟩ := foldE_wrote f ids l (fun r hr => h r (List.mem_cons_of_mem _ hr)) v1 (h2.1.trans hv)
    refine ⟨v2, ?_, h2.trans h4⟩
    rw [foldE_cons, h1]
    exact h3

/-- the identities of the variables of a bus in a period -/
def cBusIds (s : CWhen) (q : CVertex × Nat) : List CId := [⟨q.2, "voltage angle".toList, cExtra s⟩, ⟨q.2, "generation curtailment".toList, cExtra s⟩, ⟨q.2, "load curtailment".toList, cExtra s⟩]

/-- the identities of the variables of a generator in a period -/
def cGenIds (s : CWhen) (q : CVertex × Nat) : List CId :=
  ⟨q.2, "active power generation".toList, cExtra s⟩ :: (if cFetch q.1 "cost function".toList [] = .none then [] else [⟨q.2, "active power generation cost".toList, cExtra s⟩])

theorem cBusCols_ids {q : CVertex × Nat} {s : CWhen} {i : CId} : (∃ c ∈ cBusCols q.2 s, c.id = i) ↔ i ∈ cBusIds s q := by
  unfold cBusCols cBusIds
  constructor
  · rintro ⟨c, hc, rfl⟩
    rcases List.mem_cons.1 hc with rfl | hc
    · exact List.mem_cons_self
    rcases List.mem_cons.1 hc with rfl | hc
    · exact List.mem_cons_of_mem _ (List.mem_cons_of_mem _ List.mem_cons_self)
    rcases List.mem_cons.1 hc with rfl | hc
    · exact List.mem_cons_of_mem _ List.mem_cons_self
    cases hc
  · intro h
    rcases List.mem_cons.1 h with rfl | h
    · exact ⟨_, List.mem_cons_self, rfl⟩
    rcases List.mem_cons.1 h with rfl | h
    · exact ⟨_, List.mem_cons_of_mem _ (List.mem_cons_of_mem _ List.mem_cons_self), rfl⟩
    rcases List.mem_cons.1 h with rfl | h
    · exact ⟨_, List.mem_cons_of_mem _ List.mem_cons_self, rfl⟩
    cases h

/-- the columns of a period are those of its variables -/
theorem cPeriod_ids {subs : List CWhen} {ws : List CVertex} {p : CProb} (hp : CParts subs ws p) {s : CWhen} (hs : s ∈ subs) (c : CCol) (hc : c ∈ p.cols) :
    c.id.subs = cExtra s ↔ c.id ∈ (cOf cIsBus ws).flatMap (cBusIds s) ++ (cOf cIsGen ws).flatMap (cGenIds s) := by
  rw [List.mem_append, List.mem_flatMap, List.mem_flatMap]
  constructor
  · intro h
    rcases (cCols_mem hp c).1 hc with ⟨q, hq, t, ht, hct⟩ | ⟨q, hq, t, ht, hct⟩
    · have h1 := cBusCols_ids.1 ⟨c, hct, rfl⟩
      have : c.id.subs = cExtra t := by
        unfold cBusIds at h1
        rcases List.mem_cons.1 h1 with e | h1
        · rw [e]
        rcases List.mem_cons.1 h1 with e | h1
        · rw [e]
        rcases List.mem_cons.1 h1 with e | h1
        · rw [e]
        cases h1
      have : t = s := cExtra_inj (this.symm.trans h)
      exact Or.inl ⟨q, hq, this ▸ h1⟩
    · have := cGenCols_id hp hq ht hct
      have ets : t = s := cExtra_inj (this.2.symm.trans h)
      subst ets
      refine Or.inr ⟨q, hq, ?_⟩
      unfold cGenIds
      rcases (cGenCols_mem hp hq ht c).1 hct with rfl | ⟨hne, rfl⟩
      · exact List.mem_cons_self
      · rw [if_neg hne]
        exact List.mem_cons_of_mem _ List.mem_cons_self
  · rintro (⟨q, _, h⟩ | ⟨q, _, h⟩)
    · unfold cBusIds at h
      rcases List.mem_cons.1 h with e | h
      · rw [e]
      rcases List.mem_cons.1 h with e | h
      · rw [e]
      rcases List.mem_cons.1 h with e | h
      · rw [e]
      cases h
    · unfold cGenIds at h
      rcases List.mem_cons.1 h with e | h
      · rw [e]
      · split at h
        · cases h
        · rw [List.mem_singleton] at h
          rw [h]

/-- what `store_solution` writes: the variables of the period -/
theorem cStoreAll_wrote {subs : List CWhen} {ws : List CVertex} {p : CProb} (hP : CProgram subs ws p) {e : CEngine} (he : CLive ws p e) {s : CWhen} (hs : s ∈ subs) {last : List CChar}
    (hkey : ∀ name, cWith [cNamed name] last = cKey ⟨0, name, cExtra s⟩) (sol : List Rat) (hsol : sol.length = p.cols.length) :
    ∃ vals, cStoreAll e sol last = .ok vals ∧ vals.length = p.cols.length ∧ ∀ (k : Nat) (c : CCol), p.cols[k]? = some c → vals[k]? = if c.id.subs = cExtra s then sol[k]? else e.vals[k]? := by
  have hp := cParts_of hP.prob
  have hn := C202_columns_partial subs ws p hP.prob hP.nodup
  have hbus : ∀ q ∈ cOf cIsBus ws, ∀ vals : List Rat, vals.length = p.cols.length → ∃ vals', cStoreBus p.cols sol last vals q = .ok vals' ∧ CWrote p.cols sol (cBusIds s q) vals vals' := by
    intro q hq vals hv
    have hin : ∀ i ∈ cBusIds s q, ∃ c ∈ p.cols, c.id = i := fun i hi => by
      obtain ⟨c, h1, h2⟩ := cBusCols_ids.2 hi
      exact ⟨c, (cCols_mem hp c).2 (Or.inl ⟨q, hq, s, hs, h1⟩), h2⟩
    obtain ⟨c1, hc1, e1⟩ := hin ⟨q.2, "voltage angle".toList, cExtra s⟩ (by unfold cBusIds; exact List.mem_cons_self)
    obtain ⟨c2, hc2, e2⟩ := hin ⟨q.2, "generation curtailment".toList, cExtra s⟩ (by unfold cBusIds; exact List.mem_cons_of_mem _ List.mem_cons_self)
    obtain ⟨c3, hc3, e3⟩ := hin ⟨q.2, "load curtailment".toList, cExtra s⟩ (by unfold cBusIds; exact List.mem_cons_of_mem _ (List.mem_cons_of_mem _ List.mem_cons_self))
    obtain ⟨v1, a1, b1⟩ := cStore_ok hn hsol (hkey _) hc1 e1 vals hv
    obtain ⟨v2, a2, b2⟩ := cStore_ok hn hsol (hkey _) hc2 e2 v1 (b1.1.trans hv)
    obtain ⟨v3, a3, b3⟩ := cStore_ok hn hsol (hkey _) hc3 e3 v2 (b2.1.trans (b1.1.trans hv))
    refine ⟨v3, ?_, (b1.trans b2).trans b3⟩
    unfold cStoreBus
    rw [a1]
    show (cStore p.cols sol last q.2 "generation curtailment".toList v1 >>= _) = _
    rw [a2]
    exact a3
  have hgen : ∀ q ∈ cOf cIsGen ws, ∀ vals : List Rat, vals.length = p.cols.length → ∃ vals', cStoreGen p.cols sol last vals q = .ok vals' ∧ CWrote p.cols sol (cGenIds s q) vals vals' := by
    intro q hq vals hv
    have hmem1 := (cCols_mem hp _).2 (Or.inr ⟨q, hq, s, hs, (cGenCols_mem hp hq hs _).2 (Or.inl rfl)⟩)
    obtain ⟨v1, a1, b1⟩ := cStore_ok hn hsol (hkey "active power generation".toList) hmem1 rfl vals hv
    unfold cStoreGen cGenIds
    rw [a1]
    show ∃ vals', cStoreIf p.cols sol last q.2 "active power generation cost".toList v1 = .ok vals' ∧ _
    by_cases hf : cFetch q.1 "cost function".toList [] = .none
    · rw [if_pos hf]
      refine ⟨v1, cStoreIf_none (hkey _) ?_ v1, b1⟩
      intro c hc hid
      have h1 := (cPeriod_ids hp hs c hc).1 (by rw [hid])
      rw [List.mem_append, List.mem_flatMap, List.mem_flatMap] at h1
      rcases h1 with ⟨r, _, h1⟩ | ⟨r, hr, h1⟩
      · unfold cBusIds at h1
        rw [hid] at h1
        simp only [List.mem_cons, CId.mk.injEq, List.not_mem_nil, or_false] at h1
        rcases h1 with h1 | h1 | h1 <;> exact absurd h1.2.1 (by decide)
      · unfold cGenIds at h1
        rw [hid] at h1
        rcases List.mem_cons.1 h1 with h1 | h1
        · injection h1 with _ h1 _
          exact absurd h1 (by decide)
        · split at h1
          · cases h1
          · rename_i hne
            rw [List.mem_singleton] at h1
            injection h1 with h1 _ _
            have := cOf_inj hq hr h1
            rw [← this] at hne
            exact hne hf
    · rw [if_neg hf]
      have hmem2 := (cCols_mem hp _).2 (Or.inr ⟨q, hq, s, hs, (cGenCols_mem hp hq hs _).2 (Or.inr ⟨hf, rfl⟩)⟩)
      obtain ⟨v2, a2, b2⟩ := cStoreIf_ok hn hsol (hkey "active power generation cost".toList) hmem2 rfl v1 (b1.1.trans hv)
      exact ⟨v2, a2, b1.trans b2⟩
  obtain ⟨v1, a1, b1⟩ := foldE_wrote (cStoreBus p.cols sol last) (cBusIds s) _ hbus e.vals he.vals
  obtain ⟨v2, a2, b2⟩ := foldE_wrote (cStoreGen p.cols sol last) (cGenIds s) _ hgen v1 (b1.1.trans he.vals)
  refine ⟨v2, ?_, b2.1.trans (b1.1.trans he.vals), ?_⟩
  · unfold cStoreAll
    rw [he.verts, he.cols, a1]
    exact a2
  · intro k c hc
    rw [(b1.trans b2).2 k c hc]
    have := cPeriod_ids hp hs c (List.mem_of_getElem? hc)
    by_cases hx : c.id.subs = cExtra s
    · rw [if_pos hx, if_pos (this.1 hx)]
    · rw [if_neg hx, if_neg (fun h => hx (this.2 h))]

theorem cSolve_length (p : CProb) (period : List CChar) (x : CId → Rat) (sol : List Rat) (h : sol.length = p.cols.length) : (cSolve p period x sol).length = p.cols.length := by
  unfold cSolve
  rw [List.length_zipWith, h, min_self]

/-- the solution after a run of the solver -/
theorem cSolve_at {ws : List CVertex} {p : CProb} {e : CEngine} (he : CLive ws p e) (period : List CChar) (x : CId → Rat) (k : Nat) (c : CCol) (hc : p.cols[k]? = some c) :
    (cSolve e.loaded period x e.sol)[k]? = if c.active = true ∧ c.period = period then some (x c.id) else e.sol[k]? := by
  have hk : k < p.cols.length := (List.getElem?_eq_some_iff.1 hc).1
  have hlen : e.loaded.cols.length = p.cols.length := by
    have := congrArg List.length he.tags
    simpa using this
  have ht : (e.loaded.cols[k]?).map cTag = some (cTag c) := by
    rw [← List.getElem?_map, he.tags, List.getElem?_map, hc]
    rfl
  rw [List.getElem?_eq_getElem (by omega : k < e.loaded.cols.length)] at ht
  simp only [Option.map_some, Option.some.injEq, cTag, Prod.mk.injEq] at ht
  unfold cSolve
  rw [List.getElem?_zipWith, List.getElem?_eq_getElem (by omega : k < e.loaded.cols.length), List.getElem?_eq_getElem (by rw [he.sol]; exact hk : k < e.sol.length)]
  dsimp only
  rw [ht.1, ht.2.1, ht.2.2]
  split <;> rfl

/-- an evaluation of a period keeps the engine alive -/
theorem cEvaluate_live {subs : List CWhen} {ws : List CVertex} {p : CProb} (hP : CProgram subs ws p) {e : CEngine} (he : CLive ws p e) {s : CWhen} (hs : s ∈ subs) {cand : List CChar}
    (hkey : ∀ name, cWith [cNamed name] (cAsked cand) = cKey ⟨0, name, cExtra s⟩) (x : CId → Rat) :
    ∃ e', cEvaluate x cand e = .ok e' ∧ CLive ws p e' ∧ e'.base = e.base ∧ e'.periods = e.periods ∧ e'.multi = e.multi ∧ e'.loaded = e.loaded ∧ e'.last = cAsked cand ∧ e'.sol = cSolve e.loaded (cAsked cand) x e.sol ∧
      ∀ (k : Nat) (c : CCol), p.cols[k]? = some c → e'.vals[k]? = if c.id.subs = cExtra s then e'.sol[k]? else e.vals[k]? := by
  have hlen : e.loaded.cols.length = p.cols.length := by
    have := congrArg List.length he.tags
    simpa using this
  have hsol : (cSolve e.loaded (cAsked cand) x e.sol).length = p.cols.length := by
    rw [cSolve_length _ _ _ _ (he.sol.trans hlen.symm), hlen]
  obtain ⟨vals, h1, h2, h3⟩ := cStoreAll_wrote hP he hs hkey _ hsol
  refine ⟨⟨e.base, e.periods, e.multi, e.verts, e.cols, vals, e.loaded, cSolve e.loaded (cAsked cand) x e.sol, cAsked cand⟩, ?_, ⟨he.verts, he.cols, h2, hsol, he.tags, he.rows, he.elems⟩, rfl, rfl, rfl, rfl, rfl, rfl, h3⟩
  unfold cEvaluate
  show (cStoreAll e _ (cAsked cand) >>= _) = _
  rw [h1]
  rfl

/-- the value of a variable from its column -/
theorem cValue_at {subs : List CWhen} {ws : List CVertex} {p : CProb} (hP : CProgram subs ws p) {e : CEngine} (he : CLive ws p e) {k : Nat} {c : CCol} (hc : p.cols[k]? = some c) :
    cBeside e.cols e.vals c.id = e.vals[k]? := by
  have hk : k < p.cols.length := (List.getElem?_eq_some_iff.1 hc).1
  have hn := C202_columns_partial subs ws p hP.prob hP.nodup
  rw [List.getElem?_eq_getElem (by rw [he.vals]; exact hk)]
  exact cBeside_at _ _ k c _ (by rw [he.cols]; exact hn) (by rw [he.cols]; exact hc) (List.getElem?_eq_getElem _)

/-! ## C204 -/

/-- **C204.** An evaluation of one of the periods succeeds; the variables of the buses and of the generators in service have the values that the solver found for that period; those of generators out of service keep the values of the solver; nothing else changes. -/
theorem C204_values_partial (subs : List CWhen) (ws : List CVertex) (p : CProb) (hP : CProgram subs ws p) (e : CEngine) (he : CLive ws p e) (s : CWhen) (hs : s ∈ subs) (hp : s.1 ≠ []) (hh : s.2 ≠ -1) (x : CId → Rat) :
    ∃ e', cEvaluate x (cSub s) e = .ok e' ∧ CLive ws p e' ∧ e'.loaded = e.loaded ∧ e'.last = cSub s ∧
      (∀ q ∈ cOf cIsBus ws, ∀ name, (name = "voltage angle".toList ∨ name = "load curtailment".toList ∨ name = "generation curtailment".toList) → cValue e' q.2 name s = some (x ⟨q.2, name, cExtra s⟩)) ∧
      (∀ q ∈ cOf cIsGen ws, cOn q.1 s = true → cValue e' q.2 "active power generation".toList s = some (x ⟨q.2, "active power generation".toList, cExtra s⟩) ∧
        (cFetch q.1 "cost function".toList [] ≠ .none → cValue e' q.2 "active power generation cost".toList s = some (x ⟨q.2, "active power generation cost".toList, cExtra s⟩))) ∧
      (∀ t, t ≠ s → ∀ node name, cValue e' node name t = cValue e node name t) ∧
      (∀ node name, (∀ q ∈ cOf cIsGen ws, q.2 = node → cOn q.1 s = false) → (∀ q ∈ cOf cIsBus ws, q.2 ≠ node) → cBeside e'.cols e'.sol ⟨node, name, cExtra s⟩ = cBeside e.cols e.sol ⟨node, name, cExtra s⟩) := by
  have hp' := cParts_of hP.prob
  have hn := C202_columns_partial subs ws p hP.prob hP.nodup
  have hask : cAsked (cSub s) = cSub s := by
    unfold cAsked
    rw [if_neg (by unfold cSub; simp)]
  obtain ⟨e', h1, h2, _, _, _, h3, h4, h5, h6⟩ := cEvaluate_live hP he hs (cand := cSub s) (fun name => by rw [hask]; exact (cWith_sub name s hp hh).2) x
  rw [hask] at h4 h5
  have val : ∀ c ∈ p.cols, c.id.subs = cExtra s → c.active = true → c.period = cSub s → cBeside e'.cols e'.vals c.id = some (x c.id) := by
    intro c hc hid hact hper
    obtain ⟨k, hk⟩ := List.mem_iff_getElem?.1 hc
    rw [cValue_at hP h2 hk, h6 k c hk, if_pos hid, h5, cSolve_at he _ x k c hk, if_pos ⟨hact, hper⟩]
  refine ⟨e', h1, h2, h3, h4, ?_, ?_, ?_, ?_⟩
  · intro q hq name hname
    obtain ⟨c, hc1, hc2⟩ := (cBusCols_ids (q := q) (s := s) (i := ⟨q.2, name, cExtra s⟩)).2 (by
      unfold cBusIds
      rcases hname with rfl | rfl | rfl
      · exact List.mem_cons_self
      · exact List.mem_cons_of_mem _ (List.mem_cons_of_mem _ List.mem_cons_self)
      · exact List.mem_cons_of_mem _ List.mem_cons_self)
    have hc : c ∈ p.cols := (cCols_mem hp' c).2 (Or.inl ⟨q, hq, s, hs, hc1⟩)
    have hac : c.active = true ∧ c.period = cSub s := by
      unfold cBusCols at hc1
      rcases List.mem_cons.1 hc1 with rfl | hc1
      · exact ⟨rfl, rfl⟩
      rcases List.mem_cons.1 hc1 with rfl | hc1
      · exact ⟨rfl, rfl⟩
      rcases List.mem_cons.1 hc1 with rfl | hc1
      · exact ⟨rfl, rfl⟩
      cases hc1
    have := val c hc (by rw [hc2]) hac.1 hac.2
    rw [hc2] at this
    exact this
  · intro q hq hon
    refine ⟨?_, fun hne => ?_⟩
    · have hmem := (cCols_mem hp' _).2 (Or.inr ⟨q, hq, s, hs, (cGenCols_mem hp' hq hs _).2 (Or.inl rfl)⟩)
      exact val _ hmem rfl hon rfl
    · have hmem := (cCols_mem hp' _).2 (Or.inr ⟨q, hq, s, hs, (cGenCols_mem hp' hq hs _).2 (Or.inr ⟨hne, rfl⟩)⟩)
      exact val _ hmem rfl hon rfl
  · intro t hts node name
    unfold cValue
    by_cases hex : ∃ c ∈ p.cols, c.id = ⟨node, name, cExtra t⟩
    · obtain ⟨c, hc, hid⟩ := hex
      obtain ⟨k, hk⟩ := List.mem_iff_getElem?.1 hc
      rw [← hid, cValue_at hP h2 hk, cValue_at hP he hk, h6 k c hk, if_neg]
      rw [hid]
      exact fun h => hts (cExtra_inj h)
    · rw [cBeside_none _ _ _ (by rw [h2.cols]; exact fun c hc he => hex ⟨c, hc, he⟩), cBeside_none _ _ _ (by rw [he.cols]; exact fun c hc he => hex ⟨c, hc, he⟩)]
  · intro node name hoff hnb
    by_cases hex : ∃ c ∈ p.cols, c.id = ⟨node, name, cExtra s⟩
    · obtain ⟨c, hc, hid⟩ := hex
      obtain ⟨k, hk⟩ := List.mem_iff_getElem?.1 hc
      have hk' : k < p.cols.length := (List.getElem?_eq_some_iff.1 hk).1
      have at' : ∀ e : CEngine, CLive ws p e → cBeside e.cols e.sol c.id = e.sol[k]? := fun e he => by
        rw [List.getElem?_eq_getElem (by rw [he.sol]; exact hk')]
        exact cBeside_at _ _ k c _ (by rw [he.cols]; exact hn) (by rw [he.cols]; exact hk) (List.getElem?_eq_getElem _)
      rw [← hid, at' e' h2, at' e he, h5, cSolve_at he _ x k c hk, if_neg]
      rintro ⟨hact, hper⟩
      rcases (cCols_mem hp' c).1 hc with ⟨q, hq, t, ht, hct⟩ | ⟨q, hq, t, ht, hct⟩
      · have := cBusCols_ids.1 ⟨c, hct, rfl⟩
        apply hnb q hq
        unfold cBusIds at this
        rw [hid] at this
        simp only [List.mem_cons, CId.mk.injEq, List.not_mem_nil, or_false] at this
        rcases this with h | h | h <;> exact h.1.symm
      · have h7 := cGenCols_id hp' hq ht hct
        rw [hid] at h7
        have ets : t = s := cExtra_inj h7.2.symm
        subst ets
        have := hoff q hq h7.1.symm
        rcases (cGenCols_mem hp' hq ht c).1 hct with rfl | ⟨_, rfl⟩ <;> (dsimp only at hact; rw [this] at hact; cases hact)
    · rw [cBeside_none _ _ _ (by rw [h2.cols]; exact fun c hc he => hex ⟨c, hc, he⟩), cBeside_none _ _ _ (by rw [he.cols]; exact fun c hc he => hex ⟨c, hc, he⟩)]

end Pyensys
