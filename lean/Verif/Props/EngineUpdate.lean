import Verif.Props.EngineEval

/-!
# Updates of the parameters of the compiled engine

C205: a new limit of a generator for a period changes that limit in the program of that period and nothing else.
-/

namespace Pyensys

/-! ## Specification -/

/-- the DC optimal power flow of a period with given limits of the generators -/
structure CDcOpfMax (vs : List CVertex) (s : CWhen) (up : Nat → Rat) (x : CId → Rat) : Prop where
  balance : ∀ q ∈ cOf cIsBus vs, cOutput vs s x q.1 + cInflow vs s x q.1 + x ⟨q.2, "load curtailment".toList, cExtra s⟩ - x ⟨q.2, "generation curtailment".toList, cExtra s⟩ = cVal q.1 "Pd".toList s
  load : ∀ q ∈ cOf cIsBus vs, 0 ≤ x ⟨q.2, "load curtailment".toList, cExtra s⟩
  spill : ∀ q ∈ cOf cIsBus vs, 0 ≤ x ⟨q.2, "generation curtailment".toList, cExtra s⟩
  output : ∀ q ∈ cOf cIsGen vs, cOn q.1 s = true →
    cVal q.1 "Pmin".toList s ≤ x ⟨q.2, "active power generation".toList, cExtra s⟩ ∧ x ⟨q.2, "active power generation".toList, cExtra s⟩ ≤ up q.2
  cost : ∀ q ∈ cOf cIsGen vs, cOn q.1 s = true → ∀ i, cFetch q.1 "cost function".toList [] = .one i → ∀ sl ub, cRowSlopes i = .ok sl → cRowBounds i = .ok ub →
    CCostOk sl ub (x ⟨q.2, "active power generation".toList, cExtra s⟩) (x ⟨q.2, "active power generation cost".toList, cExtra s⟩)
  limits : ∀ q ∈ cOf cIsBranch vs, cOn q.1 s = true → cVal q.1 "maxPflow".toList s ≠ 0 →
    |cTheta vs s x (cFrom q.1) - cTheta vs s x (cTo q.1)| ≤ cVal q.1 "maxPflow".toList s * cVal q.1 "reactance".toList s

/-- with the limits of the data it is the DC optimal power flow of the data -/
theorem C205_data_partial (vs : List CVertex) (s : CWhen) (up : Nat → Rat) (x : CId → Rat) (h : ∀ q ∈ cOf cIsGen vs, up q.2 = cVal q.1 "active power max limit".toList s) : CDcOpfMax vs s up x ↔ CDcOpf vs s x := by
  constructor
  · rintro ⟨a, b, c, d, e, f⟩
    exact ⟨a, b, c, fun q hq hon => by rw [← h q hq]; exact d q hq hon, e, f⟩
  · rintro ⟨a, b, c, d, e, f⟩
    exact ⟨a, b, c, fun q hq hon => by rw [h q hq]; exact d q hq hon, e, f⟩

/-- a program with other limits of the outputs -/
def cRebound (p : CProb) (up : CId → Rat) : CProb :=
  ⟨p.cols.map (fun c => if c.id.name = "active power generation".toList then ⟨c.id, c.lower, some (up c.id), c.cost, c.period, c.active⟩ else c), p.rows, p.elems⟩

/-! ## Lemmas -/

theorem cRebound_tag (up : CId → Rat) (c : CCol) : cTag (if c.id.name = "active power generation".toList then ⟨c.id, c.lower, some (up c.id), c.cost, c.period, c.active⟩ else c) = cTag c := by
  split <;> rfl

theorem cRebound_row {p : CProb} {up : CId → Rat} {period : List CChar} {x : CId → Rat} {r : CId} : cRowValue (cRebound p up) period x r = cRowValue p period x r := by
  have : ∀ id, cActive (cRebound p up) period id = cActive p period id := by
    intro id
    unfold cActive cRebound
    rw [List.any_map]
    congr 1
    funext c
    have h := cRebound_tag up c
    unfold cTag at h
    simp only [Prod.mk.injEq] at h
    simp only [Function.comp]
    rw [h.1, h.2.1, h.2.2]
  unfold cRowValue
  have e : (cRebound p up).elems = p.elems := rfl
  rw [e]
  congr 2
  apply List.filter_congr
  intro a _
  rw [this]

theorem cRebound_cols {p : CProb} {up : CId → Rat} {period : List CChar} {x : CId → Rat} : (∀ c ∈ (cRebound p up).cols, c.active = true → c.period = period → cWithin c.lower c.upper (x c.id)) ↔
    ∀ c ∈ p.cols, c.active = true → c.period = period → cWithin c.lower (if c.id.name = "active power generation".toList then some (up c.id) else c.upper) (x c.id) := by
  constructor
  · intro h c hc h1 h2
    have := h _ (List.mem_map.2 ⟨c, hc, rfl⟩)
    by_cases hn : c.id.name = "active power generation".toList
    · rw [if_pos hn] at this ⊢
      exact this h1 h2
    · rw [if_neg hn] at this ⊢
      exact this h1 h2
  · intro h c hc h1 h2
    obtain ⟨d, hd, rfl⟩ := List.mem_map.1 hc
    have := h d hd
    by_cases hn : d.id.name = "active power generation".toList
    · rw [if_pos hn] at h1 h2 this ⊢
      exact this h1 h2
    · rw [if_neg hn] at h1 h2 this ⊢
      exact this h1 h2

theorem cOut_at {cols : List CCol} {period : List CChar} {m : Tok} {up : CId → Rat} {x : CId → Rat} (h : ∀ c ∈ cols, c.active = true → c.period = period → cWithin c.lower (if c.id.name = m then some (up c.id) else c.upper) (x c.id))
    {c : CCol} {l : Rat} (hc : c ∈ cols) (h1 : c.active = true) (h2 : c.period = period) (h3 : c.id.name = m) (h4 : c.lower = some l) : l ≤ x c.id ∧ x c.id ≤ up c.id := by
  have := h c hc h1 h2
  rw [if_pos h3, h4] at this
  exact ⟨this.1 l rfl, this.2 _ rfl⟩

theorem cOther_at {cols : List CCol} {period : List CChar} {m : Tok} {up : CId → Rat} {x : CId → Rat} (h : ∀ c ∈ cols, c.active = true → c.period = period → cWithin c.lower (if c.id.name = m then some (up c.id) else c.upper) (x c.id))
    {c : CCol} (hc : c ∈ cols) (h1 : c.active = true) (h2 : c.period = period) (h3 : c.id.name ≠ m) : cWithin c.lower c.upper (x c.id) := by
  have := h c hc h1 h2
  rw [if_neg h3] at this
  exact this

theorem cOut_within' {n m : Tok} (hn : n = m) {l u y : Rat} {v : Option Rat} (h : l ≤ y ∧ y ≤ u) : cWithin (some l) (if n = m then some u else v) y := by
  rw [if_pos hn]
  exact ⟨fun a ha => by cases ha; exact h.1, fun a ha => by cases ha; exact h.2⟩

theorem cOther_within {n m : Tok} (hn : n ≠ m) {l u v : Option Rat} {y : Rat} (h : cWithin l v y) : cWithin l (if n = m then u else v) y := by
  rw [if_neg hn]
  exact h

theorem cNames_apart : "voltage angle".toList ≠ "active power generation".toList ∧ "load curtailment".toList ≠ "active power generation".toList ∧
    "generation curtailment".toList ≠ "active power generation".toList ∧ "active power generation cost".toList ≠ "active power generation".toList := by decide

/-- **C205.** A program with other limits is the optimal power flow with these limits. -/
theorem C205_feasible_partial (subs : List CWhen) (vs : List CVertex) (p : CProb) (h : cProblem subs vs = .ok p) (hnet : CNetOk vs) (hn : subs.Nodup)
    (hcost : ∀ q ∈ cOf cIsGen vs, cFetch q.1 "cost function".toList [] ≠ .many) (up : CId → Rat) (s : CWhen) (hs : s ∈ subs) (x : CId → Rat) :
    cFeasible (cRebound p up) (cSub s) x ↔ CDcOpfMax vs s (fun n => up ⟨n, "active power generation".toList, cExtra s⟩) x := by
  have hp := cParts_of h
  have hr := cRowParts_of hp
  obtain ⟨numbers, hm⟩ := cMat_of hp
  constructor
  · rintro ⟨hc', hrow'⟩
    have hc := cRebound_cols.1 hc'
    have hrow : ∀ r ∈ p.rows, r.active = true → r.period = cSub s → cWithin r.lower r.upper (cRowValue p (cSub s) x r.id) := fun r h1 h2 h3 => by
      have := hrow' r h1 h2 h3
      rw [cRebound_row] at this
      exact this
    have bcol : ∀ q ∈ cOf cIsBus vs, ∀ c ∈ cBusCols q.2 s, cWithin c.lower c.upper (x c.id) := by
      intro q hq c hcc
      have hmem := (cCols_mem hp c).2 (Or.inl ⟨q, hq, s, hs, hcc⟩)
      have : c.active = true ∧ c.period = cSub s := by
        unfold cBusCols at hcc
        rcases List.mem_cons.1 hcc with rfl | hcc
        · exact ⟨rfl, rfl⟩
        rcases List.mem_cons.1 hcc with rfl | hcc
        · exact ⟨rfl, rfl⟩
        rcases List.mem_cons.1 hcc with rfl | hcc
        · exact ⟨rfl, rfl⟩
        cases hcc
      have h9 := hc c hmem this.1 this.2
      have hname : c.id.name ≠ "active power generation".toList := by
        unfold cBusCols at hcc
        rcases List.mem_cons.1 hcc with rfl | hcc
        · exact cNames_apart.1
        rcases List.mem_cons.1 hcc with rfl | hcc
        · exact cNames_apart.2.1
        rcases List.mem_cons.1 hcc with rfl | hcc
        · exact cNames_apart.2.2.1
        cases hcc
      rw [if_neg hname] at h9
      exact h9
    refine ⟨?_, ?_, ?_, ?_, ?_, ?_⟩
    · intro q hq
      have h1 := hr.bus q hq s hs
      have h2 := cBusRow_eq h1
      have hmem : okD (cBusRow q.1 q.2 s) ⟨⟨0, [], []⟩, none, none, [], false⟩ ∈ p.rows := by
        rw [hr.rows, List.mem_append, List.mem_append]
        exact Or.inl (Or.inl (List.mem_flatMap.2 ⟨q, hq, List.mem_map.2 ⟨s, hs, rfl⟩⟩))
      rw [h2] at hmem
      have h3 := hrow _ hmem rfl rfl
      dsimp only at h3
      rw [cBalance_value hp hnet hn hs x hq] at h3
      exact le_antisymm (h3.2 _ rfl) (h3.1 _ rfl)
    · intro q hq
      exact (bcol q hq _ (List.mem_cons_of_mem _ List.mem_cons_self)).1 0 rfl
    · intro q hq
      exact (bcol q hq _ (List.mem_cons_of_mem _ (List.mem_cons_of_mem _ List.mem_cons_self))).1 0 rfl
    · intro q hq hon
      have hmem := (cCols_mem hp _).2 (Or.inr ⟨q, hq, s, hs, (cGenCols_mem hp hq hs _).2 (Or.inl rfl)⟩)
      exact cOut_at hc hmem hon rfl rfl rfl
    · intro q hq hon i hi sl ub hsl hub
      have hmem := (cCols_mem hp _).2 (Or.inr ⟨q, hq, s, hs, (cGenCols_mem hp hq hs _).2 (Or.inr ⟨by rw [hi]; simp, rfl⟩)⟩)
      have h3 := cOther_at hc hmem hon rfl cNames_apart.2.2.2
      refine ⟨h3.1 0 rfl, ?_⟩
      intro k a u ha hu
      obtain ⟨bounds, hb1, hb2⟩ := (cGenRows_eq (hr.gen q hq s hs)).2 i hi
      rw [hub] at hb1
      cases hb1
      have hmem2 : (⟨cPieceId q.2 s k, none, some u, cSub s, cOn q.1 s⟩ : CRow) ∈ p.rows := by
        rw [hr.rows, List.mem_append, List.mem_append]
        refine Or.inl (Or.inr (List.mem_flatMap.2 ⟨q, hq, List.mem_flatMap.2 ⟨s, hs, ?_⟩⟩))
        rw [hb2]
        exact List.mem_map.2 ⟨(u, k), List.mem_zipIdx_iff_getElem?.2 hu, rfl⟩
      have h4 := hrow _ hmem2 hon rfl
      dsimp only at h4
      rw [cPiece_value hp hnet hn hs x hq hi hsl ha hon] at h4
      exact h4.2 u rfl
    · intro q hq hon hmax
      have h2 := cBranchRow_eq (hr.branch q hq s hs)
      have hmem : okD (cBranchRow q.1 q.2 s) ⟨⟨0, [], []⟩, none, none, [], false⟩ ∈ p.rows := by
        rw [hr.rows, List.mem_append, List.mem_append]
        exact Or.inr (List.mem_flatMap.2 ⟨q, hq, List.mem_map.2 ⟨s, hs, rfl⟩⟩)
      rw [h2, if_neg hmax, if_neg hmax] at hmem
      have h3 := hrow _ hmem hon rfl
      dsimp only at h3
      have h4 := h3.1 _ rfl
      have h5 := h3.2 _ rfl
      rw [abs_le]
      rcases cAngle_value hp hnet hn hs x hq with e | e <;> rw [e] at h4 h5
      · exact ⟨by linarith, by linarith⟩
      · exact ⟨by linarith, by linarith⟩
  · intro d
    constructor
    · refine cRebound_cols.2 ?_
      intro c hc hact hper
      rcases (cCols_mem hp c).1 hc with ⟨q, hq, t, ht, hct⟩ | ⟨q, hq, t, ht, hct⟩
      · have : t = s := by
          apply cSub_inj
          rw [← hper]
          unfold cBusCols at hct
          rcases List.mem_cons.1 hct with rfl | hct
          · rfl
          rcases List.mem_cons.1 hct with rfl | hct
          · rfl
          rcases List.mem_cons.1 hct with rfl | hct
          · rfl
          cases hct
        subst this
        unfold cBusCols at hct
        rcases List.mem_cons.1 hct with rfl | hct
        · refine cOther_within cNames_apart.1 ?_
          exact ⟨fun l hl => (by cases hl), fun u hu => by cases hu⟩
        rcases List.mem_cons.1 hct with rfl | hct
        · refine cOther_within cNames_apart.2.1 ?_
          exact ⟨fun l hl => by cases hl; exact d.load q hq, fun u hu => by cases hu⟩
        rcases List.mem_cons.1 hct with rfl | hct
        · refine cOther_within cNames_apart.2.2.1 ?_
          exact ⟨fun l hl => by cases hl; exact d.spill q hq, fun u hu => by cases hu⟩
        cases hct
      · rcases (cGenCols_mem hp hq ht c).1 hct with rfl | ⟨hne, rfl⟩
        · have : t = s := cSub_inj hper
          subst this
          exact cOut_within' rfl (d.output q hq hact)
        · have : t = s := cSub_inj hper
          subst this
          refine cOther_within cNames_apart.2.2.2 ?_
          refine ⟨fun l hl => ?_, fun u hu => by cases hu⟩
          cases hl
          cases hf : cFetch q.1 "cost function".toList [] with
          | none => exact absurd hf hne
          | many => exact absurd hf (hcost q hq)
          | one i =>
            obtain ⟨slopes, h1, _⟩ := cPieces_eq hf (hm.pie q hq)
            obtain ⟨bounds, h2, _⟩ := (cGenRows_eq (hr.gen q hq t hs)).2 i hf
            exact (d.cost q hq hact i hf slopes bounds h1 h2).1
    · intro r hrm' hact hper
      rw [cRebound_row]
      have hrm : r ∈ p.rows := hrm'
      rw [hr.rows, List.mem_append, List.mem_append] at hrm
      rcases hrm with (hrm | hrm) | hrm
      · obtain ⟨q, hq, hrm⟩ := List.mem_flatMap.1 hrm
        obtain ⟨t, ht, rfl⟩ := List.mem_map.1 hrm
        have h2 := cBusRow_eq (hr.bus q hq t ht)
        rw [h2] at hper ⊢
        have : t = s := cSub_inj hper
        subst this
        dsimp only
        rw [cBalance_value hp hnet hn hs x hq, d.balance q hq]
        exact ⟨fun l hl => by cases hl; exact le_refl _, fun u hu => by cases hu; exact le_refl _⟩
      · obtain ⟨q, hq, hrm⟩ := List.mem_flatMap.1 hrm
        obtain ⟨t, ht, hrm⟩ := List.mem_flatMap.1 hrm
        cases hf : cFetch q.1 "cost function".toList [] with
        | none =>
          rw [(cGenRows_eq (hr.gen q hq t ht)).1 hf] at hrm
          cases hrm
        | many => exact absurd hf (hcost q hq)
        | one i =>
          obtain ⟨bounds, h2, h3⟩ := (cGenRows_eq (hr.gen q hq t ht)).2 i hf
          rw [h3] at hrm
          obtain ⟨⟨u, k⟩, hz, rfl⟩ := List.mem_map.1 hrm
          have : t = s := cSub_inj hper
          subst this
          obtain ⟨slopes, h1, _⟩ := cPieces_eq hf (hm.pie q hq)
          rw [List.mem_zipIdx_iff_getElem?] at hz
          have hk : k < slopes.length := by
            rw [cSlopes_length h1 h2]
            exact (List.getElem?_eq_some_iff.1 hz).1
          have hka := List.getElem?_eq_getElem hk
          dsimp only
          rw [cPiece_value hp hnet hn hs x hq hf h1 hka hact]
          refine ⟨fun l hl => (by cases hl), fun w hw => ?_⟩
          cases hw
          exact (d.cost q hq hact i hf slopes bounds h1 h2).2 k _ u hka hz
      · obtain ⟨q, hq, hrm⟩ := List.mem_flatMap.1 hrm
        obtain ⟨t, ht, rfl⟩ := List.mem_map.1 hrm
        have h2 := cBranchRow_eq (hr.branch q hq t ht)
        rw [h2] at hper hact ⊢
        have : t = s := cSub_inj hper
        subst this
        dsimp only at hact ⊢
        by_cases hmax : cVal q.1 "maxPflow".toList t = 0
        · rw [if_pos hmax, if_pos hmax]
          exact ⟨fun l hl => (by cases hl), fun u hu => by cases hu⟩
        · rw [if_neg hmax, if_neg hmax]
          have h5 := abs_le.1 (d.limits q hq hact hmax)
          rcases cAngle_value hp hnet hn hs x hq with e | e <;> rw [e]
          · exact ⟨fun l hl => by cases hl; linarith, fun u hu => by cases hu; linarith⟩
          · exact ⟨fun l hl => by cases hl; linarith, fun u hu => by cases hu; linarith⟩

end Pyensys
