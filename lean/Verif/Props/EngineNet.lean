import Verif.Model.EngineNet
import Verif.Props.EngineCost
import Mathlib.Tactic.Ring
import Mathlib.Tactic.Linarith

/-!
# The optimal power flow of the compiled engine (C202)
-/

namespace Pyensys

/-! ## Specification -/

/-- the number of a bus or of the bus of a generator; the ends of a branch -/
def cNo (v : CVertex) : CVal := (cGetChar v.chars "number".toList).value
def cFrom (v : CVertex) : CVal := (cGetChar v.chars "from".toList).value
def cTo (v : CVertex) : CVal := (cGetChar v.chars "to".toList).value

/-- the value of a parameter in a period (0 if there is none) -/
def cVal (v : CVertex) (name : Tok) (s : CWhen) : Rat := okD (cDouble v name (cExtra s)) 0

/-- an element is in service in a period -/
def cOn (v : CVertex) (s : CWhen) : Bool := okD (cBool v "status".toList (cExtra s)) false

/-- the voltage angle of the bus with a number -/
def cTheta (vs : List CVertex) (s : CWhen) (x : CId → Rat) (k : CVal) : Rat :=
  match (cOf cIsBus vs).find? (fun q => decide (cNo q.1 = k)) with
  | some q => x ⟨q.2, "voltage angle".toList, cExtra s⟩
  | none => 0

/-- the flow of a branch: the difference of the angles divided by the reactance; none if the branch is out of service or its reactance is not more than 1e-8 -/
def cFlow (vs : List CVertex) (s : CWhen) (x : CId → Rat) (l : CVertex) : Rat :=
  if cOn l s = true ∧ cTolerance < |cVal l "reactance".toList s| then (cTheta vs s x (cFrom l) - cTheta vs s x (cTo l)) / cVal l "reactance".toList s else 0

/-- output of the generators in service at a bus -/
def cOutput (vs : List CVertex) (s : CWhen) (x : CId → Rat) (v : CVertex) : Rat :=
  (((cOf cIsGen vs).filter (fun g => decide (cNo g.1 = cNo v) && cOn g.1 s)).map (fun g => x ⟨g.2, "active power generation".toList, cExtra s⟩)).sum

/-- what flows into a bus -/
def cInflow (vs : List CVertex) (s : CWhen) (x : CId → Rat) (v : CVertex) : Rat :=
  ((cOf cIsBranch vs).map (fun l => (if cTo l.1 = cNo v then cFlow vs s x l.1 else 0) - (if cFrom l.1 = cNo v then cFlow vs s x l.1 else 0))).sum

/-- the DC optimal power flow of a period, for the parameters as the vertices hold them -/
structure CDcOpf (vs : List CVertex) (s : CWhen) (x : CId → Rat) : Prop where
  balance : ∀ q ∈ cOf cIsBus vs, cOutput vs s x q.1 + cInflow vs s x q.1 + x ⟨q.2, "load curtailment".toList, cExtra s⟩ - x ⟨q.2, "generation curtailment".toList, cExtra s⟩ = cVal q.1 "Pd".toList s
  load : ∀ q ∈ cOf cIsBus vs, 0 ≤ x ⟨q.2, "load curtailment".toList, cExtra s⟩
  spill : ∀ q ∈ cOf cIsBus vs, 0 ≤ x ⟨q.2, "generation curtailment".toList, cExtra s⟩
  output : ∀ q ∈ cOf cIsGen vs, cOn q.1 s = true →
    cVal q.1 "Pmin".toList s ≤ x ⟨q.2, "active power generation".toList, cExtra s⟩ ∧ x ⟨q.2, "active power generation".toList, cExtra s⟩ ≤ cVal q.1 "active power max limit".toList s
  cost : ∀ q ∈ cOf cIsGen vs, cOn q.1 s = true → ∀ i, cFetch q.1 "cost function".toList [] = .one i → ∀ sl ub, cRowSlopes i = .ok sl → cRowBounds i = .ok ub →
    CCostOk sl ub (x ⟨q.2, "active power generation".toList, cExtra s⟩) (x ⟨q.2, "active power generation cost".toList, cExtra s⟩)
  limits : ∀ q ∈ cOf cIsBranch vs, cOn q.1 s = true → cVal q.1 "maxPflow".toList s ≠ 0 →
    |cTheta vs s x (cFrom q.1) - cTheta vs s x (cTo q.1)| ≤ cVal q.1 "maxPflow".toList s * cVal q.1 "reactance".toList s

/-- the cost of a period: linear costs and cost functions of the generators in service, and the penalties -/
def cTotal (vs : List CVertex) (s : CWhen) (x : CId → Rat) : Rat :=
  ((cOf cIsBus vs).map (fun q => 1000000000 * (x ⟨q.2, "load curtailment".toList, cExtra s⟩ + x ⟨q.2, "generation curtailment".toList, cExtra s⟩))).sum +
  ((cOf cIsGen vs).map (fun q => if cOn q.1 s = true then cVal q.1 "vCPg".toList s * x ⟨q.2, "active power generation".toList, cExtra s⟩ +
    (if cFetch q.1 "cost function".toList [] = .none then 0 else x ⟨q.2, "active power generation cost".toList, cExtra s⟩) else 0)).sum

/-- a network: buses with different numbers; branches between two different buses of the network -/
structure CNetOk (vs : List CVertex) : Prop where
  numbers : ((cOf cIsBus vs).map (fun q => cNo q.1)).Nodup
  ends : ∀ l ∈ cOf cIsBranch vs, cFrom l.1 ≠ cTo l.1 ∧ (∃ q ∈ cOf cIsBus vs, cNo q.1 = cFrom l.1) ∧ (∃ q ∈ cOf cIsBus vs, cNo q.1 = cTo l.1)

/-! ## Lemmas -/

theorem cOf_mem {f : CVertex → Bool} {vs : List CVertex} {q : CVertex × Nat} : q ∈ cOf f vs ↔ vs[q.2]? = some q.1 ∧ f q.1 = true := by
  unfold cOf
  rw [List.mem_filter, List.mem_zipIdx_iff_getElem?]

theorem cOf_nodup (f : CVertex → Bool) (vs : List CVertex) : (cOf f vs).Nodup := by
  refine List.Nodup.filter _ ?_
  have : (vs.zipIdx.map (·.2)).Nodup := by
    rw [List.zipIdx_map_snd]
    exact List.nodup_range'
  exact List.Nodup.of_map _ this

theorem cOf_inj {f g : CVertex → Bool} {vs : List CVertex} {q r : CVertex × Nat} (hq : q ∈ cOf f vs) (hr : r ∈ cOf g vs) (h : q.2 = r.2) : q = r := by
  have h1 := (cOf_mem.1 hq).1
  have h2 := (cOf_mem.1 hr).1
  rw [h, h2] at h1
  exact Prod.ext (Option.some.inj h1).symm h

theorem cKind (v : CVertex) : ¬ (cIsBus v = true ∧ cIsGen v = true) ∧ ¬ (cIsBus v = true ∧ cIsBranch v = true) ∧ ¬ (cIsGen v = true ∧ cIsBranch v = true) := by
  unfold cIsBus cIsGen cIsBranch
  simp only [decide_eq_true_iff]
  refine ⟨?_, ?_, ?_⟩ <;>
  · rintro ⟨h1, h2⟩
    rw [h1] at h2
    revert h2
    decide +kernel

theorem cExtra_inj {s t : CWhen} (h : cExtra s = cExtra t) : s = t := by
  obtain ⟨a, b⟩ := s
  obtain ⟨c, d⟩ := t
  unfold cExtra at h
  dsimp only at h
  by_cases h1 : a = [] <;> by_cases h2 : c = [] <;> by_cases h3 : b = -1 <;> by_cases h4 : d = -1 <;> simp [h1, h2, h3, h4] at h ⊢
  all_goals exact h

theorem cSub_inj {s t : CWhen} (h : cSub s = cSub t) : s = t := by
  unfold cSub at h
  simp at h
  exact Prod.ext h.1 h.2


/-! ## columns -/

/-- the columns of a generator -/
theorem cGenCols_eq {v : CVertex} {n : Nat} {s : CWhen} {l : List CCol} (h : cGenCols v n s = .ok l) :
    ∃ info, cCostInfo v (cExtra s) = .ok info ∧ l = ⟨⟨n, "active power generation".toList, cExtra s⟩, some (cVal v "Pmin".toList s), some (cVal v "active power max limit".toList s), okD (cLinear v (cExtra s)) 0, cSub s, cOn v s⟩ ::
      (if info.isSome = true then [⟨⟨n, "active power generation cost".toList, cExtra s⟩, some 0, none, 1, cSub s, cOn v s⟩] else []) := by
  unfold cGenCols at h
  obtain ⟨status, h1, h⟩ := (bindE_iff _ _ _).1 h
  obtain ⟨cost, h2, h⟩ := (bindE_iff _ _ _).1 h
  obtain ⟨min, h3, h⟩ := (bindE_iff _ _ _).1 h
  obtain ⟨max, h4, h⟩ := (bindE_iff _ _ _).1 h
  obtain ⟨info, h5, h⟩ := (bindE_iff _ _ _).1 h
  refine ⟨info, h5, ?_⟩
  unfold cVal cOn
  rw [okD_ok h1, okD_ok h2, okD_ok h3, okD_ok h4]
  exact (Except.ok.inj h).symm

/-- what the parts of a program are -/
structure CParts (subs : List CWhen) (vs : List CVertex) (p : CProb) : Prop where
  gens : ∀ q ∈ cOf cIsGen vs, ∀ s ∈ subs, cGenCols q.1 q.2 s = .ok (okD (cGenCols q.1 q.2 s) [])
  cols : p.cols = (cOf cIsBus vs).flatMap (fun q => subs.flatMap (cBusCols q.2)) ++ (cOf cIsGen vs).flatMap (fun q => subs.flatMap (fun s => okD (cGenCols q.1 q.2 s) []))
  rows : cRows subs vs = .ok p.rows
  elems : cElems subs vs p.rows = .ok p.elems

theorem cParts_of {subs : List CWhen} {vs : List CVertex} {p : CProb} (h : cProblem subs vs = .ok p) : CParts subs vs p := by
  unfold cProblem at h
  obtain ⟨cols, h1, h⟩ := (bindE_iff _ _ _).1 h
  obtain ⟨rows, h2, h⟩ := (bindE_iff _ _ _).1 h
  obtain ⟨elems, h3, h⟩ := (bindE_iff _ _ _).1 h
  have e := Except.ok.inj h
  subst e
  unfold cCols at h1
  obtain ⟨g, h4, h5⟩ := (bindE_iff _ _ _).1 h1
  have e := Except.ok.inj h5
  obtain ⟨g1, g2⟩ := mapE_okD h4 []
  have hg : ∀ q ∈ cOf cIsGen vs, (∀ s ∈ subs, cGenCols q.1 q.2 s = .ok (okD (cGenCols q.1 q.2 s) [])) ∧ okD (subs.mapM (cGenCols q.1 q.2)) [] = subs.map (fun s => okD (cGenCols q.1 q.2 s) []) :=
    fun q hq => mapE_okD (g1 q hq) []
  refine ⟨fun q hq => (hg q hq).1, ?_, h2, h3⟩
  rw [← e]
  show _ ++ _ = _
  congr 1
  rw [g2, List.map_map]
  show _ = ((cOf cIsGen vs).map _).flatten
  congr 1
  apply List.map_congr_left
  intro q hq
  show (okD (subs.mapM (cGenCols q.1 q.2)) []).flatten = _
  rw [(hg q hq).2]
  rfl

theorem cCols_mem {subs : List CWhen} {vs : List CVertex} {p : CProb} (hp : CParts subs vs p) (c : CCol) : c ∈ p.cols ↔
    (∃ q ∈ cOf cIsBus vs, ∃ s ∈ subs, c ∈ cBusCols q.2 s) ∨ (∃ q ∈ cOf cIsGen vs, ∃ s ∈ subs, c ∈ okD (cGenCols q.1 q.2 s) []) := by
  rw [hp.cols, List.mem_append, List.mem_flatMap, List.mem_flatMap]
  simp only [List.mem_flatMap]

theorem cActive_bus {subs : List CWhen} {vs : List CVertex} {p : CProb} (hp : CParts subs vs p) {q : CVertex × Nat} (hq : q ∈ cOf cIsBus vs) {s : CWhen} (hs : s ∈ subs) {name : Tok}
    (hn : name = "voltage angle".toList ∨ name = "load curtailment".toList ∨ name = "generation curtailment".toList) : cActive p (cSub s) ⟨q.2, name, cExtra s⟩ = true := by
  unfold cActive
  rw [List.any_eq_true]
  have : ∃ c ∈ cBusCols q.2 s, c.id = ⟨q.2, name, cExtra s⟩ ∧ c.period = cSub s ∧ c.active = true := by
    unfold cBusCols
    rcases hn with rfl | rfl | rfl
    · exact ⟨_, List.mem_cons_self, rfl, rfl, rfl⟩
    · exact ⟨_, List.mem_cons_of_mem _ List.mem_cons_self, rfl, rfl, rfl⟩
    · exact ⟨_, List.mem_cons_of_mem _ (List.mem_cons_of_mem _ List.mem_cons_self), rfl, rfl, rfl⟩
  obtain ⟨c, h1, h2, h3, h4⟩ := this
  refine ⟨c, (cCols_mem hp c).2 (Or.inl ⟨q, hq, s, hs, h1⟩), ?_⟩
  rw [h2, h3, h4]
  simp

theorem cBusCols_name {n : Nat} {s : CWhen} {c : CCol} (h : c ∈ cBusCols n s) : c.id.name ≠ "active power generation".toList ∧ c.id.name ≠ "active power generation cost".toList := by
  unfold cBusCols at h
  rcases List.mem_cons.1 h with rfl | h
  · exact ⟨by dsimp only; decide +kernel, by dsimp only; decide +kernel⟩
  rcases List.mem_cons.1 h with rfl | h
  · exact ⟨by dsimp only; decide +kernel, by dsimp only; decide +kernel⟩
  rcases List.mem_cons.1 h with rfl | h
  · exact ⟨by dsimp only; decide +kernel, by dsimp only; decide +kernel⟩
  cases h

/-- the columns of generators, one by one -/
theorem cGenCols_mem {subs : List CWhen} {vs : List CVertex} {p : CProb} (hp : CParts subs vs p) {q : CVertex × Nat} (hq : q ∈ cOf cIsGen vs) {s : CWhen} (hs : s ∈ subs) (c : CCol) :
    c ∈ okD (cGenCols q.1 q.2 s) [] ↔
      c = ⟨⟨q.2, "active power generation".toList, cExtra s⟩, some (cVal q.1 "Pmin".toList s), some (cVal q.1 "active power max limit".toList s), okD (cLinear q.1 (cExtra s)) 0, cSub s, cOn q.1 s⟩ ∨
      (cFetch q.1 "cost function".toList [] ≠ .none ∧ c = ⟨⟨q.2, "active power generation cost".toList, cExtra s⟩, some 0, none, 1, cSub s, cOn q.1 s⟩) := by
  obtain ⟨info, h1, h2⟩ := cGenCols_eq (hp.gens q hq s hs)
  rw [h2, List.mem_cons]
  refine or_congr Iff.rfl ?_
  unfold cCostInfo at h1
  cases hf : cFetch q.1 "cost function".toList [] with
  | none =>
    rw [hf] at h1
    have e := Except.ok.inj h1
    subst e
    simp
  | one i =>
    rw [hf] at h1
    have e := Except.ok.inj h1
    subst e
    simp
  | many =>
    rw [hf] at h1
    cases hf2 : cFetch q.1 "cost function".toList (cExtra s) with
    | none =>
      rw [hf2] at h1
      have e := Except.ok.inj h1
      subst e
      simp
    | one i =>
      rw [hf2] at h1
      have e := Except.ok.inj h1
      subst e
      simp
    | many =>
      rw [hf2] at h1
      cases h1

theorem cActive_gen {subs : List CWhen} {vs : List CVertex} {p : CProb} (hp : CParts subs vs p) {q : CVertex × Nat} (hq : q ∈ cOf cIsGen vs) {s : CWhen} (hs : s ∈ subs) :
    cActive p (cSub s) ⟨q.2, "active power generation".toList, cExtra s⟩ = cOn q.1 s ∧
    (cFetch q.1 "cost function".toList [] ≠ .none → cActive p (cSub s) ⟨q.2, "active power generation cost".toList, cExtra s⟩ = cOn q.1 s) := by
  have key : ∀ name, (name = "active power generation".toList ∨ name = "active power generation cost".toList) → (∃ c ∈ okD (cGenCols q.1 q.2 s) [], c.id = ⟨q.2, name, cExtra s⟩) →
      cActive p (cSub s) ⟨q.2, name, cExtra s⟩ = cOn q.1 s := by
    rintro name hname ⟨c, hc, hid⟩
    have hper : ∀ d ∈ okD (cGenCols q.1 q.2 s) [], d.period = cSub s ∧ d.active = cOn q.1 s := by
      intro d hd
      rcases (cGenCols_mem hp hq hs d).1 hd with rfl | ⟨_, rfl⟩ <;> exact ⟨rfl, rfl⟩
    rw [Bool.eq_iff_iff]
    unfold cActive
    rw [List.any_eq_true]
    constructor
    · rintro ⟨d, hd, h⟩
      simp only [Bool.and_eq_true, decide_eq_true_iff] at h
      obtain ⟨⟨h1, h2⟩, h3⟩ := h
      rcases (cCols_mem hp d).1 hd with ⟨b, hb, t, ht, hdb⟩ | ⟨g, hg, t, ht, hdg⟩
      · exfalso
        have := cBusCols_name hdb
        rw [h3] at this
        rcases hname with rfl | rfl
        · exact this.1 rfl
        · exact this.2 rfl
      · have hnode : d.id.node = g.2 ∧ d.active = cOn g.1 t ∧ d.period = cSub t := by
          rcases (cGenCols_mem hp hg ht d).1 hdg with rfl | ⟨_, rfl⟩ <;> exact ⟨rfl, rfl, rfl⟩
        have hgq : g = q := cOf_inj hg hq (by rw [← hnode.1, h3])
        have hts : t = s := cSub_inj (by rw [← hnode.2.2, h2])
        rw [← hgq, ← hts, ← hnode.2.1, h1]
    · intro h
      refine ⟨c, (cCols_mem hp c).2 (Or.inr ⟨q, hq, s, hs, hc⟩), ?_⟩
      rw [(hper c hc).1, (hper c hc).2, hid, h]
      simp
  refine ⟨key _ (Or.inl rfl) ⟨_, (cGenCols_mem hp hq hs _).2 (Or.inl rfl), rfl⟩, fun h => key _ (Or.inr rfl) ⟨_, (cGenCols_mem hp hq hs _).2 (Or.inr ⟨h, rfl⟩), rfl⟩⟩


/-! ## edges -/

/-- an end of a branch -/
def cEndAt (v : CVertex) (q : CVertex × Nat) : Bool := cIsBus q.1 && (decide (cFrom v = cNo q.1) || decide (cTo v = cNo q.1))

/-- the edges of a branch go to its ends, in the order of the buses -/
theorem cEnds_eq (v : CVertex) (i : Nat) : ∀ (l : List (CVertex × Nat)) (a b : Bool), ((l.filter (fun q => cIsBus q.1)).map (fun q => cNo q.1)).Nodup →
    (a = true → ∀ q ∈ l, cIsBus q.1 = true → cFrom v ≠ cNo q.1) → (b = true → ∀ q ∈ l, cIsBus q.1 = true → cTo v ≠ cNo q.1) →
    cEnds v i a b l = (l.filter (cEndAt v)).map (fun q => (q.2, i)) := by
  intro l
  induction l with
  | nil => intro a b _ _ _; rfl
  | cons q l ih =>
    obtain ⟨w, j⟩ := q
    intro a b hn ha hb
    have hn' : ((l.filter (fun q => cIsBus q.1)).map (fun q => cNo q.1)).Nodup := by
      rw [List.filter_cons] at hn
      split at hn
      · rw [List.map_cons, List.nodup_cons] at hn; exact hn.2
      · exact hn
    have hmem : cIsBus w = true → ∀ q ∈ l, cIsBus q.1 = true → cNo w ≠ cNo q.1 := by
      intro hw q hq hqb heq
      rw [List.filter_cons, if_pos hw, List.map_cons, List.nodup_cons] at hn
      apply hn.1
      rw [List.mem_map]
      exact ⟨q, List.mem_filter.2 ⟨hq, hqb⟩, heq.symm⟩
    rw [cEnds, List.filter_cons]
    unfold cEndAt
    show (if cIsBus w = true ∧ cFrom v = cNo w then _ else if cIsBus w = true ∧ cTo v = cNo w then _ else _) = _
    by_cases h1 : cIsBus w = true ∧ cFrom v = cNo w
    · rw [if_pos h1, if_pos (by simp [h1.1, h1.2]), List.map_cons]
      congr 1
      refine ih true b hn' ?_ (fun h q hq => hb h q (List.mem_cons_of_mem _ hq))
      intro _ q hq hqb
      rw [h1.2]
      exact hmem h1.1 q hq hqb
    · rw [if_neg h1]
      by_cases h2 : cIsBus w = true ∧ cTo v = cNo w
      · rw [if_pos h2, if_pos (by simp [h2.1, h2.2]), List.map_cons]
        congr 1
        refine ih a true hn' (fun h q hq => ha h q (List.mem_cons_of_mem _ hq)) ?_
        intro _ q hq hqb
        rw [h2.2]
        exact hmem h2.1 q hq hqb
      · rw [if_neg h2]
        have hno : ¬ ((cIsBus w && (decide (cFrom v = cNo w) || decide (cTo v = cNo w))) = true) := by
          simp only [Bool.and_eq_true, Bool.or_eq_true, decide_eq_true_iff]
          rintro ⟨h3, h4 | h4⟩
          · exact h1 ⟨h3, h4⟩
          · exact h2 ⟨h3, h4⟩
        rw [if_neg hno]
        by_cases h3 : a = true ∧ b = true
        · rw [if_pos h3]
          have : l.filter (cEndAt v) = [] := by
            rw [List.filter_eq_nil_iff]
            intro q hq hc
            unfold cEndAt at hc
            simp only [Bool.and_eq_true, Bool.or_eq_true, decide_eq_true_iff] at hc
            rcases hc.2 with h | h
            · exact ha h3.1 q (List.mem_cons_of_mem _ hq) hc.1 h
            · exact hb h3.2 q (List.mem_cons_of_mem _ hq) hc.1 h
          show [] = _
          unfold cEndAt at this
          rw [this]
          rfl
        · rw [if_neg h3]
          exact ih a b hn' (fun h q hq => ha h q (List.mem_cons_of_mem _ hq)) (fun h q hq => hb h q (List.mem_cons_of_mem _ hq))

/-- the ends of a branch -/
def cBoth (vs : List CVertex) (v : CVertex) : List (CVertex × Nat) := vs.zipIdx.filter (cEndAt v)

theorem cBoth_mem {vs : List CVertex} {v : CVertex} {q : CVertex × Nat} : q ∈ cBoth vs v ↔ q ∈ cOf cIsBus vs ∧ (cFrom v = cNo q.1 ∨ cTo v = cNo q.1) := by
  unfold cBoth cOf cEndAt
  rw [List.mem_filter, List.mem_filter]
  simp only [Bool.and_eq_true, Bool.or_eq_true, decide_eq_true_iff]
  tauto

/-- the edges of a vertex -/
theorem cEdges_eq {vs : List CVertex} (hnet : CNetOk vs) : cEdges vs = vs.zipIdx.flatMap (fun q =>
    if cIsGen q.1 = true then cHome vs q.1 q.2 else if cIsBranch q.1 = true then (cBoth vs q.1).map (fun r => (r.2, q.2)) else []) := by
  unfold cEdges
  rw [List.flatMap_def, List.flatMap_def]
  congr 1
  apply List.map_congr_left
  intro q hq
  by_cases h1 : cIsGen q.1 = true
  · rw [if_pos h1, if_pos h1]
  · rw [if_neg h1, if_neg h1]
    by_cases h2 : cIsBranch q.1 = true
    · rw [if_pos h2, if_pos h2]
      have hb : q ∈ cOf cIsBranch vs := by unfold cOf; exact List.mem_filter.2 ⟨hq, h2⟩
      exact cEnds_eq q.1 q.2 _ false false hnet.numbers (by simp) (by simp)
    · rw [if_neg h2, if_neg h2]

theorem filter_flatMap' {α β : Type} (f : α → List β) (P : β → Bool) (l : List α) : (l.flatMap f).filter P = l.flatMap (fun a => (f a).filter P) := by
  induction l with
  | nil => rfl
  | cons a l ih => rw [List.flatMap_cons, List.filter_append, ih, List.flatMap_cons]

theorem filterMap_flatMap' {α β γ : Type} (f : α → List β) (g : β → Option γ) (l : List α) : (l.flatMap f).filterMap g = l.flatMap (fun a => (f a).filterMap g) := by
  induction l with
  | nil => rfl
  | cons a l ih => rw [List.flatMap_cons, List.filterMap_append, ih, List.flatMap_cons]

theorem flatMap_filter_ifE {α : Type} (P : α → Bool) (l : List α) : l.flatMap (fun a => if P a = true then [a] else []) = l.filter P := by
  induction l with
  | nil => rfl
  | cons a l ih =>
    rw [List.flatMap_cons, ih, List.filter_cons]
    split <;> rfl

/-- a list with different keys, filtered by a key -/
theorem filter_keyE {α : Type} (l : List (α × Nat)) (hn : (l.map (·.2)).Nodup) (q : α × Nat) (hq : q ∈ l) : l.filter (fun r => decide (r.2 = q.2)) = [q] := by
  induction l with
  | nil => cases hq
  | cons a l ih =>
    rw [List.map_cons, List.nodup_cons] at hn
    rw [List.filter_cons]
    rcases List.mem_cons.1 hq with rfl | hq
    · rw [if_pos (by simp)]
      congr 1
      rw [List.filter_eq_nil_iff]
      intro r hr
      simp only [decide_eq_true_iff]
      intro h
      exact hn.1 (h ▸ List.mem_map_of_mem hr)
    · rw [if_neg, ih hn.2 hq]
      simp only [decide_eq_true_iff]
      intro h
      exact hn.1 (h ▸ List.mem_map_of_mem hq)

theorem zipIdx_keysE (vs : List CVertex) : (vs.zipIdx.map (·.2)).Nodup := by
  rw [List.zipIdx_map_snd]
  exact List.nodup_range'

/-- the neighbours of a bus: its generators and its branches, in the order of the vertices -/
theorem cNext_eq {vs : List CVertex} (hnet : CNetOk vs) {q : CVertex × Nat} (hq : q ∈ cOf cIsBus vs) :
    cNext vs q.2 = vs.zipIdx.filter (fun t => (cIsGen t.1 && decide (cNo t.1 = cNo q.1)) || (cIsBranch t.1 && (decide (cFrom t.1 = cNo q.1) || decide (cTo t.1 = cNo q.1)))) := by
  unfold cNext
  rw [cEdges_eq hnet, filter_flatMap', filterMap_flatMap', ← flatMap_filter_ifE, List.flatMap_def, List.flatMap_def]
  congr 1
  apply List.map_congr_left
  intro t ht
  have hself : vs[t.2]?.map (fun v => (v, t.2)) = some t := by
    rw [List.mem_zipIdx_iff_getElem?] at ht
    rw [ht]
    rfl
  have hq1 := (cOf_mem.1 hq).2
  by_cases h1 : cIsGen t.1 = true
  · have h2 : ¬ cIsBranch t.1 = true := fun h => (cKind t.1).2.2 ⟨h1, h⟩
    rw [if_pos h1]
    simp only [h1, h2, Bool.true_and, Bool.false_and, Bool.or_false, decide_eq_true_iff]
    unfold cHome
    by_cases h3 : cNo t.1 = cNo q.1
    · rw [if_pos h3]
      have hf : vs.zipIdx.find? (fun q => cIsBus q.1 && decide (cNo t.1 = cNo q.1)) = some q := by
        have hne : vs.zipIdx.find? (fun q => cIsBus q.1 && decide (cNo t.1 = cNo q.1)) ≠ none := by
          intro hc
          rw [List.find?_eq_none] at hc
          refine hc q (List.mem_filter.1 hq).1 ?_
          rw [hq1, h3]
          simp
        obtain ⟨r, hr⟩ := Option.ne_none_iff_exists'.1 hne
        have hr1 := List.find?_some hr
        have hr2 := List.mem_of_find?_eq_some hr
        simp only [Bool.and_eq_true, decide_eq_true_iff] at hr1
        have hrb : r ∈ cOf cIsBus vs := List.mem_filter.2 ⟨hr2, hr1.1⟩
        rw [hr, List.inj_on_of_nodup_map hnet.numbers hrb hq (hr1.2.symm.trans h3)]
      show (List.filterMap _ (List.filter _ (match vs.zipIdx.find? (fun q => cIsBus q.1 && decide (cNo t.1 = cNo q.1)) with | some q => [(q.2, t.2)] | none => []))) = _
      rw [hf]
      simp only [List.filter_cons, List.filter_nil, decide_true, if_true, List.filterMap_cons, List.filterMap_nil, hself]
    · rw [if_neg h3]
      show (List.filterMap _ (List.filter _ (match vs.zipIdx.find? (fun q => cIsBus q.1 && decide (cNo t.1 = cNo q.1)) with | some q => [(q.2, t.2)] | none => []))) = _
      cases hf : vs.zipIdx.find? (fun q => cIsBus q.1 && decide (cNo t.1 = cNo q.1)) with
      | none => rfl
      | some r =>
        have hr1 := List.find?_some hf
        have hr2 := List.mem_of_find?_eq_some hf
        simp only [Bool.and_eq_true, decide_eq_true_iff] at hr1
        have hrb : r ∈ cOf cIsBus vs := List.mem_filter.2 ⟨hr2, hr1.1⟩
        have hne : r.2 ≠ q.2 := by
          intro h
          have := cOf_inj hrb hq h
          subst this
          exact h3 hr1.2
        simp [hne]
  · rw [if_neg h1]
    by_cases h2 : cIsBranch t.1 = true
    · rw [if_pos h2]
      simp only [h1, h2, Bool.true_and, Bool.false_and, Bool.false_or, Bool.or_eq_true, decide_eq_true_iff]
      rw [List.filter_map]
      have hfil : (cBoth vs t.1).filter ((fun e : Nat × Nat => decide (e.1 = q.2)) ∘ fun r => (r.2, t.2)) = if cFrom t.1 = cNo q.1 ∨ cTo t.1 = cNo q.1 then [q] else [] := by
        have hk : ((cBoth vs t.1).map (·.2)).Nodup := (List.filter_sublist.map _).nodup (zipIdx_keysE vs)
        split
        · next h => exact filter_keyE _ hk q (cBoth_mem.2 ⟨hq, h⟩)
        · next h =>
          rw [List.filter_eq_nil_iff]
          intro r hr hc
          simp only [Function.comp_apply, decide_eq_true_iff] at hc
          obtain ⟨hr1, hr2⟩ := cBoth_mem.1 hr
          have := cOf_inj hr1 hq hc
          subst this
          exact h hr2
      rw [hfil]
      split
      · simp only [List.map_cons, List.map_nil, List.filterMap_cons, List.filterMap_nil, hself]
      · rfl
    · rw [if_neg h2]
      simp [h1, h2]


/-! ## the row of susceptances -/

theorem cParam_general {v : CVertex} {name : Tok} {w : CVal} (h : cParam v name [] = .ok w) (extra : List CChar) : cParam v name extra = .ok w := by
  unfold cParam at *
  cases hf : cFetch v name [] with
  | none => rw [hf] at h; exact h
  | one i => rw [hf] at h; exact h
  | many => rw [hf] at h; cases h

theorem cDouble_general {v : CVertex} {name : Tok} {w : Rat} (h : cDouble v name [] = .ok w) (extra : List CChar) : cDouble v name extra = .ok w := by
  unfold cDouble at *
  obtain ⟨a, h1, h2⟩ := (bindE_iff _ _ _).1 h
  rw [cParam_general h1 extra]
  exact h2

theorem cBool_general {v : CVertex} {name : Tok} {w : Bool} (h : cBool v name [] = .ok w) (extra : List CChar) : cBool v name extra = .ok w := by
  unfold cBool at *
  obtain ⟨a, h1, h2⟩ := (bindE_iff _ _ _).1 h
  rw [cParam_general h1 extra]
  exact h2

theorem getInt_iff (v : CVal) (k : Int) : v.getInt = .ok k ↔ v = .int k := by
  cases v <;> simp [CVal.getInt]

theorem cNumbers_spec {vs : List CVertex} {numbers : List Int} (h : cNumbers vs = .ok numbers) : numbers.length = (cOf cIsBus vs).length ∧
    ∀ (i : Nat) (q : CVertex × Nat), (cOf cIsBus vs)[i]? = some q → ∃ k, numbers[i]? = some k ∧ cNo q.1 = .int k := by
  unfold cNumbers at h
  rw [mapE_iff, List.forall₂_iff_get] at h
  refine ⟨h.1.symm, ?_⟩
  intro i q hq
  obtain ⟨hi, rfl⟩ := List.getElem?_eq_some_iff.1 hq
  have hi' : i < numbers.length := h.1 ▸ hi
  refine ⟨numbers[i], List.getElem?_eq_getElem hi', ?_⟩
  exact (getInt_iff _ _).1 (h.2 i hi hi')

theorem cPlace_spec {vs : List CVertex} (hnet : CNetOk vs) {numbers : List Int} (h : cNumbers vs = .ok numbers) (k : Int) (i : Nat) :
    cPlace numbers k = .ok i ↔ ∃ q, (cOf cIsBus vs)[i]? = some q ∧ cNo q.1 = .int k := by
  obtain ⟨hlen, hall⟩ := cNumbers_spec h
  have huniq : ∀ i j : Nat, numbers[i]? = some k → numbers[j]? = some k → i = j := by
    intro i j hi hj
    have hi' := (List.getElem?_eq_some_iff.1 hi).1
    have hj' := (List.getElem?_eq_some_iff.1 hj).1
    rw [hlen] at hi' hj'
    obtain ⟨a, ha1, ha2⟩ := hall i _ (List.getElem?_eq_getElem hi')
    obtain ⟨b, hb1, hb2⟩ := hall j _ (List.getElem?_eq_getElem hj')
    rw [hi] at ha1
    rw [hj] at hb1
    cases ha1; cases hb1
    have h3 : ((cOf cIsBus vs).map (fun q => cNo q.1))[i]? = ((cOf cIsBus vs).map (fun q => cNo q.1))[j]? := by
      simp only [List.getElem?_map, List.getElem?_eq_getElem hi', List.getElem?_eq_getElem hj', Option.map_some, ha2, hb2]
    exact (List.getElem?_inj (by simpa using hi') hnet.numbers).1 h3
  have back : ∀ j : Nat, numbers[j]? = some k → ∃ q, (cOf cIsBus vs)[j]? = some q ∧ cNo q.1 = .int k := by
    intro j hj
    have hj' := (List.getElem?_eq_some_iff.1 hj).1
    rw [hlen] at hj'
    obtain ⟨a, ha1, ha2⟩ := hall j _ (List.getElem?_eq_getElem hj')
    rw [hj] at ha1
    cases ha1
    exact ⟨_, List.getElem?_eq_getElem hj', ha2⟩
  unfold cPlace
  constructor
  · intro hp
    cases hf : numbers.findIdx? (fun m => decide (m = k)) with
    | none => rw [hf] at hp; cases hp
    | some j =>
      rw [hf] at hp
      have e := Except.ok.inj hp
      subst e
      rw [List.findIdx?_eq_some_iff_getElem] at hf
      obtain ⟨hj, h1, _⟩ := hf
      refine back j ?_
      rw [List.getElem?_eq_getElem hj]
      simpa using h1
  · rintro ⟨q, hq, hk⟩
    obtain ⟨a, ha1, ha2⟩ := hall i q hq
    have : a = k := by rw [hk] at ha2; injection ha2 with e; exact e.symm
    subst this
    cases hf : numbers.findIdx? (fun m => decide (m = a)) with
    | none =>
      rw [List.findIdx?_eq_none_iff] at hf
      have := hf a (List.mem_of_getElem? ha1)
      simp at this
    | some j =>
      rw [List.findIdx?_eq_some_iff_getElem] at hf
      obtain ⟨hj, h1, _⟩ := hf
      have hj2 : numbers[j]? = some a := by
        rw [List.getElem?_eq_getElem hj]
        simpa using h1
      rw [huniq i j ha1 hj2]

/-- the angles of the buses in their order -/
def cT (vs : List CVertex) (s : CWhen) (x : CId → Rat) (i : Nat) : Rat := ((cOf cIsBus vs)[i]?.map (fun q => x ⟨q.2, "voltage angle".toList, cExtra s⟩)).getD 0

theorem cTheta_eq {vs : List CVertex} (hnet : CNetOk vs) (s : CWhen) (x : CId → Rat) {i : Nat} {q : CVertex × Nat} (hq : (cOf cIsBus vs)[i]? = some q) : cTheta vs s x (cNo q.1) = cT vs s x i ∧ cT vs s x i = x ⟨q.2, "voltage angle".toList, cExtra s⟩ := by
  have hm : q ∈ cOf cIsBus vs := List.mem_of_getElem? hq
  have hf : (cOf cIsBus vs).find? (fun r => decide (cNo r.1 = cNo q.1)) = some q := by
    have hne : (cOf cIsBus vs).find? (fun r => decide (cNo r.1 = cNo q.1)) ≠ none := by
      intro hc
      rw [List.find?_eq_none] at hc
      exact hc q hm (by simp)
    obtain ⟨r, hr⟩ := Option.ne_none_iff_exists'.1 hne
    have hr1 := List.find?_some hr
    have hr2 := List.mem_of_find?_eq_some hr
    rw [hr, List.inj_on_of_nodup_map hnet.numbers hr2 hm (by simpa using hr1)]
  unfold cTheta cT
  rw [hf, hq]
  exact ⟨rfl, rfl⟩

/-- a row of numbers times the angles -/
def cDot (t : Nat → Rat) (row : List Rat) : Rat := ((List.range row.length).map (fun i => row[i]?.getD 0 * t i)).sum

theorem cDot_modify (t : Nat → Rat) (row : List Rat) (a : Nat) (ha : a < row.length) (f : Rat → Rat) (c : Rat) (hf : ∀ y, f y = y + c) : cDot t (row.modify a f) = cDot t row + c * t a := by
  unfold cDot
  rw [List.length_modify]
  have e : ∀ i ∈ List.range row.length, (row.modify a f)[i]?.getD 0 * t i = row[i]?.getD 0 * t i + (if i = a then c * t a else 0) := by
    intro i hi
    have hi' := List.mem_range.1 hi
    rw [List.getElem?_modify]
    by_cases h : a = i
    · subst h
      rw [List.getElem?_eq_getElem hi', if_pos rfl]
      simp [hf]
      ring
    · rw [if_neg (fun h' => h h'.symm)]
      simp [h]
  rw [List.map_congr_left e]
  have add : ∀ l : List Nat, (l.map (fun i => row[i]?.getD 0 * t i + (if i = a then c * t a else 0))).sum = (l.map (fun i => row[i]?.getD 0 * t i)).sum + (l.map (fun i => if i = a then c * t a else 0)).sum := by
    intro l
    induction l with
    | nil => simp
    | cons b l ih => simp only [List.map_cons, List.sum_cons, ih]; ring
  rw [add, sum_single' (fun i => if i = a then c * t a else 0) _ a (List.mem_range.2 ha) List.nodup_range (by intro b _ hb; simp [hb])]
  simp

/-- what a branch brings to a bus -/
def cShare (vs : List CVertex) (s : CWhen) (x : CId → Rat) (v l : CVertex) : Rat := (if cTo l = cNo v then cFlow vs s x l else 0) - (if cFrom l = cNo v then cFlow vs s x l else 0)

theorem cSusceptance_spec {vs : List CVertex} (hnet : CNetOk vs) {numbers : List Int} (hnum : cNumbers vs = .ok numbers) (s : CWhen) (x : CId → Rat) {b : Nat} {q : CVertex × Nat} (hb : (cOf cIsBus vs)[b]? = some q)
    {l : CVertex × Nat} (hl : l ∈ cOf cIsBranch vs) (hend : cFrom l.1 = cNo q.1 ∨ cTo l.1 = cNo q.1) {row row' : List Rat} (hlen : row.length = (cOf cIsBus vs).length)
    (h : cSusceptance numbers b row l.1 = .ok row') : row'.length = row.length ∧ cDot (cT vs s x) row' = cDot (cT vs s x) row + cShare vs s x q.1 l.1 := by
  unfold cSusceptance at h
  obtain ⟨st, h1, h⟩ := (bindE_iff _ _ _).1 h
  obtain ⟨y, h2, h⟩ := (bindE_iff _ _ _).1 h
  have e1 : cOn l.1 s = st := by unfold cOn; rw [okD_ok (cBool_general h1 _)]
  have e2 : cVal l.1 "reactance".toList s = y := by unfold cVal; rw [okD_ok (cDouble_general h2 _)]
  obtain ⟨hne, -, -⟩ := hnet.ends l hl
  by_cases hc : st = true ∧ cTolerance < |y|
  · rw [if_pos hc] at h
    obtain ⟨f, h3, h⟩ := (bindE_iff _ _ _).1 h
    obtain ⟨a, h4, h⟩ := (bindE_iff _ _ _).1 h
    obtain ⟨g, h5, h⟩ := (bindE_iff _ _ _).1 h
    obtain ⟨c, h6, h⟩ := (bindE_iff _ _ _).1 h
    have e3 : cFrom l.1 = .int f := (getInt_iff _ _).1 h3
    have e4 : cTo l.1 = .int g := (getInt_iff _ _).1 h5
    obtain ⟨qa, ha1, ha2⟩ := (cPlace_spec hnet hnum f a).1 h4
    obtain ⟨qc, hc1, hc2⟩ := (cPlace_spec hnet hnum g c).1 h6
    have la : a < row.length := by rw [hlen]; exact (List.getElem?_eq_some_iff.1 ha1).1
    have lc : c < row.length := by rw [hlen]; exact (List.getElem?_eq_some_iff.1 hc1).1
    have hflow : cFlow vs s x l.1 = (cT vs s x a - cT vs s x c) / y := by
      unfold cFlow
      rw [e1, e2, if_pos hc, e3, e4, ← ha2, ← hc2, (cTheta_eq hnet s x ha1).1, (cTheta_eq hnet s x hc1).1]
    by_cases hba : b = a
    · subst hba
      rw [if_pos rfl] at h
      have e := Except.ok.inj h
      subst e
      have : qa = q := by rw [hb] at ha1; exact (Option.some.inj ha1).symm
      subst this
      have hf : cFrom l.1 = cNo qa.1 := by rw [e3, ha2]
      have ht : cTo l.1 ≠ cNo qa.1 := fun h => hne (hf.trans h.symm)
      refine ⟨by simp, ?_⟩
      rw [cDot_modify _ _ c (by simpa using lc) _ (1 / y) (fun y => rfl), cDot_modify _ _ b la _ (-(1 / y)) (fun y => by ring)]
      unfold cShare
      rw [if_neg ht, if_pos hf, hflow]
      ring
    · rw [if_neg hba] at h
      have e := Except.ok.inj h
      subst e
      have hf : cFrom l.1 ≠ cNo q.1 := by
        intro h'
        apply hba
        have : (cPlace numbers f) = .ok b := (cPlace_spec hnet hnum f b).2 ⟨q, hb, by rw [← h', e3]⟩
        rw [h4] at this
        exact (Except.ok.inj this).symm
      have ht : cTo l.1 = cNo q.1 := hend.resolve_left hf
      refine ⟨by simp, ?_⟩
      rw [cDot_modify _ _ a (by simpa using la) _ (1 / y) (fun y => rfl), cDot_modify _ _ c lc _ (-(1 / y)) (fun y => by ring)]
      unfold cShare
      rw [if_pos ht, if_neg hf, hflow]
      ring
  · rw [if_neg hc] at h
    have e := Except.ok.inj h
    subst e
    refine ⟨rfl, ?_⟩
    have hflow : cFlow vs s x l.1 = 0 := by
      unfold cFlow
      rw [e1, e2, if_neg hc]
    unfold cShare
    rw [hflow]
    simp

theorem cSusceptance_fold {vs : List CVertex} (hnet : CNetOk vs) {numbers : List Int} (hnum : cNumbers vs = .ok numbers) (s : CWhen) (x : CId → Rat) {b : Nat} {q : CVertex × Nat} (hb : (cOf cIsBus vs)[b]? = some q) :
    ∀ (ls : List (CVertex × Nat)) (row row' : List Rat), (∀ l ∈ ls, l ∈ cOf cIsBranch vs ∧ (cFrom l.1 = cNo q.1 ∨ cTo l.1 = cNo q.1)) → row.length = (cOf cIsBus vs).length →
      ls.foldlM (fun row t => cSusceptance numbers b row t.1) row = .ok row' →
      row'.length = row.length ∧ cDot (cT vs s x) row' = cDot (cT vs s x) row + (ls.map (fun l => cShare vs s x q.1 l.1)).sum := by
  intro ls
  induction ls with
  | nil =>
    intro row row' _ _ h
    have e := Except.ok.inj h
    subst e
    simp
  | cons l ls ih =>
    intro row row' hl hlen h
    rw [foldE_cons] at h
    obtain ⟨r1, h1, h2⟩ := (bindE_iff _ _ _).1 h
    obtain ⟨a1, a2⟩ := cSusceptance_spec hnet hnum s x hb (hl l List.mem_cons_self).1 (hl l List.mem_cons_self).2 hlen h1
    obtain ⟨b1, b2⟩ := ih r1 row' (fun l h => hl l (List.mem_cons_of_mem _ h)) (a1.trans hlen) h2
    refine ⟨b1.trans a1, ?_⟩
    rw [b2, a2, List.map_cons, List.sum_cons]
    ring

end Pyensys
