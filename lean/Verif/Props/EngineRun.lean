import Verif.Props.EngineOpf

/-!
# The optimal power flow of the compiled engine (C202): objective, keys, limits; the whole model (C203)
-/

namespace Pyensys

/-! ## objective -/

theorem cLinear_val {v : CVertex} {s : CWhen} {c : Rat} (h : cLinear v (cExtra s) = .ok c) : c = cVal v "vCPg".toList s := by
  unfold cLinear at h
  unfold cVal cDouble cParam
  cases hf : cFetch v "vCPg".toList [] with
  | none =>
    rw [hf] at h
    cases h
    rfl
  | one i =>
    rw [hf] at h
    have : i.value.getDbl = .ok c := h
    show c = okD i.value.getDbl 0
    rw [okD_ok this]
  | many =>
    rw [hf] at h
    have h' : cDouble v "vCPg".toList (cExtra s) = .ok c := h
    unfold cDouble cParam at h'
    rw [hf] at h'
    exact (okD_ok h' 0).symm

/-- **C202** the objective of the program of a period is the cost of that period -/
theorem C202_objective_partial (subs : List CWhen) (vs : List CVertex) (p : CProb) (h : cProblem subs vs = .ok p) (hn : subs.Nodup) (s : CWhen) (hs : s ∈ subs) (x : CId → Rat) :
    cObjective p (cSub s) x = cTotal vs s x := by
  have hp := cParts_of h
  unfold cObjective cTotal
  rw [sum_filter_ifE, hp.cols, List.map_append, List.sum_append, sum_flatMapE, sum_flatMapE]
  congr 1
  · apply sum_congr'
    intro q hq
    rw [sum_flatMapE, sum_single' _ _ s hs hn]
    · unfold cBusCols cPenalty
      simp
      ring
    · intro t _ ht
      apply sum_zero'
      intro c hc
      rw [if_neg]
      simp only [Bool.and_eq_true, decide_eq_true_iff, not_and]
      intro _ hper
      apply ht
      apply cSub_inj
      rw [← hper]
      unfold cBusCols at hc
      rcases List.mem_cons.1 hc with rfl | hc
      · rfl
      rcases List.mem_cons.1 hc with rfl | hc
      · rfl
      rcases List.mem_cons.1 hc with rfl | hc
      · rfl
      cases hc
  · apply sum_congr'
    intro q hq
    rw [sum_flatMapE, sum_single' _ _ s hs hn]
    · obtain ⟨info, h1, h2⟩ := cGenCols_eq (hp.gens q hq s hs)
      have hlin : okD (cLinear q.1 (cExtra s)) 0 = cVal q.1 "vCPg".toList s := by
        have h3 := hp.gens q hq s hs
        unfold cGenCols at h3
        obtain ⟨_, _, h3⟩ := (bindE_iff _ _ _).1 h3
        obtain ⟨c, h4, _⟩ := (bindE_iff _ _ _).1 h3
        rw [okD_ok h4, cLinear_val h4]
      have hinfo : (cFetch q.1 "cost function".toList [] = .none) ↔ info = none := by
        unfold cCostInfo at h1
        cases hf : cFetch q.1 "cost function".toList [] with
        | none => rw [hf] at h1; cases h1; simp
        | one i => rw [hf] at h1; cases h1; simp
        | many =>
          rw [hf] at h1
          cases hf2 : cFetch q.1 "cost function".toList (cExtra s) with
          | none => rw [hf2] at h1; cases h1; simp
          | one i => rw [hf2] at h1; cases h1; simp
          | many => rw [hf2] at h1; cases h1
      rw [h2, hlin]
      have hiff : ∀ P Q : Rat, (if cFetch q.1 "cost function".toList [] = .none then P else Q) = if info.isSome = true then Q else P := by
        intro P Q
        by_cases hf : cFetch q.1 "cost function".toList [] = .none
        · rw [if_pos hf, hinfo.1 hf]; rfl
        · rw [if_neg hf, if_pos]
          cases info with
          | none => exact absurd (hinfo.2 rfl) hf
          | some i => rfl
      rw [hiff]
      clear hiff hinfo hlin h2 h1
      cases cOn q.1 s with
      | false =>
        cases info with
        | none => simp only [Option.isSome_none, Bool.false_eq_true, if_false, List.map_cons, List.map_nil, List.sum_cons, List.sum_nil, Bool.false_and, add_zero]
        | some i => simp only [Option.isSome_some, Bool.false_eq_true, if_false, if_true, List.map_cons, List.map_nil, List.sum_cons, List.sum_nil, Bool.false_and, add_zero]
      | true =>
        cases info with
        | none => simp only [Option.isSome_none, Bool.false_eq_true, if_false, if_true, List.map_cons, List.map_nil, List.sum_cons, List.sum_nil, Bool.true_and, decide_true, add_zero]
        | some i => simp only [Option.isSome_some, if_true, List.map_cons, List.map_nil, List.sum_cons, List.sum_nil, Bool.true_and, decide_true, add_zero, one_mul]
    · intro t ht hts
      apply sum_zero'
      intro c hc
      rw [if_neg]
      simp only [Bool.and_eq_true, decide_eq_true_iff, not_and]
      intro _ hper
      apply hts
      apply cSub_inj
      rw [← hper]
      rcases (cGenCols_mem hp hq ht c).1 hc with rfl | ⟨_, rfl⟩ <;> rfl

/-! ## limits -/

/-- **C202** a branch in service with a limit and a reactance of more than 1e-8 carries at most its limit, in both directions -/
theorem C202_limit_partial (vs : List CVertex) (s : CWhen) (x : CId → Rat) (h : CDcOpf vs s x) (l : CVertex × Nat) (hl : l ∈ cOf cIsBranch vs) (hon : cOn l.1 s = true)
    (hm : cVal l.1 "maxPflow".toList s ≠ 0) (hx : 1 / 100000000 < cVal l.1 "reactance".toList s) : |cFlow vs s x l.1| ≤ cVal l.1 "maxPflow".toList s := by
  have h1 := h.limits l hl hon hm
  have hpos : 0 < cVal l.1 "reactance".toList s := by
    have : (0 : Rat) < 1 / 100000000 := by norm_num
    linarith
  have ht : cTolerance < |cVal l.1 "reactance".toList s| := by
    rw [abs_of_pos hpos]
    exact hx
  unfold cFlow
  rw [if_pos ⟨hon, ht⟩, abs_div, abs_of_pos hpos, div_le_iff₀ hpos]
  exact h1

/-- **C202** violated: a branch in service with a limit and a negative reactance (a series capacitor) leaves no solution -/
theorem C202_reactance_violated (subs : List CWhen) (vs : List CVertex) (p : CProb) (h : cProblem subs vs = .ok p) (hnet : CNetOk vs) (hn : subs.Nodup)
    (hcost : ∀ q ∈ cOf cIsGen vs, cFetch q.1 "cost function".toList [] ≠ .many) (s : CWhen) (hs : s ∈ subs) (l : CVertex × Nat) (hl : l ∈ cOf cIsBranch vs) (hon : cOn l.1 s = true)
    (hm : 0 < cVal l.1 "maxPflow".toList s) (hx : cVal l.1 "reactance".toList s < 0) : ¬ ∃ x, cFeasible p (cSub s) x := by
  rintro ⟨x, hx'⟩
  have h1 := ((C202_feasible_partial subs vs p h hnet hn hcost s hs x).1 hx').limits l hl hon (ne_of_gt hm)
  have h2 := abs_nonneg (cTheta vs s x (cFrom l.1) - cTheta vs s x (cTo l.1))
  have h3 := mul_neg_of_pos_of_neg hm hx
  linarith

/-- **C202** violated: a branch with a reactance of at most 1e-8 (a bus coupler) carries nothing -/
theorem C202_coupler_violated (vs : List CVertex) (s : CWhen) (x : CId → Rat) (l : CVertex × Nat) (hx : |cVal l.1 "reactance".toList s| ≤ 1 / 100000000) : cFlow vs s x l.1 = 0 := by
  unfold cFlow cTolerance
  rw [if_neg]
  rintro ⟨_, h⟩
  linarith

/-! ## keys -/

theorem nodup_flatMap' {α β γ : Type} (key : γ → β) (f : α → List γ) (L : List α) (hL : L.Nodup) (h1 : ∀ a ∈ L, ((f a).map key).Nodup)
    (h2 : ∀ a ∈ L, ∀ b ∈ L, a ≠ b → ∀ u ∈ f a, ∀ v ∈ f b, key u ≠ key v) : ((L.flatMap f).map key).Nodup := by
  induction L with
  | nil => simp
  | cons a L ih =>
    rw [List.nodup_cons] at hL
    rw [List.flatMap_cons, List.map_append, List.nodup_append]
    refine ⟨h1 a List.mem_cons_self, ih hL.2 (fun b hb => h1 b (List.mem_cons_of_mem _ hb)) (fun b hb c hc => h2 b (List.mem_cons_of_mem _ hb) c (List.mem_cons_of_mem _ hc)), ?_⟩
    intro k hk k' hk'
    rw [List.mem_map] at hk hk'
    obtain ⟨u, hu, rfl⟩ := hk
    obtain ⟨v, hv, rfl⟩ := hk'
    rw [List.mem_flatMap] at hv
    obtain ⟨b, hb, hv⟩ := hv
    refine h2 a List.mem_cons_self b (List.mem_cons_of_mem _ hb) ?_ u hu v hv
    rintro rfl
    exact hL.1 hb

theorem cBusCols_id {n : Nat} {s : CWhen} {c : CCol} (h : c ∈ cBusCols n s) : c.id.node = n ∧ c.id.subs = cExtra s := by
  unfold cBusCols at h
  rcases List.mem_cons.1 h with rfl | h
  · exact ⟨rfl, rfl⟩
  rcases List.mem_cons.1 h with rfl | h
  · exact ⟨rfl, rfl⟩
  rcases List.mem_cons.1 h with rfl | h
  · exact ⟨rfl, rfl⟩
  cases h

theorem cGenCols_id {subs : List CWhen} {vs : List CVertex} {p : CProb} (hp : CParts subs vs p) {q : CVertex × Nat} (hq : q ∈ cOf cIsGen vs) {s : CWhen} (hs : s ∈ subs) {c : CCol} (h : c ∈ okD (cGenCols q.1 q.2 s) []) :
    c.id.node = q.2 ∧ c.id.subs = cExtra s := by
  rcases (cGenCols_mem hp hq hs c).1 h with rfl | ⟨_, rfl⟩ <;> exact ⟨rfl, rfl⟩

/-- **C202** different columns have different keys -/
theorem C202_columns_partial (subs : List CWhen) (vs : List CVertex) (p : CProb) (h : cProblem subs vs = .ok p) (hn : subs.Nodup) : (p.cols.map (·.id)).Nodup := by
  have hp := cParts_of h
  rw [hp.cols, List.map_append, List.nodup_append]
  refine ⟨?_, ?_, ?_⟩
  · refine nodup_flatMap' _ _ _ (cOf_nodup _ _) (fun q hq => nodup_flatMap' _ _ _ hn (fun s hs => ?_) ?_) ?_
    · unfold cBusCols
      have d1 : "voltage angle".toList ≠ "load curtailment".toList := by decide +kernel
      have d2 : "voltage angle".toList ≠ "generation curtailment".toList := by decide +kernel
      have d3 : "load curtailment".toList ≠ "generation curtailment".toList := by decide +kernel
      simp only [List.map_cons, List.map_nil, List.nodup_cons, List.mem_cons, List.not_mem_nil, or_false, CId.mk.injEq, not_or, not_and, not_false_eq_true, List.nodup_nil, and_true]
      exact ⟨⟨fun _ h => absurd h d1, fun _ h => absurd h d2⟩, fun _ h => absurd h d3⟩
    · intro s _ t _ hst u hu v hv huv
      have h1 := (cBusCols_id hu).2
      have h2 := (cBusCols_id hv).2
      rw [huv, h2] at h1
      exact hst (cExtra_inj h1.symm)
    · intro a ha b hb hab u hu v hv huv
      obtain ⟨s, _, hu⟩ := List.mem_flatMap.1 hu
      obtain ⟨t, _, hv⟩ := List.mem_flatMap.1 hv
      have h1 := (cBusCols_id hu).1
      have h2 := (cBusCols_id hv).1
      rw [huv, h2] at h1
      exact hab (cOf_inj ha hb h1.symm)
  · refine nodup_flatMap' _ _ _ (cOf_nodup _ _) (fun q hq => nodup_flatMap' _ _ _ hn (fun s hs => ?_) ?_) ?_
    · obtain ⟨info, _, h2⟩ := cGenCols_eq (hp.gens q hq s hs)
      rw [h2]
      have d1 : "active power generation".toList ≠ "active power generation cost".toList := by decide +kernel
      split
      · simp only [List.map_cons, List.map_nil, List.nodup_cons, List.mem_cons, List.not_mem_nil, or_false, CId.mk.injEq, not_and, not_false_eq_true, List.nodup_nil, and_true]
        exact fun _ h => absurd h d1
      · simp
    · intro s hs t ht hst u hu v hv huv
      have h1 := (cGenCols_id hp hq hs hu).2
      have h2 := (cGenCols_id hp hq ht hv).2
      rw [huv, h2] at h1
      exact hst (cExtra_inj h1.symm)
    · intro a ha b hb hab u hu v hv huv
      obtain ⟨s, hs, hu⟩ := List.mem_flatMap.1 hu
      obtain ⟨t, ht, hv⟩ := List.mem_flatMap.1 hv
      have h1 := (cGenCols_id hp ha hs hu).1
      have h2 := (cGenCols_id hp hb ht hv).1
      rw [huv, h2] at h1
      exact hab (cOf_inj ha hb h1.symm)
  · intro k hk k' hk' hkk
    obtain ⟨u, hu, rfl⟩ := List.mem_map.1 hk
    obtain ⟨v, hv, rfl⟩ := List.mem_map.1 hk'
    obtain ⟨a, ha, hu⟩ := List.mem_flatMap.1 hu
    obtain ⟨s, hs, hu⟩ := List.mem_flatMap.1 hu
    obtain ⟨b, hb, hv⟩ := List.mem_flatMap.1 hv
    obtain ⟨t, ht, hv⟩ := List.mem_flatMap.1 hv
    have h1 := (cBusCols_id hu).1
    have h2 := (cGenCols_id hp hb ht hv).1
    rw [hkk, h2] at h1
    have := cOf_inj ha hb h1.symm
    subst this
    exact (cKind a.1).1 ⟨(cOf_mem.1 ha).2, (cOf_mem.1 hb).2⟩

theorem cGenRows_id {v : CVertex} {n : Nat} {s : CWhen} {l : List CRow} (h : cGenRows v n s = .ok l) : (l.map (·.id)).Nodup ∧ ∀ r ∈ l, ∃ k, r.id = cPieceId n s k := by
  unfold cGenRows at h
  obtain ⟨st, h1, h⟩ := (bindE_iff _ _ _).1 h
  obtain ⟨info, h2, h⟩ := (bindE_iff _ _ _).1 h
  cases info with
  | none =>
    cases h
    exact ⟨by simp, by simp⟩
  | some i =>
    obtain ⟨bounds, h3, h⟩ := (bindE_iff _ _ _).1 h
    have e := Except.ok.inj h
    subst e
    constructor
    · rw [List.map_map]
      have : (fun r : CRow => r.id) ∘ (fun q : Rat × Nat => (⟨cPieceId n s q.2, none, some q.1, cSub s, st⟩ : CRow)) = (fun k => cPieceId n s k) ∘ Prod.snd := rfl
      rw [this, ← List.map_map, List.zipIdx_map_snd]
      refine List.Nodup.map ?_ List.nodup_range'
      intro j k hjk
      exact (cPieceId_inj hjk).2
    · intro r hr
      obtain ⟨z, _, rfl⟩ := List.mem_map.1 hr
      exact ⟨z.2, rfl⟩

/-- **C202** different rows have different keys -/
theorem C202_rows_partial (subs : List CWhen) (vs : List CVertex) (p : CProb) (h : cProblem subs vs = .ok p) (hn : subs.Nodup) : (p.rows.map (·.id)).Nodup := by
  have hp := cParts_of h
  have hr := cRowParts_of hp
  have kb : ∀ q ∈ cOf cIsBus vs, ∀ s ∈ subs, (okD (cBusRow q.1 q.2 s) ⟨⟨0, [], []⟩, none, none, [], false⟩).id = ⟨q.2, "active power balance".toList, cExtra s⟩ := by
    intro q hq s hs
    rw [cBusRow_eq (hr.bus q hq s hs)]
  have kl : ∀ q ∈ cOf cIsBranch vs, ∀ s ∈ subs, (okD (cBranchRow q.1 q.2 s) ⟨⟨0, [], []⟩, none, none, [], false⟩).id = ⟨q.2, "angular difference".toList, cExtra s⟩ := by
    intro q hq s hs
    rw [cBranchRow_eq (hr.branch q hq s hs)]
  have nodups : ∀ (f : CVertex → Bool) (g : CVertex × Nat → CWhen → CRow) (name : Tok), (∀ q ∈ cOf f vs, ∀ s ∈ subs, (g q s).id = ⟨q.2, name, cExtra s⟩) →
      (((cOf f vs).flatMap (fun q => subs.map (g q))).map (·.id)).Nodup := by
    intro f g name hg
    refine nodup_flatMap' _ _ _ (cOf_nodup _ _) ?_ ?_
    · intro q hq
      rw [List.map_map]
      refine List.Nodup.map_on ?_ hn
      intro s hs t ht hst
      rw [Function.comp_apply, Function.comp_apply, hg q hq s hs, hg q hq t ht] at hst
      injection hst with _ _ h3
      exact cExtra_inj h3
    · intro a ha b hb hab u hu v hv huv
      obtain ⟨s, hs, rfl⟩ := List.mem_map.1 hu
      obtain ⟨t, ht, rfl⟩ := List.mem_map.1 hv
      rw [hg a ha s hs, hg b hb t ht] at huv
      injection huv with h1 _ _
      exact hab (cOf_inj ha hb h1)
  rw [hr.rows, List.map_append, List.map_append, List.nodup_append, List.nodup_append]
  have mb : ∀ k ∈ ((cOf cIsBus vs).flatMap (fun q => subs.map (fun s => okD (cBusRow q.1 q.2 s) ⟨⟨0, [], []⟩, none, none, [], false⟩))).map (·.id), k.name = "active power balance".toList := by
    intro k hk
    obtain ⟨u, hu, rfl⟩ := List.mem_map.1 hk
    obtain ⟨q, hq, hu⟩ := List.mem_flatMap.1 hu
    obtain ⟨s, hs, rfl⟩ := List.mem_map.1 hu
    rw [kb q hq s hs]
  have mg : ∀ k ∈ ((cOf cIsGen vs).flatMap (fun q => subs.flatMap (fun s => okD (cGenRows q.1 q.2 s) []))).map (·.id), k.name = "piecewise generation cost".toList := by
    intro k hk
    obtain ⟨u, hu, rfl⟩ := List.mem_map.1 hk
    obtain ⟨q, hq, hu⟩ := List.mem_flatMap.1 hu
    obtain ⟨s, hs, hu⟩ := List.mem_flatMap.1 hu
    obtain ⟨j, hj⟩ := (cGenRows_id (hr.gen q hq s hs)).2 u hu
    rw [hj]
    rfl
  have ml : ∀ k ∈ ((cOf cIsBranch vs).flatMap (fun q => subs.map (fun s => okD (cBranchRow q.1 q.2 s) ⟨⟨0, [], []⟩, none, none, [], false⟩))).map (·.id), k.name = "angular difference".toList := by
    intro k hk
    obtain ⟨u, hu, rfl⟩ := List.mem_map.1 hk
    obtain ⟨q, hq, hu⟩ := List.mem_flatMap.1 hu
    obtain ⟨s, hs, rfl⟩ := List.mem_map.1 hu
    rw [kl q hq s hs]
  refine ⟨⟨nodups _ _ _ kb, ?_, ?_⟩, nodups _ _ _ kl, ?_⟩
  · refine nodup_flatMap' _ _ _ (cOf_nodup _ _) (fun q hq => nodup_flatMap' _ _ _ hn (fun s hs => (cGenRows_id (hr.gen q hq s hs)).1) ?_) ?_
    · intro s hs t ht hst u hu v hv huv
      obtain ⟨j, hj⟩ := (cGenRows_id (hr.gen q hq s hs)).2 u hu
      obtain ⟨k, hk⟩ := (cGenRows_id (hr.gen q hq t ht)).2 v hv
      rw [hj, hk] at huv
      exact hst (cPieceId_inj huv).1
    · intro a ha b hb hab u hu v hv huv
      obtain ⟨s, hs, hu⟩ := List.mem_flatMap.1 hu
      obtain ⟨t, ht, hv⟩ := List.mem_flatMap.1 hv
      obtain ⟨j, hj⟩ := (cGenRows_id (hr.gen a ha s hs)).2 u hu
      obtain ⟨k, hk⟩ := (cGenRows_id (hr.gen b hb t ht)).2 v hv
      rw [hj, hk] at huv
      unfold cPieceId at huv
      injection huv with h1 _ _
      exact hab (cOf_inj ha hb h1)
  · intro k hk k' hk' hkk
    have h1 := mb k hk
    rw [hkk, mg k' hk'] at h1
    exact cName1 h1.symm
  · intro k hk k' hk' hkk
    have h2 := ml k' hk'
    rcases List.mem_append.1 hk with hk | hk
    · have h1 := mb k hk
      rw [hkk, h2] at h1
      exact cName2 h1.symm
    · have h1 := mg k hk
      rw [hkk, h2] at h1
      exact cName3 h1.symm

end Pyensys
