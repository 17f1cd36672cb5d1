import Verif.Props.GlpkMore

/-!
# C149-C155: cases that cannot be solved, and examples
-/

namespace Pyensys

/-! ## C154: rows that GLPK refuses -/

theorem gnProb_keys (c : GnCase) : ((gnOpf c).rows.map (·.key)).Nodup := by
  obtain ⟨k1, k2⟩ := gnPwc_keys c
  obtain ⟨k3, k4⟩ := gnOpfRows_keys c
  show ((gnPwc c ++ gnOpfRows c).map (·.key)).Nodup
  rw [List.map_append, List.nodup_append]
  refine ⟨k1, k3, ?_⟩
  intro x hx y hy hxy
  obtain ⟨g, hg, rfl⟩ := List.mem_map.1 hx
  obtain ⟨g', hg', rfl⟩ := List.mem_map.1 hy
  have e1 := k2 g hg
  have e2 := k4 g' hg'
  rw [hxy] at e1
  rcases e1 with e1 | e1 | e1 <;> rcases e2 with e2 | e2 | e2 | e2 <;> rw [e1] at e2 <;> simp at e2

/-- a group of no rows ends the program -/
theorem gnRun_empty {c : GnCase} (hopf : c.opf = true) (hi : gnInit c = .ok ()) (hb : c.buses ≠ []) (hl : c.branches ≠ [])
    (h : ∃ g ∈ gnPwc c ++ gnOpfRows c, g.size = 0) : gnRun c = .error .runtime := by
  have e : gBuild (gnOpf c) = .error .runtime := by
    unfold gBuild
    rw [if_neg (by rw [not_not]; exact gnCols_keys c), if_neg (by rw [not_not]; exact gnCols_sizes (fun _ => ⟨hb, hl⟩)),
      if_neg (by rw [not_not]; exact gnProb_keys c), if_pos]
    obtain ⟨g, hg, h0⟩ := h
    exact fun hall => hall g hg h0
  unfold gnRun gnProb
  rw [hi, if_pos hopf]
  simp only [bind, Except.bind]
  rw [show (⟨gnCols c, gnPwc c ++ gnOpfRows c, gnObj c (fun _ => 1) 100000000⟩ : GProb) = gnOpf c from rfl, e]

/-- **C154 fails** with a unit that has no pieces of cost: GLPK ends the program. -/
theorem C154_no_pieces_violated {c : GnCase} (hopf : c.opf = true) (hi : gnInit c = .ok ()) (hb : c.buses ≠ []) (hl : c.branches ≠ [])
    (ht : 0 < c.insts ∧ 0 < c.periods) (u : GnUnit) (hu : u ∈ c.conv ∨ u ∈ c.hydro) (h0 : u.pieces = []) : gnRun c = .error .runtime := by
  refine gnRun_empty hopf hi hb hl ?_
  rcases hu with hu | hu
  · obtain ⟨n, hn⟩ := List.mem_iff_getElem?.1 hu
    refine ⟨gnPieces .thermalPWC .thermalCG .thermal (gnHours c 0) 0 0 n u.pieces, List.mem_append_left _ (List.mem_flatMap.2 ⟨(0, 0), mem_gnTimes.2 ht, ?_⟩), ?_⟩
    · exact List.mem_append_left _ (List.mem_append_left _ (List.mem_map.2 ⟨(u, n), mem_zipIdx_iff'.2 hn, rfl⟩))
    · simp [gnPieces, h0]
  · obtain ⟨n, hn⟩ := List.mem_iff_getElem?.1 hu
    refine ⟨gnPieces .hydroPWC .hydroCG .hydroGen (gnHours c 0) 0 0 n u.pieces, List.mem_append_left _ (List.mem_flatMap.2 ⟨(0, 0), mem_gnTimes.2 ht, ?_⟩), ?_⟩
    · exact List.mem_append_right _ (List.mem_map.2 ⟨(u, n), mem_zipIdx_iff'.2 hn, rfl⟩)
    · simp [gnPieces, h0]

/-- **C154 fails** with contingencies and a single branch: GLPK ends the program. -/
theorem C154_single_violated {c : GnCase} (hopf : c.opf = true) (hi : gnInit c = .ok ()) (hb : c.buses ≠ []) (hl : c.branches.length = 1)
    (ht : 0 < c.insts ∧ 0 < c.periods) (hc : 1 ≤ c.cont) : gnRun c = .error .runtime := by
  refine gnRun_empty hopf hi hb (by intro e; rw [e] at hl; simp at hl) ?_
  refine ⟨⟨(.flowC, [0, 0, 1]), if (1 : Nat) = 0 then c.branches.length else c.branches.length - 1,
    (c.branches.zipIdx.filter (fun b => b.1.on 1)).zipIdx.map (gnFlowRow 0 0 1)⟩, List.mem_append_right _ (List.mem_append_left _ (List.mem_append_right _
      (List.mem_map.2 ⟨(0, 0, 1), mem_gnStates.2 ⟨ht.1, ht.2, hc⟩, rfl⟩))), ?_⟩
  simp [hl]

theorem gNumber_append (a b : List GRows) : ∀ s, gNumber (a ++ b) s = gNumber a s ++ gNumber b (s + (a.map (·.size)).sum) := by
  induction a with
  | nil => intro s; simp [gNumber]
  | cons g t ih =>
    intro s
    rw [List.cons_append, gNumber, gNumber, ih, List.append_assoc, List.map_cons, List.sum_cons, Nat.add_assoc]

/-- **C150 fails** after a contingency that takes no branch out of service (its number is that of no branch): one row less is reserved than
branches are written, so without losses the last row is outside the problem and the call never succeeds. -/
theorem C150_unmatched_violated {c : GnCase} (ht : 0 < c.insts ∧ 0 < c.periods) (hc : 1 ≤ c.cont) (hl : c.lossPieces = none)
    (hb : c.branches ≠ []) (hon : ∀ b ∈ c.branches, b.on c.cont = true) (r : GProb × GLp) : gnRun c ≠ .ok r := by
  intro hr
  obtain ⟨p, lp⟩ := r
  obtain ⟨hopf, _, hp, hbd, _⟩ := gnRun_parts hr
  have h := (gBuild_iff p lp).1 hbd
  have hspec := gRows_spec h
  -- the last group
  obtain ⟨ini, hini⟩ : ∃ ini, gnStates c = ini ++ [(c.insts - 1, c.periods - 1, c.cont)] := by
    obtain ⟨m, hm⟩ : ∃ m, c.insts = m + 1 := ⟨c.insts - 1, by omega⟩
    obtain ⟨n, hn⟩ : ∃ n, c.periods = n + 1 := ⟨c.periods - 1, by omega⟩
    unfold gnStates gnTimes
    rw [hm, hn, List.range_succ (n := m), List.range_succ (n := n), List.range_succ (n := c.cont)]
    simp only [List.flatMap_append, List.flatMap_cons, List.flatMap_nil, List.append_nil, List.map_append, List.map_cons, List.map_nil, ← List.append_assoc]
    exact ⟨_, rfl⟩
  let q : Nat × Nat × Nat := (c.insts - 1, c.periods - 1, c.cont)
  let f : Nat × Nat × Nat → GRows := fun q => ⟨(.flowC, [q.1, q.2.1, q.2.2]), if q.2.2 = 0 then c.branches.length else c.branches.length - 1,
    (c.branches.zipIdx.filter (fun b => b.1.on q.2.2)).zipIdx.map (gnFlowRow q.1 q.2.1 q.2.2)⟩
  have hrows : p.rows = (gnPwc c ++ gnBalance c ++ ini.map f) ++ [f q] := by
    rw [hp]
    show gnPwc c ++ (gnBalance c ++ gnFlows c ++ gnLossRows c) = _
    have e1 : gnLossRows c = [] := by unfold gnLossRows; rw [hl]
    have e2 : gnFlows c = ini.map f ++ [f q] := by
      unfold gnFlows
      rw [hini, List.map_append]
      rfl
    rw [e1, e2]
    simp
  have hfil : c.branches.zipIdx.filter (fun b => b.1.on c.cont) = c.branches.zipIdx := by
    rw [List.filter_eq_self]
    intro b hb'
    exact hon b.1 (mem_fst_zipIdx hb')
  have hlen : 0 < c.branches.length := List.length_pos_of_ne_nil hb
  obtain ⟨b, hbl⟩ : ∃ b, c.branches[c.branches.length - 1]? = some b := ⟨_, List.getElem?_eq_getElem (by omega)⟩
  have hmem : ((((gnPwc c ++ gnBalance c ++ ini.map f).map (·.size)).sum + (c.branches.length - 1),
      gnFlowRow q.1 q.2.1 q.2.2 ((b, c.branches.length - 1), c.branches.length - 1)) : Nat × GRow) ∈ gNumber p.rows 0 := by
    rw [hrows, gNumber_append]
    refine List.mem_append_right _ ?_
    simp only [gNumber, List.append_nil, Nat.zero_add]
    refine List.mem_map.2 ⟨gnFlowRow q.1 q.2.1 q.2.2 ((b, c.branches.length - 1), c.branches.length - 1), ?_, rfl⟩
    show _ ∈ (c.branches.zipIdx.filter (fun b => b.1.on c.cont)).zipIdx.map (gnFlowRow q.1 q.2.1 q.2.2)
    rw [hfil]
    refine List.mem_map.2 ⟨((b, c.branches.length - 1), c.branches.length - 1), ?_, rfl⟩
    rw [mem_zipIdx_iff', List.getElem?_zipIdx, hbl]
    simp
  obtain ⟨r, hr1, hr2⟩ := forall₂_left hspec hmem
  have := (h.inside r hr1).1
  rw [h.nrows, hr2.1, hrows, List.map_append (l₁ := gnPwc c ++ gnBalance c ++ ini.map f) (l₂ := [f q]), List.sum_append] at this
  have e : ([f q].map (·.size)).sum = c.branches.length - 1 := by
    show (if c.cont = 0 then c.branches.length else c.branches.length - 1) + 0 = _
    rw [if_neg (by omega)]
    rfl
  rw [e] at this
  exact lt_irrefl _ this

/-- **C154 fails** with a branch in service whose ends are the same bus: a coefficient is written twice, the call never succeeds. -/
theorem C154_loop_violated {c : GnCase} (ht : 0 < c.insts ∧ 0 < c.periods) (b : GnBranch) (hb : b ∈ c.branches) (hon : b.on 0 = true)
    (he : b.fpos = b.tpos) (r : GProb × GLp) : gnRun c ≠ .ok r := by
  intro hr
  obtain ⟨p, lp⟩ := r
  obtain ⟨hopf, _, hp, hbd, _⟩ := gnRun_parts hr
  have h := (gBuild_iff p lp).1 hbd
  have hrows := h.rows
  rw [mapM_ok_iff] at hrows
  obtain ⟨n, hn⟩ := List.mem_iff_getElem?.1 hb
  have hm : (b, n) ∈ c.branches.zipIdx.filter (fun b => b.1.on 0) := List.mem_filter.2 ⟨mem_zipIdx_iff'.2 hn, hon⟩
  obtain ⟨m, hm⟩ := List.mem_iff_getElem?.1 hm
  have hrow : gnFlowRow 0 0 0 ((b, n), m) ∈ (c.branches.zipIdx.filter (fun b => b.1.on 0)).zipIdx.map (gnFlowRow 0 0 0) :=
    List.mem_map.2 ⟨((b, n), m), mem_zipIdx_iff'.2 hm, rfl⟩
  obtain ⟨k, hk⟩ := gNumber_mem p.rows 0 ⟨(.flowC, [0, 0, 0]), if (0 : Nat) = 0 then c.branches.length else c.branches.length - 1,
    (c.branches.zipIdx.filter (fun b => b.1.on 0)).zipIdx.map (gnFlowRow 0 0 0)⟩ (by
      rw [hp]
      exact List.mem_append_right _ (List.mem_append_left _ (List.mem_append_right _
        (List.mem_map.2 ⟨(0, 0, 0), mem_gnStates.2 ⟨ht.1, ht.2, Nat.zero_le _⟩, rfl⟩)))) _ hrow
  obtain ⟨q, hq, hq2⟩ := forall₂_left hrows hk
  unfold gRowTerms at hq2
  rw [except_bind_ok] at hq2
  obtain ⟨ts, h1, h2⟩ := hq2
  simp only [Except.ok.injEq] at h2
  subst h2
  simp only [gnFlowRow] at h1
  simp only [List.mapM_cons, List.mapM_nil, except_bind_ok] at h1
  obtain ⟨a1, _, l1, ⟨a2, e2, l2, ⟨a3, e3, _, _, hl2⟩, hl1⟩, hts⟩ := h1
  have ee : a2.1 = a3.1 := by
    unfold gTerm at e2 e3
    simp only [he] at e2
    cases hcol : p.col ((.angle, [0, 0, 0]), b.tpos) with
    | none => rw [hcol] at e2; simp at e2
    | some z =>
      rw [hcol] at e2 e3
      simp only [Except.ok.injEq] at e2 e3
      rw [← e2, ← e3]
  have hpl := h.places
  unfold gPlaces at hpl
  have hsub := (List.nodup_flatMap.1 hpl).1 _ hq
  have : (ts.map (fun t => t.1)).Nodup := by
    have e : ts.map (fun t => ((k, t.1) : Nat × Nat)) = (ts.map (fun t => t.1)).map (fun t => (k, t)) := by rw [List.map_map]; rfl
    simp only at hsub
    rw [e] at hsub
    exact List.Nodup.of_map _ hsub
  simp only [pure, Except.pure, Except.ok.injEq] at hts hl1 hl2
  subst hts hl1 hl2
  simp only [List.map_cons, List.nodup_cons, List.mem_cons] at this
  exact this.2.1 (.inl ee)

end Pyensys
