import Verif.Props.GlpkNames

/-!
# C153: when the coupled model for GLPK is accepted, and its objective
-/

namespace Pyensys

/-! ## names -/

theorem nodup_tags {gs hs : List GRows} (T : List GTag) (h1 : (gs.map (·.key)).Nodup) (h2 : (hs.map (·.key)).Nodup) (ha : ∀ g ∈ gs, g.key.1 ∈ T)
    (hb : ∀ g ∈ hs, g.key.1 ∉ T) : ((gs ++ hs).map (·.key)).Nodup := by
  rw [List.map_append, List.nodup_append]
  refine ⟨h1, h2, ?_⟩
  intro x hx y hy hxy
  obtain ⟨g, hg, rfl⟩ := List.mem_map.1 hx
  obtain ⟨g', hg', rfl⟩ := List.mem_map.1 hy
  have e := ha g hg
  rw [hxy] at e
  exact hb g' hg' e

theorem geRows_keys (d : GeData) (t : EnTree) :
    (((List.range d.vectors).map (tbGroup d t) ++ (List.range d.vectors).map (taGroup d t)).map (·.key)).Nodup ∧
    ∀ g ∈ (List.range d.vectors).map (tbGroup d t) ++ (List.range d.vectors).map (taGroup d t), g.key.1 ∈ [GTag.tb, .ta] := by
  have inj : ∀ tag : GTag, (List.map (fun v => ((tag, [v]) : GKey)) (List.range d.vectors)).Nodup := by
    intro tag
    refine List.nodup_range.map ?_
    intro a b h
    simpa using h
  constructor
  · refine nodup_tags [.tb] (by rw [List.map_map]; exact inj .tb) (by rw [List.map_map]; exact inj .ta) ?_ ?_
    · intro g hg; obtain ⟨v, _, rfl⟩ := List.mem_map.1 hg; simp [tbGroup]
    · intro g hg; obtain ⟨v, _, rfl⟩ := List.mem_map.1 hg; simp [taGroup]
  · intro g hg
    rcases List.mem_append.1 hg with hg | hg <;> obtain ⟨v, _, rfl⟩ := List.mem_map.1 hg <;> simp [tbGroup, taGroup]

theorem gnSystem_keys (c : GnCase) : ((gnSystem c).map (·.key)).Nodup ∧ ∀ g ∈ gnSystem c, g.key.1 = .pb := by
  constructor
  · unfold gnSystem
    rw [List.map_map]
    refine (gnTimes_nodup c).map ?_
    intro a b h
    simp only [Function.comp, Prod.mk.injEq, List.cons.injEq, and_true, true_and] at h
    exact Prod.ext h.1 h.2
  · intro g hg
    obtain ⟨q, _, rfl⟩ := List.mem_map.1 hg
    rfl

theorem gnRamps_keys (c : GnCase) : ((gnRamps c).map (·.key)).Nodup ∧ ∀ g ∈ gnRamps c, g.key.1 ∈ [GTag.thermalGR, .hydroGR] := by
  have sub : ∀ (q : Nat × Nat), List.Sublist ((if q.2 = 0 then [] else
      gnRampRows .thermalGR .thermal q.1 q.2 c.conv ++ gnRampRows .hydroGR .hydroGen q.1 q.2 c.hydro).map (·.key))
      [((GTag.thermalGR, [q.1, q.2]) : GKey), (.hydroGR, [q.1, q.2])] := by
    intro q
    unfold gnRampRows
    split
    · simp
    · split <;> split <;> simp
  constructor
  · unfold gnRamps
    rw [List.map_flatMap]
    refine nodup_blocks _ _ (fun k : GKey => k.2) (fun q => [q.1, q.2]) ?_ (gnTimes_nodup c) ?_ ?_
    · intro a _ b _ h
      simp only [List.cons.injEq, and_true] at h
      exact Prod.ext h.1 h.2
    · intro q _
      exact (by simp : List.Nodup [((GTag.thermalGR, [q.1, q.2]) : GKey), (.hydroGR, [q.1, q.2])]).sublist (sub q)
    · intro q _ k hk
      have := (sub q).subset hk
      simp only [List.mem_cons, List.not_mem_nil, or_false] at this
      rcases this with rfl | rfl <;> rfl
  · intro g hg
    obtain ⟨q, _, hg⟩ := List.mem_flatMap.1 hg
    have := (sub q).subset (List.mem_map.2 ⟨g, hg, rfl⟩)
    simp only [List.mem_cons, List.not_mem_nil, or_false] at this
    rcases this with e | e <;> rw [e] <;> simp

theorem gxLinkRows_keys {d : GxData} {nodes : List Nat} (hl : nodes.length = d.net.insts) (hn : GxNames d.en.vectors d.net.insts) :
    ((gxLinkRows d nodes).map (·.key)).Nodup ∧ ∀ g ∈ gxLinkRows d nodes, g.key.1 = .ceed := by
  constructor
  · unfold gxLinkRows
    split
    · simp
    · have e : (((List.range d.en.vectors).flatMap (fun v => nodes.zipIdx.map (fun q => gxLink d.net v q.2 q.1))).map (·.key)) =
          ((List.range d.en.vectors).flatMap (fun v => (List.range d.net.insts).map (fun i => (v, i)))).map (fun q => ((GTag.ceed, gDigits q.1 q.2) : GKey)) := by
        rw [List.map_flatMap, List.map_flatMap]
        congr 1
        funext v
        rw [List.map_map, List.map_map, ← hl, List.range_eq_range', ← List.zipIdx_map_snd 0 nodes, List.map_map]
        rfl
      rw [e]
      refine List.Nodup.map_on ?_ ?_
      · intro a ha b hb hab
        simp only [List.mem_flatMap, List.mem_map, List.mem_range] at ha hb
        obtain ⟨v, hv, i, hi, rfl⟩ := ha
        obtain ⟨v', hv', i', hi', rfl⟩ := hb
        simp only [Prod.mk.injEq, true_and] at hab
        obtain ⟨rfl, rfl⟩ := hn v i v' i' hv hi hv' hi' hab
        rfl
      · refine nodup_blocks _ _ (fun q => q.1) (fun i => i) (fun _ _ _ _ h => h) List.nodup_range ?_ ?_
        · intro i _
          exact List.nodup_range.map (fun a b h => by simpa using h)
        · intro i _ q hq
          obtain ⟨j, _, rfl⟩ := List.mem_map.1 hq
          rfl
  · intro g hg
    unfold gxLinkRows at hg
    split at hg
    · simp at hg
    · simp only [List.mem_flatMap, List.mem_map] at hg
      obtain ⟨v, _, q, _, rfl⟩ := hg
      rfl

/-! ## rows -/

/-- the network is well formed: for the power flow as in C154, for the economic dispatch with pieces of cost and without renewable units -/
structure GxWell (c : GnCase) : Prop where
  opf : c.opf = true → GnWell c
  conv : ∀ u ∈ c.conv, u.pieces ≠ []
  hydro : ∀ u ∈ c.hydro, u.pieces ≠ []
  res : c.opf = false → c.res = []

theorem gxHas_system {c : GnCase} (hopf : c.opf = false) (hf : c.feas = true) {p : GProb} (hp : ∀ g ∈ gnCols c, g ∈ p.cols) {i j : Nat}
    (hi : i < c.insts) (hj : j < c.periods) : p.has ((.lcs, [i, j]), 0) ∧ p.has ((.gcs, [i, j]), 0) := by
  have hc : ∀ g ∈ gnEdCols c i j, g ∈ p.cols := by
    intro g hg
    refine hp g ?_
    unfold gnCols
    rw [if_neg (by simp [hopf])]
    exact List.mem_append_right _ (List.mem_flatMap.2 ⟨(i, j), mem_gnTimes.2 ⟨hi, hj⟩, hg⟩)
  unfold gnEdCols at hc
  rw [if_pos hf] at hc
  exact ⟨⟨[.lower 0], hc _ (by simp), by simp⟩, ⟨[.lower 0], hc _ (by simp), by simp⟩⟩

theorem gnSystem_good {c : GnCase} (hopf : c.opf = false) {p : GProb} (hp : ∀ g ∈ gnCols c, g ∈ p.cols) : ∀ g ∈ gnSystem c, g.size ≠ 0 ∧
    ∀ r ∈ g.rows, (r.terms.map (·.1)).Nodup ∧ ∀ t ∈ r.terms, p.has t.1 := by
  intro g hg
  obtain ⟨q, hq, rfl⟩ := List.mem_map.1 hg
  obtain ⟨hi, hj⟩ := mem_gnTimes.1 hq
  obtain ⟨u1, u2, u3, u4⟩ := gnHas_units hp hi hj
  refine ⟨by simp, ?_⟩
  intro r hr
  simp only [List.mem_cons, List.not_mem_nil, or_false] at hr
  subst hr
  have blk : ∀ (tag : GTag) (n : Nat) (a : Rat), (((List.range n).map (fun k => (((tag, [q.1, q.2]), k), a))).map
      (fun t : GCol × Rat => t.1)).Nodup := by
    intro tag n a
    rw [List.map_map]
    exact List.nodup_range.map (fun a b h => by simpa using h)
  constructor
  · simp only [List.map_append]
    rw [List.nodup_append, List.nodup_append, List.nodup_append]
    refine ⟨⟨⟨blk _ _ _, blk _ _ _, ?_⟩, ?_, ?_⟩, blk _ _ _, ?_⟩
    · intro a ha b hb hab
      simp only [List.map_map, List.mem_map, Function.comp] at ha hb
      obtain ⟨_, _, rfl⟩ := ha
      obtain ⟨_, _, rfl⟩ := hb
      simp at hab
    · split <;> simp
    · intro a ha b hb hab
      subst hab
      split at hb
      · simp only [List.map_cons, List.map_nil, List.mem_cons, List.not_mem_nil, or_false] at hb
        simp only [List.map_map, List.mem_append, List.mem_map, Function.comp] at ha
        rcases ha with ⟨_, _, rfl⟩ | ⟨_, _, rfl⟩ <;> simp at hb
      · simp at hb
    · intro a ha b hb hab
      subst hab
      simp only [List.map_map, List.mem_map, Function.comp] at hb
      obtain ⟨_, _, rfl⟩ := hb
      simp only [List.map_map, List.mem_append, List.mem_map, Function.comp] at ha
      rcases ha with (⟨_, _, e⟩ | ⟨_, _, e⟩) | ⟨t, ht, e⟩
      · simp at e
      · simp at e
      · split at ht
        · simp only [List.mem_cons, List.not_mem_nil, or_false] at ht
          rcases ht with rfl | rfl <;> simp at e
        · simp at ht
  · intro t ht
    simp only [List.mem_append] at ht
    rcases ht with ((ht | ht) | ht) | ht
    · obtain ⟨m, hm, rfl⟩ := List.mem_map.1 ht; exact (u1 m (by simpa using hm)).1
    · obtain ⟨m, hm, rfl⟩ := List.mem_map.1 ht; exact (u3 m (by simpa using hm)).1
    · split at ht
      · rename_i hf
        obtain ⟨s1, s2⟩ := gxHas_system hopf hf hp hi hj
        simp only [List.mem_cons, List.not_mem_nil, or_false] at ht
        rcases ht with rfl | rfl
        · exact s1
        · exact s2
      · simp at ht
    · obtain ⟨m, hm, rfl⟩ := List.mem_map.1 ht; exact u4 m (by simpa using hm)

theorem gnRamps_good {c : GnCase} {p : GProb} (hp : ∀ g ∈ gnCols c, g ∈ p.cols) : ∀ g ∈ gnRamps c, g.size ≠ 0 ∧
    ∀ r ∈ g.rows, (r.terms.map (·.1)).Nodup ∧ ∀ t ∈ r.terms, p.has t.1 := by
  intro g hg
  obtain ⟨q, hq, hg⟩ := List.mem_flatMap.1 hg
  obtain ⟨hi, hj⟩ := mem_gnTimes.1 hq
  obtain ⟨u1, _, u3, _⟩ := gnHas_units hp hi hj
  obtain ⟨w1, _, w3, _⟩ := gnHas_units hp hi (show q.2 - 1 < c.periods by omega)
  have blk : ∀ (rt gen : GTag) (units : List GnUnit), q.2 ≠ 0 → (∀ n, n < units.length → p.has ((gen, [q.1, q.2]), n) ∧ p.has ((gen, [q.1, q.2 - 1]), n)) →
      ∀ g ∈ gnRampRows rt gen q.1 q.2 units, g.size ≠ 0 ∧ ∀ r ∈ g.rows, (r.terms.map (·.1)).Nodup ∧ ∀ t ∈ r.terms, p.has t.1 := by
    intro rt gen units h0 hh g hg
    unfold gnRampRows at hg
    split at hg
    · simp at hg
    · rename_i hne
      simp only [List.mem_cons, List.not_mem_nil, or_false] at hg
      subst hg
      refine ⟨by simpa using hne, ?_⟩
      intro r hr
      obtain ⟨u, hu, rfl⟩ := List.mem_map.1 hr
      have := hh u.2 (lt_of_some (mem_zipIdx_iff'.1 hu))
      refine ⟨?_, ?_⟩
      · simp only [List.map_cons, List.map_nil, List.nodup_cons, List.mem_cons, Prod.mk.injEq, List.cons.injEq, and_true, true_and, List.not_mem_nil,
          or_false, not_false_eq_true, List.nodup_nil]
        omega
      · intro t ht
        simp only [List.mem_cons, List.not_mem_nil, or_false] at ht
        rcases ht with rfl | rfl
        · exact this.1
        · exact this.2
  split at hg
  · simp at hg
  · rename_i h0
    rcases List.mem_append.1 hg with hg | hg
    · exact blk _ _ _ h0 (fun n hn => ⟨(u1 n hn).1, (w1 n hn).1⟩) g hg
    · exact blk _ _ _ h0 (fun n hn => ⟨(u3 n hn).1, (w3 n hn).1⟩) g hg

theorem gxLinkRows_good {d : GxData} {nodes rel : List Nat} {p : GProb} (hl : nodes.length = d.net.insts) (hn : ∀ n ∈ nodes, n < d.en.nodes)
    (hv : d.en.vectors ≤ d.net.hydro.length) (hg : ∀ g ∈ geCols d.en rel, g ∈ p.cols) (hp : ∀ g ∈ gnCols d.net, g ∈ p.cols) :
    ∀ g ∈ gxLinkRows d nodes, g.size ≠ 0 ∧ ∀ r ∈ g.rows, (r.terms.map (·.1)).Nodup ∧ ∀ t ∈ r.terms, p.has t.1 := by
  intro g hgg
  unfold gxLinkRows at hgg
  split at hgg
  · simp at hgg
  · simp only [List.mem_flatMap, List.mem_map, List.mem_range] at hgg
    obtain ⟨v, hvv, q, hq, rfl⟩ := hgg
    have hq' := mem_zipIdx_iff'.1 hq
    have hi : q.2 < d.net.insts := by have := lt_of_some hq'; omega
    refine ⟨by simp [gxLink], ?_⟩
    intro r hr
    simp only [gxLink, List.mem_cons, List.not_mem_nil, or_false] at hr
    subst hr
    refine ⟨?_, ?_⟩
    · simp only [List.map_cons, List.map_map, List.nodup_cons]
      refine ⟨?_, List.nodup_range.map (fun a b h => by simpa using h)⟩
      intro hm
      obtain ⟨j, _, e⟩ := List.mem_map.1 hm
      simp at e
    · intro t ht
      rcases List.mem_cons.1 ht with rfl | ht
      · exact (geHas hg hvv (hn _ (List.mem_of_getElem? hq'))).2.2.2.2
      · obtain ⟨j, hj, rfl⟩ := List.mem_map.1 ht
        exact ((gnHas_units hp hi (List.mem_range.1 hj)).2.2.1 v (by omega)).1

theorem gnObj_has_ed {c : GnCase} (hopf : c.opf = false) {p : GProb} (hp : ∀ g ∈ gnCols c, g ∈ p.cols) (w : Nat → Rat) (pen : Rat) :
    ∀ t ∈ gnObj c w pen, p.has t.1 := by
  intro t ht
  unfold gnObj at ht
  obtain ⟨q, hq, ht⟩ := List.mem_flatMap.1 ht
  obtain ⟨hi, hj⟩ := mem_gnTimes.1 hq
  obtain ⟨u1, u2, u3, u4⟩ := gnHas_units hp hi hj
  simp only [List.mem_append] at ht
  rcases ht with (((ht | ht) | ht) | ht) | ht
  · obtain ⟨m, hm, rfl⟩ := List.mem_map.1 ht
    exact (u1 m (by simpa using hm)).2
  · obtain ⟨m, hm, rfl⟩ := List.mem_map.1 ht
    exact (u2 m (by simpa using hm)).2
  · obtain ⟨m, hm, rfl⟩ := List.mem_map.1 ht
    exact (u3 m (by simpa using hm)).2
  · obtain ⟨m, hm, rfl⟩ := List.mem_map.1 ht
    exact u4 m.2 (List.getElem?_eq_some_iff.1 (mem_zipIdx_iff'.1 hm)).1
  · by_cases hf : c.feas = true
    · rw [if_pos hf, if_neg (by simp [hopf])] at ht
      simp only [List.mem_cons, List.not_mem_nil, or_false] at ht
      subst ht
      exact (gxHas_system hopf hf hp hi hj).1
    · rw [if_neg hf] at ht
      simp at ht

/-! ## the program -/

/-- the linear program of the coupled model -/
def gxProg (d : GxData) (t : EnTree) (nodes : List Nat) (w : List Rat) : GProb :=
  ⟨geCols d.en (if d.net.hydro = [] then [] else nodes) ++ gnCols d.net,
    ((List.range d.en.vectors).map (tbGroup d.en t) ++ (List.range d.en.vectors).map (taGroup d.en t)) ++ gxNetRows d.net ++ gxLinkRows d nodes ++
      gnPwc d.net ++ gnRamps d.net, gnObj d.net (fun i => (w[i]?).getD 0) d.penalty⟩

theorem gxNetRows_keys (c : GnCase) : ((gxNetRows c).map (·.key)).Nodup ∧ ∀ g ∈ gxNetRows c, g.key.1 ∈ [GTag.balance, .flowC, .losses1, .losses2, .pb] := by
  unfold gxNetRows
  split
  · refine ⟨(gnOpfRows_keys c).1, fun g hg => ?_⟩
    rcases (gnOpfRows_keys c).2 g hg with e | e | e | e <;> rw [e] <;> simp
  · exact ⟨(gnSystem_keys c).1, fun g hg => by rw [(gnSystem_keys c).2 g hg]; simp⟩

theorem gxProg_cols {d : GxData} {t : EnTree} (h1 : 1 < d.en.nodes) (hw : GxWell d.net) (nodes : List Nat) (w : List Rat) :
    ((gxProg d t nodes w).cols.map (·.1)).Nodup ∧ ∀ g ∈ (gxProg d t nodes w).cols, g.2 ≠ [] := by
  refine ⟨?_, ?_⟩
  · show ((geCols _ _ ++ gnCols _).map (·.1)).Nodup
    rw [List.map_append, List.nodup_append]
    refine ⟨geCols_keys _ _, gnCols_keys _, ?_⟩
    intro x hx y hy hxy
    obtain ⟨g, hg, rfl⟩ := List.mem_map.1 hx
    obtain ⟨g', hg', rfl⟩ := List.mem_map.1 hy
    have e1 := geCols_tag hg
    have e2 : g'.1.1 ∉ [GTag.part, .tot, .inp, .outp] := by
      unfold gnCols at hg'
      rcases List.mem_append.1 hg' with hg' | hg'
      · obtain ⟨q, _, hg'⟩ := List.mem_flatMap.1 hg'
        have := (gnCommon_keys d.net q.1 q.2).subset (List.mem_map.2 ⟨g', hg', rfl⟩)
        simp only [List.mem_cons, List.not_mem_nil, or_false] at this
        rcases this with e | e | e | e | e | e | e <;> rw [e] <;> simp
      · split at hg'
        · obtain ⟨q, _, hg'⟩ := List.mem_flatMap.1 hg'
          have := (gnOpfCols_keys d.net q.1 q.2.1 q.2.2).subset (List.mem_map.2 ⟨g', hg', rfl⟩)
          simp only [List.mem_cons, List.not_mem_nil, or_false] at this
          rcases this with e | e | e | e | e <;> rw [e] <;> simp
        · obtain ⟨q, _, hg'⟩ := List.mem_flatMap.1 hg'
          have := (gnEdCols_keys d.net q.1 q.2).subset (List.mem_map.2 ⟨g', hg', rfl⟩)
          simp only [List.mem_cons, List.not_mem_nil, or_false] at this
          rcases this with e | e <;> rw [e] <;> simp
    rw [← hxy] at e2
    rcases e1 with e1 | e1 | e1 | e1 <;> rw [e1] at e2 <;> simp at e2
  · intro g hg
    rcases List.mem_append.1 hg with hg | hg
    · have hr : List.range d.en.nodes ≠ [] := by rw [Ne, List.range_eq_nil]; omega
      obtain ⟨v, _, rfl | rfl | rfl | rfl⟩ := geCols_from hg <;> simpa using hr
    · exact gnCols_sizes (fun ho => ⟨(hw.opf ho).buses, (hw.opf ho).branches⟩) g hg

theorem gxProg_good {d : GxData} {t : EnTree} (ht : GeTree d.en t) (h1 : 1 < d.en.nodes) (hw : GxWell d.net) {nodes : List Nat} {w : List Rat}
    (hl : nodes.length = d.net.insts) (hn : ∀ n ∈ nodes, n < d.en.nodes) (hv : d.en.vectors ≤ d.net.hydro.length)
    (hnames : GxNames d.en.vectors d.net.insts) : GGood (gxProg d t nodes w) := by
  have hgc : ∀ g ∈ geCols d.en (if d.net.hydro = [] then [] else nodes), g ∈ (gxProg d t nodes w).cols := fun g hg => List.mem_append_left _ hg
  have hp : ∀ g ∈ gnCols d.net, g ∈ (gxProg d t nodes w).cols := fun g hg => List.mem_append_right _ hg
  have a := geRows_good ht hgc
  have b : ∀ g ∈ gxNetRows d.net, g.size ≠ 0 ∧ ∀ r ∈ g.rows, (r.terms.map (·.1)).Nodup ∧ ∀ t' ∈ r.terms, (gxProg d t nodes w).has t'.1 := by
    unfold gxNetRows
    by_cases ho : d.net.opf = true
    · rw [if_pos ho]; exact gnOpfRows_good (hw.opf ho) hp
    · rw [if_neg ho]; exact gnSystem_good (by simpa using ho) hp
  have c := gxLinkRows_good (p := gxProg d t nodes w) hl hn hv hgc hp
  have hres : ∀ u ∈ d.net.res, u.pieces ≠ [] := by
    by_cases ho : d.net.opf = true
    · exact (hw.opf ho).res
    · rw [hw.res (by simpa using ho)]; simp
  have e := gnPwc_good hw.conv hres hw.hydro hp
  have f := gnRamps_good (c := d.net) hp
  obtain ⟨ka, ka'⟩ := geRows_keys d.en t
  obtain ⟨kb, kb'⟩ := gxNetRows_keys d.net
  obtain ⟨kc, kc'⟩ := gxLinkRows_keys hl hnames
  obtain ⟨ke, ke'⟩ := gnPwc_keys d.net
  obtain ⟨kf, kf'⟩ := gnRamps_keys d.net
  have asz : ∀ g ∈ (List.range d.en.vectors).map (tbGroup d.en t) ++ (List.range d.en.vectors).map (taGroup d.en t), g.size ≠ 0 := by
    intro g hg
    simp only [List.mem_append, List.mem_map, List.mem_range] at hg
    rcases hg with ⟨v, _, rfl⟩ | ⟨v, _, rfl⟩ <;> simp only [tbGroup, taGroup] <;> omega
  refine ⟨?_, ?_, ?_, ?_, ?_, ?_, ?_⟩
  · exact (gxProg_cols h1 hw nodes w).1
  · exact (gxProg_cols h1 hw nodes w).2
  · refine nodup_tags [.tb, .ta, .balance, .flowC, .losses1, .losses2, .pb, .ceed, .thermalPWC, .resPWC, .hydroPWC]
      (nodup_tags [.tb, .ta, .balance, .flowC, .losses1, .losses2, .pb, .ceed]
        (nodup_tags [.tb, .ta, .balance, .flowC, .losses1, .losses2, .pb]
          (nodup_tags [.tb, .ta] ka kb ka' ?_) kc ?_ ?_) ke ?_ ?_) kf ?_ ?_
    · intro g hg
      have := kb' g hg
      simp only [List.mem_cons, List.not_mem_nil, or_false] at this
      rcases this with e | e | e | e | e <;> rw [e] <;> simp
    · intro g hg
      rcases List.mem_append.1 hg with hg | hg
      · have := ka' g hg; simp only [List.mem_cons, List.not_mem_nil, or_false] at this ⊢; tauto
      · have := kb' g hg; simp only [List.mem_cons, List.not_mem_nil, or_false] at this ⊢; tauto
    · intro g hg; rw [kc' g hg]; simp
    · intro g hg
      rcases List.mem_append.1 hg with hg | hg
      · rcases List.mem_append.1 hg with hg | hg
        · have := ka' g hg; simp only [List.mem_cons, List.not_mem_nil, or_false] at this ⊢; tauto
        · have := kb' g hg; simp only [List.mem_cons, List.not_mem_nil, or_false] at this ⊢; tauto
      · rw [kc' g hg]; simp
    · intro g hg; rcases ke' g hg with e | e | e <;> rw [e] <;> simp
    · intro g hg
      rcases List.mem_append.1 hg with hg | hg
      · rcases List.mem_append.1 hg with hg | hg
        · rcases List.mem_append.1 hg with hg | hg
          · have := ka' g hg; simp only [List.mem_cons, List.not_mem_nil, or_false] at this ⊢; tauto
          · have := kb' g hg; simp only [List.mem_cons, List.not_mem_nil, or_false] at this ⊢; tauto
        · rw [kc' g hg]; simp
      · have := ke' g hg; simp only [List.mem_cons, List.not_mem_nil, or_false] at this ⊢; tauto
    · intro g hg
      have := kf' g hg
      simp only [List.mem_cons, List.not_mem_nil, or_false] at this
      rcases this with e | e <;> rw [e] <;> simp
  · intro g hg
    simp only [gxProg, List.mem_append] at hg
    rcases hg with (((hg | hg) | hg) | hg) | hg
    · exact asz g (by simpa [List.mem_append] using hg)
    · exact (b g hg).1
    · exact (c g hg).1
    · exact (e g hg).1
    · exact (f g hg).1
  · refine gFits_append (gFits_append (gFits_append (gFits_append (fun g hg => (a g hg).1) ?_) (gxLinkRows_fits d nodes)) (gnPwc_fits _)) (gnRamps_fits _)
    unfold gxNetRows
    by_cases ho : d.net.opf = true
    · rw [if_pos ho]; exact gnOpfRows_fits (hw.opf ho).out
    · rw [if_neg ho]; exact gnSystem_fits _
  · intro g hg
    simp only [gxProg, List.mem_append] at hg
    rcases hg with (((hg | hg) | hg) | hg) | hg
    · exact (a g (by simpa [List.mem_append] using hg)).2
    · exact (b g hg).2
    · exact (c g hg).2
    · exact (e g hg).2
    · exact (f g hg).2
  · by_cases ho : d.net.opf = true
    · exact gnObj_has ho hp (fun i => (w[i]?).getD 0) d.penalty
    · exact gnObj_has_ed (by simpa using ho) hp (fun i => (w[i]?).getD 0) d.penalty

/-! ## C153: bounds -/

theorem gxCols_bad {c : GnCase} (h : GnBounds c) : ∀ g ∈ gnCols c, ∀ b ∈ g.2, b.bad = false := by
  by_cases hopf : c.opf = true
  · exact gnCols_bad hopf h
  · have h2 : ∀ g ∈ gnCols { c with opf := true }, ∀ b ∈ g.2, b.bad = false := gnCols_bad rfl ⟨h.conv, h.hydro, h.res, h.pumps, h.demand⟩
    intro g hg
    unfold gnCols at hg
    rw [if_neg hopf] at hg
    rcases List.mem_append.1 hg with hg | hg
    · exact h2 g (List.mem_append_left _ hg)
    · obtain ⟨q, _, hg⟩ := List.mem_flatMap.1 hg
      unfold gnEdCols at hg
      split at hg
      · simp only [List.mem_cons, List.not_mem_nil, or_false] at hg
        rcases hg with rfl | rfl <;> simp [GBnd.bad]
      · simp at hg

theorem gxProb_eq {d : GxData} {t : EnTree} (ht : GeTree d.en t) (hw : GxWell d.net) {nodes : List Nat} {w : List Rat}
    (hn : gxNodes d = .ok nodes) (hwt : gxWeights d = .ok w) : gxProb d = .ok (gxProg d t nodes w) := by
  unfold gxProb
  rw [hn, geRows_spec ht]
  simp only [bind, Except.bind]
  by_cases ho : d.net.opf = true
  · rw [if_pos ho]
    simp only
    rw [hwt]
    simp only [Except.ok.injEq]
    unfold gxProg gxNetRows
    rw [if_pos ho]
    rfl
  · rw [if_neg ho, if_neg (by rw [hw.res (by simpa using ho)]; simp)]
    simp only
    rw [hwt]
    simp only [Except.ok.injEq]
    unfold gxProg gxNetRows
    rw [if_neg ho]
    rfl

theorem gxRun_eq {d : GxData} {t : EnTree} (ht : GeTree d.en t) (hi : gnInit d.net = .ok ()) (hw : GxWell d.net) {nodes : List Nat} {w : List Rat}
    (hn : gxNodes d = .ok nodes) (hwt : gxWeights d = .ok w) {lp : GLp} (hlp : gBuild (gxProg d t nodes w) = .ok lp) :
    gxRun d = (do gSimplex lp; .ok (gxProg d t nodes w, lp)) := by
  unfold gxRun
  rw [hi, gxProb_eq ht hw hn hwt]
  simp only [bind, Except.bind]
  rw [hlp]

theorem GxOf.nodes_ok {data : List EnPeriod} {size : EnSize} {t : EnTree} {w : EnWeights} {links : EnLinks} {d : GxData}
    (h : GxOf data size t w links d) : ∃ nodes, gxNodes d = .ok nodes ∧ nodes.length = d.net.insts ∧ ∀ n ∈ nodes, n < d.en.nodes := by
  obtain ⟨OF, _, _, _, _, hc⟩ := h.scenario
  have e : gxNodes d = .ok ((List.range d.net.insts).map (fun i => (d.conn[i]?).getD 0)) := by
    unfold gxNodes
    refine mapM_all _ _ _ ?_
    intro i hi
    rw [List.mem_range] at hi
    obtain ⟨n, _, hn⟩ := h.conn i hi
    rw [npGet_iff, hn]
    rfl
  refine ⟨_, e, by simp, ?_⟩
  intro n hn
  obtain ⟨i, hi, rfl⟩ := List.mem_map.1 hn
  rw [List.mem_range] at hi
  obtain ⟨n, _, hn⟩ := h.conn i hi
  rw [hn]
  have := lt_of_some (hc i n hi hn).2
  rw [h.tree.1.shape.lens.2.1] at this
  exact this

/-- **C153.** The coupled model is solved for every tree without uncertainty and every well-formed network that has a hydropower unit for each tree,
positive ramps (if there is more than one period), at most eleven trees or ten instances and bounds in order. -/
theorem C153_runs_partial {data : List EnPeriod} {size : EnSize} {t : EnTree} {w : EnWeights} {links : EnLinks} {d : GxData}
    (h : GxOf data size t w links d) (hw : GxWell d.net) (hi : gnInit d.net = .ok ()) (hb : GnBounds d.net) (hv : d.en.vectors ≤ d.net.hydro.length)
    (hn : d.en.vectors ≤ 11 ∨ d.net.insts ≤ 10) (hr : 2 ≤ d.net.periods → ∀ u ∈ d.net.conv ++ d.net.hydro, 0 < u.ramp) :
    ∃ p lp, gxRun d = .ok (p, lp) := by
  obtain ⟨ht, _, h1⟩ := h.tree
  rw [← h.nodes] at h1
  obtain ⟨nodes, n1, n2, n3⟩ := h.nodes_ok
  obtain ⟨OF, hOF, _⟩ := h.scenario
  have hg := gxProg_good (w := OF) ht h1 hw n2 n3 hv ((gxNames_iff _ _).2 hn)
  obtain ⟨lp, hlp⟩ := gBuild_ok hg
  refine ⟨gxProg d t nodes OF, lp, ?_⟩
  rw [gxRun_eq ht hi hw n1 hOF hlp, gSimplex_ok hlp]
  · rfl
  · intro g hg b hbb
    rcases List.mem_append.1 hg with hg | hg
    · obtain ⟨v, _, hc⟩ := geCols_from hg
      rcases hc with rfl | rfl | rfl | rfl <;> simp only [List.mem_map] at hbb <;> obtain ⟨n, _, rfl⟩ := hbb
      · split <;> rfl
      · split <;> rfl
      · rfl
      · by_cases hm : n ∈ (if d.net.hydro = [] then [] else nodes)
        · rw [if_pos hm]; rfl
        · rw [if_neg hm]; rfl
    · exact gxCols_bad hb g hg b hbb
  · intro g hg r hrr
    simp only [gxProg, List.mem_append] at hg
    rcases hg with ((((hg | hg) | hg) | hg) | hg) | hg
    · obtain ⟨v, _, rfl⟩ := List.mem_map.1 hg
      obtain ⟨n, _, rfl⟩ := List.mem_map.1 hrr
      rfl
    · obtain ⟨v, _, rfl⟩ := List.mem_map.1 hg
      obtain ⟨n, _, rfl⟩ := List.mem_map.1 hrr
      rfl
    · unfold gxNetRows at hg
      split at hg
      · exact gnRows_bad d.net g (List.mem_append_right _ hg) r hrr
      · obtain ⟨q, _, rfl⟩ := List.mem_map.1 hg
        simp only [List.mem_cons, List.not_mem_nil, or_false] at hrr
        subst hrr
        rfl
    · unfold gxLinkRows at hg
      split at hg
      · simp at hg
      · simp only [List.mem_flatMap, List.mem_map] at hg
        obtain ⟨v, _, q, _, rfl⟩ := hg
        simp only [gxLink, List.mem_cons, List.not_mem_nil, or_false] at hrr
        subst hrr
        rfl
    · exact gnRows_bad d.net g (List.mem_append_left _ hg) r hrr
    · obtain ⟨q, hq, hg⟩ := List.mem_flatMap.1 hg
      obtain ⟨_, hj⟩ := mem_gnTimes.1 hq
      have key : ∀ (rt gen : GTag) (units : List GnUnit), (∀ u ∈ units, 0 < u.ramp) → g ∈ gnRampRows rt gen q.1 q.2 units → r.bnd.bad = false := by
        intro rt gen units hu hg
        unfold gnRampRows at hg
        split at hg
        · simp at hg
        · simp only [List.mem_cons, List.not_mem_nil, or_false] at hg
          subst hg
          obtain ⟨u, hm, rfl⟩ := List.mem_map.1 hrr
          have := hu u.1 (mem_fst_zipIdx hm)
          simp only [GBnd.bad, decide_eq_false_iff_not, not_le]
          linarith
      split at hg
      · simp at hg
      · have hr' := hr (by omega)
        rcases List.mem_append.1 hg with hg | hg
        · exact key _ _ _ (fun u hu => hr' u (List.mem_append_left _ hu)) hg
        · exact key _ _ _ (fun u hu => hr' u (List.mem_append_right _ hu)) hg

/-! ## C153: cases that cannot be solved -/

theorem gSimplex_bad_row {p : GProb} {lp : GLp} (hb : gBuild p = .ok lp) (hf : GFits p.rows) {g : GRows} (hg : g ∈ p.rows) {r : GRow} (hr : r ∈ g.rows)
    (hbad : r.bnd.bad = true) : gSimplex lp = .error .assertion := by
  have h := (gBuild_iff p lp).1 hb
  obtain ⟨n, hn⟩ := gNumber_mem p.rows 0 g hg r hr
  have hlt := gNumber_lt p.rows hf 0 (n, r) hn
  obtain ⟨q, hq, e1, e2, _⟩ := forall₂_left (gRows_spec h) hn
  have hnd : (lp.rows.map (·.1)).Nodup := by
    have e : lp.rows.map (·.1) = (gNumber p.rows 0).map (·.1) := by
      have := gRows_spec h
      clear hlt hq e1 e2 hn hb hg hr hbad
      generalize gNumber p.rows 0 = l at this
      generalize lp.rows = l' at this
      induction this with
      | nil => rfl
      | cons a _ ih => rw [List.map_cons, List.map_cons, a.1, ih]
    rw [e]
    exact gNumber_nodup p.rows hf 0
  unfold gSimplex
  rw [if_pos]
  rw [Bool.or_eq_true]
  right
  rw [List.any_eq_true]
  refine ⟨n, ?_, ?_⟩
  · rw [List.mem_range, h.nrows]
    simpa using hlt
  · unfold GLp.rowBnd
    simp only at e1
    have := filter_key lp.rows hnd q hq
    rw [e1] at this
    rw [this]
    simp only [List.getLast?_singleton]
    rw [e2]
    exact hbad

/-- **C153 fails** with a unit whose ramp is not positive (such as 0, a unit that must not move) and more than one period: AssertionError. -/
theorem C153_ramp_violated {data : List EnPeriod} {size : EnSize} {t : EnTree} {w : EnWeights} {links : EnLinks} {d : GxData}
    (h : GxOf data size t w links d) (hw : GxWell d.net) (hi : gnInit d.net = .ok ()) (hv : d.en.vectors ≤ d.net.hydro.length)
    (hn : d.en.vectors ≤ 11 ∨ d.net.insts ≤ 10) (hp : 2 ≤ d.net.periods) (u : GnUnit) (hu : u ∈ d.net.conv ∨ u ∈ d.net.hydro) (hr : u.ramp ≤ 0) :
    gxRun d = .error .assertion := by
  obtain ⟨ht, _, h1⟩ := h.tree
  rw [← h.nodes] at h1
  obtain ⟨nodes, n1, n2, n3⟩ := h.nodes_ok
  obtain ⟨OF, hOF, _⟩ := h.scenario
  have hg := gxProg_good (w := OF) ht h1 hw n2 n3 hv ((gxNames_iff _ _).2 hn)
  obtain ⟨lp, hlp⟩ := gBuild_ok hg
  have hpos : 0 < d.net.insts := by
    rw [h.insts, Nat.pos_iff_ne_zero]
    intro e
    rw [List.prod_eq_zero_iff] at e
    obtain ⟨a, ha, e⟩ := List.mem_map.1 e
    have := h.names a ha
    omega
  have key : ∀ (rt gen : GTag) (units : List GnUnit), u ∈ units → ∃ g ∈ gnRampRows rt gen 0 1 units, ∃ r ∈ g.rows, r.bnd.bad = true := by
    intro rt gen units hu
    obtain ⟨n, hn⟩ := List.mem_iff_getElem?.1 hu
    unfold gnRampRows
    rw [if_neg (by rintro rfl; simp at hu)]
    refine ⟨_, List.mem_singleton.2 rfl, _, List.mem_map.2 ⟨(u, n), mem_zipIdx_iff'.2 hn, rfl⟩, ?_⟩
    simp only [GBnd.bad, decide_eq_true_eq]
    linarith
  have hm : ∃ g ∈ gnRamps d.net, ∃ r ∈ g.rows, r.bnd.bad = true := by
    rcases hu with hu | hu
    · obtain ⟨g, hg, hr⟩ := key .thermalGR .thermal _ hu
      exact ⟨g, List.mem_flatMap.2 ⟨(0, 1), mem_gnTimes.2 ⟨hpos, by omega⟩, by rw [if_neg (by simp)]; exact List.mem_append_left _ hg⟩, hr⟩
    · obtain ⟨g, hg, hr⟩ := key .hydroGR .hydroGen _ hu
      exact ⟨g, List.mem_flatMap.2 ⟨(0, 1), mem_gnTimes.2 ⟨hpos, by omega⟩, by rw [if_neg (by simp)]; exact List.mem_append_right _ hg⟩, hr⟩
  obtain ⟨g, hgm, r, hrm, hbad⟩ := hm
  rw [gxRun_eq ht hi hw n1 hOF hlp, gSimplex_bad_row hlp hg.fits (List.mem_append_right _ hgm) hrm hbad]
  rfl

/-- **C153 fails** with more than eleven trees and more than ten instances: two links have the same name, KeyError, whatever the rest. -/
theorem C153_names_violated {data : List EnPeriod} {size : EnSize} {t : EnTree} {w : EnWeights} {links : EnLinks} {d : GxData}
    (h : GxOf data size t w links d) (hw : GxWell d.net) (hin : gnInit d.net = .ok ()) (hh : d.net.hydro ≠ []) (hv : 11 < d.en.vectors)
    (hi : 10 < d.net.insts) : gxRun d = .error .key := by
  obtain ⟨ht, _, h1⟩ := h.tree
  rw [← h.nodes] at h1
  obtain ⟨nodes, n1, hlen, _⟩ := h.nodes_ok
  obtain ⟨OF, hOF, _⟩ := h.scenario
  obtain ⟨c1, c2⟩ := gxProg_cols (t := t) h1 hw nodes OF
  have hk : ¬ ((gxProg d t nodes OF).rows.map (·.key)).Nodup := by
    intro hk
    have hk2 : ((gxLinkRows d nodes).map (·.key)).Nodup := by
      refine List.Nodup.sublist ?_ hk
      refine List.Sublist.map _ ?_
      exact ((List.sublist_append_right _ _).trans (List.sublist_append_left _ _)).trans (List.sublist_append_left _ _)
    unfold gxLinkRows at hk2
    rw [if_neg hh, List.map_flatMap, List.nodup_flatMap] at hk2
    have h2 := List.pairwise_iff_getElem.1 hk2.2 1 11 (by simp; omega) (by simp; omega) (by omega)
    simp only [List.getElem_range, Function.onFun, List.map_map] at h2
    refine h2 (a := (GTag.ceed, gDigits 1 10)) ?_ ?_
    · exact List.mem_map.2 ⟨(nodes[10]'(by omega), 10), mem_zipIdx_iff'.2 (List.getElem?_eq_getElem _), rfl⟩
    · refine List.mem_map.2 ⟨(nodes[0]'(by omega), 0), mem_zipIdx_iff'.2 (List.getElem?_eq_getElem _), ?_⟩
      simp only [Function.comp, gxLink]
      rw [show gDigits 11 0 = gDigits 1 10 by decide]
  have e : gBuild (gxProg d t nodes OF) = .error .key := by
    unfold gBuild
    rw [if_neg (by rw [not_not]; exact c1), if_neg (by rw [not_not]; exact c2), if_pos hk]
  unfold gxRun
  rw [hin, gxProb_eq ht hw n1 hOF]
  simp only [bind, Except.bind]
  rw [e]

/-- **C153 fails** for the economic dispatch with renewable units: IndexError, whatever the rest. -/
theorem C153_res_violated {data : List EnPeriod} {size : EnSize} {t : EnTree} {w : EnWeights} {links : EnLinks} {d : GxData}
    (h : GxOf data size t w links d) (hi : gnInit d.net = .ok ()) (ho : d.net.opf = false) (hp : 0 < d.net.periods) (hres : d.net.res ≠ []) :
    gxRun d = .error .index := by
  obtain ⟨ht, _, _⟩ := h.tree
  obtain ⟨nodes, n1, _⟩ := h.nodes_ok
  have hpos : 0 < d.net.insts := by
    rw [h.insts, Nat.pos_iff_ne_zero]
    intro e
    rw [List.prod_eq_zero_iff] at e
    obtain ⟨a, ha, e⟩ := List.mem_map.1 e
    have := h.names a ha
    omega
  have hne : gnTimes d.net ≠ [] := List.ne_nil_of_mem (mem_gnTimes.2 ⟨hpos, hp⟩ : ((0, 0) : Nat × Nat) ∈ gnTimes d.net)
  unfold gxRun gxProb
  rw [hi, n1, geRows_spec ht]
  simp only [bind, Except.bind]
  rw [if_neg (by simp [ho]), if_pos ⟨hres, hne⟩]

end Pyensys
