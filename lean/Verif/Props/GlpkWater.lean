import Verif.Props.GlpkCoupled

/-!
# C153: water and weights in the coupled model for GLPK
-/

namespace Pyensys

/-- the data of a coupled run that come from an energy tree: the trees are those of the data, the instances are the scenarios and each instance
belongs to its final node -/
structure GxOf (data : List EnPeriod) (size : EnSize) (t : EnTree) (w : EnWeights) (links : EnLinks) (d : GxData) : Prop where
  made : enInitialise data (some size.vectors) = .ok (size, t, w, links)
  names : ∀ d ∈ data, 0 < d.names
  certain : ∀ d ∈ data, d.unc = false
  weights : ∀ d ∈ data, d.weights.length = d.names
  nodes : d.en.nodes = size.nodes
  vectors : d.en.vectors = size.vectors
  links : d.en.links = links
  wght : d.en.w.wght = w.wght
  after : d.after = t.after
  insts : d.net.insts = (data.map (·.names)).prod
  conn : ∀ i, i < d.net.insts → ∃ n, pyeneE size t i = .ok n ∧ d.conn[i]? = some n

theorem GxOf.ne {data : List EnPeriod} {size : EnSize} {t : EnTree} {w : EnWeights} {links : EnLinks} {d : GxData}
    (h : GxOf data size t w links d) : data ≠ [] := (enInitialise_parts h.made).1

theorem GxOf.tree {data : List EnPeriod} {size : EnSize} {t : EnTree} {w : EnWeights} {links : EnLinks} {d : GxData}
    (h : GxOf data size t w links d) : GeTree d.en t ∧ t.uncertainty.sum = 0 ∧ 1 < size.nodes := by
  obtain ⟨a, b, c⟩ := geTree_of h.made h.names h.certain
  refine ⟨⟨?_, ?_, ?_, ?_⟩, b, c⟩
  · rw [h.nodes]; exact a.shape
  · rw [h.links]; exact a.ll1
  · rw [h.links, h.nodes]; exact a.ll2
  · rw [h.nodes]; exact a.marks

/-- the weights of the instances are those of the scenarios -/
theorem GxOf.scenario {data : List EnPeriod} {size : EnSize} {t : EnTree} {w : EnWeights} {links : EnLinks} {d : GxData}
    (h : GxOf data size t w links d) : ∃ OF, gxWeights d = .ok OF ∧ ofWeights size t w = .ok OF ∧ OF.length = d.net.insts ∧
      (∀ i, i < d.net.insts → OF[i]? = some (scenarioWeight data i)) ∧
      ∀ i n, i < d.net.insts → d.conn[i]? = some n → pyeneE size t i = .ok n ∧ t.after[n]? = some (0, 0) := by
  obtain ⟨d0, ds, hd⟩ := List.exists_cons_of_ne_nil h.ne
  obtain ⟨size', t', w', links', OF, g1, g2, g3, g4, g5⟩ := C114_weights data h.names d0 (by rw [hd]; rfl)
    (h.certain d0 (by rw [hd]; simp)) h.weights size.vectors
  rw [h.made, Except.ok.injEq] at g1
  obtain ⟨rfl, rfl, rfl, rfl⟩ : size = size' ∧ t = t' ∧ w = w' ∧ links = links' := by
    simpa [Prod.mk.injEq] using g1
  refine ⟨OF, ?_, g3, by rw [g4, h.insts], fun i hi => (g5 i (by rw [← h.insts]; exact hi)).1, ?_⟩
  · unfold ofWeights at g3
    rw [g2] at g3
    unfold gxWeights
    rw [h.nodes, h.after, h.wght, h.insts]
    exact g3
  · intro i n hi hn
    obtain ⟨_, q, q1, _, q2⟩ := g5 i (by rw [← h.insts]; exact hi)
    obtain ⟨n', q3, q4⟩ := h.conn i hi
    rw [hn, Option.some.injEq] at q4
    subst q4
    rw [q3, Except.ok.injEq] at q1
    subst q1
    exact ⟨q3, q2⟩

/-- states of charge that agree on the nodes of the tree obey the same rules -/
theorem enRules_soc {d : GeData} {t : EnTree} (ht : GeTree d t) {wght net : Nat → Rat} {soc soc' : Nat → Nat → Rat}
    (h : ∀ n, n < d.nodes → ∀ e, soc n e = soc' n e) (hr : EnRules t d.nodes wght net soc) : EnRules t d.nodes wght net soc' := by
  refine ⟨?_, ?_, ?_, ?_⟩
  · rw [← h 0 ht.shape.pos, ← h 0 ht.shape.pos]; exact hr.root
  · intro n b h1 h2 hb
    obtain ⟨q1, q2, q3⟩ := geTree_states ht h1 h2
    rw [← Option.some.inj ((geTree_before ht h2).symm.trans hb |>.symm)] at q1 q2
    rw [← h n h2, ← h _ (lt_trans q1 h2)]
    exact hr.balance n b h1 h2 hb
  · intro n b h1 h2 hu hb
    obtain ⟨q1, q2, q3⟩ := geTree_states ht h1 h2
    rw [← Option.some.inj ((geTree_before ht h2).symm.trans hb |>.symm)] at q1 q2 q3
    have q4 : soc b.back.1 b.back.2 = soc' b.back.1 b.back.2 := by
      rcases q3 with e | ⟨m, _, hm, e⟩ <;> rw [e]
      · exact h n h2 0
      · exact h m hm 1
    rw [← h n h2, ← h _ (lt_trans q1 h2), ← q4]
    exact hr.aggregate n b h1 h2 hu hb
  · intro n b r h1 h2 hu
    rw [ht.marks n h2] at hu
    simp at hu

/-- **C153.** Water is not created: in a plan of the coupled program for GLPK the energy of hydropower unit `v`, the instances counted with the
weights of their scenarios, is at most the energy `Q` given to tree `v` (with the weight of the first name of the first period, to which it
is given). -/
theorem C153_water_partial {data : List EnPeriod} {size : EnSize} {t : EnTree} {w : EnWeights} {links : EnLinks} {d : GxData}
    (h : GxOf data size t w links d) (hnn : ∀ d ∈ data, ∀ x ∈ d.weights, 0 ≤ x) {d0 : EnPeriod} (hd0 : data[0]? = some d0)
    {p : GProb} {lp : GLp} (hr : gxRun d = .ok (p, lp)) (ho : d.net.opf = true → GnOut d.net) (hh : d.net.hydro ≠ [])
    {v : Nat} (hv : v < d.en.vectors) {Q : Rat} (hin : d.en.win v 1 = Q ∧ ∀ n, n ≠ 1 → d.en.win v n = 0)
    (hout : ∀ n, 0 ≤ d.en.wout v n) {x : Nat → Rat} (hx : GFeasible lp x) :
    ((List.range d.net.insts).map (fun i => scenarioWeight data i * gxEnergy d.net (gnSol p x) i v)).sum ≤ d0.weights.getD 0 0 * Q := by
  obtain ⟨ht, hsum, h1n⟩ := h.tree
  obtain ⟨OF, _, hOF, hlen, hw, hc⟩ := h.scenario
  obtain ⟨hge, _, hl⟩ := (C153_plans_partial ht hr ho hh x).1 hx
  obtain ⟨s1, s2, s3, s4⟩ := hge v hv
  rw [← h.nodes] at h1n
  have hroot : ∀ d, data[0]? = some d → d.unc = false := fun d hd => h.certain d (List.mem_of_getElem? hd)
  obtain ⟨_, hf⟩ := initialise_feasible h.made h.names hroot (by omega)
  have hconn : ∀ i n, i < d.net.insts → d.conn[i]? = some n → n ≠ 0 ∧ n < d.en.nodes := by
    intro i n hi hn
    have ha := (hc i n hi hn).2
    refine ⟨?_, by have := lt_of_some ha; rw [ht.shape.lens.2.1] at this; exact this⟩
    rintro rfl
    obtain ⟨q, q1, r, q2, q3, q4⟩ := ht.shape.parent 1 (by omega) h1n
    have : q = 0 := by omega
    subst this
    rw [ha, Option.some.injEq] at q2
    subst q2
    simp at q3 q4
  have hpos : ∀ n, n < d.en.nodes → 0 ≤ p.val x (.outp, [v]) n := by
    intro n hn
    by_cases hm : n ∈ d.conn.take d.net.insts
    · exact (s4 n hn).1 hm
    · rw [(s4 n hn).2 hm]; exact hout n
  have hfe : EnFeasible links (fun n => w.wght.getD n 0) (d.en.win v) (fun n => if n ≠ 0 ∧ n < d.en.nodes then p.val x (.outp, [v]) n else 0)
      (fun n e => if n < d.en.nodes then gSoc p x v n e else 0) := by
    refine (hf _ _ _ _).2 ⟨?_, ?_⟩
    · rw [← h.nodes]
      have hwg : (fun n => w.wght.getD n 0) = d.en.wght := by
        funext n
        unfold GeData.wght
        rw [h.wght, List.getD_eq_getElem?_getD]
      rw [hwg]
      refine enRules_soc ht (soc := gSoc p x v) (fun n hn e => by rw [if_pos hn]) ?_
      refine ⟨s1.root, ?_, s1.aggregate, s1.stochastic⟩
      intro n b q1 q2 q3
      rw [s1.balance n b q1 q2 q3, if_pos ⟨by omega, q2⟩, s3 n q2]
    · rw [hin.2 0 (by simp)]
      simp
  have hs : ∀ n e, 0 ≤ (fun n e => if n < d.en.nodes then gSoc p x v n e else 0 : Nat → Nat → Rat) n e := by
    intro n e
    beta_reduce
    split
    · rename_i hn
      rcases Nat.eq_zero_or_pos e with rfl | he
      · exact (s2 n hn).1
      · have : gSoc p x v n e = gSoc p x v n 1 := by
          unfold gSoc
          rw [if_neg (by omega), if_neg (by omega)]
        rw [this]; exact (s2 n hn).2
    · exact le_refl _
  have key := C115_water data h.names d0 hd0 (hroot d0 hd0) h.weights hnn size.vectors size t w links h.made (by omega) OF hOF Q (d.en.win v)
    (fun n => if n ≠ 0 ∧ n < d.en.nodes then p.val x (.outp, [v]) n else 0) hin (by
      intro n
      beta_reduce
      split
      · rename_i hn; exact hpos n hn.2
      · exact le_refl _) _ hfe hs (fun i j => (gnSol p x).hydro i j v) 1 0 d.net.hours d.net.periods d.net.base 0 (by
      intro i n hi hn
      rw [hlen] at hi
      obtain ⟨n', q1, q2⟩ := h.conn i hi
      rw [hn, Except.ok.injEq] at q1
      subst q1
      beta_reduce
      rw [if_pos (hconn i _ hi q2), hl v i _ hv hi q2]
      unfold gxEnergy inFromEM
      rw [mul_comm, ← sum_mul_map]
      congr 1
      apply List.map_congr_left
      intro j _
      simp only [Nat.mul_one, Nat.add_zero]
      unfold gnHours
      ring)
  rw [hlen] at key
  refine le_trans (le_of_eq ?_) key
  congr 1
  apply List.map_congr_left
  intro i hi
  rw [List.mem_range] at hi
  rw [List.getD_eq_getElem?_getD, hw i hi, Option.getD_some]
  congr 1
  unfold gxEnergy
  rw [mul_comm (List.sum _), ← sum_mul_map]
  congr 1
  apply List.map_congr_left
  intro j _
  simp only [Nat.mul_one, Nat.add_zero]
  unfold gnHours
  ring

end Pyensys
