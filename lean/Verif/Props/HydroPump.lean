import Verif.Props.HydroLink
import Verif.Props.ReduceBranches

/-!
C145 (violations), C146 (pumps) and C147 (settings of the coupled model).
-/

namespace Pyensys

/-! ## C145: units without limit -/

/-- two solutions that differ only in the generation of unit `x` -/
structure SameBut (n : HlNet) (x : Nat) (w w' : HlVars) : Prop where
  pump : w'.pump = w.pump
  eout : w'.eout = w.eout
  gen : ∀ i t, (∀ xh, i ≠ xh * n.noGen + (n.conv + x)) → w'.gen i t = w.gen i t

theorem HlSetup.rowKind {c : HlConf} {conf : HyConf} {m : HyModel} {l : HlLinks} (hs : HlSetup c conf m l) {k : Nat} {o : Nat × Nat} (h : l.out[k]? = some o) :
    o = (0, 0) ∨ ∃ y < c.noHydro, o = (1, y) ∧ m.outs[k]? = some (nodeOf m y) ∧ ∀ z < c.noHydro, nodeOf m z = nodeOf m y → z ≤ y := by
  obtain ⟨seq, hp⟩ := hlLinks_parts hs.links
  have hlt : k < m.outs.length := by
    have := (List.getElem?_eq_some_iff.1 h).1
    rw [hp.out, setAll_length, setAll_length, List.length_replicate] at this
    exact this
  have hk : m.outs[k]? = some m.outs[k] := List.getElem?_eq_getElem hlt
  obtain ⟨r1, r2⟩ := hs.outRow hp hk
  by_cases hc : ∃ y ∈ l.down, nodeIdx (seqAt seq (nodeOf m y)) m.outs.length = k
  · rw [r1 hc, Option.some.injEq] at h
    exact Or.inl h.symm
  · rw [r2 hc, Option.some.injEq] at h
    cases hl : ((List.range c.noHydro).filter (fun x => decide (nodeOf m x = m.outs[k]))).getLast? with
    | none =>
      rw [hl] at h
      exact Or.inl h.symm
    | some y =>
      rw [hl] at h
      have hy := List.mem_of_getLast? hl
      rw [List.mem_filter, List.mem_range, decide_eq_true_eq] at hy
      refine Or.inr ⟨y, hy.1, h.symm, by rw [hk, hy.2], ?_⟩
      intro z hz hzy
      have hzm : z ∈ (List.range c.noHydro).filter (fun x => decide (nodeOf m x = m.outs[k])) := by
        rw [List.mem_filter, List.mem_range, decide_eq_true_eq]
        exact ⟨hz, hzy.trans hy.2⟩
      have hpw : ((List.range c.noHydro).filter (fun x => decide (nodeOf m x = m.outs[k]))).Pairwise (· < ·) := List.pairwise_lt_range.filter _
      obtain ⟨ys, e⟩ := List.getLast?_eq_some_iff.1 hl
      rw [e] at hzm hpw
      rcases List.mem_append.1 hzm with h' | h'
      · exact Nat.le_of_lt ((List.pairwise_append.1 hpw).2.2 z h' y (by simp))
      · simp only [List.mem_singleton] at h'
        omega

/-- a unit that is in none of the lists: its generation is free -/
theorem free_unit {c : HlConf} {conf : HyConf} {m : HyModel} {l : HlLinks} (hs : HlSetup c conf m l) (n : HlNet) (hn : n.conv + c.noHydro ≤ n.noGen) {x : Nat}
    (hx : x < c.noHydro) (h1 : x ∉ l.down) (h2 : ∀ k : Nat, l.out[k]? ≠ some (1, x)) {v : HyVars} {w w' : HlVars} (hw : SameBut n x w w') (hf : HlFeasible c m l n v w) :
    HlFeasible c m l n v w' := by
  obtain ⟨seq, hp⟩ := hlLinks_parts hs.links
  have hpf : ∀ i y t, pumpFlow c n w' i y t = pumpFlow c n w i y t := by
    intro i y t
    unfold pumpFlow
    rw [hw.pump]
  have hin : ∀ xh xt y, y < c.noHydro → y ≠ x → inFromHM m n w' xh xt y = inFromHM m n w xh xt y := by
    intro xh xt y hy hne
    unfold inFromHM
    rw [hw.gen _ _ (by
      intro xh' e
      have := block_inj (a := xh) (b := xh') (m := n.noGen) (i := n.conv + y) (j := n.conv + x) (by omega) (by omega) e
      omega)]
  refine ⟨?_, ?_, ?_, ?_, ?_⟩
  · intro xh hh xt ht
    rw [hw.pump]
    exact hf.ini xh hh xt ht
  · intro h0 xh hh xv hv h hl
    simp only [hpf]
    rw [hw.eout]
    exact hf.in1 h0 xh hh xv hv h hl
  · intro h0 xh hh xv hv h hl xt ht
    simp only [hpf]
    exact hf.in2 h0 xh hh xv hv h hl xt ht
  · intro h0 xh hh xb hb u hu xt ht
    have hb' := hb
    rw [hp.down, List.mem_filter, List.mem_range] at hb'
    rw [hin xh xt xb hb'.1 (by rintro rfl; exact h1 hb)]
    exact hf.out1 h0 xh hh xb hb u hu xt ht
  · intro h0 xh hh xn o p ho hpo xt ht
    have := hf.out2 h0 xh hh xn o p ho hpo xt ht
    have hpf' : (fun _ : Nat => pumpFlow c n w' (1 + p.2 + xh * (1 + c.noPump)) p.2 xt) = (fun _ => pumpFlow c n w (1 + p.2 + xh * (1 + c.noPump)) p.2 xt) := by
      funext _
      exact hpf _ _ _
    rw [hpf']
    rcases hs.rowKind ho with rfl | ⟨y, hy, rfl, _, _⟩
    · exact this
    · have hne : y ≠ x := by
        rintro rfl
        exact h2 xn ho
      have hin' : (fun _ : Nat => inFromHM m n w' xh xt y) = (fun _ => inFromHM m n w xh xt y) := by
        funext _
        exact hin xh xt y hy hne
      show ((List.range 1).map (fun _ : Nat => inFromHM m n w' xh xt y)).sum + _ ≤ _
      rw [hin']
      exact this

/-- **C145 violated**: if a unit at whose node rivers leave is not at an output (as is usual), the unit at the last output produces without limit: every solution stays one,
whatever this unit generates. -/
theorem C145_last_violated (c : HlConf) (conf : HyConf) (m : HyModel) (l : HlLinks) (hs : HlSetup c conf m l) (n : HlNet) (hn : n.conv + c.noHydro ≤ n.noGen)
    (y : Nat) (u' : HyUnit) (hy : y < c.noHydro) (hu' : conf.units[y]? = some u') (hr' : riversFrom m.rivers u'.node ≠ []) (hno : u'.node ∉ m.outs)
    (x : Nat) (u : HyUnit) (hx : x < c.noHydro) (hu : conf.units[x]? = some u) (hr : riversFrom m.rivers u.node = []) (hk : m.outs.getLast? = some u.node)
    (v : HyVars) (w w' : HlVars) (hw : SameBut n x w w') (hf : HlFeasible c m l n v w) : HlFeasible c m l n v w' := by
  have init := hyInitialise_init hs.init
  obtain ⟨seq, hp⟩ := hlLinks_parts hs.links
  obtain ⟨a1, a2, a3, _, adown⟩ := hs.row hx hu
  obtain ⟨b1, b2, b3, _, bdown⟩ := hs.row hy hu'
  obtain ⟨o1, o2⟩ := init.outsOk hs.user
  rw [List.getLast?_eq_getElem?] at hk
  refine free_unit hs n hn hx (fun h => adown.1 h hr) ?_ hw hf
  intro k hrow
  rcases hs.rowKind hrow with e | ⟨z, _, e, e2, _⟩
  · simp at e
  · simp only [Prod.mk.injEq, true_and] at e
    subst e
    rw [a1] at e2
    have hkk := (List.getElem?_inj (List.getElem?_eq_some_iff.1 hk).1 o2).1 (hk.trans e2.symm)
    subst hkk
    have hs0 : seqAt seq (nodeOf m y) = 0 := by
      rcases Nat.eq_zero_or_pos (seqAt seq (nodeOf m y)) with h | h
      · exact h
      · have := (hs.seq hp (node := nodeOf m y) (by omega) (by omega) (seqAt seq (nodeOf m y) - 1)).1 (by omega)
        rw [b1] at this
        exact absurd (List.mem_of_getElem? this) hno
    have := (hs.outRow hp hk).1 ⟨y, bdown.2 hr', by rw [hs0]; rfl⟩
    rw [hrow] at this
    simp at this

/-- **C145 violated**: a unit at a node which is no output and from which no river leaves produces without limit. -/
theorem C145_nowhere_violated (c : HlConf) (conf : HyConf) (m : HyModel) (l : HlLinks) (hs : HlSetup c conf m l) (n : HlNet) (hn : n.conv + c.noHydro ≤ n.noGen)
    (x : Nat) (u : HyUnit) (hx : x < c.noHydro) (hu : conf.units[x]? = some u) (hr : riversFrom m.rivers u.node = []) (hno : u.node ∉ m.outs)
    (v : HyVars) (w w' : HlVars) (hw : SameBut n x w w') (hf : HlFeasible c m l n v w) : HlFeasible c m l n v w' := by
  obtain ⟨a1, a2, a3, _, adown⟩ := hs.row hx hu
  refine free_unit hs n hn hx (fun h => adown.1 h hr) ?_ hw hf
  intro k hrow
  rcases hs.rowKind hrow with e | ⟨z, _, e, e2, _⟩
  · simp at e
  · simp only [Prod.mk.injEq, true_and] at e
    subst e
    rw [a1] at e2
    exact hno (List.mem_of_getElem? e2)

/-- **C145 violated**: of two units at the same output only the later one is limited. -/
theorem C145_double_violated (c : HlConf) (conf : HyConf) (m : HyModel) (l : HlLinks) (hs : HlSetup c conf m l) (n : HlNet) (hn : n.conv + c.noHydro ≤ n.noGen)
    (x y : Nat) (u u' : HyUnit) (hxy : x < y) (hy : y < c.noHydro) (hu : conf.units[x]? = some u) (hu' : conf.units[y]? = some u') (he : u'.node = u.node)
    (hr : riversFrom m.rivers u.node = []) (v : HyVars) (w w' : HlVars) (hw : SameBut n x w w') (hf : HlFeasible c m l n v w) : HlFeasible c m l n v w' := by
  have hx : x < c.noHydro := by omega
  obtain ⟨a1, a2, a3, _, adown⟩ := hs.row hx hu
  obtain ⟨b1, _, _, _, _⟩ := hs.row hy hu'
  refine free_unit hs n hn hx (fun h => adown.1 h hr) ?_ hw hf
  intro k hrow
  rcases hs.rowKind hrow with e | ⟨z, _, e, _, e3⟩
  · simp at e
  · simp only [Prod.mk.injEq, true_and] at e
    subst e
    have := e3 y hy (by rw [b1, a1, he])
    omega

/-! ## C146: pumps -/

theorem pumpInput_spec {ins : List Nat} {vectors node i : Nat} (h : pumpInput ins vectors node = .ok i) : ins[i]? = some node := by
  unfold pumpInput at h
  split at h
  · cases h
  · split at h
    · rename_i j hj
      cases h
      have := List.find?_some hj
      simpa using this
    · cases h

/-- the row of an input in `pyeneHin`, if only pump `p` leads to it -/
theorem HlSetup.hinRow {c : HlConf} {conf : HyConf} {m : HyModel} {l : HlLinks} (hs : HlSetup c conf m l) {p node : Nat} (hp : p < c.noPump)
    (hto : conf.pumpTo[p]? = some node) (h0 : node ≠ 0) (hone : ∀ q : Nat, conf.pumpTo[q]? = some node → q = p) :
    ∃ i : Nat, m.ins[i]? = some node ∧ l.hin[i]? = some (1, p) := by
  have init := hyInitialise_init hs.init
  obtain ⟨seq, ps⟩ := hlLinks_parts hs.links
  have ins := (init.insOk hs.user).2
  obtain ⟨node', n1, n2⟩ := ps.hinOk p hp
  rw [init.conf, hto, Option.some.injEq] at n1
  subst n1
  obtain ⟨i, hi⟩ := n2 h0
  have hi' := pumpInput_spec hi
  refine ⟨i, hi', ?_⟩
  have hlt := (List.getElem?_eq_some_iff.1 hi').1
  rw [ps.hin, setAll_get, List.getElem?_replicate, if_pos hlt, Option.map_some]
  rw [filter_unique (List.range c.noPump) _ p (List.mem_range.2 hp)]
  · simp only [init.conf, hto, Option.getD_some, if_neg h0, hi, Except.toOption, decide_true]
  · intro q hq hqi
    rw [List.mem_range] at hq
    obtain ⟨nq, q1, q2⟩ := ps.hinOk q hq
    simp only [q1, Option.getD_some, decide_eq_true_eq] at hqi
    split at hqi
    · cases hqi
    · rename_i hne
      obtain ⟨j, hj⟩ := q2 hne
      rw [hj] at hqi
      have hij : j = i := by simpa [Except.toOption] using hqi
      subst hij
      have := pumpInput_spec hj
      rw [hi', Option.some.injEq] at this
      rw [init.conf, ← this] at q1
      exact hone q q1

theorem addPumpNodes_prefix (pumps : List Nat) : ∀ (nodes : List Nat), ∃ more, addPumpNodes nodes pumps = nodes ++ more := by
  induction pumps with
  | nil => intro nodes; exact ⟨[], by simp [addPumpNodes]⟩
  | cons p pumps ih =>
    intro nodes
    have e : addPumpNodes nodes (p :: pumps) = addPumpNodes (if p ≠ 0 ∧ p ∉ nodes then nodes ++ [p] else nodes) pumps := rfl
    rw [e]
    split
    · obtain ⟨more, h⟩ := ih (nodes ++ [p])
      exact ⟨p :: more, by rw [h, List.append_assoc]; rfl⟩
    · exact ih nodes

theorem HyInit.insPrefix {c : HyConf} {m : HyModel} (i : HyInit c m) : ∃ more, m.ins = c.ins ++ more := by
  rw [i.ins]
  split
  · exact ⟨[], by simp⟩
  · exact addPumpNodes_prefix _ _

/-- **C146**: a pump that lifts water to a node which is none of the user's inputs brings there, in every instance and period, the flow that its power lifts at its head and
efficiency (as the program counts it: see `C146_efficiency_violated`). -/
theorem C146_delivery_partial (c : HlConf) (conf : HyConf) (m : HyModel) (l : HlLinks) (hs : HlSetup c conf m l) (hv : c.vectors = conf.ins.length) (hh0 : 0 < c.noHydro)
    (n : HlNet) (v : HyVars) (w : HlVars) (hf : HlFeasible c m l n v w) (p node : Nat) (hp : p < c.noPump) (hto : conf.pumpTo[p]? = some node) (h0 : node ≠ 0)
    (hnew : node ∉ conf.ins) (hone : ∀ q : Nat, conf.pumpTo[q]? = some node → q = p) :
    ∃ i : Nat, m.ins[i]? = some node ∧ ∀ xh < conf.number, ∀ xt < conf.noTime,
      v.inp (m.ins.length * xh + i) xt = pumpPower c n w xh xt p / rateOf ((c.pumpHead[p]?).getD 0) ((c.pumpEff[p]?).getD 0) := by
  have init := hyInitialise_init hs.init
  obtain ⟨i, i1, i2⟩ := hs.hinRow hp hto h0 hone
  refine ⟨i, i1, ?_⟩
  intro xh hh xt ht
  have hi : c.vectors ≤ i := by
    by_contra hlt
    obtain ⟨more, e⟩ := init.insPrefix
    rw [e, List.getElem?_append_left (by omega)] at i1
    exact hnew (List.mem_of_getElem? i1)
  have h := hf.in2 hh0 xh (by rw [init.conf]; exact hh) i hi (1, p) i2 xt (by rw [init.conf]; exact ht)
  simp only [List.range_one, List.map_cons, List.map_nil, List.sum_cons, List.sum_nil, add_zero] at h
  rw [h]
  unfold pumpFlow pumpPower
  rw [show p + xh * (c.noPump + 1) + 1 = xh * (c.noPump + 1) + 1 + p by ring]
  rfl

/-- **C146**: the water that a pump takes leaves the network at its node: the output there is at least the flow of the pump. -/
theorem C146_intake_partial (c : HlConf) (conf : HyConf) (m : HyModel) (l : HlLinks) (hs : HlSetup c conf m l) (hh0 : 0 < c.noHydro) (n : HlNet) (v : HyVars) (w : HlVars)
    (hf : HlFeasible c m l n v w) (hgen : ∀ i t, 0 ≤ w.gen i t) (hbase : 0 ≤ n.base) (hrate : ∀ u ∈ conf.units, 0 ≤ unitRate u) (p node : Nat) (hp : p < c.noPump)
    (hfrom : conf.pumpFrom[p]? = some node) (hone : ∀ q : Nat, conf.pumpFrom[q]? = some node → q = p) :
    ∃ k : Nat, m.outs[k]? = some node ∧ ∀ xh < conf.number, ∀ xt < conf.noTime,
      pumpPower c n w xh xt p / rateOf ((c.pumpHead[p]?).getD 0) ((c.pumpEff[p]?).getD 0) ≤ v.out (m.outs.length * xh + k) xt := by
  have init := hyInitialise_init hs.init
  obtain ⟨seq, ps⟩ := hlLinks_parts hs.links
  have hpos := hs.pumpNodes node (List.mem_of_getElem? hfrom)
  have hmem : node ∈ m.outs := by
    rw [init.outs, if_neg]
    · exact (addPumpNodes_mem _ _ _).2 (Or.inr ⟨List.mem_of_getElem? hfrom, by omega⟩)
    · intro e
      rw [e] at hfrom
      simp at hfrom
  obtain ⟨k, hk⟩ := List.getElem?_of_mem hmem
  refine ⟨k, hk, ?_⟩
  intro xh hh xt ht
  have hpk := hs.pumpRow hk
  rw [filter_unique (List.range c.noPump) (fun q => decide (conf.pumpFrom[q]? = some node)) p (List.mem_range.2 hp) (by simpa using hfrom) (by
    intro q _ hq
    exact hone q (by simpa using hq))] at hpk
  have hlt : k < l.out.length := by
    rw [ps.out, setAll_length, setAll_length, List.length_replicate]
    exact (List.getElem?_eq_some_iff.1 hk).1
  have h := hf.out2 hh0 xh (by rw [init.conf]; exact hh) k _ (1, p) (List.getElem?_eq_getElem hlt) hpk xt (by rw [init.conf]; exact ht)
  simp only [List.range_one, List.map_cons, List.map_nil, List.sum_cons, List.sum_nil, add_zero] at h
  have h1 : 0 ≤ ((List.range l.out[k].1).map (fun _ => inFromHM m n w xh xt l.out[k].2)).sum := by
    apply List.sum_nonneg
    intro a ha
    obtain ⟨_, _, rfl⟩ := List.mem_map.1 ha
    unfold inFromHM
    apply div_nonneg (mul_nonneg (hgen _ _) hbase)
    unfold effHydro
    rw [init.conf]
    cases hu : conf.units[l.out[k].2]? with
    | none => exact le_refl _
    | some u => exact hrate u (List.mem_of_getElem? hu)
  have h2 : pumpFlow c n w (1 + p + xh * (1 + c.noPump)) p xt = pumpPower c n w xh xt p / rateOf ((c.pumpHead[p]?).getD 0) ((c.pumpEff[p]?).getD 0) := by
    unfold pumpFlow pumpPower
    rw [show 1 + p + xh * (1 + c.noPump) = xh * (c.noPump + 1) + 1 + p by ring]
    rfl
  rw [h2, Nat.add_comm k, Nat.mul_comm xh] at h
  linarith

/-- **C146 violated**: the water that a pump brings to one of the user's inputs is not told apart from the water of the input: for the first pump, all the water of the input, and
so the pumped one too, is taken from the energy given by the balance; for every other one the flow that is subtracted is that of the power of the pump before it. -/
theorem C146_input_violated (c : HlConf) (conf : HyConf) (m : HyModel) (l : HlLinks) (hs : HlSetup c conf m l) (hh0 : 0 < c.noHydro)
    (n : HlNet) (v : HyVars) (w : HlVars) (hf : HlFeasible c m l n v w) (p node : Nat) (hp : p < c.noPump) (hto : conf.pumpTo[p]? = some node) (h0 : node ≠ 0)
    (hone : ∀ q : Nat, conf.pumpTo[q]? = some node → q = p) (i : Nat) (hi : m.ins[i]? = some node) (hiv : i < c.vectors) (xh : Nat) (hh : xh < conf.number) :
    (p = 0 → w.eout xh i = ((List.range conf.noTime).map (fun xt => v.inp (m.ins.length * xh + i) xt * (n.weights[xt]?).getD 0)).sum * effHydro m i) ∧
    (∀ q, p = q + 1 → w.eout xh i = ((List.range conf.noTime).map (fun xt => (v.inp (m.ins.length * xh + i) xt -
        pumpPower c n w xh xt q / rateOf ((c.pumpHead[p]?).getD 0) ((c.pumpEff[p]?).getD 0)) * (n.weights[xt]?).getD 0)).sum * effHydro m i) := by
  have init := hyInitialise_init hs.init
  obtain ⟨j, j1, j2⟩ := hs.hinRow hp hto h0 hone
  have hij := (List.getElem?_inj (List.getElem?_eq_some_iff.1 hi).1 (init.insOk hs.user).2).1 (hi.trans j1.symm)
  subst hij
  have hh' : xh < m.conf.number := by rw [init.conf]; exact hh
  have h := hf.in1 hh0 xh hh' i hiv (1, p) j2
  simp only [List.range_one, List.map_cons, List.map_nil, List.sum_cons, List.sum_nil, add_zero] at h
  rw [init.conf] at h
  constructor
  · rintro rfl
    rw [h]
    congr 2
    apply List.map_congr_left
    intro xt ht
    rw [List.mem_range] at ht
    unfold pumpFlow
    rw [Nat.zero_add, hf.ini xh hh' xt (by rw [init.conf]; exact ht)]
    ring
  · rintro q rfl
    rw [h]
    congr 2
    apply List.map_congr_left
    intro xt _
    unfold pumpFlow pumpPower
    rw [show q + 1 + xh * (c.noPump + 1) = xh * (c.noPump + 1) + 1 + q by ring]
    rfl

/-- **C146 violated**: the worse the efficiency of a pump the more water it lifts: a unit with the head of the pump and a better efficiency makes more power of the water than the
pump uses. -/
theorem C146_efficiency_violated (c : HlConf) (conf : HyConf) (m : HyModel) (l : HlLinks) (hs : HlSetup c conf m l) (hv : c.vectors = conf.ins.length) (hh0 : 0 < c.noHydro)
    (n : HlNet) (v : HyVars) (w : HlVars) (hf : HlFeasible c m l n v w) (p node : Nat) (hp : p < c.noPump) (hto : conf.pumpTo[p]? = some node) (h0 : node ≠ 0)
    (hnew : node ∉ conf.ins) (hone : ∀ q : Nat, conf.pumpTo[q]? = some node → q = p) (u : HyUnit) (h e : Rat) (hhead : c.pumpHead[p]? = some h) (heff : c.pumpEff[p]? = some e)
    (hpos : 0 < h) (hepos : 0 < e) (huh : u.head = h) (hue : e < u.efficiency) :
    ∃ i : Nat, m.ins[i]? = some node ∧ ∀ xh < conf.number, ∀ xt < conf.noTime, 0 < pumpPower c n w xh xt p →
      pumpPower c n w xh xt p < unitRate u * v.inp (m.ins.length * xh + i) xt := by
  obtain ⟨i, i1, i2⟩ := C146_delivery_partial c conf m l hs hv hh0 n v w hf p node hp hto h0 hnew hone
  refine ⟨i, i1, ?_⟩
  intro xh hh xt ht hP
  rw [i2 xh hh xt ht, hhead, heff, Option.getD_some, Option.getD_some]
  unfold unitRate rateOf
  rw [huh]
  have hr : 0 < h * e * (981 / 100) / 1000 := by positivity
  rw [mul_div_assoc', lt_div_iff₀ hr]
  have : h * e * (981 / 100) / 1000 < h * u.efficiency * (981 / 100) / 1000 := by
    have := mul_lt_mul_of_pos_left hue hpos
    linarith
  have := mul_lt_mul_of_pos_left this hP
  linarith

/-- **C146 violated**: without hydropower units there are no links: pumps use any power, whatever the water is. -/
theorem C146_no_hydro_violated (c : HlConf) (m : HyModel) (l : HlLinks) (n : HlNet) (h0 : c.noHydro = 0) (v v' : HyVars) (w : HlVars) (p : Nat) (x : Rat)
    (hf : HlFeasible c m l n v w) :
    HlFeasible c m l n v' { w with pump := fun i t => if i % (c.noPump + 1) = p + 1 then x else w.pump i t } := by
  refine ⟨?_, fun h => absurd h (by omega), fun h => absurd h (by omega), fun h => absurd h (by omega), fun h => absurd h (by omega)⟩
  intro xh hh xt ht
  simp only
  rw [Nat.mul_mod_left, if_neg (by omega)]
  exact hf.ini xh hh xt ht

/-! ## C147: settings -/

/-- **C147**: within the coupled model every instance is a cycle: over its periods as much water leaves the network as enters it, whatever links between scenarios the user gives. -/
theorem C147_cycle_partial (c : HyConf) (noTime number : Nat) (w0 : Rat) (V : Nat) (m : HyModel) (c' : HyConf) (h : hlInitialise c noTime number w0 = .ok (V, m, c')) (hu : HyUser c)
    (hdt : m.dt ≠ 0) (v : HyVars) (hf : m.Feasible v) (xh : Nat) (hh : xh < number) :
    ((List.range noTime).map (fun t => m.totalIn v t xh)).sum = ((List.range noTime).map (fun t => m.totalOut v t xh)).sum := by
  unfold hlInitialise at h
  rw [except_bind_ok] at h
  obtain ⟨m', h1, h2⟩ := h
  cases h2
  refine C137_day_partial (hlSettings c noTime number w0) m h1 ⟨hu.rivers, hu.ins, hu.outs, hu.units⟩ v hf xh hh hdt xh ?_ ?_
  · show ((List.range number).map (fun x => (x, 0)))[xh]? = _
    rw [List.getElem?_map, List.getElem?_range hh]
    rfl
  · show ((List.range number).map (fun x => (x, 1)))[xh]? = _
    rw [List.getElem?_map, List.getElem?_range hh]
    rfl

/-- **C147 violated**: the flows that the user fixes are discarded: the model is the same whatever they are. -/
theorem C147_fixed_violated (c : HyConf) (noTime number : Nat) (w0 : Rat) (fixed : List (Nat × Nat × Rat)) :
    hlInitialise { c with fixed := fixed } noTime number w0 = hlInitialise c noTime number w0 := rfl

/-- **C147 violated**: the length of a period is multiplied in the user's settings: initialising the coupled model again with them (nothing else changed, no river divided) gives
another model, with periods longer by the weight of the first period. -/
theorem C147_length_violated (c : HyConf) (noTime number : Nat) (w0 : Rat) (V : Nat) (m : HyModel) (c' : HyConf) (h : hlInitialise c noTime number w0 = .ok (V, m, c'))
    (V' : Nat) (m' : HyModel) (c'' : HyConf) (h' : hlInitialise c' noTime number w0 = .ok (V', m', c'')) :
    m.conf.seconds = c.seconds * w0 ∧ m'.conf.seconds = c.seconds * w0 * w0 := by
  unfold hlInitialise at h h'
  rw [except_bind_ok] at h h'
  obtain ⟨m1, h1, h2⟩ := h
  cases h2
  obtain ⟨m2, h3, h4⟩ := h'
  cases h4
  rw [(hyInitialise_init h1).conf, (hyInitialise_init h3).conf]
  exact ⟨rfl, rfl⟩

/-- **C147 violated**: a pump to a node that is none of the user's inputs makes this node one of them in the user's settings: initialising again, there are more energy vectors. -/
theorem C147_vectors_violated (c : HyConf) (noTime number : Nat) (w0 : Rat) (V : Nat) (m : HyModel) (c' : HyConf) (h : hlInitialise c noTime number w0 = .ok (V, m, c'))
    (hpf : c.pumpFrom ≠ []) (node : Nat) (hto : node ∈ c.pumpTo) (h0 : node ≠ 0) (hnew : node ∉ c.ins)
    (V' : Nat) (m' : HyModel) (c'' : HyConf) (h' : hlInitialise c' noTime number w0 = .ok (V', m', c'')) : V < V' := by
  unfold hlInitialise at h h'
  rw [except_bind_ok] at h h'
  obtain ⟨m1, h1, h2⟩ := h
  cases h2
  obtain ⟨m2, h3, h4⟩ := h'
  cases h4
  have init := hyInitialise_init h1
  show c.ins.length < m.ins.length
  have e : m.ins = addPumpNodes c.ins c.pumpTo := by
    rw [init.ins]
    exact if_neg hpf
  obtain ⟨more, hm⟩ := addPumpNodes_prefix c.pumpTo c.ins
  rw [e, hm, List.length_append]
  have hmem : node ∈ addPumpNodes c.ins c.pumpTo := (addPumpNodes_mem _ _ _).2 (Or.inr ⟨hto, h0⟩)
  rw [hm] at hmem
  rcases List.mem_append.1 hmem with h5 | h5
  · exact absurd h5 hnew
  · have := List.length_pos_of_mem h5
    omega

/-! ## examples -/

/-- a check of the links of a solution -/
def hlCheck (c : HlConf) (m : HyModel) (l : HlLinks) (n : HlNet) (v : HyVars) (w : HlVars) : Bool :=
  (List.range m.conf.number).all (fun xh =>
    (List.range m.conf.noTime).all (fun xt => decide (w.pump (xh * (c.noPump + 1)) xt = 0)) &&
    l.hin.zipIdx.all (fun p => decide (p.2 < c.vectors →
      w.eout xh p.2 = ((List.range m.conf.noTime).map (fun xt => (v.inp (m.ins.length * xh + p.2) xt -
        ((List.range p.1.1).map (fun _ => pumpFlow c n w (p.1.2 + xh * (c.noPump + 1)) p.1.2 xt)).sum) * (n.weights[xt]?).getD 0)).sum * effHydro m p.2)) &&
    l.hin.zipIdx.all (fun p => (List.range m.conf.noTime).all (fun xt => decide (c.vectors ≤ p.2 →
      v.inp (m.ins.length * xh + p.2) xt = ((List.range p.1.1).map (fun _ => pumpFlow c n w (p.1.2 + xh * (c.noPump + 1) + 1) p.1.2 xt)).sum))) &&
    l.down.all (fun xb => (List.range m.conf.noTime).all (fun xt => decide (inFromHM m n w xh xt xb ≤
      ((rowRivers m.net.n2b1 ((m.net.outTab[nodeIdx (nodeOf m xb) m.net.outTab.length]?).getD (0, 0))).map (fun r => v.up (m.conRiver xh + r) xt)).sum))) &&
    (l.out.zip l.pumpOut).zipIdx.all (fun q => (List.range m.conf.noTime).all (fun xt => decide (
      ((List.range q.1.1.1).map (fun _ => inFromHM m n w xh xt q.1.1.2)).sum +
        ((List.range q.1.2.1).map (fun _ => pumpFlow c n w (1 + q.1.2.2 + xh * (1 + c.noPump)) q.1.2.2 xt)).sum ≤ v.out (q.2 + xh * m.outs.length) xt))))

theorem hlFeasible_of_check {c : HlConf} {m : HyModel} {l : HlLinks} {n : HlNet} {v : HyVars} {w : HlVars} (h : hlCheck c m l n v w = true) : HlFeasible c m l n v w := by
  unfold hlCheck at h
  simp only [List.all_eq_true, Bool.and_eq_true, decide_eq_true_eq, List.mem_range] at h
  refine ⟨?_, ?_, ?_, ?_, ?_⟩
  · intro xh hh xt ht
    exact (h xh hh).1.1.1.1 xt ht
  · intro _ xh hh xv hv r hr
    exact (h xh hh).1.1.1.2 (r, xv) (List.mk_mem_zipIdx_iff_getElem?.2 hr) hv
  · intro _ xh hh xv hv r hr xt ht
    exact (h xh hh).1.1.2 (r, xv) (List.mk_mem_zipIdx_iff_getElem?.2 hr) xt ht hv
  · intro _ xh hh xb hb u hu xt ht
    have := (h xh hh).1.2 xb hb xt ht
    have e : nodeOf m xb = u.node := by simp [nodeOf, hu]
    rw [e] at this
    exact this
  · intro _ xh hh xn o p ho hp xt ht
    have := (h xh hh).2 ((o, p), xn) (List.mk_mem_zipIdx_iff_getElem?.2 (by rw [List.getElem?_zip_eq_some]; exact ⟨ho, hp⟩)) xt ht
    exact this

/-- an example: initialise both, link them, and check a solution -/
theorem hlSetup_of_check {c : HlConf} {conf : HyConf} {n : HlNet} {v : HyVars} {w : HlVars} (hu : HyUser conf) (h1 : ∀ u ∈ conf.units, 0 < u.node) (h2 : ∀ x ∈ conf.pumpFrom, 0 < x)
    (h : okAnd (hyInitialise conf) (fun m => okAnd (hlLinks c m) (fun l => hlCheck c m l n v w)) = true) : ∃ m l, HlSetup c conf m l ∧ HlFeasible c m l n v w := by
  cases hm : hyInitialise conf with
  | error e => rw [hm] at h; simp [okAnd] at h
  | ok m =>
    rw [hm] at h
    simp only [okAnd] at h
    cases hl : hlLinks c m with
    | error e => rw [hl] at h; simp at h
    | ok l =>
      rw [hl] at h
      exact ⟨m, l, ⟨hm, hu, hl, h1, h2⟩, hlFeasible_of_check h⟩

/-- the river of `exHyConf` with a unit where it divides and at both ends -/
def exHlConf : HyConf := { exHyConf true [] with units := [⟨2, 1, 100, 50⟩, ⟨3, 1, 100, 0⟩, ⟨4, 1, 100, 0⟩] }

/-- 400 MW, 100 MW and, at the last output, 100000 MW -/
def exHlVars : HlVars := ⟨fun i _ => if i = 1 then 4 else if i = 2 then 1 else if i = 3 then 1000 else 0, fun _ _ => 0, fun _ _ => 1500 * (981 / 1000)⟩

/-- the hypotheses of C145: a solution of the water network in which the first two units take the water there is (and the last one more than there is) -/
theorem C145_witness : ∃ m l, HlSetup ⟨3, 1, 0, [], []⟩ exHlConf m l ∧ m.Feasible exHyVars ∧ HlFeasible ⟨3, 1, 0, [], []⟩ m l ⟨4, 1, 100, [1, 1, 1]⟩ exHyVars exHlVars ∧
    riversFrom m.rivers 2 ≠ [] ∧ 2 ∉ m.outs ∧ riversFrom m.rivers 4 = [] ∧ m.outs.getLast? = some 4 ∧ unitPower ⟨4, 1, 100, [1, 1, 1]⟩ exHlVars 0 0 2 = 100000 := by
  have hu : HyUser exHlConf := ⟨by decide, by decide, by decide, by decide +kernel⟩
  obtain ⟨m, l, h1, h2⟩ := hlSetup_of_check (c := ⟨3, 1, 0, [], []⟩) (conf := exHlConf) (n := ⟨4, 1, 100, [1, 1, 1]⟩) (v := exHyVars) (w := exHlVars) hu (by decide) (by decide)
    (by decide +kernel)
  obtain ⟨m', h3, h4⟩ := feasible_of_tables exHlConf ([[500, 500, 500], [510413800/2550891, 502275916/2550891, 517844884/2550891], [255206900/850297, 251137958/850297, 258922442/850297]]) ([[500, 500, 500], [200, 196, 204], [300, 294, 306]]) ([[500, 500, 500]]) ([[510413800/2550891, 502275916/2550891, 517844884/2550891], [255206900/850297, 251137958/850297, 258922442/850297]]) ([[45720/31, 45720/31, 45720/31, 45720/31], [15645831672/26359207, 15637067352/26359207, 15551459736/26359207, 15645831672/26359207],    [23417729688/26359207, 23404583208/26359207, 23276171784/26359207, 23417729688/26359207]]) ([[10, 20, 10]]) ([]) 0
    (by decide +kernel) (by decide +kernel)
  have e : m' = m := by
    have := h1.init
    rw [h3, Except.ok.injEq] at this
    exact this
  subst e
  refine ⟨m', l, h1, h4, h2, ?_⟩
  have h5 : okAnd (hyInitialise exHlConf) (fun m => decide (riversFrom m.rivers 2 ≠ [] ∧ 2 ∉ m.outs ∧ riversFrom m.rivers 4 = [] ∧ m.outs.getLast? = some 4)) = true := by
    decide +kernel
  rw [h3] at h5
  simp only [okAnd, decide_eq_true_eq] at h5
  exact ⟨h5.1, h5.2.1, h5.2.2.1, h5.2.2.2, by decide +kernel⟩

/-- the same river with a pump from the first end to where it divides -/
def exPumpConf : HyConf := { exHyConf true [] with units := [⟨2, 1, 100, 50⟩], pumpFrom := [3], pumpTo := [2] }

/-- the hypotheses of C146: a pump of 50 MW at half the efficiency of the unit -/
theorem C146_witness : ∃ m l, HlSetup ⟨1, 1, 1, [100], [1 / 2]⟩ exPumpConf m l ∧
    HlFeasible ⟨1, 1, 1, [100], [1 / 2]⟩ m l ⟨2, 1, 100, [1, 1, 1]⟩
      { exHyVars with inp := hyTab [[500, 500, 500], [50 / (981 / 2000), 50 / (981 / 2000), 50 / (981 / 2000)]] }
      ⟨fun i _ => if i = 1 then 4 else 0, fun i _ => if i = 1 then 1 / 2 else 0, fun _ _ => 1500 * (981 / 1000)⟩ ∧ 2 ∉ exPumpConf.ins := by
  have hu : HyUser exPumpConf := ⟨by decide, by decide, by decide, by decide +kernel⟩
  obtain ⟨m, l, h1, h2⟩ := hlSetup_of_check (c := ⟨1, 1, 1, [100], [1 / 2]⟩) (conf := exPumpConf) (n := ⟨2, 1, 100, [1, 1, 1]⟩)
    (v := { exHyVars with inp := hyTab [[500, 500, 500], [50 / (981 / 2000), 50 / (981 / 2000), 50 / (981 / 2000)]] })
    (w := ⟨fun i _ => if i = 1 then 4 else 0, fun i _ => if i = 1 then 1 / 2 else 0, fun _ _ => 1500 * (981 / 1000)⟩) hu (by decide) (by decide) (by decide +kernel)
  exact ⟨m, l, h1, h2, by decide⟩

/-- the coupled model of the example can be initialised, and initialised again (hypotheses of C147) -/
theorem C147_witness : okAnd (hlInitialise exPumpConf 3 2 (1 / 2)) (fun r => decide (r.1 = 1 ∧ r.2.1.conf.seconds = exPumpConf.seconds / 2) &&
    okAnd (hlInitialise r.2.2 3 2 (1 / 2)) (fun q => decide (q.1 = 2 ∧ q.2.1.conf.seconds = exPumpConf.seconds / 4))) = true := by decide +kernel

end Pyensys
