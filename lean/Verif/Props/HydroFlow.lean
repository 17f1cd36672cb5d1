import Verif.Props.HydroNet

/-!
# Hydrology: conservation of water (C137) and shares (C138)
-/

namespace Pyensys

/-! ## specification -/

/-- settings with nodes numbered from 1, different input nodes, different output nodes and at most one storage unit per node -/
structure HyUser (c : HyConf) : Prop where
  rivers : ∀ r ∈ c.rivers, 0 < r.frm ∧ 0 < r.dest
  ins : (∀ x ∈ c.ins, 0 < x) ∧ c.ins.Nodup
  outs : (∀ x ∈ c.outs, 0 < x) ∧ c.outs.Nodup
  units : (∀ u ∈ c.units, u.storage ≠ 0 → 0 < u.node) ∧ ((c.units.filter (fun u => decide (u.storage ≠ 0))).map (·.node)).Nodup

/-- water that enters the system in a period of a scenario -/
def HyModel.totalIn (m : HyModel) (v : HyVars) (xt xh : Nat) : Rat := ((List.range m.ins.length).map (fun i => v.inp (m.ins.length * xh + i) xt)).sum

/-- water that leaves the system -/
def HyModel.totalOut (m : HyModel) (v : HyVars) (xt xh : Nat) : Rat := ((List.range m.outs.length).map (fun i => v.out (m.outs.length * xh + i) xt)).sum

/-- water in the rivers at the beginning of a period -/
def HyModel.riverWater (m : HyModel) (v : HyVars) (xt xh : Nat) : Rat := ((List.range m.rivers.length).map (fun r => v.soc (m.rivers.length * xh + r) xt)).sum

/-- water in the storage units at a period -/
def HyModel.stored (m : HyModel) (v : HyVars) (xt xh : Nat) : Rat := ((List.range m.stor.cap.length).map (fun s => v.stor (xh * m.stor.cap.length + s) xt)).sum

/-- the period before, the last one before the first -/
def prevTime (T xt : Nat) : Nat := if xt = 0 then T - 1 else xt - 1

/-! ## initialise -/

theorem foldl_max_ge : ∀ (l : List Nat) (a : Nat), a ≤ l.foldl max a ∧ ∀ x ∈ l, x ≤ l.foldl max a := by
  intro l
  induction l with
  | nil => intro a; simp
  | cons b l ih =>
    intro a
    obtain ⟨h1, h2⟩ := ih (max a b)
    rw [List.foldl_cons]
    refine ⟨by omega, ?_⟩
    intro x hx
    rcases List.mem_cons.1 hx with rfl | hx
    · omega
    · exact h2 x hx

theorem hyNodes_ge (rs : List River) : ∀ r ∈ rs, r.frm ≤ hyNodes rs ∧ r.dest ≤ hyNodes rs := by
  intro r hr
  have := (foldl_max_ge (rs.map (fun r => max r.frm r.dest)) 0).2 (max r.frm r.dest) (List.mem_map.2 ⟨r, hr, rfl⟩)
  unfold hyNodes
  omega

theorem partLoop_nodes (r : River) : ∀ (k : Nat) (cur : River) (xn : Nat), 0 < cur.frm → cur.frm ≤ xn → 0 < r.dest → r.dest ≤ xn →
    (partLoop r k cur xn).2 = xn + k ∧ NodesIn (partLoop r k cur xn).1 (xn + k) := by
  intro k
  induction k with
  | zero =>
    intro cur xn h1 h2 h3 h4
    refine ⟨rfl, ?_⟩
    intro s hs
    simp only [partLoop, List.mem_cons, List.not_mem_nil, or_false] at hs
    subst hs
    exact ⟨⟨h1, h2⟩, h3, h4⟩
  | succ k ih =>
    intro cur xn h1 h2 h3 h4
    obtain ⟨i1, i2⟩ := ih { cur with frm := xn + 1, share := 1 } (xn + 1) (by simp) (le_refl _) h3 (by omega)
    have e : partLoop r (k + 1) cur xn = ({ cur with dest := xn + 1 } :: (partLoop r k { cur with frm := xn + 1, share := 1 } (xn + 1)).1,
        (partLoop r k { cur with frm := xn + 1, share := 1 } (xn + 1)).2) := rfl
    rw [e]
    refine ⟨by simp only [i1]; omega, ?_⟩
    intro s hs
    rcases List.mem_cons.1 hs with rfl | hs
    · exact ⟨⟨h1, by simp only; omega⟩, by simp only; omega, by simp only; omega⟩
    · have := i2 s hs
      omega

theorem partRivers_nodes : ∀ (rs : List River) (ps : List Nat) (xn : Nat) (a : List River × Nat), NodesIn rs xn → partRivers rs ps xn = .ok a → xn ≤ a.2 ∧ NodesIn a.1 a.2 := by
  intro rs
  induction rs with
  | nil =>
    intro ps xn a _ h
    unfold partRivers at h
    cases h
    exact ⟨le_refl _, fun r hr => by simp at hr⟩
  | cons r rs ih =>
    intro ps xn a hin h
    cases ps with
    | nil => simp [partRivers] at h
    | cons p ps =>
      unfold partRivers at h
      rw [except_bind_ok] at h
      obtain ⟨a1, h1, h⟩ := h
      rw [except_bind_ok] at h
      obtain ⟨a2, h2, h⟩ := h
      cases h
      have hr := hin r List.mem_cons_self
      unfold partRiver at h1
      split at h1
      · cases h1
      · cases h1
        obtain ⟨l1, l2⟩ := partLoop_nodes r (p - 1) { r with length := r.length / p, vmin := r.vmin / p } xn hr.1.1 hr.1.2 hr.2.1 hr.2.2
        obtain ⟨k1, k2⟩ := ih ps _ a2 (fun s hs => by
          have := hin s (List.mem_cons_of_mem _ hs)
          rw [l1]
          omega) h2
        rw [l1] at k1
        refine ⟨by simp only; omega, ?_⟩
        intro s hs
        rcases List.mem_append.1 hs with hs | hs
        · have := l2 s hs
          simp only
          omega
        · exact k2 s hs

theorem buildParts_nodes {rs : List River} {given : List Nat} {b : List River × Nat} (hpos : ∀ r ∈ rs, 0 < r.frm ∧ 0 < r.dest) (h : buildParts rs given = .ok b)
    (hz : zeroRiver ∉ b.1) : NodesIn b.1 b.2 := by
  have hin : NodesIn rs (hyNodes rs) := fun r hr => by
    have h1 := hpos r hr
    have h2 := hyNodes_ge rs r hr
    omega
  unfold buildParts at h
  split at h
  · cases h
  · split at h
    · rw [except_bind_ok] at h
      obtain ⟨a, h1, h2⟩ := h
      cases h2
      obtain ⟨_, k2⟩ := partRivers_nodes rs _ _ a hin h1
      intro s hs
      rcases List.mem_append.1 hs with hs | hs
      · exact k2 s hs
      · obtain ⟨_, rfl⟩ := List.mem_replicate.1 hs
        exact absurd (List.mem_append_right _ hs) hz
    · cases h
      exact hin

/-- the parts of a model that has been initialised -/
structure HyInit (c : HyConf) (m : HyModel) : Prop where
  conf : m.conf = c
  parts : buildParts c.rivers c.parts = .ok (m.rivers, m.nodes)
  process : zeroRiver ∉ m.rivers
  ins : m.ins = if c.pumpFrom = [] then c.ins else addPumpNodes c.ins c.pumpTo
  outs : m.outs = if c.pumpFrom = [] then c.outs else addPumpNodes c.outs c.pumpFrom
  inTab : hyNodeTab m.ins m.nodes = .ok m.inTab
  outTab : hyNodeTab m.outs m.nodes = .ok m.outTab
  net : hyNet m.rivers m.nodes = .ok m.net
  shares : hyShares m.rivers m.nodes m.net = .ok m.shares
  links : hySoCLinks c = .ok m.links
  stor : hyStor c.units m.nodes = .ok m.stor
  outCon : ∃ l : List (List (Nat × Nat)), m.outs.zipIdx.mapM (outStep m.rivers) = .ok l ∧ m.outCon = l.flatten
  ramp : ∃ l, hyRamp c.ramp (hyParts c.parts c.rivers.length) c.rivers.length = .ok l ∧ m.ramp = lastRamp m.rivers l

theorem hyInitialise_init {c : HyConf} {m : HyModel} (h : hyInitialise c = .ok m) : HyInit c m := by
  unfold hyInitialise at h
  rw [except_bind_ok] at h
  obtain ⟨ramp, h1, h⟩ := h
  rw [except_bind_ok] at h
  obtain ⟨b, h2, h⟩ := h
  rw [except_bind_ok] at h
  obtain ⟨it, h3, h⟩ := h
  rw [except_bind_ok] at h
  obtain ⟨ot, h4, h⟩ := h
  rw [except_bind_ok] at h
  obtain ⟨u, h5, h⟩ := h
  rw [except_bind_ok] at h
  obtain ⟨net, h6, h⟩ := h
  rw [except_bind_ok] at h
  obtain ⟨sh, h7, h⟩ := h
  rw [except_bind_ok] at h
  obtain ⟨li, h8, h⟩ := h
  rw [except_bind_ok] at h
  obtain ⟨st, h9, h⟩ := h
  rw [except_bind_ok] at h
  obtain ⟨oc, h10, h⟩ := h
  cases h
  refine ⟨rfl, h2, ?_, rfl, rfl, h3, h4, h6, h7, h8, h9, ⟨oc, h10, rfl⟩, ramp, h1, rfl⟩
  unfold hyProcess at h5
  split at h5
  · cases h5
  · assumption

theorem HyInit.nodesIn {c : HyConf} {m : HyModel} (i : HyInit c m) (hu : HyUser c) : NodesIn m.rivers m.nodes := buildParts_nodes hu.rivers i.parts i.process

theorem HyInit.ends {c : HyConf} {m : HyModel} (i : HyInit c m) (hu : HyUser c) : (m.rivers.map riverEnds).Nodup := by
  by_contra hn
  have := C136_parallel_violated m.rivers m.nodes (i.nodesIn hu) hn
  rw [i.net] at this
  cases this

theorem addPumpNodes_spec (pumps : List Nat) : ∀ (nodes : List Nat), (∀ x ∈ nodes, 0 < x) → nodes.Nodup →
    (∀ x ∈ addPumpNodes nodes pumps, 0 < x) ∧ (addPumpNodes nodes pumps).Nodup := by
  induction pumps with
  | nil => intro nodes h1 h2; exact ⟨h1, h2⟩
  | cons p pumps ih =>
    intro nodes h1 h2
    have e : addPumpNodes nodes (p :: pumps) = addPumpNodes (if p ≠ 0 ∧ p ∉ nodes then nodes ++ [p] else nodes) pumps := rfl
    rw [e]
    split
    · rename_i hp
      apply ih
      · intro x hx
        rcases List.mem_append.1 hx with hx | hx
        · exact h1 x hx
        · simp only [List.mem_singleton] at hx
          omega
      · rw [List.nodup_append]
        refine ⟨h2, by simp, ?_⟩
        intro a ha b hb
        simp only [List.mem_singleton] at hb
        rintro rfl
        exact hp.2 (hb ▸ ha)
    · exact ih nodes h1 h2

theorem HyInit.insOk {c : HyConf} {m : HyModel} (i : HyInit c m) (hu : HyUser c) : (∀ x ∈ m.ins, 0 < x) ∧ m.ins.Nodup := by
  rw [i.ins]
  split
  · exact hu.ins
  · exact addPumpNodes_spec _ _ hu.ins.1 hu.ins.2

theorem HyInit.outsOk {c : HyConf} {m : HyModel} (i : HyInit c m) (hu : HyUser c) : (∀ x ∈ m.outs, 0 < x) ∧ m.outs.Nodup := by
  rw [i.outs]
  split
  · exact hu.outs
  · exact addPumpNodes_spec _ _ hu.outs.1 hu.outs.2

/-! ## tables of nodes -/

theorem tabSum_set (tab : List (Nat × Nat)) (F : Nat × Nat → Rat) (hF : F (0, 0) = 0) (a : Nat × Nat) : ∀ i, tab[i]? = some (0, 0) →
    ((tab.set i a).map F).sum = (tab.map F).sum + F a := by
  induction tab with
  | nil => intro i h; simp at h
  | cons t tab ih =>
    intro i h
    cases i with
    | zero =>
      simp only [List.getElem?_cons_zero, Option.some.injEq] at h
      subst h
      simp [hF]
      ring
    | succ i =>
      simp only [List.getElem?_cons_succ] at h
      rw [List.set_cons_succ, List.map_cons, List.sum_cons, ih i h, List.map_cons, List.sum_cons]
      ring

theorem nodeTab_fold (n : Nat) (F : Nat × Nat → Rat) (hF : F (0, 0) = 0) : ∀ (nodes : List Nat) (k : Nat) (tab tab' : List (Nat × Nat)), tab.length = n →
    (∀ x ∈ nodes, 0 < x) → nodes.Nodup → (∀ x ∈ nodes, x ≤ n → tab[x - 1]? = some (0, 0)) →
    (nodes.zipIdx k).foldlM (fun t (p : Nat × Nat) => npSet t (nodeIdx p.1 n) (1, p.2)) tab = .ok tab' →
    tab'.length = n ∧ (tab'.map F).sum = (tab.map F).sum + ((List.range nodes.length).map (fun j => F (1, k + j))).sum := by
  intro nodes
  induction nodes with
  | nil =>
    intro k tab tab' hl _ _ _ h
    simp only [List.zipIdx_nil, List.foldlM_nil] at h
    cases h
    simp [hl]
  | cons x nodes ih =>
    intro k tab tab' hl hpos hnd h0 h
    rw [List.zipIdx_cons, List.foldlM_cons, except_bind_ok] at h
    obtain ⟨t1, h1, h2⟩ := h
    rw [npSet_iff] at h1
    obtain ⟨hlt, rfl⟩ := h1
    rw [List.nodup_cons] at hnd
    have hx := hpos x List.mem_cons_self
    have hidx : nodeIdx x n = x - 1 := by
      unfold nodeIdx
      rw [if_neg (by omega)]
    simp only [hidx] at hlt h2
    obtain ⟨i1, i2⟩ := ih (k + 1) _ tab' (by rw [List.length_set, hl]) (fun y hy => hpos y (List.mem_cons_of_mem _ hy)) hnd.2 (by
      intro y hy hyn
      have hy0 := hpos y (List.mem_cons_of_mem _ hy)
      have hne : y ≠ x := fun e => hnd.1 (e ▸ hy)
      rw [List.getElem?_set_ne (by omega)]
      exact h0 y (List.mem_cons_of_mem _ hy) hyn) h2
    refine ⟨i1, ?_⟩
    rw [i2, tabSum_set tab F hF _ _ (h0 x List.mem_cons_self (by omega)), List.length_cons, List.range_succ_eq_map, List.map_cons, List.sum_cons, List.map_map]
    have e : ((List.range nodes.length).map (fun j => F (1, k + 1 + j))).sum = ((List.range nodes.length).map ((fun j => F (1, k + j)) ∘ Nat.succ)).sum := by
      congr 1
      apply List.map_congr_left
      intro j _
      simp only [Function.comp_apply]
      congr 2
      omega
    rw [e, Nat.add_zero]
    ring

theorem hyNodeTab_sum {n : Nat} {nodes : List Nat} {tab : List (Nat × Nat)} (F : Nat × Nat → Rat) (hF : F (0, 0) = 0) (hpos : ∀ x ∈ nodes, 0 < x) (hnd : nodes.Nodup)
    (h : hyNodeTab nodes n = .ok tab) : tab.length = n ∧ (tab.map F).sum = ((List.range nodes.length).map (fun j => F (1, j))).sum := by
  unfold hyNodeTab at h
  obtain ⟨h1, h2⟩ := nodeTab_fold n F hF nodes 0 _ tab (by simp) hpos hnd (by
    intro x hx hxn
    rw [List.getElem?_replicate, if_pos]
    have := hpos x hx
    omega) h
  refine ⟨h1, ?_⟩
  rw [h2]
  simp [hF]

theorem storFold_sum (n : Nat) (F : Nat × Nat → Rat) (hF : F (0, 0) = 0) : ∀ (units : List HyUnit) (st st' : HyStor), st.tab.length = n →
    (∀ u ∈ units, u.storage ≠ 0 → 0 < u.node) → ((units.filter (fun u => decide (u.storage ≠ 0))).map (·.node)).Nodup →
    (∀ u ∈ units, u.storage ≠ 0 → u.node ≤ n → st.tab[u.node - 1]? = some (0, 0)) → units.foldlM (storStep n) st = .ok st' →
    st'.tab.length = n ∧ st.cap.length ≤ st'.cap.length ∧
      (st'.tab.map F).sum = (st.tab.map F).sum + ((List.range (st'.cap.length - st.cap.length)).map (fun j => F (1, st.cap.length + j))).sum := by
  intro units
  induction units with
  | nil =>
    intro st st' hl _ _ _ h
    simp only [List.foldlM_nil] at h
    cases h
    simp [hl]
  | cons u units ih =>
    intro st st' hl hpos hnd h0 h
    rw [List.foldlM_cons, except_bind_ok] at h
    obtain ⟨s1, h1, h2⟩ := h
    unfold storStep at h1
    split at h1
    · rename_i hs
      cases h1
      have hf : (u :: units).filter (fun u => decide (u.storage ≠ 0)) = units.filter (fun u => decide (u.storage ≠ 0)) := by
        rw [List.filter_cons_of_neg (by simp [hs])]
      rw [hf] at hnd
      exact ih st st' hl (fun w hw => hpos w (List.mem_cons_of_mem _ hw)) hnd (fun w hw => h0 w (List.mem_cons_of_mem _ hw)) h2
    · rename_i hs
      rw [except_bind_ok] at h1
      obtain ⟨tab, h3, h4⟩ := h1
      rw [npSet_iff] at h3
      obtain ⟨hlt, rfl⟩ := h3
      split at h4
      · cases h4
      · cases h4
        rw [List.filter_cons_of_pos (by simp [hs]), List.map_cons, List.nodup_cons] at hnd
        have hx := hpos u List.mem_cons_self hs
        have hidx : nodeIdx u.node n = u.node - 1 := by
          unfold nodeIdx
          rw [if_neg (by omega)]
        rw [hidx] at hlt h2
        obtain ⟨i1, i2, i3⟩ := ih _ st' (by simp [hl]) (fun w hw => hpos w (List.mem_cons_of_mem _ hw)) hnd.2 (by
          intro w hw hws hwn
          have hw0 := hpos w (List.mem_cons_of_mem _ hw) hws
          have hne : w.node ≠ u.node := fun e => hnd.1 (List.mem_map.2 ⟨w, List.mem_filter.2 ⟨hw, by simp [hws]⟩, e⟩)
          simp only
          rw [List.getElem?_set_ne (by omega)]
          exact h0 w (List.mem_cons_of_mem _ hw) hws hwn) h2
        simp only [List.length_append, List.length_singleton] at i2 i3
        refine ⟨i1, by omega, ?_⟩
        have hsplit : st'.cap.length - st.cap.length = (st'.cap.length - (st.cap.length + 1)) + 1 := by omega
        rw [i3, tabSum_set st.tab F hF _ _ (h0 u List.mem_cons_self hs (by omega)), hsplit, List.range_succ_eq_map, List.map_cons, List.sum_cons, List.map_map]
        have e : ((List.range (st'.cap.length - (st.cap.length + 1))).map (fun j => F (1, st.cap.length + 1 + j))).sum =
            ((List.range (st'.cap.length - (st.cap.length + 1))).map ((fun j => F (1, st.cap.length + j)) ∘ Nat.succ)).sum := by
          congr 1
          apply List.map_congr_left
          intro j _
          simp only [Function.comp_apply]
          congr 2
          omega
        rw [e, Nat.add_zero]
        ring

theorem hyStor_sum {n : Nat} {units : List HyUnit} {st : HyStor} (F : Nat × Nat → Rat) (hF : F (0, 0) = 0) (hpos : ∀ u ∈ units, u.storage ≠ 0 → 0 < u.node)
    (hnd : ((units.filter (fun u => decide (u.storage ≠ 0))).map (·.node)).Nodup) (h : hyStor units n = .ok st) :
    st.tab.length = n ∧ (st.tab.map F).sum = ((List.range st.cap.length).map (fun j => F (1, j))).sum := by
  unfold hyStor at h
  rw [except_bind_ok] at h
  obtain ⟨s, h1, h2⟩ := h
  split at h2
  · cases h2
  · rw [Except.ok.injEq] at h2
    subst h2
    obtain ⟨i1, _, i3⟩ := storFold_sum n F hF units _ s (by simp) hpos hnd (by
      intro u hu hs hun
      simp only
      rw [List.getElem?_replicate, if_pos]
      have := hpos u hu hs
      omega) h1
    refine ⟨i1, ?_⟩
    rw [i3]
    simp [hF]

theorem sum_getD (tab : List (Nat × Nat)) (F : Nat × Nat → Rat) : ((List.range tab.length).map (fun i => F ((tab[i]?).getD (0, 0)))).sum = (tab.map F).sum := by
  congr 1
  apply List.ext_getElem
  · simp
  · intro i h1 h2
    simp only [List.length_map] at h2
    simp [List.getElem?_eq_getElem h2]

/-! ## conservation -/

/-- the flows of the rivers at all nodes are the flows of all rivers -/
theorem sum_riversFrom (rs : List River) (n : Nat) (hin : NodesIn rs n) (f : Nat → Rat) :
    ((List.range n).map (fun i => ((riversFrom rs (i + 1)).map f).sum)).sum = ((List.range rs.length).map f).sum := by
  have := sum_partition n (fun b => (rs[b]?).map (fun r => r.frm - 1)) f (List.range rs.length) (by
    intro b hb
    rw [List.mem_range] at hb
    refine ⟨rs[b].frm - 1, ?_, by simp [List.getElem?_eq_getElem hb]⟩
    have := hin rs[b] (List.getElem_mem hb)
    omega)
  rw [← this]
  congr 1
  apply List.map_congr_left
  intro i _
  congr 2
  unfold riversFrom
  apply List.filter_congr
  intro b hb
  rw [List.mem_range] at hb
  have := hin rs[b] (List.getElem_mem hb)
  simp only [List.getElem?_eq_getElem hb, Option.map_some, Option.some.injEq, decide_eq_decide]
  omega

theorem sum_riversTo (rs : List River) (n : Nat) (hin : NodesIn rs n) (f : Nat → Rat) :
    ((List.range n).map (fun i => ((riversTo rs (i + 1)).map f).sum)).sum = ((List.range rs.length).map f).sum := by
  have := sum_partition n (fun b => (rs[b]?).map (fun r => r.dest - 1)) f (List.range rs.length) (by
    intro b hb
    rw [List.mem_range] at hb
    refine ⟨rs[b].dest - 1, ?_, by simp [List.getElem?_eq_getElem hb]⟩
    have := hin rs[b] (List.getElem_mem hb)
    omega)
  rw [← this]
  congr 1
  apply List.map_congr_left
  intro i _
  congr 2
  unfold riversTo
  apply List.filter_congr
  intro b hb
  rw [List.mem_range] at hb
  have := hin rs[b] (List.getElem_mem hb)
  simp only [List.getElem?_eq_getElem hb, Option.map_some, Option.some.injEq, decide_eq_decide]
  omega

/-- the lists of a node of an initialised model -/
theorem HyInit.rowsOf {c : HyConf} {m : HyModel} (i : HyInit c m) (hu : HyUser c) : ∀ xn < m.nodes,
    rowRivers m.net.n2b1 ((m.net.outTab[xn]?).getD (0, 0)) = riversFrom m.rivers (xn + 1) ∧ rowRivers m.net.n2b1 ((m.net.inTab[xn]?).getD (0, 0)) = riversTo m.rivers (xn + 1) := by
  obtain ⟨net, h1, h2, h3, h4⟩ := C136_network_partial m.rivers m.nodes (i.nodesIn hu) (i.ends hu)
  rw [i.net] at h1
  cases h1
  intro xn hx
  obtain ⟨ro, ri, a1, a2, a3, a4⟩ := h4 xn hx
  rw [a1, a2]
  exact ⟨a3, a4⟩

/-- **C137**: conservation of water.  In every solution, for every period and scenario, the water that enters the system is the water that leaves it plus what is added to
the rivers and to the storage of hydropower units (in the units of the program: flows times `DeltaT` are volumes of rivers). -/
theorem C137_conservation_partial (c : HyConf) (m : HyModel) (hm : hyInitialise c = .ok m) (hu : HyUser c) (v : HyVars) (hf : m.Feasible v) (xt xh : Nat)
    (ht : xt < c.noTime) (hh : xh < c.number) :
    m.totalIn v xt xh * m.dt = m.totalOut v xt xh * m.dt + (m.riverWater v (xt + 1) xh - m.riverWater v xt xh) +
      (m.stored v xt xh - m.stored v (prevTime c.noTime xt) xh) * m.dt := by
  have init := hyInitialise_init hm
  have hin := init.nodesIn hu
  obtain ⟨p1, p2⟩ := init.insOk hu
  obtain ⟨q1, q2⟩ := init.outsOk hu
  -- the sum of all balances
  have hbal : ((List.range m.nodes).map (fun xn => (m.nodeSides v xn xt xh).1)).sum = ((List.range m.nodes).map (fun xn => (m.nodeSides v xn xt xh).2)).sum := by
    congr 1
    apply List.map_congr_left
    intro xn hx
    rw [List.mem_range] at hx
    exact hf.balance xn hx xt (by rw [init.conf]; exact ht) xh (by rw [init.conf]; exact hh)
  -- inputs
  obtain ⟨l1, s1⟩ := hyNodeTab_sum (fun (i : Nat × Nat) => ((List.range i.1).map (fun _ => v.inp (m.ins.length * xh + i.2) xt)).sum) (by simp) p1 p2 init.inTab
  obtain ⟨l2, s2⟩ := hyNodeTab_sum (fun (i : Nat × Nat) => ((List.range i.1).map (fun _ => v.out (m.outs.length * xh + i.2) xt)).sum) (by simp) q1 q2 init.outTab
  obtain ⟨l3, s3⟩ := hyStor_sum (fun (s : Nat × Nat) => ((List.range s.1).map (fun x => v.stor (xh * m.stor.cap.length + s.2 + x) (m.timeStor xt).1)).sum) (by simp) hu.units.1 hu.units.2 init.stor
  obtain ⟨_, s4⟩ := hyStor_sum (fun (s : Nat × Nat) => ((List.range s.1).map (fun x => v.stor (xh * m.stor.cap.length + s.2 + x) (m.timeStor xt).2)).sum) (by simp) hu.units.1 hu.units.2 init.stor
  rw [← sum_getD, l1] at s1
  rw [← sum_getD, l2] at s2
  rw [← sum_getD, l3] at s3
  rw [← sum_getD, l3] at s4
  have hleft : ((List.range m.nodes).map (fun xn => (m.nodeSides v xn xt xh).1)).sum = m.totalIn v xt xh + ((List.range m.rivers.length).map (fun r => v.down (m.conRiver xh + r) xt)).sum := by
    rw [← sum_riversTo m.rivers m.nodes hin, HyModel.totalIn]
    have e : ((List.range m.ins.length).map (fun i => v.inp (m.ins.length * xh + i) xt)).sum = ((List.range m.ins.length).map (fun j =>
        ((List.range 1).map (fun _ => v.inp (m.ins.length * xh + j) xt)).sum)).sum := by simp
    rw [e, ← s1, ← sum_map_add']
    congr 1
    apply List.map_congr_left
    intro xn hx
    rw [List.mem_range] at hx
    rw [← (init.rowsOf hu xn hx).2]
    rfl
  have hright : ((List.range m.nodes).map (fun xn => (m.nodeSides v xn xt xh).2)).sum = ((List.range m.rivers.length).map (fun r => v.up (m.conRiver xh + r) xt)).sum +
      m.totalOut v xt xh + (m.stored v (m.timeStor xt).1 xh - m.stored v (m.timeStor xt).2 xh) := by
    rw [← sum_riversFrom m.rivers m.nodes hin, HyModel.totalOut, HyModel.stored, HyModel.stored]
    have e : ((List.range m.outs.length).map (fun i => v.out (m.outs.length * xh + i) xt)).sum = ((List.range m.outs.length).map (fun j =>
        ((List.range 1).map (fun _ => v.out (m.outs.length * xh + j) xt)).sum)).sum := by simp
    have e3 : ((List.range m.stor.cap.length).map (fun s => v.stor (xh * m.stor.cap.length + s) (m.timeStor xt).1)).sum = ((List.range m.stor.cap.length).map (fun j =>
        ((List.range 1).map (fun x => v.stor (xh * m.stor.cap.length + j + x) (m.timeStor xt).1)).sum)).sum := by simp
    have e4 : ((List.range m.stor.cap.length).map (fun s => v.stor (xh * m.stor.cap.length + s) (m.timeStor xt).2)).sum = ((List.range m.stor.cap.length).map (fun j =>
        ((List.range 1).map (fun x => v.stor (xh * m.stor.cap.length + j + x) (m.timeStor xt).2)).sum)).sum := by simp
    simp only at s2 s3 s4
    rw [e, e3, e4, ← s2, ← s3, ← s4, ← sum_map_add', ← add_sub_assoc, ← sum_map_add', eq_sub_iff_add_eq, ← sum_map_add']
    congr 1
    apply List.map_congr_left
    intro xn hx
    rw [List.mem_range] at hx
    rw [← (init.rowsOf hu xn hx).1]
    unfold HyModel.nodeSides
    simp only
    ring
  rw [hleft, hright] at hbal
  -- the rivers
  have hriv : ((List.range m.rivers.length).map (fun r => v.down (m.conRiver xh + r) xt)).sum * m.dt =
      ((List.range m.rivers.length).map (fun r => v.up (m.conRiver xh + r) xt)).sum * m.dt + m.riverWater v xt xh - m.riverWater v (xt + 1) xh := by
    unfold HyModel.riverWater
    rw [← sum_map_mul_right', ← sum_map_mul_right', ← sum_map_add', eq_sub_iff_add_eq, ← sum_map_add']
    congr 1
    apply List.map_congr_left
    intro r hr
    rw [List.mem_range] at hr
    have := hf.river r hr xt (by rw [init.conf]; exact ht) xh (by rw [init.conf]; exact hh)
    unfold HyModel.conRiver at this ⊢
    linarith
  -- storage
  have hstor : m.stored v (m.timeStor xt).1 xh - m.stored v (m.timeStor xt).2 xh = m.stored v xt xh - m.stored v (prevTime c.noTime xt) xh := by
    unfold HyModel.timeStor prevTime
    rw [init.conf]
    by_cases hcap : m.stor.cap = []
    · simp [HyModel.stored, hcap]
    · rw [if_neg hcap]
      split
      · rename_i h0
        rw [h0]
      · rfl
  rw [hstor] at hbal
  have h3 := congrArg (fun x => x * m.dt) hbal
  simp only [add_mul] at h3
  linarith [h3, hriv]

theorem cyclic_sum (f : Nat → Rat) (T : Nat) : ((List.range T).map (fun t => f t - f (prevTime T t))).sum = 0 := by
  cases T with
  | zero => simp
  | succ T =>
    have : ∀ k, k ≤ T → ((List.range (k + 1)).map (fun t => f t - f (prevTime (T + 1) t))).sum = f k - f T := by
      intro k
      induction k with
      | zero => intro _; simp [prevTime]
      | succ k ih =>
        intro hk
        rw [List.range_succ, List.map_append, List.sum_append, ih (by omega)]
        simp [prevTime]
    rw [this T (le_refl _)]
    ring

theorem telescope_sum (f : Nat → Rat) (T : Nat) : ((List.range T).map (fun t => f (t + 1) - f t)).sum = f T - f 0 := by
  induction T with
  | zero => simp
  | succ T ih =>
    rw [List.range_succ, List.map_append, List.sum_append, ih]
    simp

/-- **C137**: over the day.  If the beginning of a scenario is linked to its end, all water that enters the system during the day leaves it during the day, with or without
storage. -/
theorem C137_day_partial (c : HyConf) (m : HyModel) (hm : hyInitialise c = .ok m) (hu : HyUser c) (v : HyVars) (hf : m.Feasible v) (xh : Nat) (hh : xh < c.number) (hdt : m.dt ≠ 0)
    (i : Nat) (hF : c.linksF[i]? = some (xh, 0)) (hT : c.linksT[i]? = some (xh, 1)) :
    ((List.range c.noTime).map (fun t => m.totalIn v t xh)).sum = ((List.range c.noTime).map (fun t => m.totalOut v t xh)).sum := by
  have init := hyInitialise_init hm
  -- the link
  have hlink : ((xh, 0), (xh, c.noTime)) ∈ m.links := by
    have h := init.links
    unfold hySoCLinks at h
    split at h
    · cases h
    · obtain ⟨y, h2, h1⟩ := (mapM_ok_forall _ _ _ h).2 ((xh, 0), i) (List.mk_mem_zipIdx_iff_getElem?.2 hF)
      simp only [npGet_some hT, bind, Except.bind] at h1
      simp only [npGet, List.getElem?_cons_zero, List.getElem?_cons_succ, hh, and_self, if_true] at h1
      cases h1
      exact h2
  have hend : m.riverWater v c.noTime xh = m.riverWater v 0 xh := by
    unfold HyModel.riverWater
    congr 1
    apply List.map_congr_left
    intro r hr
    rw [List.mem_range] at hr
    have := hf.socLink _ hlink r hr
    unfold HyModel.conRiver at this
    exact this.symm
  have hall : ((List.range c.noTime).map (fun t => m.totalIn v t xh * m.dt)).sum = ((List.range c.noTime).map (fun t => m.totalOut v t xh * m.dt)).sum +
      ((List.range c.noTime).map (fun t => m.riverWater v (t + 1) xh - m.riverWater v t xh)).sum +
      ((List.range c.noTime).map (fun t => (m.stored v t xh - m.stored v (prevTime c.noTime t) xh) * m.dt)).sum := by
    rw [← sum_map_add', ← sum_map_add']
    congr 1
    apply List.map_congr_left
    intro t ht
    rw [List.mem_range] at ht
    exact C137_conservation_partial c m hm hu v hf t xh ht hh
  rw [sum_map_mul_right', sum_map_mul_right', sum_map_mul_right', telescope_sum (fun t => m.riverWater v t xh), cyclic_sum (fun t => m.stored v t xh), hend] at hall
  have : ((List.range c.noTime).map (fun t => m.totalIn v t xh)).sum * m.dt = ((List.range c.noTime).map (fun t => m.totalOut v t xh)).sum * m.dt := by linarith
  exact mul_right_cancel₀ hdt this

end Pyensys
