import Verif.Model.HydroPrint
import Verif.Props.HydroMore

/-! # C229: the report of the water on the screen -/

namespace Pyensys

/-! ## specification -/

/-- the number in row `i` and column `t` of a table on the screen -/
def shownAt (t : List (List Rat)) (i k : Nat) : Rat := (((t[i]?).getD [])[k]?).getD 0

/-- a table is shown for a scenario -/
def WaterShown (r : List (List (HpName × List (List Rat)))) (xh : Nat) (n : HpName) (t : List (List Rat)) : Prop := ∃ tabs, r[xh]? = some tabs ∧ (n, t) ∈ tabs

/-! ## lemmas -/

theorem hpLoop_at (n k : Nat) (f : Nat → Nat → Rat) (i t : Nat) (hi : i < n) (ht : t < k) : shownAt (hpLoop n k f) i t = f i t := by
  unfold shownAt hpLoop
  rw [List.getElem?_map, List.getElem?_range hi]
  simp only [Option.map_some, Option.getD_some]
  rw [List.getElem?_map, List.getElem?_range ht]
  rfl

theorem hp_shown (flags : HpName → Bool) (m : HyModel) (v : HyVars) (xh : Nat) (n : HpName) (t : List (List Rat))
    (h : WaterShown (hpPrint true flags m v (List.range m.conf.number)) xh n t) : t = hpTable m v xh n ∧ xh < m.conf.number := by
  obtain ⟨tabs, h1, h2⟩ := h
  unfold hpPrint at h1
  rw [if_pos rfl, List.getElem?_map] at h1
  by_cases hx : xh < m.conf.number
  · rw [List.getElem?_range hx] at h1
    simp only [Option.map_some, Option.some.injEq] at h1
    rw [← h1] at h2
    obtain ⟨a, -, e⟩ := List.mem_map.mp h2
    have e1 : a = n := congrArg Prod.fst e
    have e2 : hpTable m v xh a = t := congrArg Prod.snd e
    rw [← e2, e1]
    exact ⟨rfl, hx⟩
  · rw [List.getElem?_eq_none (by simpa using hx)] at h1
    cases h1

theorem hyNodeTab_entries (n : Nat) : ∀ (nodes : List Nat) (k : Nat) (tab tab' : List (Nat × Nat)), tab.length = n → (∀ x ∈ nodes, 0 < x) → nodes.Nodup →
    (nodes.zipIdx k).foldlM (fun t (p : Nat × Nat) => npSet t (nodeIdx p.1 n) (1, p.2)) tab = (.ok tab' : Except PyErr _) →
    tab'.length = n ∧ (∀ i j : Nat, nodes[j]? = some (i + 1) → tab'[i]? = some (1, k + j)) ∧ (∀ i, i + 1 ∉ nodes → tab'[i]? = tab[i]?) := by
  intro nodes
  induction nodes with
  | nil =>
    intro k tab tab' hl _ _ h
    simp only [List.zipIdx_nil, List.foldlM_nil] at h
    cases h
    refine ⟨hl, ?_, fun _ _ => rfl⟩
    intro i j hj
    simp at hj
  | cons x nodes ih =>
    intro k tab tab' hl hpos hnd h
    rw [List.zipIdx_cons, List.foldlM_cons, except_bind_ok] at h
    obtain ⟨t1, h1, h2⟩ := h
    rw [npSet_iff] at h1
    obtain ⟨hlt, rfl⟩ := h1
    rw [List.nodup_cons] at hnd
    have hx := hpos x List.mem_cons_self
    have hidx : nodeIdx x n = x - 1 := by
      unfold nodeIdx
      rw [if_neg (by omega)]
    simp only [hidx] at hlt h2
    obtain ⟨i1, i2, i3⟩ := ih (k + 1) _ tab' (by rw [List.length_set, hl]) (fun y hy => hpos y (List.mem_cons_of_mem _ hy)) hnd.2 h2
    refine ⟨i1, ?_, ?_⟩
    · intro i j hj
      cases j with
      | zero =>
        simp only [List.getElem?_cons_zero, Option.some.injEq] at hj
        have hni : i + 1 ∉ nodes := by rw [← hj]; exact hnd.1
        rw [i3 i hni]
        have : x - 1 = i := by omega
        rw [this] at hlt ⊢
        rw [List.getElem?_set_self hlt]
        rfl
      | succ j =>
        rw [List.getElem?_cons_succ] at hj
        rw [i2 i j hj]
        congr 2
        omega
    · intro i hi
      rw [List.mem_cons, not_or] at hi
      rw [i3 i hi.2, List.getElem?_set_ne (by omega)]

theorem hyNodeTab_spec {n : Nat} {nodes : List Nat} {tab : List (Nat × Nat)} (hpos : ∀ x ∈ nodes, 0 < x) (hnd : nodes.Nodup) (h : hyNodeTab nodes n = .ok tab) (i : Nat) (hi : i < n) :
    (∀ j : Nat, nodes[j]? = some (i + 1) → (tab[i]?).getD (0, 0) = (1, j)) ∧ (i + 1 ∉ nodes → (tab[i]?).getD (0, 0) = (0, 0)) := by
  obtain ⟨-, h2, h3⟩ := hyNodeTab_entries n nodes 0 _ tab (by simp) hpos hnd h
  constructor
  · intro j hj
    rw [h2 i j hj]
    simp
  · intro hn
    rw [h3 i hn, List.getElem?_replicate, if_pos hi]
    rfl

theorem hyNodeTab_one {n : Nat} {nodes : List Nat} {tab : List (Nat × Nat)} (hpos : ∀ x ∈ nodes, 0 < x) (hnd : nodes.Nodup) (h : hyNodeTab nodes n = .ok tab) (i : Nat) (hi : i < n) :
    ((tab[i]?).getD (0, 0)).1 = 0 ∨ ((tab[i]?).getD (0, 0)).1 = 1 := by
  obtain ⟨h1, h2⟩ := hyNodeTab_spec hpos hnd h i hi
  by_cases hm : i + 1 ∈ nodes
  · obtain ⟨j, hj⟩ := List.mem_iff_getElem?.mp hm
    rw [h1 j hj]; right; rfl
  · rw [h2 hm]; left; rfl

theorem storFold_one (n : Nat) : ∀ (units : List HyUnit) (st st' : HyStor), (∀ p ∈ st.tab, p.1 = 0 ∨ p.1 = 1) → units.foldlM (storStep n) st = .ok st' →
    (∀ p ∈ st'.tab, p.1 = 0 ∨ p.1 = 1) ∧ (st.cap ≠ [] → st'.cap ≠ []) ∧ ((∃ p ∈ st'.tab, p.1 = 1) → (∃ p ∈ st.tab, p.1 = 1) ∨ st'.cap ≠ []) := by
  intro units
  induction units with
  | nil =>
    intro st st' h1 h
    simp only [List.foldlM_nil] at h
    cases h
    exact ⟨h1, id, Or.inl⟩
  | cons u units ih =>
    intro st st' h1 h
    rw [List.foldlM_cons, except_bind_ok] at h
    obtain ⟨s1, h2, h3⟩ := h
    unfold storStep at h2
    by_cases hs : u.storage = 0
    · rw [if_pos hs] at h2
      have := Except.ok.inj h2
      subst this
      exact ih st st' h1 h3
    · rw [if_neg hs, except_bind_ok] at h2
      obtain ⟨tab, h4, h5⟩ := h2
      rw [npSet_iff] at h4
      by_cases he : u.efficiency = 0 ∨ u.head = 0
      · rw [if_pos he] at h5; cases h5
      · rw [if_neg he] at h5
        have e := Except.ok.inj h5
        subst e
        have hone : ∀ p ∈ tab, p.1 = 0 ∨ p.1 = 1 := by
          intro p hp
          rw [h4.2] at hp
          rcases List.mem_or_eq_of_mem_set hp with h | h
          · exact h1 p h
          · right; rw [h]
        obtain ⟨a, b, c⟩ := ih _ st' hone h3
        have hne : st'.cap ≠ [] := b (by simp)
        exact ⟨a, fun _ => hne, fun _ => Or.inr hne⟩

theorem hyStor_one {n : Nat} {units : List HyUnit} {st : HyStor} (h : hyStor units n = .ok st) (i : Nat) :
    (((st.tab[i]?).getD (0, 0)).1 = 0 ∨ ((st.tab[i]?).getD (0, 0)).1 = 1) ∧ (((st.tab[i]?).getD (0, 0)).1 = 1 → st.cap ≠ []) := by
  unfold hyStor at h
  rw [except_bind_ok] at h
  obtain ⟨s, h1, h2⟩ := h
  split at h2
  · cases h2
  · have e := Except.ok.inj h2
    subst e
    obtain ⟨a, -, c⟩ := storFold_one n units _ s (by
      intro p hp
      left
      rw [(List.mem_replicate.mp hp).2]) h1
    cases hg : s.tab[i]? with
    | none => simp
    | some p =>
      have hp : p ∈ s.tab := List.mem_iff_getElem?.mpr ⟨i, hg⟩
      refine ⟨a p hp, ?_⟩
      intro h1
      rcases c ⟨p, hp, h1⟩ with ⟨q, hq, h3⟩ | h3
      · rw [(List.mem_replicate.mp hq).2] at h3; cases h3
      · exact h3

/-! ## C229 -/

/-- the tables shown balance at every node of the river network and in every period: the water that is shown as entering the node, and the downstream flows shown of the rivers
that end there, are the upstream flows shown of the rivers that start there, the water shown as leaving and the change of the storage shown -/
theorem C229_nodes (c : HyConf) (m : HyModel) (hm : hyInitialise c = .ok m) (hu : HyUser c) (v : HyVars) (hf : m.Feasible v) (flags : HpName → Bool) (xh : Nat)
    (win wout up down stor : List (List Rat))
    (h1 : WaterShown (hpPrint true flags m v (List.range m.conf.number)) xh .wIn win) (h2 : WaterShown (hpPrint true flags m v (List.range m.conf.number)) xh .wOut wout)
    (h3 : WaterShown (hpPrint true flags m v (List.range m.conf.number)) xh .fUp up) (h4 : WaterShown (hpPrint true flags m v (List.range m.conf.number)) xh .fDown down)
    (h5 : WaterShown (hpPrint true flags m v (List.range m.conf.number)) xh .stor stor) (xn xt : Nat) (hn : xn < m.nodes) (ht : xt < c.noTime) :
    shownAt win xn xt + ((riversTo m.rivers (xn + 1)).map (fun r => shownAt down r xt)).sum =
      ((riversFrom m.rivers (xn + 1)).map (fun r => shownAt up r xt)).sum + shownAt wout xn xt + (shownAt stor xn xt - shownAt stor xn (prevTime c.noTime xt)) := by
  have init := hyInitialise_init hm
  obtain ⟨e1, hh⟩ := hp_shown flags m v xh _ _ h1
  obtain ⟨e2, -⟩ := hp_shown flags m v xh _ _ h2
  obtain ⟨e3, -⟩ := hp_shown flags m v xh _ _ h3
  obtain ⟨e4, -⟩ := hp_shown flags m v xh _ _ h4
  obtain ⟨e5, -⟩ := hp_shown flags m v xh _ _ h5
  subst e1 e2 e3 e4 e5
  have hT : m.conf.noTime = c.noTime := by rw [init.conf]
  have ht' : xt < m.conf.noTime := by rw [hT]; exact ht
  have hp' : prevTime c.noTime xt < m.conf.noTime := by
    rw [hT]; unfold prevTime; split <;> omega
  have hbal := hf.balance xn hn xt ht' xh hh
  obtain ⟨r1, r2⟩ := init.rowsOf hu xn hn
  have cdown : (riversTo m.rivers (xn + 1)).map (fun r => shownAt (hpTable m v xh .fDown) r xt) = (riversTo m.rivers (xn + 1)).map (fun r => v.down (m.conRiver xh + r) xt) := by
    apply List.map_congr_left
    intro r hr
    have : r < m.rivers.length := by
      unfold riversTo at hr
      simpa using (List.mem_filter.mp hr).1
    exact hpLoop_at _ _ _ _ _ this ht'
  have cup : (riversFrom m.rivers (xn + 1)).map (fun r => shownAt (hpTable m v xh .fUp) r xt) = (riversFrom m.rivers (xn + 1)).map (fun r => v.up (m.conRiver xh + r) xt) := by
    apply List.map_congr_left
    intro r hr
    have : r < m.rivers.length := by
      unfold riversFrom at hr
      simpa using (List.mem_filter.mp hr).1
    exact hpLoop_at _ _ _ _ _ this ht'
  rw [cdown, cup]
  unfold hpTable
  rw [hpLoop_at _ _ _ _ _ hn ht', hpLoop_at _ _ _ _ _ hn ht', hpLoop_at _ _ _ _ _ hn ht', hpLoop_at _ _ _ _ _ hn hp']
  unfold HyModel.nodeSides at hbal
  dsimp only at hbal
  rw [r1, r2] at hbal
  obtain ⟨p1, p2⟩ := init.insOk hu
  obtain ⟨p3, p4⟩ := init.outsOk hu
  have k1 := hyNodeTab_one p1 p2 init.inTab xn hn
  have k2 := hyNodeTab_one p3 p4 init.outTab xn hn
  obtain ⟨k3, k4⟩ := hyStor_one init.stor xn
  have s1 : ((List.range ((m.inTab[xn]?).getD (0, 0)).1).map (fun _ => v.inp (m.ins.length * xh + ((m.inTab[xn]?).getD (0, 0)).2) xt)).sum =
      (if ((m.inTab[xn]?).getD (0, 0)).1 ≠ 0 then v.inp (m.ins.length * xh + ((m.inTab[xn]?).getD (0, 0)).2) xt else 0) := by
    rcases k1 with h | h <;> rw [h] <;> simp
  have s2 : ((List.range ((m.outTab[xn]?).getD (0, 0)).1).map (fun _ => v.out (m.outs.length * xh + ((m.outTab[xn]?).getD (0, 0)).2) xt)).sum =
      (if ((m.outTab[xn]?).getD (0, 0)).1 ≠ 0 then v.out (m.outs.length * xh + ((m.outTab[xn]?).getD (0, 0)).2) xt else 0) := by
    rcases k2 with h | h <;> rw [h] <;> simp
  rw [s1, s2] at hbal
  rw [hbal]
  have s3 : ((List.range ((m.stor.tab[xn]?).getD (0, 0)).1).map (fun x => v.stor (xh * m.stor.cap.length + ((m.stor.tab[xn]?).getD (0, 0)).2 + x) (m.timeStor xt).1)).sum -
      ((List.range ((m.stor.tab[xn]?).getD (0, 0)).1).map (fun x => v.stor (xh * m.stor.cap.length + ((m.stor.tab[xn]?).getD (0, 0)).2 + x) (m.timeStor xt).2)).sum =
      (if ((m.stor.tab[xn]?).getD (0, 0)).1 = 0 then 0 else v.stor (xh * m.stor.cap.length + ((m.stor.tab[xn]?).getD (0, 0)).2) (m.timeStor xt).1) -
      (if ((m.stor.tab[xn]?).getD (0, 0)).1 = 0 then 0 else
        v.stor (xh * m.stor.cap.length + ((m.stor.tab[xn]?).getD (0, 0)).2) (m.timeStor (prevTime c.noTime xt)).1) := by
    rcases k3 with h | h
    · rw [h]; simp
    · have hcap := k4 h
      have e : (m.timeStor (prevTime c.noTime xt)).1 = (m.timeStor xt).2 := by
        unfold HyModel.timeStor prevTime
        rw [if_neg hcap, if_neg hcap, hT]
        by_cases h0 : xt = 0
        · rw [if_pos h0, if_pos h0]
          split <;> simp_all
        · rw [if_neg h0, if_neg h0]
          split <;> simp_all
      rw [e, h]
      simp
  rw [← s3]
  ring

/-- what is shown as entering or leaving is at the node that the user (or a pump) gives: the row of the node of input `j` is the inflow of input `j`, all other nodes show 0 -/
theorem C229_places (c : HyConf) (m : HyModel) (hm : hyInitialise c = .ok m) (hu : HyUser c) (v : HyVars) (flags : HpName → Bool) (xh : Nat)
    (win wout : List (List Rat))
    (h1 : WaterShown (hpPrint true flags m v (List.range m.conf.number)) xh .wIn win) (h2 : WaterShown (hpPrint true flags m v (List.range m.conf.number)) xh .wOut wout)
    (xn xt : Nat) (hn : xn < m.nodes) (ht : xt < c.noTime) :
    (∀ j : Nat, m.ins[j]? = some (xn + 1) → shownAt win xn xt = v.inp (m.ins.length * xh + j) xt) ∧ (xn + 1 ∉ m.ins → shownAt win xn xt = 0) ∧
    (∀ j : Nat, m.outs[j]? = some (xn + 1) → shownAt wout xn xt = v.out (m.outs.length * xh + j) xt) ∧ (xn + 1 ∉ m.outs → shownAt wout xn xt = 0) := by
  have init := hyInitialise_init hm
  obtain ⟨e1, hh⟩ := hp_shown flags m v xh _ _ h1
  obtain ⟨e2, -⟩ := hp_shown flags m v xh _ _ h2
  subst e1 e2
  have ht' : xt < m.conf.noTime := by rw [init.conf]; exact ht
  obtain ⟨p1, p2⟩ := init.insOk hu
  obtain ⟨p3, p4⟩ := init.outsOk hu
  obtain ⟨a1, a2⟩ := hyNodeTab_spec p1 p2 init.inTab xn hn
  obtain ⟨b1, b2⟩ := hyNodeTab_spec p3 p4 init.outTab xn hn
  unfold hpTable
  rw [hpLoop_at _ _ _ _ _ hn ht', hpLoop_at _ _ _ _ _ hn ht']
  refine ⟨?_, ?_, ?_, ?_⟩
  · intro j hj; rw [a1 j hj]; simp
  · intro h; rw [a2 h]; simp
  · intro j hj; rw [b1 j hj]; simp
  · intro h; rw [b2 h]; simp

/-- the tables of the rivers balance: what flows out of a river is what flows in and the change of its volume -/
theorem C229_rivers (c : HyConf) (m : HyModel) (hm : hyInitialise c = .ok m) (v : HyVars) (hf : m.Feasible v) (flags : HpName → Bool) (xh : Nat)
    (up down soc : List (List Rat)) (h3 : WaterShown (hpPrint true flags m v (List.range m.conf.number)) xh .fUp up)
    (h4 : WaterShown (hpPrint true flags m v (List.range m.conf.number)) xh .fDown down) (h5 : WaterShown (hpPrint true flags m v (List.range m.conf.number)) xh .soc soc)
    (xr xt : Nat) (hn : xr < m.rivers.length) (ht : xt < c.noTime) :
    shownAt down xr xt * m.dt = shownAt up xr xt * m.dt + shownAt soc xr xt - shownAt soc xr (xt + 1) := by
  have init := hyInitialise_init hm
  obtain ⟨e3, hh⟩ := hp_shown flags m v xh _ _ h3
  obtain ⟨e4, -⟩ := hp_shown flags m v xh _ _ h4
  obtain ⟨e5, -⟩ := hp_shown flags m v xh _ _ h5
  subst e3 e4 e5
  have ht' : xt < m.conf.noTime := by rw [init.conf]; exact ht
  unfold hpTable
  rw [hpLoop_at _ _ _ _ _ hn ht', hpLoop_at _ _ _ _ _ hn ht', hpLoop_at _ _ _ _ _ hn (by omega), hpLoop_at _ _ _ _ _ hn (by omega)]
  exact hf.river xr hn xt ht' xh hh

/-- limits are kept as shown: no flow exceeds the maximum of its river by more than the violation shown -/
theorem C229_violations (c : HyConf) (m : HyModel) (hm : hyInitialise c = .ok m) (v : HyVars) (hf : m.Feasible v) (flags : HpName → Bool) (xh : Nat)
    (up down feas : List (List Rat)) (h3 : WaterShown (hpPrint true flags m v (List.range m.conf.number)) xh .fUp up)
    (h4 : WaterShown (hpPrint true flags m v (List.range m.conf.number)) xh .fDown down) (h5 : WaterShown (hpPrint true flags m v (List.range m.conf.number)) xh .feas feas)
    (xr xt : Nat) (r : River) (hr : m.rivers[xr]? = some r) (ht : xt < c.noTime) :
    shownAt up xr xt ≤ r.qmax + shownAt feas xr xt ∧ shownAt down xr xt ≤ r.qmax + shownAt feas xr xt ∧
    r.qmin - shownAt feas xr xt ≤ shownAt up xr xt ∧ r.qmin - shownAt feas xr xt ≤ shownAt down xr xt := by
  have init := hyInitialise_init hm
  obtain ⟨e3, hh⟩ := hp_shown flags m v xh _ _ h3
  obtain ⟨e4, -⟩ := hp_shown flags m v xh _ _ h4
  obtain ⟨e5, -⟩ := hp_shown flags m v xh _ _ h5
  subst e3 e4 e5
  have ht' : xt < m.conf.noTime := by rw [init.conf]; exact ht
  have hn : xr < m.rivers.length := (List.getElem?_eq_some_iff.mp hr).1
  unfold hpTable
  rw [hpLoop_at _ _ _ _ _ hn ht', hpLoop_at _ _ _ _ _ hn ht', hpLoop_at _ _ _ _ _ hn ht']
  exact ⟨hf.qmaxUp xr r hr xt ht' xh hh, hf.qmaxDown xr r hr xt ht' xh hh, hf.qminUp xr r hr xt ht' xh hh, hf.qminDown xr r hr xt ht' xh hh⟩

/-- every table that is asked for is shown for every scenario -/
theorem C229_complete (flags : HpName → Bool) (m : HyModel) (v : HyVars) (xh : Nat) (hx : xh < m.conf.number) (n : HpName) (hn : flags n = true) :
    ∃ t, WaterShown (hpPrint true flags m v (List.range m.conf.number)) xh n t := by
  refine ⟨hpTable m v xh n, (hpOrder.filter flags).map (fun n => (n, hpTable m v xh n)), ?_, ?_⟩
  · unfold hpPrint
    rw [if_pos rfl, List.getElem?_map, List.getElem?_range hx]
    rfl
  · exact List.mem_map.mpr ⟨n, List.mem_filter.mpr ⟨by cases n <;> decide, hn⟩, rfl⟩

theorem C229_witness : HyUser (exHyConf true [(0, 1, 500)]) ∧ ∃ m, hyInitialise (exHyConf true [(0, 1, 500)]) = .ok m ∧ m.Feasible exHyVars := C137_witness

end Pyensys
