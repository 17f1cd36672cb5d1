import Verif.Props.GraphTree

/-! # C34 for profiles: from the table of clustered values to the control tree -/

namespace Pyensys

/-- level of a node of the graph of a profile -/
def levelOf (rows : List (List Rat)) (n : Nat) : Nat :=
  match (graphNodes rows)[n]? with
  | some c => c.level
  | none => 0

theorem levelOf_eq {rows : List (List Rat)} {n : Nat} {c : Cluster} (h : (graphNodes rows)[n]? = some c) :
    levelOf rows n = c.level := by
  unfold levelOf
  rw [h]

theorem profile_root (rows : List (List Rat)) (row0 : List Rat) (v : Rat) (h0 : rows[0]? = some row0)
    (hne : row0 ≠ []) (hc : ∀ x ∈ row0, x = v) :
    (graphNodes rows)[0]? = some ⟨columnsWith row0 v, v, 0⟩ ∧
    ∀ (n : Nat) (c : Cluster), (graphNodes rows)[n]? = some c → c.level = 0 → n = 0 := by
  have huniq : ∀ c ∈ graphNodes rows, c.level = 0 → c = ⟨columnsWith row0 v, v, 0⟩ := by
    intro c hcm hl
    obtain ⟨row, e1, e2, e3⟩ := mem_graphNodes.1 hcm
    rw [hl, h0] at e1
    injection e1 with e1
    subst e1
    have := hc _ e2
    cases c
    simp only at hl e3 this
    subst hl this
    rw [e3]
  have hmem : (⟨columnsWith row0 v, v, 0⟩ : Cluster) ∈ graphNodes rows := by
    obtain ⟨x, hx⟩ := List.exists_mem_of_ne_nil _ hne
    have := hc x hx
    subst this
    exact mem_graphNodes.2 ⟨row0, h0, hx, rfl⟩
  have hfirst : (graphNodes rows)[0]? = some ⟨columnsWith row0 v, v, 0⟩ := by
    cases hg : graphNodes rows with
    | nil => rw [hg] at hmem; cases hmem
    | cons c cs =>
      have hs := (nodesFrom_sorted rows 0).1
      rw [show nodesFrom 0 rows = graphNodes rows from rfl, hg, List.pairwise_cons] at hs
      have hl : c.level = 0 := by
        rw [hg] at hmem
        rcases List.mem_cons.1 hmem with h | h
        · rw [← h]
        · have := hs.1 _ h
          simp only at this
          omega
      have := huniq c (by rw [hg]; exact List.mem_cons_self) hl
      rw [this]
      rfl
  refine ⟨hfirst, ?_⟩
  intro n c hn hl
  have e := huniq c (List.mem_of_getElem? hn) hl
  rw [← e] at hfirst
  have hi := (List.getElem?_eq_some_iff.1 hn)
  have hi' := (List.getElem?_eq_some_iff.1 hfirst)
  exact (graphNodes_nodup rows).getElem_inj_iff.1 (hi.2.trans hi'.2.symm)

/-- the graph of a rectangular profile with at least two rows and a constant first row is layered -/
theorem profile_layered (rows : List (List Rat)) (m : Nat) (hm : 0 < m)
    (hrect : ∀ r ∈ rows, r.length = m) (h2 : 2 ≤ rows.length) (v : Rat)
    (hv : ∀ r, rows.head? = some r → ∀ x ∈ r, x = v) :
    ∃ E, profileGraph rows = .ok (graphNodes rows, E) ∧
      Layered E (levelOf rows) (rows.length - 1) 0 := by
  obtain ⟨E, g1, g2, g3, g4⟩ := profileGraph_eq_full rows m hm hrect
  obtain ⟨row0, h0⟩ : ∃ r, rows[0]? = some r := ⟨rows[0], by simp⟩
  have hlen0 : row0.length = m := hrect _ (List.mem_of_getElem? h0)
  have hne0 : row0 ≠ [] := by
    intro h
    rw [h] at hlen0
    simp at hlen0
    omega
  obtain ⟨r1, r2⟩ := profile_root rows row0 v h0 hne0 (hv row0 (by rw [List.head?_eq_getElem?, h0]))
  have hex : ∀ (l j : Nat), l < rows.length → j < m → ∃ (n : Nat) (c : Cluster),
      (graphNodes rows)[n]? = some c ∧ c.level = l ∧ j ∈ c.scenarios := by
    intro l j hl hj
    have hr : rows[l]? = some rows[l] := by simp [hl]
    have hlr := hrect _ (List.getElem_mem hl)
    have hjr : rows[l][j]? = some (rows[l][j]'(by omega)) := by simp [hlr, hj]
    obtain ⟨n, c, e1, e2, e3, _⟩ := C32_one_node_per_level rows l j _ _ hr hjr
    exact ⟨n, c, e1, e2, e3⟩
  have hwf : ∀ (n : Nat) (c : Cluster), (graphNodes rows)[n]? = some c → c.level < rows.length ∧
      ∃ j, j < m ∧ j ∈ c.scenarios := by
    intro n c hc
    obtain ⟨row, e1, e2, _, e3⟩ := (C32_nodes_well_formed rows).1 c (List.mem_of_getElem? hc)
    refine ⟨(List.getElem?_eq_some_iff.1 e1).1, ?_⟩
    obtain ⟨j, hj⟩ := List.exists_mem_of_ne_nil _ e2
    exact ⟨j, by rw [← hrect _ (List.mem_of_getElem? e1)]; exact e3 j hj, hj⟩
  refine ⟨E, g2, ?_⟩
  exact {
    nodup := g1
    depth := by omega
    step := by
      intro a b hab
      obtain ⟨ca, cb, e1, e2, e3, _⟩ := (g3 a b).1 hab
      rw [levelOf_eq e1, levelOf_eq e2, e3]
    rootLv := by rw [levelOf_eq r1]
    rootOnly := by
      intro a b hab hl
      obtain ⟨ca, cb, e1, e2, e3, _⟩ := (g3 a b).1 hab
      rw [levelOf_eq e1] at hl
      exact r2 a ca e1 hl
    hasPred := by
      intro a b hab hl
      obtain ⟨ca, cb, e1, e2, e3, _⟩ := (g3 a b).1 hab
      rw [levelOf_eq e1] at hl
      obtain ⟨hlt, j, hj, hjc⟩ := hwf a ca e1
      obtain ⟨n, c, f1, f2, f3⟩ := hex (ca.level - 1) j (by omega) hj
      exact ⟨n, (g3 n a).2 ⟨c, ca, f1, e1, by omega, j, f3, hjc⟩⟩
    hasSucc := by
      intro a b hab hl
      obtain ⟨ca, cb, e1, e2, e3, _⟩ := (g3 a b).1 hab
      rw [levelOf_eq e2] at hl
      obtain ⟨hlt, j, hj, hjc⟩ := hwf b cb e2
      obtain ⟨n, c, f1, f2, f3⟩ := hex (cb.level + 1) j (by omega) hj
      exact ⟨n, (g3 b n).2 ⟨cb, c, e2, f1, f2, j, hjc, f3⟩⟩
    bounded := by
      intro a b hab
      obtain ⟨ca, cb, e1, e2, e3, _⟩ := (g3 a b).1 hab
      rw [levelOf_eq e2]
      have := (hwf b cb e2).1
      omega
    rootFirst := by
      obtain ⟨rest, hr⟩ := g4 h2
      obtain ⟨n1, c1, f1, f2, f3⟩ := hex 1 0 (by omega) hm
      have h00 : (0 : Nat) ∈ columnsWith row0 v := by
        rw [mem_columnsWith]
        have h0m : 0 < row0.length := by omega
        rw [List.getElem?_eq_getElem h0m]
        congr 1
        exact hv row0 (by rw [List.head?_eq_getElem?, h0]) _ (List.getElem_mem _)
      have hedge : (0, n1) ∈ edgesOfLevel (graphNodes rows) (atLevel (graphNodes rows).zipIdx 0)
          (atLevel (graphNodes rows).zipIdx 1) := by
        rw [mem_edgesOfLevel]
        refine ⟨mem_atLevel.2 ⟨_, r1, rfl⟩, mem_atLevel.2 ⟨_, f1, f2⟩, 0, ?_, ?_⟩
        · unfold scenariosOf
          rw [r1]
          exact h00
        · unfold scenariosOf
          rw [f1]
          exact f3
      cases hb : edgesOfLevel (graphNodes rows) (atLevel (graphNodes rows).zipIdx 0)
          (atLevel (graphNodes rows).zipIdx 1) with
      | nil => rw [hb] at hedge; cases hedge
      | cons e es =>
        rw [hr, hb]
        have : (e.1, e.2) ∈ edgesOfLevel (graphNodes rows) (atLevel (graphNodes rows).zipIdx 0)
            (atLevel (graphNodes rows).zipIdx 1) := by rw [hb]; exact List.mem_cons_self
        obtain ⟨c, q1, q2⟩ := mem_atLevel.1 (mem_edgesOfLevel.1 this).1
        have := r2 _ c q1 q2
        simp [this] }

/-- the sequence of graph nodes a scenario passes through, row after row -/
def Follows (nodes : List Cluster) (j : Nat) (p : List Nat) : Prop :=
  ∀ (i n : Nat), p[i]? = some n → ∃ c, nodes[n]? = some c ∧ c.level = i ∧ j ∈ c.scenarios

/-- **C34, for profiles.** For every rectangular profile with at least two years, at least one
scenario and one common value in the first year, the tree built from it is created without exception;
it is rooted in node 0; each of its nodes carries the data of a node of the graph of the profile; and
for every scenario there is exactly one root-to-leaf path of the tree, with one node per year, all of
whose nodes' data list that scenario *and* unfold the scenario's own nodes. -/
theorem C34_profile (rows : List (List Rat)) (m : Nat) (hm : 0 < m)
    (hrect : ∀ r ∈ rows, r.length = m) (h2 : 2 ≤ rows.length) (v : Rat)
    (hv : ∀ r, rows.head? = some r → ∀ x ∈ r, x = v)
    (ord : List Nat → List Nat) (hord : SetOrder ord) (fuel iter : Nat) (hf : rows.length ≤ fuel)
    (hi : rows.length ≤ iter) :
    ∃ E data' T org, profileGraph rows = .ok (graphNodes rows, E) ∧
      convertTree ord fuel iter (fun n => (graphNodes rows)[n]?) E = .ok (data', T) ∧
      RootedTree T 0 ∧ Unfolds T E org 0 ∧
      (∀ n, IsNode T n ↔ (data' n).isSome) ∧
      (∀ n, IsNode T n → ∃ c, (graphNodes rows)[org n]? = some c ∧ data' n = some c) ∧
      ∀ j, j < m → ∃ q, (PathFrom T 0 q ∧ q.length = rows.length ∧ Follows (graphNodes rows) j (q.map org)) ∧
        (∀ (i n : Nat), q[i]? = some n → ∃ c, data' n = some c ∧ c.level = i ∧ j ∈ c.scenarios) ∧
        ∀ q', PathFrom T 0 q' → q'.length = rows.length →
          (∀ (i n : Nat), q'[i]? = some n → ∃ c, data' n = some c ∧ c.level = i ∧ j ∈ c.scenarios) → q' = q := by
  obtain ⟨E, hE, hL⟩ := profile_layered rows m hm hrect h2 v hv
  have hEm : ∀ a b, (a, b) ∈ E ↔ ∃ ca cb, (graphNodes rows)[a]? = some ca ∧ (graphNodes rows)[b]? = some cb ∧
      cb.level = ca.level + 1 ∧ ∃ s, s ∈ ca.scenarios ∧ s ∈ cb.scenarios := by
    obtain ⟨E', g1, _, g3⟩ := C33_edges rows m hm hrect
    rw [hE] at g1
    injection g1 with g1
    injection g1 with _ g1
    subst g1
    exact g3
  have hnode : ∀ n, IsNode E n → ∃ c, (graphNodes rows)[n]? = some c := by
    rintro n ⟨⟨a, b⟩, he, hab⟩
    obtain ⟨ca, cb, e1, e2, _⟩ := (hEm a b).1 he
    simp only at hab
    rcases hab with rfl | rfl
    · exact ⟨ca, e1⟩
    · exact ⟨cb, e2⟩
  have hnode' : ∀ (n : Nat) (c : Cluster), (graphNodes rows)[n]? = some c → IsNode E n := by
    intro n c hc
    obtain ⟨row, e1, e2, _, e3⟩ := (C32_nodes_well_formed rows).1 c (List.mem_of_getElem? hc)
    obtain ⟨j, hj⟩ := List.exists_mem_of_ne_nil _ e2
    have hjm : j < m := by rw [← hrect _ (List.mem_of_getElem? e1)]; exact e3 j hj
    have hl := (List.getElem?_eq_some_iff.1 e1).1
    have hex : ∀ (l : Nat), l < rows.length → ∃ (n : Nat) (c : Cluster),
        (graphNodes rows)[n]? = some c ∧ c.level = l ∧ j ∈ c.scenarios := by
      intro l hl
      have hr : rows[l]? = some rows[l] := by simp [hl]
      have hlr := hrect _ (List.getElem_mem hl)
      have hjr : rows[l][j]? = some (rows[l][j]'(by omega)) := by simp [hlr, hjm]
      obtain ⟨n, c, e1, e2, e3, _⟩ := C32_one_node_per_level rows l j _ _ hr hjr
      exact ⟨n, c, e1, e2, e3⟩
    by_cases h0 : c.level = 0
    · obtain ⟨n', c', f1, f2, f3⟩ := hex 1 (by omega)
      exact ⟨_, (hEm n n').2 ⟨c, c', hc, f1, by omega, j, hj, f3⟩, .inl rfl⟩
    · obtain ⟨n', c', f1, f2, f3⟩ := hex (c.level - 1) (by omega)
      exact ⟨_, (hEm n' n).2 ⟨c', c, f1, hc, by omega, j, f3, hj⟩, .inr rfl⟩
  obtain ⟨data', T, org, h1, h3, h4, hdom, h5⟩ := C34_conversion E _ _ 0 hL (fun n => (graphNodes rows)[n]?)
    (fun n => by
      constructor
      · intro hn
        obtain ⟨c, hc⟩ := hnode n hn
        simp only [hc]
        rfl
      · intro hs
        obtain ⟨c, hc⟩ := Option.isSome_iff_exists.1 hs
        exact hnode' n c hc) ord hord fuel iter (by omega) (by omega)
  obtain ⟨b0, hb0⟩ := hL.root_edge
  -- every node of a path of T from the root is a node of T
  have hTnode : ∀ q, PathFrom T 0 q → 2 ≤ q.length → ∀ n ∈ q, IsNode T n := by
    have gen : ∀ (a : Nat) (q : List Nat), PathFrom T a q → IsNode T a → ∀ n ∈ q, IsNode T n := by
      intro a q hq
      induction hq with
      | single n =>
        intro hn x hx
        rw [List.mem_singleton] at hx
        rw [hx]; exact hn
      | step he hp ih =>
        intro hn x hx
        rcases List.mem_cons.1 hx with rfl | hx
        · exact hn
        · exact ih ⟨_, he, .inr rfl⟩ x hx
    intro q hq hlen
    cases hq with
    | single => simp at hlen
    | step he hp => exact gen _ _ (.step he hp) ⟨_, he, .inl rfl⟩
  have horg : ∀ q, PathFrom T 0 q → 2 ≤ q.length → ∀ n ∈ q, ∃ c, (graphNodes rows)[org n]? = some c ∧ data' n = some c := by
    intro q hq hlen n hn
    have hd := h5 n (hTnode q hq hlen n hn)
    have hdown := h4.down q hq
    have : ∀ (a : Nat) (p : List Nat), PathFrom E a p → 2 ≤ p.length → ∀ x ∈ p, IsNode E x := by
      have gen : ∀ (a : Nat) (q : List Nat), PathFrom E a q → IsNode E a → ∀ n ∈ q, IsNode E n := by
        intro a q hq
        induction hq with
        | single n =>
          intro hn x hx
          rw [List.mem_singleton] at hx
          rw [hx]; exact hn
        | step he hp ih =>
          intro hn x hx
          rcases List.mem_cons.1 hx with rfl | hx
          · exact hn
          · exact ih ⟨_, he, .inr rfl⟩ x hx
      intro a p hp hl
      cases hp with
      | single => simp at hl
      | step he hp => exact gen _ _ (.step he hp) ⟨_, he, .inl rfl⟩
    obtain ⟨c, hc⟩ := hnode _ (this 0 _ hdown (by simpa using hlen) (org n) (List.mem_map_of_mem hn))
    refine ⟨c, hc, ?_⟩
    rw [hd, hc]
  refine ⟨E, data', T, org, hE, h1, h3, h4, hdom, ?_, ?_⟩
  · intro n hn
    obtain ⟨p, hp, hl⟩ := h3.reached n hn
    by_cases hlen : 2 ≤ p.length
    · exact horg p hp hlen n (List.mem_of_getLast? hl)
    · -- the node is the root
      cases hp with
      | single =>
        have : (0 : Nat) = n := by simpa using hl
        subst this
        have hd := h5 0 hn
        rw [h4.rootOrg] at hd ⊢
        obtain ⟨c, hc⟩ := hnode 0 ⟨_, hb0, .inl rfl⟩
        exact ⟨c, hc, by rw [hd, hc]⟩
      | step he hp =>
        exfalso
        have := hp.ne_nil
        rw [← List.length_pos_iff] at this
        simp only [List.length_cons] at hlen
        omega
  · intro j hj
    -- the scenario's path in the graph, built downwards
    have hex : ∀ l, l < rows.length → ∃ (n : Nat) (c : Cluster), (graphNodes rows)[n]? = some c ∧
        c.level = l ∧ j ∈ c.scenarios ∧ ∀ (n' : Nat) (c' : Cluster), (graphNodes rows)[n']? = some c' →
        c'.level = l → j ∈ c'.scenarios → n' = n := by
      intro l hl
      have hr : rows[l]? = some rows[l] := by simp [hl]
      have hlr := hrect _ (List.getElem_mem hl)
      have hjr : rows[l][j]? = some (rows[l][j]'(by omega)) := by simp [hlr, hj]
      obtain ⟨n, c, e1, e2, e3, _, e4⟩ := C32_one_node_per_level rows l j _ _ hr hjr
      exact ⟨n, c, e1, e2, e3, e4⟩
    have hbuild : ∀ (d l a : Nat) (ca : Cluster), l + d + 1 = rows.length → (graphNodes rows)[a]? = some ca →
        ca.level = l → j ∈ ca.scenarios → ∃ p, PathFrom E a p ∧ p.length = d + 1 ∧
        ∀ (i n : Nat), p[i]? = some n → ∃ c, (graphNodes rows)[n]? = some c ∧ c.level = l + i ∧ j ∈ c.scenarios := by
      intro d
      induction d with
      | zero =>
        intro l a ca _ e1 e2 e3
        refine ⟨[a], .single a, rfl, ?_⟩
        intro i n hn
        cases i with
        | zero =>
          injection hn with hn
          subst hn
          exact ⟨ca, e1, by omega, e3⟩
        | succ i => simp at hn
      | succ d ih =>
        intro l a ca hl e1 e2 e3
        obtain ⟨b, cb, f1, f2, f3, _⟩ := hex (l + 1) (by omega)
        obtain ⟨p, q1, q2, q3⟩ := ih (l + 1) b cb (by omega) f1 f2 f3
        refine ⟨a :: p, .step ((hEm a b).2 ⟨ca, cb, e1, f1, by omega, j, e3, f3⟩) q1, by simp [q2], ?_⟩
        intro i n hn
        cases i with
        | zero =>
          injection hn with hn
          subst hn
          exact ⟨ca, e1, by omega, e3⟩
        | succ i =>
          obtain ⟨c, w1, w2, w3⟩ := q3 i n (by simpa using hn)
          exact ⟨c, w1, by omega, w3⟩
    obtain ⟨n0, c0, k1, k2, k3, _⟩ := hex 0 (by omega)
    have hn0 : n0 = 0 := by
      obtain ⟨row0, h0⟩ : ∃ r, rows[0]? = some r := ⟨rows[0], by simp⟩
      have hlen0 : row0.length = m := hrect _ (List.mem_of_getElem? h0)
      have hne0 : row0 ≠ [] := by
        intro h
        rw [h] at hlen0
        simp at hlen0
        omega
      exact (profile_root rows row0 v h0 hne0 (hv row0 (by rw [List.head?_eq_getElem?, h0]))).2 n0 c0 k1 k2
    subst hn0
    obtain ⟨p, p1, p2, p3⟩ := hbuild (rows.length - 1) 0 0 c0 (by omega) k1 k2 k3
    obtain ⟨q, ⟨q1, q2⟩, q3⟩ := h4.lift p p1
    have hql : q.length = rows.length := by
      have := congrArg List.length q2
      rw [List.length_map] at this
      omega
    refine ⟨q, ⟨q1, hql, ?_⟩, ?_, ?_⟩
    · rw [q2]
      intro i n hn
      obtain ⟨c, w1, w2, w3⟩ := p3 i n hn
      exact ⟨c, w1, by omega, w3⟩
    · intro i n hn
      obtain ⟨c, hc, hd⟩ := horg q q1 (by omega) n (List.mem_of_getElem? hn)
      have hpi : p[i]? = some (org n) := by rw [← q2, List.getElem?_map, hn]; rfl
      obtain ⟨c', w1, w2, w3⟩ := p3 i _ hpi
      rw [hc] at w1
      injection w1 with w1
      subst w1
      exact ⟨c, hd, by omega, w3⟩
    · intro q' r1 r2 r3
      refine q3 q' r1 ?_
      apply List.ext_getElem?
      intro i
      rw [List.getElem?_map]
      by_cases hi : i < rows.length
      · have e1 : q'[i]? = some (q'[i]'(by omega)) := by simp [r2, hi]
        have e2 : p[i]? = some (p[i]'(by omega)) := by
          rw [List.getElem?_eq_getElem]
        rw [e1, e2]
        obtain ⟨c, w1, w2, w3⟩ := r3 i _ e1
        obtain ⟨c1, hc1, hd1⟩ := horg q' r1 (by omega) _ (List.mem_of_getElem? e1)
        rw [hd1] at w1
        injection w1 with w1
        subst w1
        obtain ⟨c', x1, x2, x3⟩ := p3 i _ e2
        obtain ⟨n, cn, _, _, _, u⟩ := hex i hi
        have u1 := u _ _ hc1 w2 w3
        have u2 := u _ _ x1 (by omega) x3
        simp only [Option.map_some]
        rw [u1, u2]
      · rw [List.getElem?_eq_none (by omega), List.getElem?_eq_none (by omega)]
        rfl

end Pyensys
