import Verif.Lemmas.GraphNodes

/-! # C32, C33: nodes and edges of the control graph -/

namespace Pyensys

/-- **C32.** For every profile, every row number `l` and every scenario `j` of that row there is
exactly one node of level `l` that contains `j`, and its centroid is the clustered value of `j` in
that row. -/
theorem C32_one_node_per_level (rows : List (List Rat)) (l j : Nat) (row : List Rat) (v : Rat)
    (hl : rows[l]? = some row) (hj : row[j]? = some v) :
    ∃ (n : Nat) (c : Cluster), (graphNodes rows)[n]? = some c ∧ c.level = l ∧ j ∈ c.scenarios ∧ c.centroid = v ∧
      ∀ (n' : Nat) (c' : Cluster), (graphNodes rows)[n']? = some c' → c'.level = l → j ∈ c'.scenarios → n' = n := by
  have hmem : (⟨columnsWith row v, v, l⟩ : Cluster) ∈ graphNodes rows :=
    mem_graphNodes.2 ⟨row, hl, List.mem_of_getElem? hj, rfl⟩
  obtain ⟨n, hn⟩ := List.mem_iff_getElem?.1 hmem
  refine ⟨n, _, hn, rfl, mem_columnsWith.2 hj, rfl, ?_⟩
  intro n' c' h1 h2 h3
  obtain ⟨row', h4, h5, h6⟩ := mem_graphNodes.1 (List.mem_of_getElem? h1)
  rw [h2, hl] at h4
  injection h4 with h4
  subst h4
  rw [h6, mem_columnsWith, hj] at h3
  injection h3 with h3
  have hc : c' = ⟨columnsWith row v, v, l⟩ := by
    cases c'
    simp only at h2 h3 h6
    subst h2 h3
    rw [h6]
  subst hc
  have hi := (List.getElem?_eq_some_iff.1 hn).1
  have hi' := (List.getElem?_eq_some_iff.1 h1).1
  exact ((graphNodes_nodup rows).getElem_inj_iff.1 (by
    rw [(List.getElem?_eq_some_iff.1 h1).2, (List.getElem?_eq_some_iff.1 hn).2]))

/-- **C32.** Two scenarios share a node of level `l` exactly if their values in row `l` are equal. -/
theorem C32_share_iff_equal (rows : List (List Rat)) (l i j : Nat) (row : List Rat) (v w : Rat)
    (hl : rows[l]? = some row) (hi : row[i]? = some v) (hj : row[j]? = some w) :
    (∃ c ∈ graphNodes rows, c.level = l ∧ i ∈ c.scenarios ∧ j ∈ c.scenarios) ↔ v = w := by
  constructor
  · rintro ⟨c, hc, rfl, h1, h2⟩
    obtain ⟨row', h4, h5, h6⟩ := mem_graphNodes.1 hc
    rw [hl] at h4
    injection h4 with h4
    subst h4
    rw [h6, mem_columnsWith] at h1 h2
    rw [h1] at hi
    rw [h2] at hj
    injection hi with hi
    injection hj with hj
    rw [← hi, ← hj]
  · rintro rfl
    exact ⟨⟨columnsWith row v, v, l⟩, mem_graphNodes.2 ⟨row, hl, List.mem_of_getElem? hj, rfl⟩, rfl,
      mem_columnsWith.2 hi, mem_columnsWith.2 hj⟩

/-- **C32.** Every node belongs to an existing row, has at least one scenario, lists existing
scenarios of that row in increasing order without repetition, and node numbers follow the levels. -/
theorem C32_nodes_well_formed (rows : List (List Rat)) :
    (∀ c ∈ graphNodes rows, ∃ row, rows[c.level]? = some row ∧ c.scenarios ≠ [] ∧
      c.scenarios.Pairwise (· < ·) ∧ ∀ s ∈ c.scenarios, s < row.length) ∧
    (graphNodes rows).Pairwise (fun a b => a.level ≤ b.level) := by
  refine ⟨?_, (nodesFrom_sorted rows 0).1⟩
  intro c hc
  obtain ⟨row, h1, h2, h3⟩ := mem_graphNodes.1 hc
  refine ⟨row, h1, ?_, ?_, ?_⟩
  · rw [h3]
    obtain ⟨j, hj⟩ := List.mem_iff_getElem?.1 h2
    intro h
    have : j ∈ columnsWith row c.centroid := mem_columnsWith.2 hj
    rw [h] at this
    cases this
  · rw [h3]; exact columnsWith_pairwise _ _
  · intro s hs
    rw [h3, mem_columnsWith] at hs
    exact (List.getElem?_eq_some_iff.1 hs).1

/-- **C33.** For every rectangular profile with at least one scenario the graph is created without
exception, no edge twice, and there is an edge `a -> b` exactly if `b` is one level below `a` and
some scenario belongs to both. -/
theorem C33_edges (rows : List (List Rat)) (m : Nat) (hm : 0 < m) (hrect : ∀ r ∈ rows, r.length = m) :
    ∃ E, profileGraph rows = .ok (graphNodes rows, E) ∧ E.Nodup ∧
    ∀ a b, (a, b) ∈ E ↔ ∃ ca cb, (graphNodes rows)[a]? = some ca ∧ (graphNodes rows)[b]? = some cb ∧
      cb.level = ca.level + 1 ∧ ∃ s, s ∈ ca.scenarios ∧ s ∈ cb.scenarios := by
  obtain ⟨E, h1, h2, h3⟩ := profileGraph_eq rows m hm hrect
  exact ⟨E, h2, h1, h3⟩

/-- **C33.** Each scenario traces a path through all levels: for consecutive rows the (unique) nodes
that contain it are joined by an edge. -/
theorem C33_scenario_traces_path (rows : List (List Rat)) (m : Nat)
    (hrect : ∀ r ∈ rows, r.length = m) (E : List (Nat × Nat))
    (hE : profileGraph rows = .ok (graphNodes rows, E)) (j l a b : Nat) (ca cb : Cluster)
    (hj : j < m)
    (ha : (graphNodes rows)[a]? = some ca) (hb : (graphNodes rows)[b]? = some cb)
    (hla : ca.level = l) (hlb : cb.level = l + 1) (hja : j ∈ ca.scenarios) (hjb : j ∈ cb.scenarios) :
    (a, b) ∈ E := by
  obtain ⟨E', h1, _, h3⟩ := C33_edges rows m (by omega) hrect
  rw [hE] at h1
  injection h1 with h1
  injection h1 with _ h1
  subst h1
  exact (h3 a b).2 ⟨ca, cb, ha, hb, by omega, j, hja, hjb⟩

/-- **C33.** Without scenarios or with a single row the graph has no edges (and so no nodes for the
tree conversion, which then raises). -/
theorem C33_single_row (row : List Rat) (h : row ≠ []) (ord : List Nat → List Nat) (fuel iter : Nat)
    (data : Nat → Option Unit) : ∃ nodes, profileGraph [row] = .ok (nodes, []) ∧
    convertTree ord fuel iter data [] = .error .runtime := by
  obtain ⟨E, h1, _, h3⟩ := C33_edges [row] row.length (List.length_pos_iff.2 h)
    (by intro r hr; rw [List.mem_singleton] at hr; rw [hr])
  have : E = [] := by
    rw [List.eq_nil_iff_forall_not_mem]
    rintro ⟨a, b⟩ hab
    obtain ⟨ca, cb, e1, e2, e3, _⟩ := (h3 a b).1 hab
    obtain ⟨r, hr, _⟩ := mem_graphNodes.1 (List.mem_of_getElem? e2)
    have := (List.getElem?_eq_some_iff.1 hr).1
    simp only [List.length_singleton] at this
    omega
  subst this
  exact ⟨_, h1, rfl⟩

/-- a sample profile: four scenarios, three years -/
def sampleRows : List (List Rat) := [[1, 1, 1, 1], [1, 2, 2, 1], [1, 1, 3, 4]]

example : (graphNodes sampleRows).map (fun c => (c.scenarios, c.level)) =
    [([0, 1, 2, 3], 0), ([0, 3], 1), ([1, 2], 1), ([0, 1], 2), ([2], 2), ([3], 2)] := by decide +kernel
example : (profileGraph sampleRows).toOption.map (·.2) =
    some [(0, 1), (0, 2), (1, 3), (1, 5), (2, 3), (2, 4)] := by decide +kernel
example : ∀ r ∈ sampleRows, r.length = 4 := by decide +kernel

end Pyensys
