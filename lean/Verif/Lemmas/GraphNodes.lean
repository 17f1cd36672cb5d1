import Verif.Model.Graph
import Mathlib.Data.List.Basic
import Mathlib.Data.List.Nodup
import Mathlib.Data.List.Range
import Mathlib.Algebra.Order.Field.Rat

/-! # Lemmas on node and edge creation -/

namespace Pyensys

/-- scenarios (columns) of `pre` with value `v` -/
def scenWith (pre : List (Nat × Rat)) (v : Rat) : List Nat := (pre.filter (fun p => p.2 = v)).map (·.1)

theorem find?_zipIdx {vs : List Rat} (hd : vs.Nodup) (v : Rat) (k : Nat) :
    (vs.zipIdx k).find? (fun e => e.1 = v) =
      if v ∈ vs then some (v, k + vs.idxOf v) else none := by
  induction vs generalizing k with
  | nil => simp
  | cons a vs ih =>
    rw [List.nodup_cons] at hd
    rw [List.zipIdx_cons, List.find?_cons]
    by_cases h : a = v
    · subst h; simp
    · simp only [h, decide_false]
      rw [ih hd.2]
      have h' : v ≠ a := fun e => h e.symm
      simp only [List.mem_cons, h', false_or]
      split
      · rw [List.idxOf_cons_ne _ h]
        congr 2; omega
      · rfl

theorem rowFold {level : Nat} (cols : List (Nat × Rat)) : ∀ (pre : List (Nat × Rat)) (vs : List Rat)
    (st : RowState), vs.Nodup → (∀ v, v ∈ vs ↔ v ∈ pre.map (·.2)) → st.dict = vs.zipIdx →
    st.nodes = vs.map (fun v => ⟨scenWith pre v, v, level⟩) →
    ∃ vs' : List Rat, vs'.Nodup ∧ (∀ v, v ∈ vs' ↔ v ∈ (pre ++ cols).map (·.2)) ∧
      (cols.foldl (rowStep level) st).nodes = vs'.map (fun v => ⟨scenWith (pre ++ cols) v, v, level⟩) := by
  induction cols with
  | nil => intro pre vs st h1 h2 h3 h4; exact ⟨vs, h1, by simpa using h2, by simpa using h4⟩
  | cons c cols ih =>
    intro pre vs st h1 h2 h3 h4
    rw [List.foldl_cons]
    by_cases hv : c.2 ∈ vs
    · have hf : st.dict.find? (fun e => e.1 = c.2) = some (c.2, vs.idxOf c.2) := by
        rw [h3, find?_zipIdx h1]; simp [hv]
      have := ih (pre ++ [c]) vs (rowStep level st c) h1
        (by intro v; rw [h2]; simp only [List.map_append, List.map_cons, List.map_nil, List.mem_append,
              List.mem_singleton]
            constructor
            · exact .inl
            · rintro (h | rfl)
              · exact h
              · exact (h2 _).1 hv)
        (by unfold rowStep; rw [hf]; exact h3)
        (by
          unfold rowStep; rw [hf]
          simp only [h4]
          apply List.ext_getElem
          · simp
          · intro i hi1 hi2
            simp only [List.length_map] at hi2
            rw [List.getElem_modify]
            simp only [List.getElem_map]
            by_cases hi : vs.idxOf c.2 = i
            · subst hi
              simp [scenWith, List.filter_append]
            · have hne : c.2 ≠ vs[i] := by
                intro e
                apply hi
                rw [e]
                exact h1.idxOf_getElem i hi2
              simp [hi, scenWith, List.filter_append, hne])
      obtain ⟨vs', a, b, d⟩ := this
      exact ⟨vs', a, by simpa using b, by simpa using d⟩
    · have hf : st.dict.find? (fun e => e.1 = c.2) = none := by
        rw [h3, find?_zipIdx h1]; simp [hv]
      have hlen : st.nodes.length = vs.length := by rw [h4]; simp
      have := ih (pre ++ [c]) (vs ++ [c.2]) (rowStep level st c)
        (by rw [List.nodup_append]
            refine ⟨h1, by simp, ?_⟩
            intro x hx y hy e
            rw [List.mem_singleton] at hy; subst hy; subst e; exact hv hx)
        (by intro v; simp only [List.map_append, List.map_cons, List.map_nil, List.mem_append,
              List.mem_singleton, h2])
        (by unfold rowStep; rw [hf]; simp only [h3, hlen, List.zipIdx_append]; simp)
        (by
          unfold rowStep; rw [hf]
          simp only [h4, List.map_append, List.map_cons, List.map_nil]
          congr 1
          · apply List.map_congr_left
            intro v hvm
            have hne : c.2 ≠ v := fun e => hv (e ▸ hvm)
            simp [scenWith, List.filter_append, hne]
          · have : scenWith pre c.2 = [] := by
              unfold scenWith
              rw [List.map_eq_nil_iff, List.filter_eq_nil_iff]
              intro p hp hpe
              simp only [decide_eq_true_eq] at hpe
              exact hv ((h2 _).2 (hpe ▸ List.mem_map_of_mem hp))
            have h2 : scenWith (pre ++ [c]) c.2 = [c.1] := by
              unfold scenWith at *
              rw [List.filter_append, List.map_append, this]; simp
            rw [h2])
      obtain ⟨vs', a, b, d⟩ := this
      exact ⟨vs', a, by simpa using b, by simpa using d⟩

/-- columns of a row with a given value -/
def columnsWith (row : List Rat) (v : Rat) : List Nat :=
  (row.zipIdx.filter (fun p => p.1 = v)).map (·.2)

theorem mem_columnsWith {row : List Rat} {v : Rat} {j : Nat} :
    j ∈ columnsWith row v ↔ row[j]? = some v := by
  unfold columnsWith
  simp only [List.mem_map, List.mem_filter, decide_eq_true_eq]
  constructor
  · rintro ⟨⟨a, i⟩, ⟨h1, rfl⟩, rfl⟩
    have := List.mem_zipIdx_iff_getElem?.1 h1
    simpa using this
  · intro h
    exact ⟨(v, j), ⟨List.mem_zipIdx_iff_getElem?.2 (by simpa using h), rfl⟩, rfl⟩

theorem columnsWith_pairwise (row : List Rat) (v : Rat) : (columnsWith row v).Pairwise (· < ·) := by
  unfold columnsWith
  have h : (row.zipIdx.map (·.2)).Pairwise (· < ·) := by
    rw [List.zipIdx_map_snd]
    exact List.pairwise_lt_range' ..
  exact h.sublist (List.filter_sublist.map _)

theorem rowNodes_eq (level : Nat) (row : List Rat) : ∃ vs : List Rat, vs.Nodup ∧
    (∀ v, v ∈ vs ↔ v ∈ row) ∧ rowNodes level row = vs.map (fun v => ⟨columnsWith row v, v, level⟩) := by
  obtain ⟨vs, h1, h2, h3⟩ := rowFold (level := level) (row.zipIdx.map (fun p => (p.2, p.1))) [] [] {}
    (by simp) (by simp) rfl rfl
  refine ⟨vs, h1, ?_, ?_⟩
  · intro v
    rw [h2]
    simp only [List.nil_append, List.map_map]
    have : ((fun x : Nat × Rat => x.2) ∘ fun p : Rat × Nat => (p.2, p.1)) = Prod.fst := rfl
    rw [this, List.zipIdx_map_fst]
  · unfold rowNodes
    rw [h3]
    apply List.map_congr_left
    intro v _
    congr 1
    simp [scenWith, columnsWith, List.filter_map, List.map_map, Function.comp_def]

/-! ### all rows -/

theorem mem_nodesFrom {c : Cluster} (rows : List (List Rat)) : ∀ (k : Nat),
    c ∈ nodesFrom k rows ↔ ∃ (i : Nat) (row : List Rat), rows[i]? = some row ∧ c ∈ rowNodes (k + i) row := by
  induction rows with
  | nil => intro k; simp [nodesFrom]
  | cons r rows ih =>
    intro k
    simp only [nodesFrom, List.mem_append, ih]
    constructor
    · rintro (h | ⟨i, row, h1, h2⟩)
      · exact ⟨0, r, rfl, h⟩
      · exact ⟨i + 1, row, by simpa using h1, by rwa [show k + (i + 1) = k + 1 + i by omega]⟩
    · rintro ⟨i, row, h1, h2⟩
      cases i with
      | zero => simp at h1; subst h1; exact .inl h2
      | succ i => exact .inr ⟨i, row, by simpa using h1, by rwa [show k + 1 + i = k + (i + 1) by omega]⟩

theorem mem_rowNodes {level : Nat} {row : List Rat} {c : Cluster} :
    c ∈ rowNodes level row ↔ c.centroid ∈ row ∧ c.scenarios = columnsWith row c.centroid ∧
      c.level = level := by
  obtain ⟨vs, _, h2, h3⟩ := rowNodes_eq level row
  rw [h3, List.mem_map]
  constructor
  · rintro ⟨v, hv, rfl⟩
    exact ⟨(h2 v).1 hv, rfl, rfl⟩
  · rintro ⟨h, e1, e2⟩
    refine ⟨c.centroid, (h2 _).2 h, ?_⟩
    cases c
    simp only at e1 e2
    rw [e1, e2]

theorem mem_graphNodes {rows : List (List Rat)} {c : Cluster} :
    c ∈ graphNodes rows ↔ ∃ row, rows[c.level]? = some row ∧ c.centroid ∈ row ∧
      c.scenarios = columnsWith row c.centroid := by
  unfold graphNodes
  rw [mem_nodesFrom]
  constructor
  · rintro ⟨i, row, h1, h2⟩
    rw [mem_rowNodes] at h2
    obtain ⟨h3, h4, h5⟩ := h2
    rw [Nat.zero_add] at h5
    exact ⟨row, h5 ▸ h1, h3, h4⟩
  · rintro ⟨row, h1, h2, h3⟩
    exact ⟨c.level, row, h1, mem_rowNodes.2 ⟨h2, h3, by omega⟩⟩

theorem rowNodes_nodup (level : Nat) (row : List Rat) : (rowNodes level row).Nodup := by
  obtain ⟨vs, h1, _, h3⟩ := rowNodes_eq level row
  rw [h3]
  refine h1.map ?_
  intro a b h
  have := congrArg Cluster.centroid h
  exact this

theorem nodesFrom_sorted (rows : List (List Rat)) : ∀ k, (nodesFrom k rows).Pairwise
    (fun a b => a.level ≤ b.level) ∧ (nodesFrom k rows).Nodup := by
  induction rows with
  | nil => intro k; exact ⟨.nil, .nil⟩
  | cons r rows ih =>
    intro k
    have hl : ∀ c ∈ rowNodes k r, c.level = k := fun c h => (mem_rowNodes.1 h).2.2
    have hr : ∀ c ∈ nodesFrom (k + 1) rows, k + 1 ≤ c.level := by
      intro c h
      obtain ⟨i, row, _, h2⟩ := (mem_nodesFrom rows (k + 1)).1 h
      have := (mem_rowNodes.1 h2).2.2
      omega
    constructor
    · simp only [nodesFrom]
      rw [List.pairwise_append]
      refine ⟨?_, (ih _).1, ?_⟩
      · rw [List.pairwise_iff_getElem]
        intro i j hi hj _
        rw [hl _ (List.getElem_mem hi), hl _ (List.getElem_mem hj)]
      · intro a ha b hb
        have := hl a ha; have := hr b hb; omega
    · simp only [nodesFrom]
      rw [List.nodup_append]
      refine ⟨rowNodes_nodup _ _, (ih _).2, ?_⟩
      intro a ha b hb e
      subst e
      have := hl a ha; have := hr a hb; omega

theorem graphNodes_nodup (rows : List (List Rat)) : (graphNodes rows).Nodup := (nodesFrom_sorted rows 0).2

/-! ### levels -/

/-- positions of the elements of `l` (numbered from `k`) with a given level -/
def atLevel (nodes : List (Cluster × Nat)) (l : Nat) : List Nat :=
  (nodes.filter (fun p => p.1.level = l)).map (·.2)

theorem levelsFold (cols : List (Cluster × Nat)) : ∀ (pre : List (Cluster × Nat)) (ls : List Nat)
    (d : List (Nat × List Nat)), ls.Nodup → (∀ l, l ∈ ls ↔ ∃ p ∈ pre, p.1.level = l) →
    d = ls.map (fun l => (l, atLevel pre l)) →
    ∃ ls' : List Nat, ls'.Nodup ∧ (∀ l, l ∈ ls' ↔ ∃ p ∈ pre ++ cols, p.1.level = l) ∧
    cols.foldl (fun d p =>
      match d.find? (fun e => e.1 = p.1.level) with
      | none => d ++ [(p.1.level, [p.2])]
      | some _ => d.map (fun e => if e.1 = p.1.level then (e.1, e.2 ++ [p.2]) else e)) d =
      ls'.map (fun l => (l, atLevel (pre ++ cols) l)) := by
  induction cols with
  | nil => intro pre ls d h1 h2 h3; exact ⟨ls, h1, by simpa using h2, by simpa using h3⟩
  | cons c cols ih =>
    intro pre ls d h1 h2 h3
    rw [List.foldl_cons]
    by_cases hv : c.1.level ∈ ls
    · have hf : ∃ e, d.find? (fun e => e.1 = c.1.level) = some e := by
        cases hh : d.find? (fun e => e.1 = c.1.level) with
        | some e => exact ⟨e, rfl⟩
        | none =>
          exfalso
          rw [List.find?_eq_none] at hh
          exact hh (c.1.level, atLevel pre c.1.level)
            (by rw [h3]; exact List.mem_map_of_mem (f := fun l => (l, atLevel pre l)) hv) (by simp)
      obtain ⟨e, he⟩ := hf
      rw [he]
      obtain ⟨ls', a, b, e'⟩ := ih (pre ++ [c]) ls _ h1
        (by intro l; rw [h2]; simp only [List.mem_append, List.mem_singleton]
            constructor
            · rintro ⟨p, hp, e⟩; exact ⟨p, .inl hp, e⟩
            · rintro ⟨p, hp | rfl, e⟩
              · exact ⟨p, hp, e⟩
              · exact (h2 l).1 (e ▸ hv))
        (show d.map (fun e => if e.1 = c.1.level then (e.1, e.2 ++ [c.2]) else e) = _ by
          rw [h3, List.map_map]
          apply List.map_congr_left
          intro l _
          by_cases hl : l = c.1.level
          · simp [hl, atLevel, List.filter_append]
          · have : ¬ c.1.level = l := fun e => hl e.symm
            simp [hl, this, atLevel, List.filter_append])
      exact ⟨ls', a, by simpa using b, by simpa using e'⟩
    · have hf : d.find? (fun e => e.1 = c.1.level) = none := by
        rw [List.find?_eq_none]
        intro x hx hxe
        rw [h3, List.mem_map] at hx
        obtain ⟨l, hl, rfl⟩ := hx
        simp only [decide_eq_true_eq] at hxe
        exact hv (hxe ▸ hl)
      rw [hf]
      obtain ⟨ls', a, b, e'⟩ := ih (pre ++ [c]) (ls ++ [c.1.level]) _
        (by rw [List.nodup_append]
            refine ⟨h1, by simp, ?_⟩
            intro x hx y hy e
            rw [List.mem_singleton] at hy; subst hy; subst e; exact hv hx)
        (by intro l; simp only [List.mem_append, List.mem_singleton, h2]
            constructor
            · rintro (⟨p, hp, e⟩ | rfl)
              · exact ⟨p, .inl hp, e⟩
              · exact ⟨c, .inr rfl, rfl⟩
            · rintro ⟨p, hp | rfl, e⟩
              · exact .inl ⟨p, hp, e⟩
              · exact .inr e.symm)
        (show d ++ [(c.1.level, [c.2])] = _ by
          rw [h3, List.map_append]
          congr 1
          · apply List.map_congr_left
            intro l hl
            have : ¬ c.1.level = l := fun e => hv (e ▸ hl)
            simp [this, atLevel, List.filter_append]
          · have : atLevel pre c.1.level = [] := by
              unfold atLevel
              rw [List.map_eq_nil_iff, List.filter_eq_nil_iff]
              intro p hp hpe
              simp only [decide_eq_true_eq] at hpe
              exact hv ((h2 _).2 ⟨p, hp, hpe⟩)
            have h2 : atLevel (pre ++ [c]) c.1.level = [c.2] := by
              unfold atLevel at *
              rw [List.filter_append, List.map_append, this]; simp
            simp [h2])
      exact ⟨ls', a, by simpa using b, by simpa using e'⟩

theorem nodesAllLevels_eq (nodes : List Cluster) : ∃ ls : List Nat, ls.Nodup ∧
    (∀ l, l ∈ ls ↔ ∃ c ∈ nodes, c.level = l) ∧
    nodesAllLevels nodes = ls.map (fun l => (l, atLevel nodes.zipIdx l)) := by
  obtain ⟨ls, h1, h2, h3⟩ := levelsFold nodes.zipIdx [] [] [] (by simp) (by simp) rfl
  refine ⟨ls, h1, ?_, h3⟩
  intro l
  rw [h2]
  simp only [List.nil_append]
  constructor
  · rintro ⟨p, hp, e⟩
    exact ⟨p.1, by simpa using List.mem_of_getElem? (List.mem_zipIdx_iff_getElem?.1 hp), e⟩
  · rintro ⟨c, hc, e⟩
    obtain ⟨i, hi⟩ := List.mem_iff_getElem?.1 hc
    exact ⟨(c, i), List.mem_zipIdx_iff_getElem?.2 (by simpa using hi), e⟩

theorem mem_atLevel {nodes : List Cluster} {l n : Nat} :
    n ∈ atLevel nodes.zipIdx l ↔ ∃ c, nodes[n]? = some c ∧ c.level = l := by
  unfold atLevel
  simp only [List.mem_map, List.mem_filter, decide_eq_true_eq]
  constructor
  · rintro ⟨⟨c, i⟩, ⟨h1, h2⟩, rfl⟩
    exact ⟨c, by simpa using List.mem_zipIdx_iff_getElem?.1 h1, h2⟩
  · rintro ⟨c, h1, h2⟩
    exact ⟨(c, n), ⟨List.mem_zipIdx_iff_getElem?.2 (by simpa using h1), h2⟩, rfl⟩

theorem atLevel_nodup (nodes : List Cluster) (l : Nat) : (atLevel nodes.zipIdx l).Nodup := by
  unfold atLevel
  have h : (nodes.zipIdx.map (·.2)).Nodup := by
    rw [List.zipIdx_map_snd]; exact List.nodup_range'
  exact h.sublist (List.filter_sublist.map _)

theorem foldlM_ok_append {α β : Type} (f : α → Except PyErr (List β)) (g : α → List β) (l : List α)
    (h : ∀ a ∈ l, f a = .ok (g a)) : ∀ acc, l.foldlM (fun acc a => do
      let r ← f a
      return acc ++ r) acc = (.ok (acc ++ l.flatMap g) : Except PyErr (List β)) := by
  induction l with
  | nil => intro acc; simp; rfl
  | cons a l ih =>
    intro acc
    rw [List.foldlM_cons, h a List.mem_cons_self]
    show l.foldlM _ (acc ++ g a) = _
    rw [ih (fun b hb => h b (List.mem_cons_of_mem _ hb))]
    simp

/-- If the levels in use are `0 .. R-1`, the edge list is the concatenation over the levels. -/
theorem graphEdges_eq (nodes : List Cluster) (R : Nat)
    (hR : ∀ l, (∃ c ∈ nodes, c.level = l) ↔ l < R) :
    graphEdges nodes = .ok ((List.range (R - 1)).flatMap (fun l =>
      edgesOfLevel nodes (atLevel nodes.zipIdx l) (atLevel nodes.zipIdx (l + 1)))) := by
  obtain ⟨ls, h1, h2, h3⟩ := nodesAllLevels_eq nodes
  have hperm : ls.Perm (List.range R) := by
    rw [List.perm_ext_iff_of_nodup h1 List.nodup_range]
    intro l; rw [h2, hR, List.mem_range]
  have hlen : (nodesAllLevels nodes).length = R := by rw [h3]; simp [hperm.length_eq]
  have hget : ∀ l, l < R → levelNodes (nodesAllLevels nodes) l = .ok (atLevel nodes.zipIdx l) := by
    intro l hl
    unfold levelNodes
    have : (nodesAllLevels nodes).find? (fun e => e.1 = l) = some (l, atLevel nodes.zipIdx l) := by
      rw [h3]
      have hm : l ∈ ls := hperm.mem_iff.2 (List.mem_range.2 hl)
      clear h3 hlen h2 hperm
      induction ls with
      | nil => cases hm
      | cons a ls ih =>
        rw [List.map_cons, List.find?_cons]
        by_cases ha : a = l
        · simp [ha]
        · simp only [ha, decide_false]
          rw [List.nodup_cons] at h1
          exact ih h1.2 ((List.mem_cons.1 hm).resolve_left (fun e => ha e.symm))
    rw [this]
  unfold graphEdges
  have := foldlM_ok_append (fun level => do
      let cur ← levelNodes (nodesAllLevels nodes) level
      let next ← levelNodes (nodesAllLevels nodes) (level + 1)
      return edgesOfLevel nodes cur next)
    (fun l => edgesOfLevel nodes (atLevel nodes.zipIdx l) (atLevel nodes.zipIdx (l + 1)))
    (List.range ((nodesAllLevels nodes).length - 1)) (by
      intro l hl
      rw [List.mem_range, hlen] at hl
      rw [hget l (by omega), hget (l + 1) (by omega)]
      rfl) []
  rw [hlen] at this
  simp only [List.nil_append] at this
  rw [← this]
  simp only [hlen]
  congr 1
  funext acc level
  cases levelNodes (nodesAllLevels nodes) level with
  | error e => rfl
  | ok cur =>
    cases levelNodes (nodesAllLevels nodes) (level + 1) with
    | error e => rfl
    | ok next => rfl

theorem mem_edgesOfLevel {nodes : List Cluster} {cur next : List Nat} {a b : Nat} :
    (a, b) ∈ edgesOfLevel nodes cur next ↔ a ∈ cur ∧ b ∈ next ∧
      ∃ s, s ∈ scenariosOf nodes a ∧ s ∈ scenariosOf nodes b := by
  unfold edgesOfLevel
  simp only [List.mem_flatMap, List.mem_map, List.mem_filter, List.any_eq_true, List.contains_iff_mem,
    Prod.mk.injEq]
  constructor
  · rintro ⟨x, hx, y, ⟨hy, s, h1, h2⟩, rfl, rfl⟩
    exact ⟨hx, hy, s, h2, h1⟩
  · rintro ⟨ha, hb, s, h1, h2⟩
    exact ⟨a, ha, b, ⟨hb, s, h2, h1⟩, rfl, rfl⟩

theorem edgesOfLevel_nodup {nodes : List Cluster} {cur next : List Nat} (h1 : cur.Nodup)
    (h2 : next.Nodup) : (edgesOfLevel nodes cur next).Nodup := by
  unfold edgesOfLevel
  rw [List.nodup_flatMap]
  constructor
  · intro a _
    refine (h2.filter _).map ?_
    intro x y h
    exact (Prod.mk.inj h).2
  · refine h1.imp ?_
    intro a b hab x hx hy
    simp only [List.mem_map] at hx hy
    obtain ⟨_, _, rfl⟩ := hx
    obtain ⟨_, _, h⟩ := hy
    exact hab (Prod.mk.inj h).1.symm

theorem addEdge_fold_nodup (es : List (Nat × Nat)) : ∀ E : List (Nat × Nat), (E ++ es).Nodup →
    es.foldl (fun E e => addEdge E e.1 e.2) E = E ++ es := by
  induction es with
  | nil => intro E _; simp
  | cons e es ih =>
    intro E h
    rw [List.foldl_cons]
    have hne : (e.1, e.2) ∉ E := by
      intro hm
      rw [List.nodup_append] at h
      exact h.2.2 e hm e List.mem_cons_self rfl
    have : addEdge E e.1 e.2 = E ++ [e] := by
      unfold addEdge
      rw [if_neg (by simpa using hne)]
    rw [this, ih _ (by simpa using h)]
    simp

/-- The graph of a rectangular profile with at least one scenario: the edges are created level by
level and none is created twice. -/
theorem profileGraph_eq_full (rows : List (List Rat)) (m : Nat) (hm : 0 < m)
    (hrect : ∀ r ∈ rows, r.length = m) : ∃ E : List (Nat × Nat), E.Nodup ∧
    profileGraph rows = .ok (graphNodes rows, E) ∧
    (∀ a b, (a, b) ∈ E ↔ ∃ ca cb, (graphNodes rows)[a]? = some ca ∧ (graphNodes rows)[b]? = some cb ∧
      cb.level = ca.level + 1 ∧ ∃ s, s ∈ ca.scenarios ∧ s ∈ cb.scenarios) ∧
    (2 ≤ rows.length → ∃ rest, E = edgesOfLevel (graphNodes rows) (atLevel (graphNodes rows).zipIdx 0)
      (atLevel (graphNodes rows).zipIdx 1) ++ rest) := by
  have hR : ∀ l, (∃ c ∈ graphNodes rows, c.level = l) ↔ l < rows.length := by
    intro l
    constructor
    · rintro ⟨c, hc, rfl⟩
      obtain ⟨row, h, _⟩ := mem_graphNodes.1 hc
      exact (List.getElem?_eq_some_iff.1 h).1
    · intro hl
      have hlen := hrect _ (List.getElem_mem hl)
      refine ⟨⟨columnsWith rows[l] (rows[l][0]'(by omega)), rows[l][0]'(by omega), l⟩, ?_, rfl⟩
      rw [mem_graphNodes]
      exact ⟨rows[l], by simp [hl], List.getElem_mem _, rfl⟩
  have hE := graphEdges_eq (graphNodes rows) rows.length hR
  have hscen : ∀ n c, (graphNodes rows)[n]? = some c → scenariosOf (graphNodes rows) n = c.scenarios := by
    intro n c h; unfold scenariosOf; rw [h]
  have hnd : ((List.range (rows.length - 1)).flatMap (fun l =>
      edgesOfLevel (graphNodes rows) (atLevel (graphNodes rows).zipIdx l)
        (atLevel (graphNodes rows).zipIdx (l + 1)))).Nodup := by
    rw [List.nodup_flatMap]
    constructor
    · intro l _
      exact edgesOfLevel_nodup (atLevel_nodup _ _) (atLevel_nodup _ _)
    · refine List.nodup_range.imp ?_
      intro l l' hll x hx hy
      obtain ⟨a, b⟩ := x
      obtain ⟨c1, e1, f1⟩ := mem_atLevel.1 (mem_edgesOfLevel.1 hx).1
      obtain ⟨c2, e2, f2⟩ := mem_atLevel.1 (mem_edgesOfLevel.1 hy).1
      rw [e1] at e2
      injection e2 with e2
      subst e2
      exact hll (f1.symm.trans f2)
  refine ⟨_, hnd, ?_, ?_, ?_⟩
  · unfold profileGraph
    simp only [hE]
    show Except.ok _ = Except.ok _
    rw [addEdge_fold_nodup _ [] (by simpa using hnd)]
    simp
  · intro a b
    simp only [List.mem_flatMap, List.mem_range, mem_edgesOfLevel, mem_atLevel]
    constructor
    · rintro ⟨l, hl, ⟨ca, h1, h2⟩, ⟨cb, h3, h4⟩, s, h5, h6⟩
      rw [hscen _ _ h1] at h5
      rw [hscen _ _ h3] at h6
      exact ⟨ca, cb, h1, h3, by omega, s, h5, h6⟩
    · rintro ⟨ca, cb, h1, h2, h3, s, h4, h5⟩
      refine ⟨ca.level, ?_, ⟨ca, h1, rfl⟩, ⟨cb, h2, h3⟩, s, ?_, ?_⟩
      · have := (hR cb.level).1 ⟨cb, List.mem_of_getElem? h2, rfl⟩
        omega
      · rw [hscen _ _ h1]; exact h4
      · rw [hscen _ _ h2]; exact h5
  · intro h2
    obtain ⟨r, hr⟩ : ∃ r, rows.length - 1 = r + 1 := ⟨rows.length - 2, by omega⟩
    rw [hr, List.range_succ_eq_map, List.flatMap_cons]
    exact ⟨_, rfl⟩

theorem profileGraph_eq (rows : List (List Rat)) (m : Nat) (hm : 0 < m)
    (hrect : ∀ r ∈ rows, r.length = m) : ∃ E : List (Nat × Nat), E.Nodup ∧
    profileGraph rows = .ok (graphNodes rows, E) ∧
    ∀ a b, (a, b) ∈ E ↔ ∃ ca cb, (graphNodes rows)[a]? = some ca ∧ (graphNodes rows)[b]? = some cb ∧
      cb.level = ca.level + 1 ∧ ∃ s, s ∈ ca.scenarios ∧ s ∈ cb.scenarios := by
  obtain ⟨E, h1, h2, h3, _⟩ := profileGraph_eq_full rows m hm hrect
  exact ⟨E, h1, h2, h3⟩

end Pyensys
