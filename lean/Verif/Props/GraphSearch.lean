import Verif.Props.GraphProfile
import Verif.Props.SearchRun

/-! # C59, C60, C61: the control tree as input of the search -/

namespace Pyensys

theorem pathFrom_iff {E : List (Nat × Nat)} {n : Nat} {p : List Nat} :
    PathFrom E n p ↔ p.head? = some n ∧ p.IsChain (fun a b => (a, b) ∈ E) := by
  constructor
  · intro h
    induction h with
    | single n => exact ⟨rfl, .singleton n⟩
    | @step n m p he hp ih =>
      refine ⟨rfl, ?_⟩
      cases p with
      | nil => exact absurd rfl hp.ne_nil
      | cons x p =>
        have : x = m := by simpa using ih.1
        subst this
        exact .cons_cons he ih.2
  · rintro ⟨h1, h2⟩
    induction p generalizing n with
    | nil => cases h1
    | cons a p ih =>
      have : a = n := by simpa using h1
      subst this
      cases p with
      | nil => exact .single a
      | cons b p =>
        rw [List.isChain_cons_cons] at h2
        exact .step h2.1 (ih rfl h2.2)

theorem rev_unique {T : List (Nat × Nat)} {root : Nat} (hT : RootedTree T root) : ∀ (r r' : List Nat),
    r.IsChain (fun a b => (b, a) ∈ T) → r'.IsChain (fun a b => (b, a) ∈ T) →
    r.getLast? = some root → r'.getLast? = some root → r.head? = r'.head? → r = r' := by
  intro r
  induction r with
  | nil => intro r' _ _ h; cases h
  | cons x r ih =>
    intro r' h1 h2 h3 h4 h5
    cases r' with
    | nil => cases h4
    | cons x' r' =>
      have : x = x' := by simpa using h5
      subst this
      cases r with
      | nil =>
        have : x = root := by simpa using h3
        subst this
        cases r' with
        | nil => rfl
        | cons y' t' =>
          rw [List.isChain_cons_cons] at h2
          exact absurd h2.1 (hT.rootTop _)
      | cons y t =>
        cases r' with
        | nil =>
          have : x = root := by simpa using h4
          subst this
          rw [List.isChain_cons_cons] at h1
          exact absurd h1.1 (hT.rootTop _)
        | cons y' t' =>
          rw [List.isChain_cons_cons] at h1 h2
          have : y = y' := hT.onePred _ _ _ h1.1 h2.1
          subst this
          rw [ih (y :: t') h1.2 h2.2 (by simpa using h3) (by simpa using h4) rfl]

/-- In a rooted tree there is only one path from the root to a given node. -/
theorem rooted_unique {T : List (Nat × Nat)} {root : Nat} (hT : RootedTree T root) {p p' : List Nat}
    (h1 : PathFrom T root p) (h2 : PathFrom T root p') (h3 : p.getLast? = p'.getLast?) : p = p' := by
  rw [pathFrom_iff] at h1 h2
  have := rev_unique hT p.reverse p'.reverse (List.isChain_reverse.2 h1.2) (List.isChain_reverse.2 h2.2)
    (by rw [List.getLast?_reverse]; exact h1.1) (by rw [List.getLast?_reverse]; exact h2.1)
    (by rw [List.head?_reverse, List.head?_reverse]; exact h3)
  exact List.reverse_inj.1 this

theorem pathFrom_length {G : List (Nat × Nat)} {lv : Nat → Nat} {L root : Nat} (hL : Layered G lv L root)
    {n : Nat} {p : List Nat} (h : PathFrom G n p) : lv n ≤ L → p.length + lv n ≤ L + 1 := by
  induction h with
  | single n => intro h; simp; omega
  | step he hp ih =>
    intro _
    have h1 := hL.step _ _ he
    have h2 := ih (hL.bounded _ _ he)
    simp only [List.length_cons]
    omega

theorem chain_snoc {E : List (Nat × Nat)} {p : List Nat} {n x m : Nat} (h : PathFrom E n p)
    (hl : p.getLast? = some x) (he : (x, m) ∈ E) : PathFrom E n (p ++ [m]) := by
  induction h with
  | single n =>
    have : n = x := by simpa using hl
    subst this
    exact .step he (.single m)
  | step he' hp ih =>
    refine .step he' (ih ?_)
    rw [List.getLast?_cons] at hl
    cases hh : List.getLast? _ with
    | none => exact absurd (List.getLast?_eq_none_iff.1 hh) hp.ne_nil
    | some y => rw [hh] at hl; simpa using hl

theorem unfold_height {T G : List (Nat × Nat)} {org : Nat → Nat} {lv : Nat → Nat} {L root : Nat}
    (hL : Layered G lv L root) (hU : Unfolds T G org root) {cfg : Cfg} (hn : cfg.nbr = succOf T) :
    ∀ (h n : Nat) (p : List Nat), PathFrom T root p → p.getLast? = some n → p.length + h = L + 1 →
      HeightLe cfg h n := by
  have hbound : ∀ p, PathFrom T root p → p.length ≤ L + 1 := by
    intro p hp
    have := pathFrom_length hL (hU.down p hp) (by rw [hL.rootLv]; omega)
    rw [List.length_map, hL.rootLv] at this
    omega
  intro h
  induction h with
  | zero =>
    intro n p h1 h2 h3
    unfold HeightLe
    rw [hn, List.eq_nil_iff_forall_not_mem]
    intro c hc
    have := hbound _ (chain_snoc h1 h2 (mem_succOf.1 hc))
    simp only [List.length_append, List.length_singleton] at this
    omega
  | succ h ih =>
    intro n p h1 h2 h3
    unfold HeightLe
    intro c hc
    rw [hn] at hc
    refine ih c (p ++ [c]) (chain_snoc h1 h2 (mem_succOf.1 hc)) (by simp) ?_
    simp only [List.length_append, List.length_singleton]
    omega

/-- **C61.** From the clustered table to the plan.  For every rectangular profile with at least two
years, at least one scenario and a common value in the first year; every pool with distinct keys,
every return rate other than 100 %, every OPF and any list with one year per row: the control tree
is built and the non-anticipative search on it returns without exception; and a plan it has recorded
contains, for every scenario, a row whose path has one node per year, each listing that scenario. -/
theorem C61_table_to_plan (rows : List (List Rat)) (m : Nat) (hm : 0 < m)
    (hrect : ∀ r ∈ rows, r.length = m) (h2 : 2 ≤ rows.length) (v : Rat)
    (hv : ∀ r, rows.head? = some r → ∀ x ∈ r, x = v)
    (ord : List Nat → List Nat) (hord : SetOrder ord) (fuel : Nat) (hf : rows.length ≤ fuel) :
    ∃ E data' T, profileGraph rows = .ok (graphNodes rows, E) ∧
      convertTree ord fuel fuel (fun n => (graphNodes rows)[n]?) E = .ok (data', T) ∧
      ∀ (cfg : Cfg), cfg.nbr = succOf T → (∀ n, n ∈ cfg.nodes ↔ (data' n).isSome) →
        cfg.years.length = rows.length → (cfg.pool.map (·.1)).Nodup → cfg.rate ≠ 100 →
        ∃ f b, runSearch cfg fuel = .ok (f, b) ∧
          (b.complete.graphPaths ≠ [] → ∀ j, j < m → ∃ r ∈ planRows b.complete,
            r.1.length = rows.length ∧ ∀ (i : Nat) (k : Int) (n : Nat), r.1[i]? = some (k, n) →
              ∃ c, data' n = some c ∧ c.level = i ∧ j ∈ c.scenarios) := by
  obtain ⟨E, data', T, org, hE, hT, h3, h4, hdom, _, hscen⟩ :=
    C34_profile rows m hm hrect h2 v hv ord hord fuel fuel hf hf
  obtain ⟨E', hE', hL⟩ := profile_layered rows m hm hrect h2 v hv
  rw [hE] at hE'
  injection hE' with hE'
  injection hE' with _ hE'
  subst hE'
  refine ⟨E, data', T, hE, hT, ?_⟩
  intro cfg hnbr hnodes hyears hpool hrate
  have hw : WellFormed cfg fuel :=
    { pool := hpool
      rate := hrate
      height := ⟨rows.length - 1, unfold_height hL h4 hnbr _ 0 [0] (.single 0) rfl (by simp; omega),
        by omega, by omega⟩ }
  obtain ⟨f, b, hrun⟩ := C15_search_never_raises cfg fuel hw
  refine ⟨f, b, hrun, ?_⟩
  intro hne j hj
  have hb : Moment cfg fuel b := .inr ⟨fuel, {}, f, .start, hrun⟩
  obtain ⟨q, ⟨q1, q2, q3⟩, q4, _⟩ := hscen j hj
  -- the last node of the scenario's path
  obtain ⟨x, hx⟩ : ∃ x, q.getLast? = some x := by
    cases h : q.getLast? with
    | none => exact absurd (List.getLast?_eq_none_iff.1 h) q1.ne_nil
    | some x => exact ⟨x, rfl⟩
  have hxi : q[q.length - 1]? = some x := by rw [← hx, List.getLast?_eq_getElem?]
  obtain ⟨cx, w1, _, _⟩ := q4 _ _ hxi
  obtain ⟨kp, hkp, hxkp⟩ := C16_plan_covers_tree cfg fuel hw b hb hne x ((hnodes x).2 (by rw [w1]; rfl))
  have hal := (C19_bookkeeping_aligned cfg fuel hw b hb).comp
  -- the row of the plan with that path
  obtain ⟨r, hr, hrp⟩ : ∃ r ∈ planRows b.complete, r.1 = kp.2 := by
    obtain ⟨i, hi⟩ := List.mem_iff_getElem?.1 hkp
    have hlen : i < b.complete.graphPaths.length := (List.getElem?_eq_some_iff.1 hi).1
    have l1 := congrArg List.length hal.path
    have l2 := congrArg List.length hal.inv
    have l3 := congrArg List.length hal.op
    simp only [List.length_map] at l1 l2 l3
    have e1 : b.complete.interventions[i]? = some (b.complete.interventions[i]'(by omega)) := by
      rw [List.getElem?_eq_getElem]
    have e2 : b.complete.investmentCosts[i]? = some (b.complete.investmentCosts[i]'(by omega)) := by
      rw [List.getElem?_eq_getElem]
    have e3 : b.complete.operationCosts[i]? = some (b.complete.operationCosts[i]'(by omega)) := by
      rw [List.getElem?_eq_getElem]
    have : ((b.complete.graphPaths.zip (b.complete.interventions.zip
        (b.complete.investmentCosts.zip b.complete.operationCosts)))[i]?) =
        some (kp, _, _, _) := List.getElem?_zip_eq_some.2 ⟨hi, List.getElem?_zip_eq_some.2
          ⟨e1, List.getElem?_zip_eq_some.2 ⟨e2, e3⟩⟩⟩
    exact ⟨_, List.mem_map.2 ⟨_, List.mem_of_getElem? this, rfl⟩, rfl⟩
  obtain ⟨⟨hroot, y, hy, hyn⟩, hkeys⟩ := C18_paths_are_root_to_leaf cfg fuel hw b hb b.complete (by simp) r hr
  have hpath : PathFrom T 0 (r.1.map (·.2)) := by
    rw [pathFrom_iff]
    refine ⟨hroot.1, hroot.2.imp ?_⟩
    intro a c hc
    rw [hnbr] at hc
    exact mem_succOf.1 hc
  have hleafx : ∀ c, (x, c) ∉ T := by
    intro c hc
    have := chain_snoc q1 hx hc
    have hb' := pathFrom_length hL (h4.down _ this) (by rw [hL.rootLv]; omega)
    rw [List.length_map, hL.rootLv, List.length_append, List.length_singleton] at hb'
    omega
  have hlast : (r.1.map (·.2)).getLast? = some x := by
    have hxm : x ∈ r.1.map (·.2) := by rw [hrp]; exact hxkp
    clear hkeys hy hroot
    have gen : ∀ (a : Nat) (p : List Nat), PathFrom T a p → x ∈ p → p.getLast? = some x := by
      intro a p hp
      induction hp with
      | single n =>
        intro h
        rw [List.mem_singleton] at h
        rw [h]; rfl
      | step he hp ih =>
        intro h
        rcases List.mem_cons.1 h with rfl | h
        · exact absurd he (hleafx _)
        · rw [List.getLast?_cons, ih h]; rfl
    exact gen _ _ hpath hxm
  have hq : r.1.map (·.2) = q := rooted_unique h3 hpath q1 (hlast.trans hx.symm)
  refine ⟨r, hr, ?_, ?_⟩
  · rw [← q2, ← hq, List.length_map]
  · intro i k n hn
    refine q4 i n ?_
    rw [← hq, List.getElem?_map, hn]
    rfl

/-! ## examples -/

theorem dedup_setOrder : SetOrder List.dedup := fun l => ⟨List.nodup_dedup l, fun _ => List.mem_dedup⟩

/-- the tree built from a profile, as list of (node, scenarios) and list of edges -/
def treeOf (rows : List (List Rat)) : Option (List (Nat × Option (List Nat)) × List (Nat × Nat)) :=
  match profileGraph rows with
  | .error _ => none
  | .ok (nodes, E) =>
    match convertTree List.dedup 20 20 (fun n => nodes[n]?) E with
    | .error _ => none
    | .ok (d, T) => some ((List.range 12).map (fun n => (n, (d n).map (·.scenarios))), T)

example : ∀ r ∈ sampleRows, r.length = 4 := by decide +kernel
example : ∀ r, sampleRows.head? = some r → ∀ x ∈ r, x = 1 := by
  intro r hr
  injection hr with hr
  subst hr
  decide +kernel

/-- the shared node 3 of the sample graph is copied (node 6) below node 2 or node 1 -/
example : (treeOf sampleRows).map (·.2) =
    some [(1, 5), (1, 3), (2, 6), (2, 4), (0, 1), (0, 2)] := by decide +kernel

/-- The hypotheses of C61 are met by the sample profile, with a search that records a plan. -/
example : ∃ E data' T, profileGraph sampleRows = .ok (graphNodes sampleRows, E) ∧
      convertTree List.dedup 5 5 (fun n => (graphNodes sampleRows)[n]?) E = .ok (data', T) ∧
      ∀ (cfg : Cfg), cfg.nbr = succOf T → (∀ n, n ∈ cfg.nodes ↔ (data' n).isSome) →
        cfg.years.length = sampleRows.length → (cfg.pool.map (·.1)).Nodup → cfg.rate ≠ 100 →
        ∃ f b, runSearch cfg 5 = .ok (f, b) := by
  obtain ⟨E, d, T, h1, h2, h3⟩ := C61_table_to_plan sampleRows 4 (by decide) (by decide +kernel) (by decide) 1
    (by
      intro r hr
      injection hr with hr
      subst hr
      decide +kernel) List.dedup dedup_setOrder 5 (by decide)
  refine ⟨E, d, T, h1, h2, ?_⟩
  intro cfg a1 a2 a3 a4 a5
  obtain ⟨f, b, hb, _⟩ := h3 cfg a1 a2 a3 a4 a5
  exact ⟨f, b, hb⟩

example : ((finalPlan
    { pool := [opt 0 10 0]
      nodes := [0, 1, 2, 3, 4, 5, 6]
      years := [2020, 2030, 2040]
      nbr := succOf [(1, 5), (1, 3), (2, 6), (2, 4), (0, 1), (0, 2)]
      rate := 0
      opf := fun _ _ => (true, 1) } 5).map (fun p => p.graphPaths.map (fun kp => kp.2.map (·.2)))) =
    some [[0, 1, 5], [0, 1, 3], [0, 2, 6], [0, 2, 4]] := by decide +kernel

/-! ## C59: histories that no scenario follows -/

/-- **C59 holds up to three years.** Every root-to-leaf path of the control tree of a profile with two
or three years is followed by at least one scenario. -/
theorem C59_up_to_three_years_partial (rows : List (List Rat)) (m : Nat) (hm : 0 < m)
    (hrect : ∀ r ∈ rows, r.length = m) (h2 : 2 ≤ rows.length) (h3 : rows.length ≤ 3) (v : Rat)
    (hv : ∀ r, rows.head? = some r → ∀ x ∈ r, x = v)
    (ord : List Nat → List Nat) (hord : SetOrder ord) (fuel : Nat) (hf : rows.length ≤ fuel) :
    ∃ E data' T, profileGraph rows = .ok (graphNodes rows, E) ∧
      convertTree ord fuel fuel (fun n => (graphNodes rows)[n]?) E = .ok (data', T) ∧
      ∀ q x, PathFrom T 0 q → q.getLast? = some x → IsLeaf T x →
        ∃ j, j < m ∧ ∀ n ∈ q, ∃ c, data' n = some c ∧ j ∈ c.scenarios := by
  obtain ⟨E, data', T, org, hE, hT, hR, hU, hdom, hdat, _⟩ :=
    C34_profile rows m hm hrect h2 v hv ord hord fuel fuel hf hf
  obtain ⟨E', hE', hL⟩ := profile_layered rows m hm hrect h2 v hv
  rw [hE] at hE'
  injection hE' with hE'
  injection hE' with _ hE'
  subst hE'
  obtain ⟨E'', g1, _, hEm⟩ := C33_edges rows m hm hrect
  rw [hE] at g1
  injection g1 with g1
  injection g1 with _ g1
  subst g1
  refine ⟨E, data', T, hE, hT, ?_⟩
  intro q x hq hx hleaf
  obtain ⟨row0, h0⟩ : ∃ r, rows[0]? = some r := ⟨rows[0], by simp⟩
  have hlen0 : row0.length = m := hrect _ (List.mem_of_getElem? h0)
  have hne0 : row0 ≠ [] := by
    intro h
    rw [h] at hlen0
    simp at hlen0
    omega
  have hv0 := hv row0 (by rw [List.head?_eq_getElem?, h0])
  obtain ⟨r1, _⟩ := profile_root rows row0 v h0 hne0 hv0
  have hroot : ∀ j, j < m → j ∈ columnsWith row0 v := by
    intro j hj
    rw [mem_columnsWith, List.getElem?_eq_getElem (by omega)]
    congr 1
    exact hv0 _ (List.getElem_mem _)
  have hscenlt : ∀ (n : Nat) (c : Cluster) (s : Nat), (graphNodes rows)[n]? = some c → s ∈ c.scenarios → s < m := by
    intro n c s hc hs
    obtain ⟨row, e1, _, _, e3⟩ := (C32_nodes_well_formed rows).1 c (List.mem_of_getElem? hc)
    rw [← hrect _ (List.mem_of_getElem? e1)]
    exact e3 s hs
  have hdown := hU.down q hq
  have hlen := pathFrom_length hL hdown (by rw [hL.rootLv]; omega)
  rw [List.length_map, hL.rootLv] at hlen
  obtain ⟨b0, hb0⟩ := hL.root_edge
  have hroot0 : ¬ IsLeaf T 0 := by
    intro h
    have hN : IsNode T 0 := (hdom 0).2 (by
      -- the root of the graph lifts to the root of the tree
      obtain ⟨q2, ⟨w1, w2⟩, _⟩ := hU.lift [0, b0] (.step hb0 (.single b0))
      cases w1 with
      | single => simp at w2
      | step he hp => exact (hdom 0).1 ⟨_, he, .inl rfl⟩)
    obtain ⟨q2, ⟨w1, w2⟩, _⟩ := hU.lift [0, b0] (.step hb0 (.single b0))
    cases w1 with
    | single => simp at w2
    | step he hp => exact h _ he
  -- label of a node of the tree from the graph
  have lab : ∀ n, IsNode T n → ∀ c, (graphNodes rows)[org n]? = some c → data' n = some c := by
    intro n hn c hc
    obtain ⟨c', e1, e2⟩ := hdat n hn
    rw [hc] at e1
    injection e1 with e1
    rw [e2, e1]
  have edge : ∀ a b, (a, b) ∈ T → (org a, org b) ∈ E := by
    intro a b hab
    obtain ⟨p, hp, hl⟩ := hR.reached a ⟨_, hab, .inl rfl⟩
    have := hU.down _ (chain_snoc hp hl hab)
    rw [List.map_append, pathFrom_iff] at this
    have hch := this.2
    obtain ⟨p', rfl⟩ : ∃ p', p = p' ++ [a] := by
      refine ⟨p.dropLast, ?_⟩
      rw [List.getLast?_eq_some_iff] at hl
      obtain ⟨ys, rfl⟩ := hl
      simp
    rw [List.map_append, List.map_cons, List.map_nil, List.map_cons, List.map_nil] at hch
    have h' := List.isChain_append.1 hch
    exact h'.2.2 (org a) (by simp) (org b) (by simp)
  cases hq with
  | single =>
    have : (0 : Nat) = x := by simpa using hx
    subst this
    exact absurd hleaf hroot0
  | @step _ a p1 he1 hp1 =>
    have e1 := edge _ _ he1
    rw [hU.rootOrg] at e1
    obtain ⟨c0, ca, f1, f2, f3, s, f4, f5⟩ := (hEm _ _).1 e1
    have hc0 : c0 = ⟨columnsWith row0 v, v, 0⟩ := by
      rw [r1] at f1
      injection f1 with f1
      exact f1.symm
    have n0 : IsNode T 0 := ⟨_, he1, .inl rfl⟩
    have na : IsNode T a := ⟨_, he1, .inr rfl⟩
    have d0 : data' 0 = some ⟨columnsWith row0 v, v, 0⟩ := lab 0 n0 _ (by rw [hU.rootOrg]; exact r1)
    have da := lab a na _ f2
    cases hp1 with
    | single =>
      refine ⟨s, hscenlt _ _ _ f2 f5, ?_⟩
      intro n hn
      simp only [List.mem_cons, List.not_mem_nil, or_false] at hn
      rcases hn with rfl | rfl
      · exact ⟨_, d0, hroot s (hscenlt _ _ _ f2 f5)⟩
      · exact ⟨_, da, f5⟩
    | @step _ b p2 he2 hp2 =>
      have e2 := edge _ _ he2
      obtain ⟨ca', cb, k1, k2, k3, t, k4, k5⟩ := (hEm _ _).1 e2
      rw [f2] at k1
      injection k1 with k1
      subst k1
      have nb : IsNode T b := ⟨_, he2, .inr rfl⟩
      have db := lab b nb _ k2
      cases hp2 with
      | single =>
        refine ⟨t, hscenlt _ _ _ k2 k5, ?_⟩
        intro n hn
        simp only [List.mem_cons, List.not_mem_nil, or_false] at hn
        rcases hn with rfl | rfl | rfl
        · exact ⟨_, d0, hroot t (hscenlt _ _ _ k2 k5)⟩
        · exact ⟨_, da, k4⟩
        · exact ⟨_, db, k5⟩
      | @step _ c p3 he3 hp3 =>
        exfalso
        have := hp3.ne_nil
        rw [← List.length_pos_iff] at this
        simp only [List.length_cons] at hlen
        omega

/-- four scenarios, four years: after year three scenarios 0 and 1 are separated again -/
def phantomRows : List (List Rat) := [[1, 1, 1, 1], [1, 2, 2, 1], [1, 1, 3, 4], [5, 6, 5, 5]]

/-- **C59 fails with four years.** The profile satisfies all hypotheses of C34, and the tree has a
root-to-leaf path whose nodes have no scenario in common: the search plans for a history that is in
no scenario. -/
theorem C59_violated : ∃ (rows : List (List Rat)) (nodes : List (Nat × Option (List Nat)))
    (T : List (Nat × Nat)) (q : List Nat),
    (∀ r ∈ rows, r.length = 4) ∧ (∀ r, rows.head? = some r → ∀ x ∈ r, x = 1) ∧
    treeOf rows = some (nodes, T) ∧ PathFrom T 0 q ∧ q.length = 4 ∧
    ¬ ∃ j, ∀ n ∈ q, ∃ s, (n, some s) ∈ nodes ∧ j ∈ s := by
  refine ⟨phantomRows, [(0, some [0, 1, 2, 3]), (1, some [0, 3]), (2, some [1, 2]), (3, some [0, 1]),
    (4, some [2]), (5, some [3]), (6, some [0, 2, 3]), (7, some [1]), (8, some [0, 2, 3]),
    (9, some [0, 2, 3]), (10, some [0, 1]), (11, some [1])],
    [(3, 7), (3, 6), (4, 8), (5, 9), (1, 3), (2, 10), (10, 11), (10, 12), (2, 4), (1, 5), (0, 2), (0, 1)],
    [0, 1, 3, 7], by decide +kernel, ?_, by decide +kernel, ?_, rfl, ?_⟩
  · intro r hr
    injection hr with hr
    subst hr
    decide +kernel
  · exact .step (by decide) (.step (by decide) (.step (by decide) (.single _)))
  · rintro ⟨j, h⟩
    obtain ⟨s, h1, h2⟩ := h 1 (by decide)
    obtain ⟨s', h3, h4⟩ := h 7 (by decide)
    simp only [List.mem_cons, Prod.mk.injEq, List.not_mem_nil, or_false] at h1 h3
    simp at h1 h3
    subst h1 h3
    simp at h2 h4
    omega

/-! ## C60: scenarios lost when the first year differs -/

/-- **C60, positive part.** With a common value in the first year every scenario has its own
root-to-leaf path in the control tree. -/
theorem C60_common_first_year_partial (rows : List (List Rat)) (m : Nat) (hm : 0 < m)
    (hrect : ∀ r ∈ rows, r.length = m) (h2 : 2 ≤ rows.length) (v : Rat)
    (hv : ∀ r, rows.head? = some r → ∀ x ∈ r, x = v)
    (ord : List Nat → List Nat) (hord : SetOrder ord) (fuel : Nat) (hf : rows.length ≤ fuel) :
    ∃ E data' T, profileGraph rows = .ok (graphNodes rows, E) ∧
      convertTree ord fuel fuel (fun n => (graphNodes rows)[n]?) E = .ok (data', T) ∧
      ∀ j, j < m → ∃ q, PathFrom T 0 q ∧ q.length = rows.length ∧
        ∀ (i n : Nat), q[i]? = some n → ∃ c, data' n = some c ∧ c.level = i ∧ j ∈ c.scenarios := by
  obtain ⟨E, data', T, org, hE, hT, _, _, _, _, hscen⟩ :=
    C34_profile rows m hm hrect h2 v hv ord hord fuel fuel hf hf
  refine ⟨E, data', T, hE, hT, ?_⟩
  intro j hj
  obtain ⟨q, ⟨q1, q2, _⟩, q4, _⟩ := hscen j hj
  exact ⟨q, q1, q2, q4⟩

/-- **C60 fails** when the scenarios differ from the first year on: for two scenarios that never
share a value the tree consists of the nodes of the first scenario only, although data are kept for
all four nodes; the search on that tree, with an OPF that is always feasible, returns without having
recorded a plan. -/
theorem C60_violated :
    treeOf [[1, 2], [1, 2]] = some ((List.range 12).map (fun n =>
      (n, if n < 4 then some [n % 2] else none)), [(0, 2)]) ∧
    (finalPlan
      { pool := [opt 0 10 0]
        nodes := [0, 1, 2, 3]
        years := [2020, 2030]
        nbr := succOf [(0, 2)]
        rate := 0
        opf := fun _ _ => (true, 1) } 5).map (·.graphPaths) = some [] := by
  constructor <;> decide +kernel

/-- **C60 fails** also when the graph happens to pass the tree test: two scenarios that differ in the
first year and agree in the second give a "tree" whose last node has two predecessors. -/
theorem C60_two_predecessors_violated : (treeOf [[1, 2], [1, 1]]).map (·.2) = some [(0, 2), (1, 2)] := by
  decide +kernel

end Pyensys
