import Verif.Lemmas.SearchInv
import Verif.Props.SearchLocal

/-!
# Properties of whole runs of the search (C13 - C19, C22 - C26)

`Visited cfg fuel n a` : during the run of the search some call of `solve` is entered in state `a`;
`Moment cfg fuel b` : some call of `solve` is entered or left in state `b`.
-/

namespace Pyensys

/-! ## concrete problems used as witnesses -/

/-- Build a control graph from its successor lists. -/
def graphOf (succ : List (List Nat)) (n : Nat) : List Nat := succ.getD n []

/-- An option: line `key`, given cost and installation time. -/
def opt (key : Nat) (cost : Rat) (time : Int) : Int × BinVar :=
  ((key : Int), { cost := cost, position := .single key, elementType := "line",
                  installationTime := time })

/-- Root 0 with the two leaves 1 and 2, ten years later. -/
def vTree (pool : Group) (opf : List Request → Request → Bool × Rat) : Cfg :=
  { pool := pool, nodes := [0, 1, 2], nbr := graphOf [[1, 2]], years := [2020, 2030], rate := 0,
    opf := opf }

/-- Root 0, children 1 and 2, grandchildren 3 (of 1) and 4 (of 2). -/
def yTree (pool : Group) (opf : List Request → Request → Bool × Rat) : Cfg :=
  { pool := pool, nodes := [0, 1, 2, 3, 4], nbr := graphOf [[1, 2], [3], [4]],
    years := [2020, 2030, 2040], rate := 0, opf := opf }

set_option synthInstance.maxSize 1000 in
instance : DecidableEq (List (Int × Sol)) := inferInstance

/-- The complete plan recorded at the end of the search. -/
def finalPlan (cfg : Cfg) (fuel : Nat) : Option Plan :=
  match runSearch cfg fuel with
  | .ok r => some r.2.complete
  | .error _ => none

theorem vTree_height (pool opf) : HeightLe (vTree pool opf) 1 0 := by
  simp [HeightLe, vTree, graphOf]
theorem yTree_height (pool opf) : HeightLe (yTree pool opf) 2 0 := by
  simp [HeightLe, yTree, graphOf]

theorem vTree_wf (pool : Group) (opf) (h : (pool.map (·.1)).Nodup) : WellFormed (vTree pool opf) 5 :=
  ⟨h, by simp [vTree], 1, vTree_height _ _, by omega, by simp [vTree]⟩
theorem yTree_wf (pool : Group) (opf) (h : (pool.map (·.1)).Nodup) : WellFormed (yTree pool opf) 6 :=
  ⟨h, by simp [yTree], 2, yTree_height _ _, by omega, by simp [yTree]⟩

/-! ## C15: no exception -/

/-- C15.  On a well-formed problem the search terminates and raises no exception, whatever the OPF
answers. -/
theorem C15_search_never_raises (cfg : Cfg) (fuel : Nat) (hw : WellFormed cfg fuel) :
    ∃ f b, runSearch cfg fuel = .ok (f, b) := by
  obtain ⟨h, h1, h2, h3⟩ := hw.height
  obtain ⟨f, b, h4, _⟩ := solve_spec (a₀ := {}) hw.good h fuel h2 {} atNode_start h1
    (by simpa using h3) ⟨stored_start, Evo.refl _⟩
  exact ⟨f, b, h4⟩

/-- C15 for every call made on the way. -/
theorem C15_no_call_raises (cfg : Cfg) (fuel : Nat) (hw : WellFormed cfg fuel) (n : Nat) (a : Info)
    (ha : Visited cfg fuel n a) : ∃ f b, solve cfg n a = .ok (f, b) := by
  obtain ⟨hat, hf, h, hh, hn, hy⟩ := ha.entry hw
  obtain ⟨f, b, h1, _⟩ := solve_spec hw.good h n hn a hat hh hy hf
  exact ⟨f, b, h1⟩

/-- The hypothesis on the years is needed: with too few years the search raises IndexError. -/
theorem C15_needs_years : ∃ cfg : Cfg, (cfg.pool.map (·.1)).Nodup ∧ cfg.rate ≠ 100 ∧
    HeightLe cfg 1 0 ∧ runSearch cfg 5 = .error .index := by
  refine ⟨{ vTree [] (fun _ _ => (true, 0)) with years := [2020] }, by simp [vTree], by simp [vTree],
    by simp [HeightLe, vTree, graphOf], by decide +kernel⟩

/-- Five nodes, two options: the hypotheses of C15 are met. -/
example : WellFormed (yTree [opt 0 10 0, opt 1 20 5] (fun _ r => (r.active ≠ [], 1))) 6 :=
  yTree_wf _ _ (by decide)

/-! ## C13: the candidate is restored -/

/-- C13.  A call of `solve` in a consistent state returns with the candidate path, interventions and
operation costs it was called with, the same node, and the level decreased by one. -/
theorem C13_candidate_restored (cfg : Cfg) (fuel h : Nat) (info : Info)
    (hpool : (cfg.pool.map (·.1)).Nodup) (hr : cfg.rate ≠ 100) (hf : h < fuel)
    (hat : AtNode cfg info) (hh : HeightLe cfg h info.node)
    (hy : info.candPath.length + h < cfg.years.length) (hs : StoreAligned info) :
    ∃ f b, solve cfg fuel info = .ok (f, b) ∧ b.candPath = info.candPath ∧
      b.candInt = info.candInt ∧ b.candOp = info.candOp ∧ b.node = info.node ∧
      b.level = info.level - 1 := by
  obtain ⟨f, b, h1, h2⟩ := solve_spec ⟨hpool, hr⟩ h fuel hf info hat hh hy
    ⟨hs.storedAny, Evo.refl _⟩
  obtain ⟨d, hd⟩ := h2.same
  exact ⟨f, b, h1, hd.path, hd.int, hd.op, h2.node, h2.level⟩

/-- C13 for every call made during a run of the search. -/
theorem C13_every_call (cfg : Cfg) (fuel : Nat) (hw : WellFormed cfg fuel) (n : Nat) (a b : Info)
    (f : Bool) (ha : Visited cfg fuel n a) (hb : solve cfg n a = .ok (f, b)) :
    b.candPath = a.candPath ∧ b.candInt = a.candInt ∧ b.candOp = a.candOp ∧ b.node = a.node ∧
      b.level = a.level - 1 := by
  obtain ⟨h2, _⟩ := ha.exit hw hb
  obtain ⟨d, hd⟩ := h2.same
  exact ⟨hd.path, hd.int, hd.op, h2.node, h2.level⟩

/-- The sample state (a leaf reached with one intervention under construction) meets the
hypotheses of C13. -/
example : AtNode sampleCfg sampleInfo ∧ HeightLe sampleCfg 0 sampleInfo.node ∧
    StoreAligned sampleInfo :=
  ⟨sample_atNode, by simp [HeightLe, sampleCfg, sampleInfo],
    ⟨⟨rfl, rfl, rfl⟩, ⟨rfl, rfl, rfl⟩, ⟨rfl, rfl, rfl⟩⟩⟩

/-! ## C14: construction times are not restored -/

/-- C14, what remains true: all remaining times of the candidate are shifted by one and the same
amount, which is never positive when the years are in order (times never grow). -/
theorem C14_uniform_shift_partial (cfg : Cfg) (fuel : Nat) (hw : WellFormed cfg fuel) (n : Nat)
    (a b : Info) (f : Bool) (ha : Visited cfg fuel n a) (hb : solve cfg n a = .ok (f, b)) :
    ∃ d, b.candTime = shiftLevels d a.candTime ∧ (Sorted cfg → d ≤ 0) := by
  obtain ⟨h2, _⟩ := ha.exit hw hb
  obtain ⟨d, hd⟩ := h2.same
  exact ⟨d, hd.time, hd.nonpos⟩

/-- C14 fails at every leaf but the root: visiting a leaf of level `n + 1` leaves all remaining times
of the candidate lowered by `years[n+1] - years[n]`. -/
theorem C14_leaf_lowers_times_violated (cfg : Cfg) (fuel : Nat) (info : Info)
    (hpool : (cfg.pool.map (·.1)).Nodup) (hr : cfg.rate ≠ 100)
    (hat : AtNode cfg info) (hleaf : cfg.nbr info.node = []) (h0 : info.node ≠ 0)
    (hy : info.candPath.length < cfg.years.length) (hs : StoreAligned info) :
    ∃ (f : Bool) (b : Info) (n : Nat) (hn : n + 1 < cfg.years.length),
      solve cfg (fuel + 1) info = .ok (f, b) ∧ info.candPath.length = n + 1 ∧
      b.candTime = shiftLevels (-(cfg.years[n + 1] - cfg.years[n])) info.candTime := by
  have hat' : AtNode cfg (clearNew info) :=
    hat.congr (Same.refl cfg info) rfl rfl |> fun h => ⟨⟨h.cand.pathKeys, h.cand.chain,
      h.cand.intKeys, h.cand.aligned, h.cand.opKeys, h.cand.pool, h.cand.distinct, h.cand.times⟩,
      h.level, h.root⟩
  obtain ⟨adj, h1, _, n, hn, hlen, hadj⟩ := timeAdjustment_spec hat' h0 hy
  let B : Info := { clearNew info with candTime := shiftLevels (-adj) info.candTime }
  have hB : updateTimes (-adj) (clearNew info) = .ok B := by
    rw [updateTimes_eq (-adj) (clearNew info) hat'.cand.timeNodup (by simp [clearNew, KeysNodup])]
    rfl
  have hatB : AtNode cfg B := by
    refine ⟨⟨hat.cand.pathKeys, hat.cand.chain, hat.cand.intKeys, hat.cand.aligned.shift _,
      hat.cand.opKeys, hat.cand.pool, hat.cand.distinct, ?_⟩, hat.level, hat.root⟩
    intro hsort
    refine (hat.cand.times hsort).shift ?_
    have := List.pairwise_iff_getElem.1 hsort n (n + 1) (by omega) hn (by omega)
    omega
  have hsB : From cfg B B := by
    refine ⟨?_, Evo.refl _⟩
    obtain ⟨R, P, C, h⟩ := hs.storedAny
    exact ⟨R, P, C, h.inc, h.part, h.comp⟩
  obtain ⟨f, b, g1, _, g3, _⟩ := solveLeaf_spec ⟨hpool, hr⟩ hatB ⟨rfl, rfl⟩ hleaf hy hsB
  refine ⟨f, b, n, hn, ?_, hlen, ?_⟩
  · change solveBody cfg (solve cfg fuel) info = _
    unfold solveBody
    have hz : (clearNew info).node ≠ 0 := h0
    have hl : cfg.nbr B.node = [] := hleaf
    simp only [hz, ne_eq, not_false_eq_true, if_true, h1, exc_bind_ok, hB, hl]
    exact g1
  · rw [g3.time, shiftLevels_zero, ← hadj]

/-- C14 fails observably: with one option that takes 15 years to build, on a tree with two scenarios
that both end after 10 years, the plan finds it finished in the second scenario but not in the
first. -/
theorem C14_violated :
    (finalPlan (vTree [opt 0 10 15] (fun _ r => (true, if r.active = [] then 1 else 0))) 5).map
      (fun p => (p.graphPaths, p.interventions)) =
    some ([(0, [(0, 0), (1, 1)]), (1, [(0, 0), (1, 2)])],
      [(0, [(0, []), (1, [])]), (1, [(0, [opt 0 10 15]), (1, [])])]) := by decide +kernel

/-! ## C16 - C19, C25: invariants of the stored plans -/

theorem planRows_planOf (R : List (Int × Row)) :
    planRows (planOf R) = R.map (fun e => (e.2.path, e.2.sol, e.2.inv, e.2.op)) := by
  induction R with
  | nil => rfl
  | cons x R ih =>
    simp only [planRows, planOf, col, List.map_cons, List.zip_cons_cons] at ih ⊢
    rw [ih]

theorem planTotal_planOf (R : List (Int × Row)) : planTotal (planOf R) = totalCost R := by
  unfold planTotal totalCost planOf col
  simp only [List.map_map, Function.comp_def]
  induction R with
  | nil => simp
  | cons x R ih =>
    simp only [List.map_cons, List.sum_cons]
    rw [← ih]; ring

/-- from rows to plans -/
theorem Moment.planRows {cfg fuel b} {Q : Path × Sol × Rat × Rat → Prop} (hw : WellFormed cfg fuel)
    (h : Moment cfg fuel b) (hQ : ∀ r : Row, RowFrom cfg r → Q (r.path, r.sol, r.inv, r.op)) :
    ∀ p ∈ [b.incumbent, b.partialTree, b.complete], ∀ r ∈ Pyensys.planRows p, Q r := by
  obtain ⟨R, P, C, hg⟩ := h.rows (Q := fun r => Q (r.path, r.sol, r.inv, r.op)) hw hQ
  intro p hp r hr
  simp only [List.mem_cons, List.not_mem_nil, or_false] at hp
  rcases hp with rfl | rfl | rfl
  · rw [hg.stored.inc, planRows_planOf] at hr
    obtain ⟨e, he, rfl⟩ := List.mem_map.1 hr
    exact hg.rowsR e he
  · rw [hg.stored.part, planRows_planOf] at hr
    obtain ⟨e, he, rfl⟩ := List.mem_map.1 hr
    exact hg.rowsP e he
  · rw [hg.stored.comp, planRows_planOf] at hr
    obtain ⟨e, he, rfl⟩ := List.mem_map.1 hr
    exact hg.rowsC e he

/-- C16.  Whenever a complete plan is recorded, every node of the control tree lies on one of its
paths. -/
theorem C16_plan_covers_tree (cfg : Cfg) (fuel : Nat) (hw : WellFormed cfg fuel) (b : Info)
    (hb : Moment cfg fuel b) (hne : b.complete.graphPaths ≠ []) :
    ∀ n ∈ cfg.nodes, ∃ kp ∈ b.complete.graphPaths, n ∈ kp.2.map (·.2) := by
  obtain ⟨R, P, C, hg⟩ := hb.rows (Q := fun _ => True) hw (fun _ _ => trivial)
  rw [hg.stored.comp] at hne ⊢
  intro n hn
  rcases hg.covers with rfl | hc
  · exact absurd rfl hne
  · obtain ⟨e, he, hm⟩ := hc n hn
    exact ⟨(e.1, e.2.path), List.mem_map.2 ⟨e, he, rfl⟩, hm⟩

/-- C17.  During any call of `solve` a recorded complete plan either stays or is replaced by one of
strictly smaller total cost; it is never dropped. -/
theorem C17_plan_never_more_expensive (cfg : Cfg) (fuel : Nat) (hw : WellFormed cfg fuel)
    (hn : cfg.nodes ≠ []) (n : Nat) (a b : Info) (f : Bool) (ha : Visited cfg fuel n a)
    (hb : solve cfg n a = .ok (f, b)) (hne : a.complete.graphPaths ≠ []) :
    b.complete.graphPaths ≠ [] ∧
      (b.complete = a.complete ∨ planTotal b.complete < planTotal a.complete) := by
  have hm : Moment cfg fuel a := Or.inl ⟨n, ha⟩
  obtain ⟨R, P, C, hg⟩ := hm.rows (Q := fun _ => True) hw (fun _ _ => trivial)
  obtain ⟨R', P', C', hg', hmono⟩ := ((ha.exit hw hb).1.evo).rows hw.good (fun _ _ => trivial) hg
  rw [hg.stored.comp] at hne
  have hC : C ≠ [] := by rintro rfl; exact hne rfl
  obtain ⟨h1, h2⟩ := hmono hn hC
  rw [hg'.stored.comp, hg.stored.comp, planTotal_planOf, planTotal_planOf]
  refine ⟨?_, ?_⟩
  · intro h; apply h1; simpa [planOf, col] using h
  · rcases h2 with rfl | h2
    · exact Or.inl rfl
    · exact Or.inr h2

/-- C17, the step that records complete plans: afterwards the recorded plan costs at most as much as
the incumbent and at most as much as the plan recorded before, and it is one of the two. -/
theorem C17_check_keeps_cheaper (info : Info) (hs : StoreAligned info) :
    ∃ b, replaceTree info = .ok b ∧ b.incumbent = info.incumbent ∧
      planTotal b.complete ≤ planTotal info.incumbent ∧
      (info.complete.graphPaths ≠ [] → planTotal b.complete ≤ planTotal info.complete) ∧
      (b.complete = info.incumbent ∨ b.complete = info.complete) := by
  obtain ⟨R, P, C, h⟩ := hs.storedAny
  obtain ⟨b, C', h1, h2, h3, _⟩ := replaceTree_spec h
  refine ⟨b, h1, by rw [h2.inc, h.inc], ?_⟩
  rw [h2.comp, h.comp, h.inc, planTotal_planOf, planTotal_planOf, planTotal_planOf]
  rcases h3 with ⟨rfl, h3⟩ | ⟨rfl, h3, h4⟩
  · refine ⟨le_refl _, ?_, Or.inl rfl⟩
    intro hne
    rcases h3 with rfl | h3
    · exact absurd rfl hne
    · exact le_of_lt h3
  · exact ⟨h4, fun _ => le_refl _, Or.inr rfl⟩

/-- C18.  Every stored path is a root-to-leaf path of the control graph, its nodes filed under the
positions `0, 1, ...`. -/
theorem C18_paths_are_root_to_leaf (cfg : Cfg) (fuel : Nat) (hw : WellFormed cfg fuel) (b : Info)
    (hb : Moment cfg fuel b) :
    ∀ p ∈ [b.incumbent, b.partialTree, b.complete], ∀ r ∈ planRows p,
      RootToLeaf cfg (r.1.map (·.2)) ∧ r.1.map (·.1) = ints r.1.length := by
  apply hb.planRows (Q := fun r => RootToLeaf cfg (r.1.map (·.2)) ∧ r.1.map (·.1) = ints r.1.length) hw
  rintro r ⟨a, hl, hp, _⟩
  simp only [hp]
  refine ⟨⟨?_, hl.leaf⟩, hl.cand.pathKeys⟩
  rcases hl.cand.chain with h | h
  · obtain ⟨m, hm, _⟩ := hl.leaf
    rw [h] at hm; simp at hm
  · exact h

/-- C19.  Incumbent, partial tree and complete plan each have their four containers aligned. -/
theorem C19_bookkeeping_aligned (cfg : Cfg) (fuel : Nat) (hw : WellFormed cfg fuel) (b : Info)
    (hb : Moment cfg fuel b) : StoreAligned b :=
  ((hb.from_ hw).st hw.good).aligned

/-- interventions kept are interventions of the candidate -/
theorem builtGroup_sublist {t : Times} {g : Group} (h : GroupAligned t g) :
    (builtGroup t g).Sublist g := by
  rw [← filter_eq_builtGroup t g h]; exact List.filter_sublist

theorem builtSol_forall {ts : List (Int × Times)} {s : Sol} (h : SolAligned ts s) :
    List.Forall₂ (fun x y => x.1 = y.1 ∧ x.2.Sublist y.2) (builtSol ts s) s := by
  induction h with
  | nil => exact .nil
  | cons hab _ ih => exact .cons ⟨rfl, builtGroup_sublist hab.2⟩ ih

theorem solKeys_sublist {s s' : Sol} (h : List.Forall₂ (fun x y => x.1 = y.1 ∧ x.2.Sublist y.2) s s') :
    (solKeys s).Sublist (solKeys s') := by
  induction h with
  | nil => exact List.Sublist.refl _
  | cons hab _ ih =>
    simp only [solKeys, List.flatMap_cons]
    exact (hab.2.map _).append ih

/-- C25.  Every intervention of a stored solution is an entry of the pool and no pool key occurs
twice along the path; there is one group of interventions per node of the path. -/
theorem C25_interventions_from_pool (cfg : Cfg) (fuel : Nat) (hw : WellFormed cfg fuel) (b : Info)
    (hb : Moment cfg fuel b) :
    ∀ p ∈ [b.incumbent, b.partialTree, b.complete], ∀ r ∈ planRows p,
      (∀ lg ∈ r.2.1, ∀ e ∈ lg.2, e ∈ cfg.pool) ∧ (solKeys r.2.1).Nodup ∧
        r.2.1.map (·.1) = ints r.1.length := by
  apply hb.planRows (Q := fun r => (∀ lg ∈ r.2.1, ∀ e ∈ lg.2, e ∈ cfg.pool) ∧ (solKeys r.2.1).Nodup ∧
        r.2.1.map (·.1) = ints r.1.length) hw
  rintro r ⟨a, hl, hp, hsol, _⟩
  simp only [hp, hsol]
  have hf := builtSol_forall hl.cand.aligned
  refine ⟨?_, (solKeys_sublist hf).nodup hl.cand.distinct, ?_⟩
  · intro lg hlg e he
    have : ∃ lg' ∈ a.candInt, lg.2.Sublist lg'.2 := by
      obtain ⟨i, hi, rfl⟩ := List.getElem_of_mem hlg
      have hi' : i < a.candInt.length := hf.length_eq ▸ hi
      exact ⟨a.candInt[i], List.getElem_mem hi', ((List.forall₂_iff_get.1 hf).2 i hi hi').2⟩
    obtain ⟨lg', h1, h2⟩ := this
    exact hl.cand.pool lg' h1 e (h2.subset he)
  · rw [← hl.cand.intKeys]
    have : ∀ {s s' : Sol}, List.Forall₂ (fun x y => x.1 = y.1 ∧ x.2.Sublist y.2) s s' →
        s.map (·.1) = s'.map (·.1) := by
      intro s s' h
      induction h with
      | nil => rfl
      | cons hab _ ih => simp only [List.map_cons, ih, hab.1]
    exact this hf

/-- Non-vacuity of C16 - C19 and C25: a moment with a recorded complete plan of two scenarios. -/
example : ∃ b, Moment (vTree [opt 0 10 0, opt 1 5 3] (fun _ r => (true, if r.active = [] then 1 else 0))) 5 b ∧
    b.complete.graphPaths.length = 2 := by
  have hw := vTree_wf [opt 0 10 0, opt 1 5 3] (fun _ r => (true, if r.active = [] then 1 else 0))
    (by decide)
  obtain ⟨f, b, h⟩ := C15_search_never_raises _ _ hw
  refine ⟨b, Or.inr ⟨5, {}, f, .start, h⟩, ?_⟩
  have h2 : (finalPlan (vTree [opt 0 10 0, opt 1 5 3]
      (fun _ r => (true, if r.active = [] then 1 else 0))) 5).map (fun p => p.graphPaths.length) =
      some 2 := by decide +kernel
  unfold finalPlan at h2
  rw [h] at h2
  simpa using h2

/-! ## C22: non-anticipativity fails -/

/-- C22 fails.  Two lines that can be built at once; node 0 needs one of them, node 2 rejects exactly
line 0.  The recorded plan builds line 0 at the root for the scenario through node 1 and line 1 at
the root for the scenario through node 2. -/
theorem C22_violated : ∃ (cfg : Cfg) (fuel : Nat) (p : Plan), WellFormed cfg fuel ∧
    finalPlan cfg fuel = some p ∧ ¬ NonAnticipative p := by
  let cfg : Cfg := yTree [opt 0 10 0, opt 1 20 0] (fun _ r =>
    ((r.node != 0 || r.active != []) &&
      (r.node != 2 || r.active.any (fun v => v.position = .single 1)), 0))
  let p : Plan :=
    { interventions := [(0, [(0, [opt 0 10 0]), (1, []), (2, [])]),
                        (1, [(0, [opt 1 20 0]), (1, []), (2, [])])]
      operationCosts := [(0, 0), (1, 0)]
      investmentCosts := [(0, 10), (1, 20)]
      graphPaths := [(0, [(0, 0), (1, 1), (2, 3)]), (1, [(0, 0), (1, 2), (2, 4)])] }
  refine ⟨cfg, 6, p, yTree_wf _ _ (by decide), by decide +kernel, ?_⟩
  intro h
  have := h ([(0, 0), (1, 1), (2, 3)], [(0, [opt 0 10 0]), (1, []), (2, [])], 10, 0) (by simp [planRows, p])
    ([(0, 0), (1, 2), (2, 4)], [(0, [opt 1 20 0]), (1, []), (2, [])], 20, 0) (by simp [planRows, p])
    0 (0, 0) rfl rfl
  revert this
  decide +kernel

/-! ## C23: the recorded plan need not be optimal, and need not exist -/

/-- C23 fails.  One line of cost 10 that avoids all operation costs when built at the root: total 20
over the two scenarios, but the recorded plan costs 750. -/
theorem C23_violated : ∃ (cfg : Cfg) (fuel : Nat) (p : Plan) (α : Decision),
    WellFormed cfg fuel ∧ finalPlan cfg fuel = some p ∧
    FeasibleDecision cfg α (leafPaths cfg 2 0) ∧
    decisionCost cfg α (leafPaths cfg 2 0) = 20 ∧ planTotal p = 750 := by
  let cfg : Cfg := yTree [opt 0 10 0] (fun _ r => (true, if r.active = [] then 1 else 0))
  have h2 : (finalPlan cfg 6).map planTotal = some 750 := by decide +kernel
  obtain ⟨p, hp, ht⟩ := Option.map_eq_some_iff.1 h2
  refine ⟨cfg, 6, p, fun n => if n = 0 then [opt 0 10 0] else [], yTree_wf _ _ (by decide), hp, ?_, ?_, ht⟩
  · intro path hpath
    have hpath' : path ∈ [[0, 1, 3], [0, 2, 4]] := by
      have : leafPaths cfg 2 0 = [[0, 1, 3], [0, 2, 4]] := by decide +kernel
      rwa [this] at hpath
    simp only [List.mem_cons, List.not_mem_nil, or_false] at hpath'
    rcases hpath' with rfl | rfl
    · refine ⟨by simp [cfg, yTree], by decide +kernel, fun _ _ => rfl⟩
    · refine ⟨by simp [cfg, yTree], by decide +kernel, fun _ _ => rfl⟩
  · decide +kernel

/-- C23 fails in another way: on a tree with a single scenario and nothing to build the search
accepts every node but records no plan at all. -/
theorem C23_no_plan_recorded_violated : ∃ (cfg : Cfg) (fuel : Nat), WellFormed cfg fuel ∧
    FeasibleDecision cfg (fun _ => []) (leafPaths cfg 1 0) ∧
    finalPlan cfg fuel = some {} := by
  let cfg : Cfg := { pool := [], nodes := [0, 1], nbr := graphOf [[1]], years := [2020, 2030],
                     rate := 0, opf := fun _ _ => (true, 0) }
  refine ⟨cfg, 5, ⟨by decide, by decide, 1, by simp [HeightLe, cfg, graphOf], by omega, by decide⟩, ?_,
    by decide +kernel⟩
  intro path hpath
  refine ⟨by simp, ?_, fun _ _ => rfl⟩
  have : path.flatMap (fun _ => (([] : Group).map (·.1))) = [] := by simp
  rw [this]; exact List.nodup_nil

/-! ## C24: recorded investment costs -/

/-- C24 fails: an option of cost 10 that is not finished in time is not recorded, its cost is. -/
theorem C24_violated : ∃ (cfg : Cfg) (fuel : Nat) (p : Plan), WellFormed cfg fuel ∧
    finalPlan cfg fuel = some p ∧ ∃ r ∈ planRows p, investmentCost cfg r.2.1 = .ok 0 ∧ r.2.2.1 = 10 := by
  let cfg : Cfg := vTree [opt 0 10 15] (fun _ r => (true, if r.active = [] then 1 else 0))
  let p : Plan :=
    { interventions := [(0, [(0, []), (1, [])]), (1, [(0, [opt 0 10 15]), (1, [])])]
      operationCosts := [(0, 730), (1, 365)]
      investmentCosts := [(0, 10), (1, 10)]
      graphPaths := [(0, [(0, 0), (1, 1)]), (1, [(0, 0), (1, 2)])] }
  refine ⟨cfg, 5, p, vTree_wf _ _ (by decide), by decide +kernel,
    ([(0, 0), (1, 1)], [(0, []), (1, [])], 10, 730), by simp [planRows, p], by decide +kernel, rfl⟩

theorem builtGroup_all {t : Times} {g : Group} (h : GroupAligned t g) (ht : GroupTimes t g)
    (h0 : ∀ e ∈ g, e.2.installationTime ≤ 0) : builtGroup t g = g := by
  have hlen : t.length = g.length := by
    have := congrArg List.length h.1; simpa using this
  unfold builtGroup
  rw [List.filter_eq_self.2]
  · rw [List.map_snd_zip (by omega)]
  · intro p hp
    obtain ⟨i, hi, rfl⟩ := List.getElem_of_mem hp
    have hi1 : i < t.length := by simp at hi; omega
    have hi2 : i < g.length := by simp at hi; omega
    have h1 := (List.forall₂_iff_get.1 ht).2 i hi1 hi2
    have h2 := h0 g[i] (List.getElem_mem hi2)
    simp only [List.get_eq_getElem] at h1
    simp only [List.getElem_zip, decide_eq_true_eq]
    omega

/-- C24 holds when every option can be installed at once (installation time at most 0) and the years
are in order: the recorded investment cost of every stored solution is the discounted cost of the
interventions recorded with it. -/
theorem C24_cost_matches_partial (cfg : Cfg) (fuel : Nat) (hw : WellFormed cfg fuel)
    (hsort : Sorted cfg) (hins : ∀ e ∈ cfg.pool, e.2.installationTime ≤ 0) (b : Info)
    (hb : Moment cfg fuel b) :
    ∀ p ∈ [b.incumbent, b.partialTree, b.complete], ∀ r ∈ planRows p,
      investmentCost cfg r.2.1 = .ok r.2.2.1 := by
  apply hb.planRows (Q := fun r => investmentCost cfg r.2.1 = .ok r.2.2.1) hw
  rintro r ⟨a, hl, hp, hsol, _, hinv⟩
  rcases hinv with hinv | hinv
  · have : r.sol = a.candInt := by
      rw [hsol]
      have ht := hl.cand.times hsort
      have hal := hl.cand.aligned
      have hpool := hl.cand.pool
      have key : ∀ {ts : List (Int × Times)} {s : Sol}, SolAligned ts s → SolTimes ts s →
          (∀ lg ∈ s, ∀ e ∈ lg.2, e ∈ cfg.pool) → builtSol ts s = s := by
        intro ts s h1
        induction h1 with
        | nil => intro _ _; rfl
        | @cons t g ts s hab hr ih =>
          intro h2 h3
          cases h2 with
          | cons h2a h2b =>
            have e1 := builtGroup_all hab.2 h2a
              (fun e he => hins e (h3 g (by simp) e he))
            have e2 := ih h2b (fun lg hlg => h3 lg (by simp [hlg]))
            change (g.1, builtGroup t.2 g.2) :: builtSol ts s = g :: s
            rw [e1, e2]
      exact key hal ht hpool
    simpa only [this] using hinv
  · exact hinv

/-- C24, in general the recorded cost is never understated: with non-negative costs and a return rate
below 100 %, the recorded investment cost of every stored solution is at least the discounted cost
of the interventions recorded with it. -/
theorem C24_never_understated_partial (cfg : Cfg) (fuel : Nat) (hw : WellFormed cfg fuel)
    (hrate : cfg.rate < 100) (hcost : ∀ e ∈ cfg.pool, 0 ≤ e.2.cost) (b : Info)
    (hb : Moment cfg fuel b) :
    ∀ p ∈ [b.incumbent, b.partialTree, b.complete], ∀ r ∈ planRows p,
      ∃ c, investmentCost cfg r.2.1 = .ok c ∧ c ≤ r.2.2.1 := by
  apply hb.planRows (Q := fun r => ∃ c, investmentCost cfg r.2.1 = .ok c ∧ c ≤ r.2.2.1) hw
  rintro r ⟨a, hl, hp, hsol, _, hinv⟩
  rcases hinv with hinv | hinv
  · have hf := builtSol_forall hl.cand.aligned
    have hlen : a.candInt.length ≤ cfg.years.length := by rw [hl.cand.intLen]; exact hl.years
    have hlen2 : r.sol.length ≤ cfg.years.length := by rw [hsol, hf.length_eq]; exact hlen
    rw [(C29_totals cfg hw.rate).1 _ hlen] at hinv
    simp only
    refine ⟨_, (C29_totals cfg hw.rate).1 _ hlen2, ?_⟩
    rw [← Except.ok.inj hinv, hsol]
    have hwt : ∀ i, 0 ≤ weight cfg.rate cfg.years i := by
      intro i
      unfold weight
      have : (0 : Rat) < 1 - cfg.rate / 100 := by linarith
      exact le_of_lt (one_div_pos.2 (zpow_pos this _))
    have hgc : ∀ {x y : Group}, x.Sublist y → (∀ e ∈ y, e ∈ cfg.pool) → groupCost x ≤ groupCost y := by
      intro x y hxy hy
      unfold groupCost
      apply List.Sublist.sum_le_sum (hxy.map _)
      intro c hc
      obtain ⟨e, he, rfl⟩ := List.mem_map.1 hc
      exact hcost e (hy e he)
    have key : ∀ {s s' : Sol}, List.Forall₂ (fun x y => x.1 = y.1 ∧ x.2.Sublist y.2) s s' →
        (∀ lg ∈ s', ∀ e ∈ lg.2, e ∈ cfg.pool) → ∀ i,
        ((s.zipIdx i).map (fun p => weight cfg.rate cfg.years p.2 * groupCost p.1.2)).sum ≤
        ((s'.zipIdx i).map (fun p => weight cfg.rate cfg.years p.2 * groupCost p.1.2)).sum := by
      intro s s' h
      induction h with
      | nil => intro _ i; exact le_refl _
      | @cons x y s s' hxy _ ih =>
        intro hpool i
        simp only [List.zipIdx_cons, List.map_cons, List.sum_cons]
        exact add_le_add (mul_le_mul_of_nonneg_left (hgc hxy.2 (hpool y (by simp))) (hwt i))
          (ih (fun lg hlg => hpool lg (by simp [hlg])) (i + 1))
    exact key hf hl.cand.pool 0
  · exact ⟨_, hinv, le_refl _⟩

/-- A pool that meets the hypotheses of both partial statements. -/
example : ∀ e ∈ [opt 0 10 0, opt 1 20 (-1)], e.2.installationTime ≤ 0 ∧ 0 ≤ e.2.cost := by
  decide +kernel

/-! ## C26: replacing a stored solution -/

/-- C26.  When the check at a leaf finds a solution stored under key `k` for the candidate's path,
that solution is for exactly the candidate's path, and either the incumbent is unchanged (the
candidate is no cheaper) or exactly the entries under `k` are overwritten by the candidate's, whose
recorded total cost is strictly smaller. -/
theorem C26_replacement_is_cheaper (cfg : Cfg) (fuel : Nat) (info : Info) (k : Int)
    (hw : WellFormed cfg fuel) (hc : CandOK cfg info) (hs : StoreAligned info)
    (hleaf : RootToLeaf cfg (info.candPath.map (·.2)))
    (hy : info.candPath.length ≤ cfg.years.length)
    (hpaths : ∀ kp ∈ info.incPaths, RootToLeaf cfg (kp.2.map (·.2)) ∧
      kp.2.map (·.1) = ints kp.2.length)
    (hk : storedKey info = some k) :
    ∃ b oldInv oldOp newInv newOp built, replaceIfBetter cfg k info = .ok b ∧
      (k, info.candPath) ∈ info.incPaths ∧
      alreadyBuilt info = .ok built ∧ investmentCost cfg built = .ok newInv ∧
      operationCost cfg info.candOp = .ok newOp ∧
      listGet? info.incInv k = some oldInv ∧ listGet? info.incOp k = some oldOp ∧
      ((oldInv + oldOp ≤ newInv + newOp ∧ b = info) ∨
       (newInv + newOp < oldInv + oldOp ∧ b.complete = info.complete ∧
        b.partialTree = info.partialTree ∧
        b.incInv = info.incInv.map (fun e => if e.1 = k then (e.1, newInv) else e) ∧
        b.incOp = info.incOp.map (fun e => if e.1 = k then (e.1, newOp) else e) ∧
        b.incInt = info.incInt.map (fun e => if e.1 = k then (e.1, built) else e) ∧
        b.incPaths = info.incPaths.map (fun e => if e.1 = k then (e.1, info.candPath) else e))) := by
  have hl : LeafCand cfg info := ⟨hc, hleaf.2, hy⟩
  obtain ⟨R, P, C, hst⟩ := hs.storedAny
  obtain ⟨row0, hm0, hcont⟩ := storedKey_some hst hk
  have hm1 : (k, row0.path) ∈ info.incPaths := by
    rw [hst.incPaths]; exact List.mem_map.2 ⟨_, hm0, rfl⟩
  obtain ⟨hrp, hrk⟩ := hpaths _ hm1
  have hpre := (pathContains_iff hrk hc.pathKeys).1 hcont
  have heq : info.candPath = row0.path := prefix_leaf_eq hpre hrp.1 hleaf.2
  have hb := alreadyBuilt_eq info hc.aligned hc.intNodup
  obtain ⟨inv, hinv⟩ := investmentCost_ok cfg hw.rate (builtSol info.candTime info.candInt)
    (by rw [builtSol_length hc.aligned, hc.intLen]; exact hy)
  obtain ⟨op, hop⟩ := operationCost_ok cfg hw.rate info.candOp (by rw [hc.opLen]; exact hy)
  obtain ⟨old, hold, _⟩ := listGet?_isSome (l := R) (k := k) (List.mem_map.2 ⟨_, hm0, rfl⟩)
  have h1 : listGet? info.incInv k = some old.inv := by rw [hst.incInv, listGet?_col, hold]; rfl
  have h2 : listGet? info.incOp k = some old.op := by rw [hst.incOp, listGet?_col, hold]; rfl
  have hrun : replaceIfBetter cfg k info = if old.inv + old.op > inv + op then
      .ok { info with
        incPaths := listSet info.incPaths k info.candPath,
        incInt := listSet info.incInt k (builtSol info.candTime info.candInt),
        incInv := listSet info.incInv k inv,
        incOp := listSet info.incOp k op }
      else .ok info := by
    unfold replaceIfBetter
    rw [hb, exc_bind_ok, hinv, exc_bind_ok, hop, exc_bind_ok, h1, h2]
    rfl
  by_cases hlt : old.inv + old.op > inv + op
  · rw [if_pos hlt] at hrun
    exact ⟨_, old.inv, old.op, inv, op, _, hrun, heq ▸ hm1, hb, hinv, hop, h1, h2,
      Or.inr ⟨hlt, rfl, rfl, rfl, rfl, rfl, rfl⟩⟩
  · rw [if_neg hlt] at hrun
    exact ⟨_, old.inv, old.op, inv, op, _, hrun, heq ▸ hm1, hb, hinv, hop, h1, h2,
      Or.inl ⟨not_lt.1 hlt, rfl⟩⟩

/-- The sample leaf state with a more expensive solution stored for its path under key 4. -/
example : storedKey (construct { sampleInfo with
      incPaths := [(4, [(0, 0), (1, 1)])], incInt := [(4, [(0, []), (1, [])])],
      incInv := [(4, 1000)], incOp := [(4, 1)] }) = some 4 := by decide +kernel

/-! ## C57: the returned flag -/

/-- The flag returned by the search, and whether a complete plan is recorded at the end. -/
def outcome (cfg : Cfg) (fuel : Nat) : Option (Bool × Bool) :=
  match runSearch cfg fuel with
  | .ok r => some (r.1, decide (r.2.complete.graphPaths ≠ []))
  | .error _ => none

/-- C57 fails in one direction: with nothing to build and every node feasible the search records a
plan for both scenarios and returns False. -/
theorem C57_false_although_recorded_violated : ∃ (cfg : Cfg) (fuel : Nat), WellFormed cfg fuel ∧
    outcome cfg fuel = some (false, true) :=
  ⟨vTree [] (fun _ _ => (true, 0)), 5, vTree_wf _ _ (by decide), by decide +kernel⟩

/-- C57 fails in the other direction: on a single scenario whose root needs the only line, the search
returns True and records nothing. -/
theorem C57_true_although_nothing_recorded_violated : ∃ (cfg : Cfg) (fuel : Nat), WellFormed cfg fuel ∧
    outcome cfg fuel = some (true, false) := by
  refine ⟨{ pool := [opt 0 10 0], nodes := [0, 1], nbr := graphOf [[1]], years := [2020, 2030],
            rate := 0, opf := fun _ r => (r.active != [], 0) }, 5,
    ⟨by decide, by decide, 1, by simp [HeightLe, graphOf], by omega, by decide⟩, by decide +kernel⟩

end Pyensys
