import Verif.Lemmas.SearchStar

/-!
# C22, C23, C57 on trees of two stages

C22 and C23 fail in general (`C22_violated`, `C23_violated`: trees of three levels, construction
times, a single scenario).  On a tree of two stages with at least two scenarios and interventions
without construction time they hold, for every pool, return rate and OPF.
-/

namespace Pyensys

theorem star_leafPaths {cfg leaves} (ts : TwoStage cfg leaves) :
    leafPaths cfg 1 0 = leaves.map (fun l => [0, l]) := by
  have hne : ¬ cfg.nbr 0 = [] := by
    rw [ts.root]
    intro h; have := ts.many; rw [h] at this; simp at this
  unfold leafPaths
  rw [if_neg hne, ts.root]
  simp only [leafPaths, List.map_cons, List.map_nil]
  clear ts hne
  induction leaves with
  | nil => rfl
  | cons x l ih => simp only [List.flatMap_cons, ih]; rfl

theorem starGroupCost_eq (g : Group) : starGroupCost g = (g.map (fun e => e.2.cost)).sum := by
  unfold starGroupCost
  have : ∀ (g : Group) (acc : Rat), g.foldl (fun s kv => s + kv.2.cost) acc =
      acc + (g.map (fun e => e.2.cost)).sum := by
    intro g
    induction g with
    | nil => intro acc; simp
    | cons x g ih => intro acc; rw [List.foldl_cons, ih]; simp; ring
  rw [this]; ring

theorem star_weight {cfg leaves} (ts : TwoStage cfg leaves) {w : Rat}
    (hw : levelWeight cfg 1 = .ok w) : w = yearWeight cfg 1 ∧ yearWeight cfg 0 = 1 := by
  have hy := ts.years
  have hy1 : pyGet cfg.years (1 : Nat) = .ok (cfg.years[1]'(by omega)) := pyGet_nat _ 1 (by omega)
  have hy0 : pyGet cfg.years 0 = .ok (cfg.years[0]'(by omega)) := pyGet_nat _ 0 (by omega)
  have hle : cfg.years[0]'(by omega) ≤ cfg.years[1]'(by omega) :=
    List.pairwise_iff_getElem.1 ts.sorted 0 1 (by omega) (by omega) (by omega)
  have g1 : cfg.years.getD 1 0 = cfg.years[1]'(by omega) := by
    rw [List.getD_eq_getElem?_getD, List.getElem?_eq_getElem (by omega)]; rfl
  have g0 : cfg.years.getD 0 0 = cfg.years[0]'(by omega) := by
    rw [List.getD_eq_getElem?_getD, List.getElem?_eq_getElem (by omega)]; rfl
  constructor
  · unfold levelWeight at hw
    rw [if_neg (by omega), hy1, exc_bind_ok, hy0, exc_bind_ok] at hw
    unfold yearWeight
    rw [g1, g0]
    unfold discount at hw
    have hb : (1 - cfg.rate / 100 : Rat) ≠ 0 := by
      intro h0
      apply ts.rate
      have : cfg.rate / 100 = 1 := by linarith
      linarith
    simp only [hb, false_and, if_false] at hw
    rw [if_pos (by omega)] at hw
    simp only [Except.ok.injEq] at hw
    rw [← hw, ratPow_eq]
    congr 1
    obtain ⟨n, hn⟩ := Int.eq_ofNat_of_zero_le (show 0 ≤ cfg.years[1]'(by omega) - cfg.years[0]'(by omega) by omega)
    rw [hn]
    simp
  · unfold yearWeight
    simp

theorem star_finished {cfg leaves} (ts : TwoStage cfg leaves) {α : Decision} {l : Nat}
    (h0 : ∀ e ∈ α 0, e ∈ cfg.pool) (hl : ∀ e ∈ α l, e ∈ cfg.pool) :
    finishedAt cfg α [0, l] 0 = (α 0).map (·.2) ∧
    finishedAt cfg α [0, l] 1 = (α 0).map (·.2) ++ (α l).map (·.2) := by
  have hy := ts.years
  have hle : cfg.years[0]'(by omega) ≤ cfg.years[1]'(by omega) :=
    List.pairwise_iff_getElem.1 ts.sorted 0 1 (by omega) (by omega) (by omega)
  have g1 : cfg.years.getD 1 0 = cfg.years[1]'(by omega) := by
    rw [List.getD_eq_getElem?_getD, List.getElem?_eq_getElem (by omega)]; rfl
  have g0 : cfg.years.getD 0 0 = cfg.years[0]'(by omega) := by
    rw [List.getD_eq_getElem?_getD, List.getElem?_eq_getElem (by omega)]; rfl
  have hf : ∀ (g : Group) (d : Int), (∀ e ∈ g, e ∈ cfg.pool) → 0 ≤ d →
      g.filter (fun e => e.2.installationTime ≤ d) = g := by
    intro g d hg hd
    apply List.filter_eq_self.2
    intro e he
    have := ts.instant e (hg e he)
    simp only [decide_eq_true_eq]
    omega
  constructor
  · unfold finishedAt
    simp only [List.range_succ, List.range_zero, List.nil_append, List.flatMap_cons, List.flatMap_nil,
      List.append_nil]
    show ((α 0).filter _).map _ = _
    rw [hf _ _ h0 (by omega)]
  · unfold finishedAt
    simp only [List.range_succ, List.range_zero, List.nil_append, List.cons_append,
      List.flatMap_cons, List.flatMap_nil, List.append_nil]
    show ((α 0).filter _).map _ ++ ((α l).filter _).map _ = _
    rw [hf _ _ h0 (by omega), hf _ _ hl (by omega)]

theorem star_decisionCost {cfg leaves} (ts : TwoStage cfg leaves) {w : Rat}
    (hw : levelWeight cfg 1 = .ok w) {α : Decision} (h0 : ∀ e ∈ α 0, e ∈ cfg.pool)
    (hl : ∀ l ∈ leaves, ∀ e ∈ α l, e ∈ cfg.pool) :
    decisionCost cfg α (leafPaths cfg 1 0) =
      (leaves.map (fun l => starCost cfg w (α 0) l (α l))).sum := by
  obtain ⟨hw1, hw0⟩ := star_weight ts hw
  unfold decisionCost
  rw [star_leafPaths ts, List.map_map]
  congr 1
  apply List.map_congr_left
  intro l hm
  obtain ⟨e0, e1⟩ := star_finished ts h0 (hl l hm)
  simp only [Function.comp, List.length_cons, List.length_nil, List.range_succ, List.range_zero,
    List.nil_append, List.cons_append, List.map_cons, List.map_nil, List.sum_cons, List.sum_nil]
  rw [e0, e1, hw0, ← hw1]
  unfold starCost starRow
  simp only [starGroupCost_eq]
  show _ * (((α 0).map _).sum + 365 * (cfg.opf [] ⟨0, _⟩).2) +
    (_ * (((α l).map _).sum + 365 * (cfg.opf [] ⟨l, _⟩).2) + 0) = _
  ring

theorem itemMem_of_mem {g : Group} {e : Int × BinVar} (h : e ∈ g) : ADC.itemMem g e = true := by
  unfold ADC.itemMem
  rw [List.any_eq_true]
  exact ⟨e, h, by simp⟩

theorem key_of_itemMem {g : Group} {e : Int × BinVar} (h : ADC.itemMem g e = true) :
    e.1 ∈ g.map (·.1) := by
  unfold ADC.itemMem at h
  rw [List.any_eq_true] at h
  obtain ⟨x, hx, hh⟩ := h
  simp only [Bool.and_eq_true, decide_eq_true_eq] at hh
  exact List.mem_map.2 ⟨x, hx, hh.1⟩

/-- a group of pool entries with distinct keys is a part of the pool, up to order -/
theorem star_sub {pool g : Group} (hp : (pool.map (·.1)).Nodup) (hg : ∀ e ∈ g, e ∈ pool)
    (hn : (g.map (·.1)).Nodup) : ∃ s : Group, s.Sublist pool ∧ s.Perm g := by
  classical
  refine ⟨pool.filter (fun e => decide (e ∈ g)), List.filter_sublist, ?_⟩
  rw [List.perm_ext_iff_of_nodup (hp.of_map.filter _) hn.of_map]
  intro e
  rw [List.mem_filter, decide_eq_true_eq]
  exact ⟨fun h => h.2, fun h => ⟨hg e h, h⟩⟩

/-- Every feasible decision costs at least as much as the recorded plan. -/
theorem star_optimal {cfg leaves} (ts : TwoStage cfg leaves) {w : Rat}
    (hw : levelWeight cfg 1 = .ok w) {C : List (Int × Row)}
    (hC : ∀ g : Group, g.Sublist cfg.pool → StarBound cfg leaves w C g) {α : Decision}
    (hα : FeasibleDecision cfg α (leafPaths cfg 1 0)) :
    C ≠ [] ∧ totalCost C ≤ decisionCost cfg α (leafPaths cfg 1 0) := by
  rw [star_leafPaths ts] at hα
  have hpath : ∀ l ∈ leaves, _ := fun l hl => hα [0, l] (List.mem_map.2 ⟨l, hl, rfl⟩)
  have hpool : ∀ l ∈ leaves, (∀ e ∈ α 0, e ∈ cfg.pool) ∧ (∀ e ∈ α l, e ∈ cfg.pool) :=
    fun l hl => ⟨(hpath l hl).1 0 (by simp), (hpath l hl).1 l (by simp)⟩
  have hnod : ∀ l ∈ leaves, ((α 0).map (·.1) ++ (α l).map (·.1)).Nodup := by
    intro l hl
    have := (hpath l hl).2.1
    simpa using this
  obtain ⟨l0, hl0⟩ : ∃ l, l ∈ leaves := by
    cases hls : leaves with
    | nil => have := ts.many; rw [hls] at this; simp at this
    | cons x _ => exact ⟨x, by simp⟩
  have h0 := (hpool l0 hl0).1
  obtain ⟨g, hg, hgp⟩ := star_sub ts.pool h0 ((List.nodup_append.1 (hnod l0 hl0)).1)
  have hopf0 : ∀ l ∈ leaves, (cfg.opf [] ⟨0, (α 0).map (·.2)⟩).1 = true ∧
      (cfg.opf [] ⟨l, (α 0).map (·.2) ++ (α l).map (·.2)⟩).1 = true := by
    intro l hl
    obtain ⟨e0, e1⟩ := star_finished ts h0 (hpool l hl).2
    have a := (hpath l hl).2.2 0 (by simp)
    have b := (hpath l hl).2.2 1 (by simp)
    rw [e0] at a
    rw [e1] at b
    exact ⟨a, b⟩
  have hleaf : ∀ l ∈ leaves, ∃ h : Group, StarChoice cfg g h ∧ h.Perm (α l) := by
    intro l hl
    have hn := List.nodup_append.1 (hnod l hl)
    apply star_sub
    · exact (List.filter_sublist.map _).nodup ts.pool
    · intro e he
      rw [List.mem_filter]
      refine ⟨(hpool l hl).2 e he, ?_⟩
      rw [Bool.not_eq_true']
      by_contra hc
      have hc' : ADC.itemMem g e = true := by simpa using hc
      have hk := key_of_itemMem hc'
      have hk' : e.1 ∈ (α 0).map (·.1) := (hgp.map _).subset hk
      exact hn.2.2 e.1 hk' e.1 (List.mem_map.2 ⟨e, he, rfl⟩) rfl
    · exact hn.2.1
  classical
  let H : Nat → Group := fun l => if hl : l ∈ leaves then (hleaf l hl).choose else []
  have hH : ∀ l ∈ leaves, StarChoice cfg g (H l) ∧ (H l).Perm (α l) := by
    intro l hl
    have : H l = (hleaf l hl).choose := dif_pos hl
    rw [this]
    exact (hleaf l hl).choose_spec
  have hperm : ∀ l ∈ leaves, (g.map (·.2) ++ (H l).map (·.2)).Perm
      ((α 0).map (·.2) ++ (α l).map (·.2)) := fun l hl =>
    (hgp.map _).append ((hH l hl).2.map _)
  have hroot : cfg.opf [] ⟨0, g.map (·.2)⟩ = cfg.opf [] ⟨0, (α 0).map (·.2)⟩ :=
    ts.opf _ _ _ _ (hgp.map _)
  obtain ⟨k1, k2⟩ := hC g hg (by rw [hroot]; exact (hopf0 l0 hl0).1) H (by
    intro l hl
    refine ⟨(hH l hl).1, ?_⟩
    unfold StarFeas
    rw [ts.opf [] l _ _ (hperm l hl)]
    exact (hopf0 l hl).2)
  refine ⟨k1, ?_⟩
  rw [star_decisionCost ts hw h0 (fun l hl => (hpool l hl).2)]
  refine le_trans k2 (le_of_eq ?_)
  congr 1
  apply List.map_congr_left
  intro l hl
  unfold starCost starRow
  simp only [starGroupCost_eq]
  rw [hroot, ts.opf [] l _ _ (hperm l hl), (hgp.map (fun e => e.2.cost)).sum_eq,
    ((hH l hl).2.map (fun e => e.2.cost)).sum_eq]

/-- The recorded plan is the plan of a feasible decision. -/
theorem star_good {cfg leaves} (ts : TwoStage cfg leaves) {w : Rat}
    (hw : levelWeight cfg 1 = .ok w) {C : List (Int × Row)} (hC : StarGood cfg leaves w C)
    (hne : C ≠ []) : ∃ α : Decision, FeasibleDecision cfg α (leafPaths cfg 1 0) ∧
      C.map (·.2) = leaves.map (fun l => starRow cfg w (α 0) l (α l)) := by
  rcases hC with h | ⟨g, hg, hroot, hF⟩
  · exact absurd h hne
  · -- one decision per leaf
    have key : ∀ (ls : List Nat) (C : List (Int × Row)), ls.Nodup →
        List.Forall₂ (fun l (e : Int × Row) => ∃ h, StarChoice cfg g h ∧ StarFeas cfg g l h ∧
          e.2 = starRow cfg w g l h) ls C →
        ∃ H : Nat → Group, (∀ l ∈ ls, StarChoice cfg g (H l) ∧ StarFeas cfg g l (H l)) ∧
          C.map (·.2) = ls.map (fun l => starRow cfg w g l (H l)) := by
      intro ls C hn h
      induction h with
      | nil => exact ⟨fun _ => [], by simp, rfl⟩
      | @cons l e ls C hle _ ih =>
        rw [List.nodup_cons] at hn
        obtain ⟨H, h1, h2⟩ := ih hn.2
        obtain ⟨h, a, b, c⟩ := hle
        refine ⟨fun x => if x = l then h else H x, ?_, ?_⟩
        · intro x hx
          rcases List.mem_cons.1 hx with rfl | hx'
          · simp only [if_true]; exact ⟨a, b⟩
          · have : x ≠ l := by rintro rfl; exact hn.1 hx'
            simp only [this, if_false]; exact h1 x hx'
        · simp only [List.map_cons, if_true]
          rw [h2, c]
          congr 1
          apply List.map_congr_left
          intro x hx
          have : x ≠ l := by rintro rfl; exact hn.1 hx
          simp only [this, if_false]
    obtain ⟨H, h1, h2⟩ := key leaves C ts.nodup hF
    have hl0 : ∀ l ∈ leaves, l ≠ 0 := by rintro l hl rfl; exact ts.zero hl
    refine ⟨fun n => if n = 0 then g else H n, ?_, ?_⟩
    · rw [star_leafPaths ts]
      intro path hp
      obtain ⟨l, hl, rfl⟩ := List.mem_map.1 hp
      obtain ⟨c1, c2⟩ := h1 l hl
      have hgp : ∀ e ∈ g, e ∈ cfg.pool := fun e he => hg.subset he
      have hhp : ∀ e ∈ H l, e ∈ cfg.pool := fun e he => (List.mem_filter.1 (c1.subset he)).1
      have hlz := hl0 l hl
      obtain ⟨e0, e1⟩ := star_finished ts (α := fun n => if n = 0 then g else H n) (l := l)
        (by simpa using hgp) (by simpa [hlz] using hhp)
      simp only [if_true, hlz, if_false] at e0 e1
      refine ⟨?_, ?_, ?_⟩
      · intro n hn
        simp only [List.mem_cons, List.not_mem_nil, or_false] at hn
        rcases hn with rfl | rfl
        · simpa using hgp
        · simpa [hlz] using hhp
      · simp only [List.flatMap_cons, List.flatMap_nil, List.append_nil, if_true, hlz, if_false]
        rw [List.nodup_append]
        refine ⟨(hg.map _).nodup ts.pool, starChoice_nodup ts c1, ?_⟩
        rintro a ha b hb rfl
        obtain ⟨x, hx, rfl⟩ := List.mem_map.1 ha
        obtain ⟨y, hy, hxy⟩ := List.mem_map.1 hb
        have hye := List.mem_filter.1 (c1.subset hy)
        have hxp := hgp x hx
        have : x = y := List.inj_on_of_nodup_map ts.pool hxp hye.1 hxy.symm
        subst this
        have := itemMem_of_mem hx
        rw [this] at hye
        simp at hye
      · intro i hi
        simp only [List.length_cons, List.length_nil] at hi
        have hi' : i = 0 ∨ i = 1 := by omega
        rcases hi' with rfl | rfl
        · rw [e0]; exact hroot
        · rw [e1]; exact c2
    · rw [h2]
      apply List.map_congr_left
      intro l hl
      simp only [if_true, hl0 l hl, if_false]

theorem star_final {cfg : Cfg} {fuel : Nat} {f : Bool} {b : Info} {C : List (Int × Row)}
    (h : runSearch cfg fuel = .ok (f, b)) (hc : b.complete = planOf C) :
    finalPlan cfg fuel = some (planOf C) := by
  unfold finalPlan
  rw [h]
  show some b.complete = _
  rw [hc]

/-- **C22** on trees of two stages: the search ends, and in the recorded plan two scenarios agree on
what is started at a node that they share. -/
theorem C22_two_stage_partial (cfg : Cfg) (leaves : List Nat) (ts : TwoStage cfg leaves) (fuel : Nat)
    (hfuel : 2 ≤ fuel) : ∃ p, finalPlan cfg fuel = some p ∧ NonAnticipative p := by
  obtain ⟨w, f, b, C, hw, h1, h2, h3, _, _⟩ := star_run ts hfuel
  refine ⟨planOf C, star_final h1 h2, ?_⟩
  by_cases hne : C = []
  · subst hne
    intro r₁ hr₁
    rw [planRows_planOf] at hr₁
    cases hr₁
  · obtain ⟨α, _, hrows⟩ := star_good ts hw h3 hne
    have key : ∀ r ∈ planRows (planOf C), ∃ l, r.1 = [(0, 0), (1, l)] ∧ r.2.1 = [(0, α 0), (1, α l)] := by
      intro r hr
      rw [planRows_planOf] at hr
      obtain ⟨e, he, rfl⟩ := List.mem_map.1 hr
      have : e.2 ∈ C.map (·.2) := List.mem_map.2 ⟨e, he, rfl⟩
      rw [hrows] at this
      obtain ⟨l, _, hle⟩ := List.mem_map.1 this
      exact ⟨l, by rw [← hle]; rfl, by rw [← hle]; rfl⟩
    intro r₁ hr₁ r₂ hr₂ i n h₁ h₂
    obtain ⟨l₁, a₁, b₁⟩ := key r₁ hr₁
    obtain ⟨l₂, a₂, b₂⟩ := key r₂ hr₂
    rw [a₁] at h₁
    rw [a₂] at h₂
    rw [b₁, b₂]
    match i with
    | 0 => rfl
    | 1 =>
      simp only [List.getElem?_cons_succ, List.getElem?_cons_zero, Option.some.injEq] at h₁ h₂
      have : l₁ = l₂ := by
        have := h₁.trans h₂.symm
        simpa using this
      rw [this]
    | i + 2 => rfl

/-- **C23** on trees of two stages: the search ends; if there is a feasible decision a plan is
recorded, and the recorded plan is that of a feasible decision: it has a row per scenario with the
interventions of the root and of the leaf, its total is the cost of the decision, and no feasible
decision is cheaper. -/
theorem C23_two_stage_partial (cfg : Cfg) (leaves : List Nat) (ts : TwoStage cfg leaves) (fuel : Nat)
    (hfuel : 2 ≤ fuel) : ∃ p, finalPlan cfg fuel = some p ∧
      (∀ α, FeasibleDecision cfg α (leafPaths cfg 1 0) →
        p.graphPaths ≠ [] ∧ planTotal p ≤ decisionCost cfg α (leafPaths cfg 1 0)) ∧
      (p.graphPaths ≠ [] → ∃ α, FeasibleDecision cfg α (leafPaths cfg 1 0) ∧
        planTotal p = decisionCost cfg α (leafPaths cfg 1 0) ∧
        (planRows p).map (fun r => (r.1, r.2.1)) =
          leaves.map (fun l => ([(0, 0), (1, l)], [(0, α 0), (1, α l)]))) := by
  obtain ⟨w, f, b, C, hw, h1, h2, h3, h4, _⟩ := star_run ts hfuel
  refine ⟨planOf C, star_final h1 h2, ?_, ?_⟩
  · intro α hα
    obtain ⟨k1, k2⟩ := star_optimal ts hw h4 hα
    refine ⟨?_, by rw [planTotal_planOf]; exact k2⟩
    intro h
    apply k1
    have : (col Row.path C).length = 0 := by
      have := congrArg List.length h
      simpa [planOf] using this
    rw [length_col] at this
    exact List.eq_nil_of_length_eq_zero this
  · intro h
    have hne : C ≠ [] := by rintro rfl; exact h rfl
    obtain ⟨α, hα, hrows⟩ := star_good ts hw h3 hne
    have hpath : ∀ l ∈ leaves, _ := fun l hl =>
      hα [0, l] (by rw [star_leafPaths ts]; exact List.mem_map.2 ⟨l, hl, rfl⟩)
    obtain ⟨l0, hl0⟩ : ∃ l, l ∈ leaves := by
      cases hls : leaves with
      | nil => have := ts.many; rw [hls] at this; simp at this
      | cons x _ => exact ⟨x, by simp⟩
    refine ⟨α, hα, ?_, ?_⟩
    · rw [planTotal_planOf, star_decisionCost ts hw ((hpath l0 hl0).1 0 (by simp))
        (fun l hl => (hpath l hl).1 l (by simp))]
      unfold totalCost
      have : C.map (fun e => e.2.inv + e.2.op) = (C.map (·.2)).map (fun r => r.inv + r.op) := by
        rw [List.map_map]; rfl
      rw [this, hrows, List.map_map]
      rfl
    · rw [planRows_planOf, List.map_map]
      have : C.map ((fun r : Path × Sol × Rat × Rat => (r.1, r.2.1)) ∘
          (fun e : Int × Row => (e.2.path, e.2.sol, e.2.inv, e.2.op))) =
          (C.map (·.2)).map (fun r => (r.path, r.sol)) := by
        rw [List.map_map]; rfl
      rw [this, hrows, List.map_map]
      rfl

/-- **C57** on trees of two stages: if the search reports success, a plan has been recorded.
(Missing: the converse, which fails.) -/
theorem C57_two_stage_partial (cfg : Cfg) (leaves : List Nat) (ts : TwoStage cfg leaves) (fuel : Nat)
    (hfuel : 2 ≤ fuel) : ∃ f b, runSearch cfg fuel = .ok (f, b) ∧
      (f = true → b.complete.graphPaths ≠ []) := by
  obtain ⟨w, f, b, C, _, h1, h2, _, _, h5⟩ := star_run ts hfuel
  refine ⟨f, b, h1, ?_⟩
  intro hf h
  rw [h2] at h
  apply h5 hf
  have : (col Row.path C).length = 0 := by
    have := congrArg List.length h
    simpa [planOf] using this
  rw [length_col] at this
  exact List.eq_nil_of_length_eq_zero this

/-- An OPF that needs a line at node 2 and charges for nodes without lines. -/
def starOpf (_ : List Request) (r : Request) : Bool × Rat :=
  (r.node != 2 || r.active.length != 0, if r.active.length = 0 then 1 else 0)

/-- Two lines, a root and two leaves. -/
def starExample : Cfg := vTree [opt 0 10 0, opt 1 20 (-1)] starOpf

/-- The hypotheses of the theorems hold for a small problem, and its plan is not empty: line 0 is
started at the root. -/
theorem C23_two_stage_witness : TwoStage starExample [1, 2] ∧
    (finalPlan starExample 5).map (fun p => (planTotal p, p.interventions)) =
      some (20, [(0, [(0, [opt 0 10 0]), (1, [])]), (1, [(0, [opt 0 10 0]), (1, [])])]) := by
  refine ⟨?_, by decide +kernel⟩
  refine ⟨rfl, by decide, by decide, by decide, ?_, by decide, ?_, by decide, by decide, by decide,
    ?_, ?_, ?_⟩
  · intro l hl
    simp only [List.mem_cons, List.not_mem_nil, or_false] at hl
    rcases hl with rfl | rfl <;> rfl
  · intro n
    show n ∈ [0, 1, 2] ↔ _
    simp
  · show [2020, 2030].Pairwise (· ≤ ·)
    decide
  · intro e he
    have he' : e ∈ [opt 0 10 0, opt 1 20 (-1)] := he
    simp only [List.mem_cons, List.not_mem_nil, or_false] at he'
    rcases he' with rfl | rfl <;> decide
  · intro log n a b hab
    show starOpf log ⟨n, a⟩ = starOpf [] ⟨n, b⟩
    simp only [starOpf, hab.length_eq]

end Pyensys
