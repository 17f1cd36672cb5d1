import Verif.Lemmas.SearchSolve
import Mathlib.Algebra.Order.Field.Basic
import Mathlib.Algebra.Order.GroupWithZero.Basic
import Mathlib.Tactic.Positivity
import Mathlib.Tactic.NormNum

/-!
# Properties C10 - C12 and C27 - C29: the ingredients of the search
-/

namespace Pyensys

/-! ## C10: the pool -/

/-- Number of complete options of a group: the shortest of its four lists decides. -/
def optionCount (g : OptionGroup) : Nat :=
  min g.costs.length (min g.positions.length (min g.installationTimes.length g.capacities.length))

/-- The `j`-th option of a group, read off the four lists. -/
def optionAt (g : OptionGroup) (j : Nat) : Option BinVar := do
  let c ← g.costs[j]?
  let p ← g.positions[j]?
  let t ← g.installationTimes[j]?
  let a ← g.capacities[j]?
  return { elementId := "", cost := c, position := p, elementType := g.elementType,
           variableName := g.variableName, installationTime := t, capacity := a }

private def groupOptions (g : OptionGroup) : List BinVar :=
  (g.costs.zip (g.positions.zip (g.installationTimes.zip g.capacities))).map
      (fun t => ({ elementType := g.elementType, variableName := g.variableName, elementId := "",
                   position := t.2.1, cost := t.1, installationTime := t.2.2.1,
                   capacity := t.2.2.2 } : BinVar))

private theorem length_groupOptions (g : OptionGroup) : (groupOptions g).length = optionCount g := by
  simp [groupOptions, optionCount]

private theorem groupOptions_get (g : OptionGroup) (j : Nat) (h : j < optionCount g) :
    (groupOptions g)[j]? = optionAt g j := by
  unfold optionCount at h
  have h1 : j < g.costs.length := by omega
  have h2 : j < g.positions.length := by omega
  have h3 : j < g.installationTimes.length := by omega
  have h4 : j < g.capacities.length := by omega
  simp [groupOptions, optionAt, h1, h2, h3, h4]

private theorem groupOptions_eq (g : OptionGroup) :
    (groupOptions g).map some = (List.range (optionCount g)).map (optionAt g) := by
  apply List.ext_getElem?
  intro j
  by_cases h : j < optionCount g
  · rw [List.getElem?_map, groupOptions_get g j h, List.getElem?_map, List.getElem?_range h]
    have : (groupOptions g)[j]? = some ((groupOptions g)[j]'(by rw [length_groupOptions]; exact h)) :=
      List.getElem?_eq_getElem _
    rw [← groupOptions_get g j h, this]
    simp [← groupOptions_get g j h]
  · rw [List.getElem?_eq_none (by simp [length_groupOptions]; omega),
      List.getElem?_eq_none (by simp; omega)]

private theorem createPool_cons (g : OptionGroup) (gs : List OptionGroup) (c : Int) :
    createPool (g :: gs) c = (groupOptions g).zipIdx.map (fun p => (c + (p.2 : Int), p.1)) ++
      createPool gs (c + (groupOptions g).length) := rfl

private theorem createPool_keys (gs : List OptionGroup) (c : Nat) :
    (createPool gs c).map (·.1) = (List.range' c (createPool gs c).length).map
      (fun (i : Nat) => (i : Int)) := by
  induction gs generalizing c with
  | nil => rfl
  | cons g gs ih =>
    rw [createPool_cons]
    have e : (c : Int) + ((groupOptions g).length : Int) = ((c + (groupOptions g).length : Nat) : Int) := by
      omega
    rw [e, List.map_append, ih, List.length_append, List.length_map, List.length_zipIdx,
      ← List.range'_append_1, List.map_append]
    congr 1
    apply List.ext_getElem
    · simp
    · intro i h1 h2
      simp

private theorem createPool_vals (gs : List OptionGroup) (c : Int) :
    (createPool gs c).map (fun e => some e.2) =
      gs.flatMap (fun g => (List.range (optionCount g)).map (optionAt g)) := by
  induction gs generalizing c with
  | nil => rfl
  | cons g gs ih =>
    rw [createPool_cons, List.map_append, ih, List.flatMap_cons]
    congr 1
    rw [← groupOptions_eq, List.map_map]
    apply List.ext_getElem
    · simp
    · intro i h1 h2; simp

/-- C10.  The pool lists, group after group and in input order, exactly the complete options of each
group, under the keys `'0', '1', ...` without gaps or repetitions. -/
theorem C10_pool (gs : List OptionGroup) :
    (createPool gs 0).map (fun e => some e.2) =
        gs.flatMap (fun g => (List.range (optionCount g)).map (optionAt g)) ∧
    (createPool gs 0).map (·.1) = ints (createPool gs 0).length ∧
    ((createPool gs 0).map (·.1)).Nodup ∧
    (createPool gs 0).length = (gs.map optionCount).sum := by
  have hk : (createPool gs 0).map (·.1) = ints (createPool gs 0).length := by
    have := createPool_keys gs 0
    simp only [Nat.cast_zero] at this
    rw [this, ints, List.range_eq_range']
  refine ⟨createPool_vals gs 0, hk, by rw [hk]; exact nodup_ints _, ?_⟩
  have := congrArg List.length (createPool_vals gs 0)
  simpa [List.length_flatMap] using this

/-- Two groups; the second one has a capacity too many, which is dropped. -/
example : (createPool
    [⟨"line", "cap", [.single 3, .single 4], [10, 20], [1, 2], [.num 5, .num 6]⟩,
     ⟨"line", "cap", [.single 7], [30], [0], [.num 1, .num 2]⟩] 0).map (fun e => (e.1, e.2.cost)) =
    [(0, 10), (1, 20), (2, 30)] := by decide +kernel

/-! ## C11: available interventions -/

/-- C11.  What is offered is a sub-sequence of the pool: the entries that equal (same key, Python
`==`) neither an intervention of the candidate nor a new one. -/
theorem C11_available (cfg : Cfg) (info : Info) :
    (available cfg info).Sublist cfg.pool ∧
    ∀ e, e ∈ available cfg info ↔ e ∈ cfg.pool ∧
      (∀ lg ∈ info.candInt, ∀ x ∈ lg.2, ¬ (x.1 = e.1 ∧ (x.2 == e.2) = true)) ∧
      (∀ x ∈ info.newInt, ¬ (x.1 = e.1 ∧ (x.2 == e.2) = true)) := by
  rw [available_eq]
  refine ⟨List.filter_sublist, ?_⟩
  intro e
  simp only [List.mem_filter, Bool.and_eq_true, List.all_eq_true, Bool.not_eq_true',
    ADC.itemMem, List.any_eq_false, decide_eq_true_eq, not_and]

/-- C11, in terms of pool keys: in a consistent state of the search exactly the pool entries whose key
is not yet taken are offered. -/
theorem C11_available_keys (cfg : Cfg) (info : Info) (hpool : (cfg.pool.map (·.1)).Nodup)
    (hc : CandOK cfg info) (hn : ∀ e ∈ info.newInt, e ∈ cfg.pool) (e : Int × BinVar) :
    e ∈ available cfg info ↔
      e ∈ cfg.pool ∧ e.1 ∉ solKeys info.candInt ∧ e.1 ∉ info.newInt.map (·.1) := by
  have key : ∀ x, x ∈ cfg.pool → e ∈ cfg.pool → x.1 = e.1 → x = e := by
    intro x hx he hxe
    have h1 := dictGet?_of_mem (d := cfg.pool) hpool (k := x.1) (v := x.2) hx
    have h2 := dictGet?_of_mem (d := cfg.pool) hpool (k := e.1) (v := e.2) he
    rw [hxe, h2] at h1
    exact Prod.ext hxe (Option.some.inj h1).symm
  rw [(C11_available cfg info).2]
  constructor
  · rintro ⟨hp, h1, h2⟩
    refine ⟨hp, ?_, ?_⟩
    · intro hm
      simp only [solKeys, List.mem_flatMap, List.mem_map] at hm
      obtain ⟨lg, hlg, x, hx, hxe⟩ := hm
      have := key x (hc.pool lg hlg x hx) hp hxe
      exact h1 lg hlg x hx ⟨hxe, by rw [this]; simp⟩
    · intro hm
      obtain ⟨x, hx, hxe⟩ := List.mem_map.1 hm
      have := key x (hn x hx) hp hxe
      exact h2 x hx ⟨hxe, by rw [this]; simp⟩
  · rintro ⟨hp, h1, h2⟩
    refine ⟨hp, ?_, ?_⟩
    · intro lg hlg x hx hxe
      exact h1 (List.mem_flatMap.2 ⟨lg, hlg, List.mem_map.2 ⟨x, hx, hxe.1⟩⟩)
    · intro x hx hxe
      exact h2 (List.mem_map.2 ⟨x, hx, hxe.1⟩)

/-- A state in the middle of a search: intervention 1 already taken at the root. -/
def sampleCfg : Cfg :=
  { pool := [(0, { cost := 1 }), (1, { cost := 2, installationTime := 5 }), (2, { cost := 3 })]
    nodes := [0, 1, 2], nbr := fun n => if n = 0 then [1, 2] else [], years := [2020, 2030]
    rate := 5, opf := fun _ _ => (true, 1) }

def sampleInfo : Info :=
  { candPath := [(0, 0)], candOp := [(0, 7)], level := 1, node := 1,
    candInt := [(0, [(1, { cost := 2, installationTime := 5 })])], candTime := [(0, [(1, -5)])] }

theorem sample_atNode : AtNode sampleCfg sampleInfo := by
  refine ⟨⟨rfl, .inr ⟨rfl, by simp [sampleInfo]⟩, rfl, ?_, rfl, ?_, by simp [solKeys, sampleInfo], ?_⟩,
    rfl, rfl, ?_⟩
  · exact .cons ⟨rfl, rfl, by simp [Distinct]⟩ .nil
  · intro lg hlg e he
    simp only [sampleInfo, List.mem_singleton] at hlg
    subst hlg
    simp only [List.mem_singleton] at he
    subst he
    simp [sampleCfg]
  · intro _
    refine .cons ?_ .nil
    exact .cons (by decide) .nil
  · simp [sampleInfo, sampleCfg]

example : (available sampleCfg sampleInfo).map (·.1) = [0, 2] := by decide +kernel

/-! ## C12: all combinations -/

/-- C12.  The combinations tried over a list of available interventions are exactly its non-empty
sub-selections, smaller ones first; each occurs once and there are `2^n - 1` of them. -/
theorem C12_combinations (l : Group) (hl : l.Nodup) :
    (∀ c, c ∈ allCombos l ↔ c.Sublist l ∧ c ≠ []) ∧
    (allCombos l).Nodup ∧
    (allCombos l).Pairwise (fun a b => a.length ≤ b.length) ∧
    (allCombos l).length = 2 ^ l.length - 1 :=
  ⟨mem_allCombos l, nodup_allCombos l hl, sorted_allCombos l, length_allCombos l⟩

/-- C12 as seen by the OPF, last node of a scenario.  Visiting a leaf sends to the OPF first the
candidate as it is, then one request for each non-empty selection of the interventions that are
available and need no construction time, in the order of `C12_combinations`; nothing else. -/
theorem C12_leaf_requests (cfg : Cfg) (info : Info) (hpool : (cfg.pool.map (·.1)).Nodup)
    (hr : cfg.rate ≠ 100) (hat : AtNode cfg info) (hs : StoreAligned info)
    (hnew : info.newInt = [] ∧ info.newTime = []) (hleaf : cfg.nbr info.node = [])
    (hy : info.candPath.length < cfg.years.length) :
    ∃ f info' act reqs, solveLeaf cfg info = .ok (f, info') ∧ ready info = .ok act ∧
      info'.log = info.log ++ ⟨info.node, act⟩ :: reqs ∧
      List.Forall₂ (fun c rq => rq.node = info.node ∧ ready (addNew info c) = .ok rq.active)
        (allCombos ((available cfg info).filter (fun kv => kv.2.installationTime ≤ 0))) reqs := by
  obtain ⟨f, b, h1, _, _, _, _, _, act, reqs, h2, h3, h4⟩ := solveLeaf_spec ⟨hpool, hr⟩ hat
    ⟨hnew.1, hnew.2⟩ hleaf hy ⟨hs.storedAny, Evo.refl _⟩
  exact ⟨f, b, act, reqs, h1, h2, h3, h4⟩

/-- C12 as seen by the OPF, inner node.  For every non-empty selection of the available
interventions, in order, the handler sends a request for this node with that selection added to
the candidate (whose remaining times may meanwhile have been shifted by the visits of leaves, see
C14), followed by the requests of the sub-tree. -/
theorem C12_inner_requests (cfg : Cfg) (fuel h : Nat) (info : Info)
    (hpool : (cfg.pool.map (·.1)).Nodup) (hr : cfg.rate ≠ 100) (hf : h < fuel)
    (hat : AtNode cfg info) (hs : StoreAligned info)
    (hnew : info.newInt = [] ∧ info.newTime = [])
    (hh : ∀ n ∈ cfg.nbr info.node, HeightLe cfg h n)
    (hy : info.candPath.length + (h + 1) < cfg.years.length) :
    ∃ f info' segs, interventionsHandler cfg (solve cfg fuel) info = .ok (f, info') ∧
      info'.log = info.log ++ segs.flatten ∧
      List.Forall₂ (fun c seg => ∃ (d : Int) (act : List BinVar) (rest : List Request),
          seg = ⟨info.node, act⟩ :: rest ∧
          ready { addNew info c with candTime := shiftLevels d info.candTime } = .ok act)
        (allCombos (available cfg info)) segs := by
  obtain ⟨f, b, h1, _, _, _, _, _, segs, h2, h3⟩ := interventionsHandler_spec ⟨hpool, hr⟩
    (solve_spec ⟨hpool, hr⟩ h fuel hf) hat ⟨hnew.1, hnew.2⟩ hh hy ⟨hs.storedAny, Evo.refl _⟩
  exact ⟨f, b, segs, h1, h2, h3⟩

example : StoreAligned sampleInfo ∧ sampleCfg.nbr sampleInfo.node = [] ∧
    sampleInfo.candPath.length < sampleCfg.years.length := by
  refine ⟨⟨⟨rfl, rfl, rfl⟩, ⟨rfl, rfl, rfl⟩, ⟨rfl, rfl, rfl⟩⟩, by decide, by decide⟩

/-- The leaf of the sample state sends 1 + (2^2 - 1) requests. -/
example : (match solveLeaf sampleCfg sampleInfo with
    | .ok r => some (r.2.log.map (fun q => q.active.map (·.cost)))
    | .error _ => none) = some [[2], [2, 1], [2, 3], [2, 1, 3]] := by decide +kernel

/-! ## C27: only finished interventions count -/

/-- C27, OPF.  In a consistent state the interventions activated in the OPF are exactly those of the
candidate and of the current selection whose remaining construction time is not positive. -/
theorem C27_opf_gets_finished (cfg : Cfg) (info : Info)
    (h : SolAligned info.candTime info.candInt) :
    ∃ info' f, checkFeasibility cfg info = .ok (f, info') ∧
      info'.log = info.log ++ [⟨info.node,
        (((info.candTime.zip info.candInt).flatMap (fun p => p.1.2.zip p.2.2) ++
            info.newTime.zip info.newInt).filter (fun q => q.1.2 ≤ 0)).map (fun q => q.2.2)⟩] := by
  have hready : ready info = .ok ((((info.candTime.zip info.candInt).flatMap
      (fun p => p.1.2.zip p.2.2) ++ info.newTime.zip info.newInt).filter
        (fun q => q.1.2 ≤ 0)).map (fun q => q.2.2)) := by
    rw [ready_eq info h]
    congr 1
    rw [List.filter_append, List.map_append]
    congr 1
    · unfold builtSol
      generalize info.candTime = ts
      generalize info.candInt = s
      induction ts generalizing s with
      | nil => simp
      | cons t ts ih =>
        cases s with
        | nil => simp
        | cons g s =>
          simp only [List.zipWith_cons_cons, List.flatMap_cons, List.zip_cons_cons,
            List.filter_append, List.map_append]
          rw [ih]
          simp [builtGroup, Function.comp_def]
    · simp [builtGroup, List.map_map, Function.comp_def]
  unfold checkFeasibility
  rw [hready]
  exact ⟨_, _, rfl, rfl⟩

/-- C27, stored plan.  The stored interventions keep, level by level, exactly those of the candidate
whose remaining construction time is not positive. -/
theorem C27_plan_keeps_finished (cfg : Cfg) (info : Info) (hc : CandOK cfg info) :
    alreadyBuilt info = .ok ((info.candTime.zip info.candInt).map (fun p =>
      (p.2.1, ((p.1.2.zip p.2.2).filter (fun q => q.1.2 ≤ 0)).map (fun q => q.2)))) := by
  rw [alreadyBuilt_eq info hc.aligned hc.intNodup, builtSol]
  congr 1
  generalize info.candTime = ts
  generalize info.candInt = s
  induction ts generalizing s with
  | nil => simp
  | cons t ts ih =>
    cases s with
    | nil => simp
    | cons g s => rw [List.zipWith_cons_cons, List.zip_cons_cons, List.map_cons, ih]; rfl

/-- Beside: one finished and one unfinished intervention. -/
example : SolAligned [(0, [(4, 3), (5, -1)])] [(0, [(4, { cost := 1 }), (5, { cost := 2 })])] ∧
    (match ready { candTime := [(0, [(4, 3), (5, -1)])],
                   candInt := [(0, [(4, { cost := 1 }), (5, { cost := 2 })])] } with
      | .ok a => a.map (·.cost) | .error _ => []) = [2] :=
  ⟨.cons ⟨rfl, rfl, by simp [Distinct]⟩ .nil, by decide +kernel⟩

/-! ## C28: shifting construction times -/

/-- C28.  `update_remaining_construction_time(info, d)` adds `d` to every remaining construction time
and changes nothing else (keys are distinct within each container, as in every reachable state). -/
theorem C28_update_shifts (d : Int) (info : Info) (h : ∀ e ∈ info.candTime, Distinct e.2)
    (hn : Distinct info.newTime) :
    updateTimes d info = .ok { info with
      candTime := info.candTime.map (fun kt => (kt.1, kt.2.map (fun e => (e.1, e.2 + d))))
      newTime := info.newTime.map (fun e => (e.1, e.2 + d)) } :=
  updateTimes_eq d info h hn

/-- C28, inverse.  Updating by `d` and then by `-d` is the identity. -/
theorem C28_update_inverse (d : Int) (info : Info) (h : ∀ e ∈ info.candTime, Distinct e.2)
    (hn : Distinct info.newTime) :
    (do let i ← updateTimes d info; updateTimes (-d) i) = .ok info := by
  rw [updateTimes_eq d info h hn, exc_bind_ok, updateTimes_eq]
  · simp only [shiftLevels_add, shiftTimes_add]
    have : d + -d = 0 := by omega
    rw [this, shiftLevels_zero, shiftTimes_zero]
  · intro e he
    obtain ⟨x, hx, rfl⟩ := List.mem_map.1 he
    have := h x hx
    simpa [KeysNodup, Distinct] using this
  · simpa [KeysNodup, Distinct] using hn

/-- Distinct keys matter: with a repeated key the second update is lost and doubled. -/
theorem C28_needs_distinct_keys :
    (match updateTimes 5 { newTime := [(0, 1), (0, 2)] } with
      | .ok i => some i.newTime | .error _ => none) = some [(0, 11), (0, 11)] := by
  decide +kernel

example : (∀ e ∈ sampleInfo.candTime, Distinct e.2) ∧ Distinct sampleInfo.newTime := by
  constructor
  · intro e he
    simp only [sampleInfo, List.mem_singleton] at he
    subst he
    simp [Distinct]
  · simp [sampleInfo, Distinct]

/-! ## C29: discounting -/

/-- weight of level `i`: `1 / (1 - r/100) ^ (year_i - year_0)` -/
def weight (rate : Rat) (years : List Int) (i : Nat) : Rat :=
  1 / ((1 - rate / 100) ^ (years.getD i 0 - years.getD 0 0))

/-- cost of a group of interventions -/
def groupCost (g : Group) : Rat := (g.map (fun e => e.2.cost)).sum

theorem ratPow_eq (x : Rat) (n : Nat) : ratPow x n = x ^ n := by
  induction n with
  | zero => simp [ratPow]
  | succ n ih => rw [ratPow, ih, pow_succ, mul_comm]

theorem discount_eq (rate : Rat) (hr : rate ≠ 100) (d : Int) :
    discount rate d = .ok (1 / (1 - rate / 100) ^ d) := by
  have hb : (1 - rate / 100 : Rat) ≠ 0 := by
    intro h0
    apply hr
    have : rate / 100 = 1 := by linarith
    linarith
  unfold discount
  simp only [hb, false_and, if_false]
  split
  · next h =>
    congr 2
    rw [ratPow_eq, ← zpow_natCast, Int.toNat_of_nonneg h]
  · next h =>
    congr 2
    rw [ratPow_eq, ← zpow_natCast, Int.toNat_of_nonneg (by omega), zpow_neg]
    simp

theorem levelWeight_eq (cfg : Cfg) (hr : cfg.rate ≠ 100) (i : Nat) (hi : i < cfg.years.length) :
    levelWeight cfg i = .ok (weight cfg.rate cfg.years i) := by
  unfold levelWeight weight
  split
  · next h => subst h; simp
  · rw [pyGet_nat _ _ hi, exc_bind_ok]
    have h0 : pyGet cfg.years 0 = .ok (cfg.years[0]'(by omega)) := pyGet_nat _ 0 (by omega)
    rw [h0, exc_bind_ok, discount_eq _ hr]
    have e1 : cfg.years.getD i 0 = cfg.years[i] := by simp [hi]
    have e2 : cfg.years.getD 0 0 = cfg.years[0]'(by omega) := by simp [show 0 < cfg.years.length by omega]
    rw [e1, e2]

theorem groupCost_foldl (g : Group) :
    g.foldl (fun s kv => s + kv.2.cost) 0 = groupCost g := by
  unfold groupCost
  have : ∀ (acc : Rat), g.foldl (fun s kv => s + kv.2.cost) acc =
      acc + (g.map (fun e => e.2.cost)).sum := by
    induction g with
    | nil => intro acc; simp
    | cons x g ih => intro acc; rw [List.foldl_cons, ih]; simp only [List.map_cons, List.sum_cons]; ring
  rw [this 0]; ring

theorem investmentCostFrom_eq (cfg : Cfg) (hr : cfg.rate ≠ 100) (s : Sol) (i : Nat) (acc : Rat)
    (h : i + s.length ≤ cfg.years.length) :
    investmentCostFrom cfg i s acc =
      .ok (acc + ((s.zipIdx i).map (fun p => weight cfg.rate cfg.years p.2 * groupCost p.1.2)).sum) := by
  induction s generalizing i acc with
  | nil => simp [investmentCostFrom]
  | cons x s ih =>
    simp only [List.length_cons] at h
    unfold investmentCostFrom
    simp only [levelWeight_eq cfg hr i (by omega), exc_bind_ok]
    rw [ih _ _ (by omega), groupCost_foldl]
    simp only [List.zipIdx_cons, List.map_cons, List.sum_cons]
    congr 1; ring

theorem operationCostFrom_eq (cfg : Cfg) (hr : cfg.rate ≠ 100) (s : List (Int × Rat)) (i : Nat)
    (acc : Rat) (h : i + s.length ≤ cfg.years.length) (h0 : i = 0 → acc = 0) :
    operationCostFrom cfg i s acc =
      .ok (acc + ((s.zipIdx i).map (fun p => weight cfg.rate cfg.years p.2 * p.1.2)).sum) := by
  induction s generalizing i acc with
  | nil => simp [operationCostFrom]
  | cons x s ih =>
    simp only [List.length_cons] at h
    unfold operationCostFrom
    by_cases hi : i = 0
    · subst hi
      have hw : weight cfg.rate cfg.years 0 = 1 := by simp [weight]
      rw [if_pos rfl, ih _ _ (by omega) (by omega), h0 rfl]
      simp only [List.zipIdx_cons, List.map_cons, List.sum_cons, hw]
      congr 1; ring
    · rw [if_neg hi]
      simp only [levelWeight_eq cfg hr i (by omega), exc_bind_ok]
      rw [ih _ _ (by omega) (by omega)]
      simp only [List.zipIdx_cons, List.map_cons, List.sum_cons]
      congr 1; ring

/-- C29, totals.  Investment and operation totals are the weighted sums of the costs per level. -/
theorem C29_totals (cfg : Cfg) (hr : cfg.rate ≠ 100) :
    (∀ s : Sol, s.length ≤ cfg.years.length → investmentCost cfg s =
      .ok ((s.zipIdx.map (fun p => weight cfg.rate cfg.years p.2 * groupCost p.1.2)).sum)) ∧
    (∀ l : List (Int × Rat), l.length ≤ cfg.years.length → operationCost cfg l =
      .ok ((l.zipIdx.map (fun p => weight cfg.rate cfg.years p.2 * p.1.2)).sum)) := by
  constructor
  · intro s hs
    rw [investmentCost, investmentCostFrom_eq cfg hr s 0 0 (by omega)]; simp
  · intro l hl
    rw [operationCost, operationCostFrom_eq cfg hr l 0 0 (by omega) (fun _ => rfl)]; simp

/-- C29, additivity: the operation total of two cost profiles over the same levels is the total of
their sum. -/
theorem C29_additive (cfg : Cfg) (hr : cfg.rate ≠ 100) (a b : List (Int × Rat))
    (hab : a.length = b.length) (hl : a.length ≤ cfg.years.length) :
    ∃ x y, operationCost cfg a = .ok x ∧ operationCost cfg b = .ok y ∧
      operationCost cfg (List.zipWith (fun p q => (p.1, p.2 + q.2)) a b) = .ok (x + y) := by
  refine ⟨_, _, (C29_totals cfg hr).2 a hl, (C29_totals cfg hr).2 b (hab ▸ hl), ?_⟩
  rw [(C29_totals cfg hr).2 _ (by simp; omega)]
  congr 1
  clear hl
  generalize 0 = i
  induction a generalizing b i with
  | nil =>
    cases b with
    | nil => simp
    | cons y b => simp at hab
  | cons x a ih =>
    cases b with
    | nil => simp at hab
    | cons y b =>
      simp only [List.zipWith_cons_cons, List.zipIdx_cons, List.map_cons, List.sum_cons]
      rw [ih b (by simpa using hab)]
      ring

/-- C29, direction.  With `0 ≤ r < 100` the weight of a later year is at least that of an earlier one:
future costs are inflated rather than discounted; strictly so for `0 < r`. -/
theorem C29_later_weighs_more (rate : Rat) (h0 : 0 ≤ rate) (h1 : rate < 100) (years : List Int)
    (i j : Nat) (hij : years.getD i 0 ≤ years.getD j 0) :
    weight rate years i ≤ weight rate years j := by
  unfold weight
  have hb0 : (0 : Rat) < 1 - rate / 100 := by linarith
  have hb1 : (1 - rate / 100 : Rat) ≤ 1 := by linarith
  have hp : ∀ d : Int, (0 : Rat) < (1 - rate / 100) ^ d := fun d => zpow_pos hb0 d
  apply one_div_le_one_div_of_le (hp _)
  exact zpow_le_zpow_right_of_le_one₀ hb0 hb1 (by omega)

theorem C29_later_weighs_strictly_more (rate : Rat) (h0 : 0 < rate) (h1 : rate < 100)
    (years : List Int) (i j : Nat) (hij : years.getD i 0 < years.getD j 0) :
    weight rate years i < weight rate years j := by
  unfold weight
  have hb0 : (0 : Rat) < 1 - rate / 100 := by linarith
  have hb1 : (1 - rate / 100 : Rat) < 1 := by linarith
  have hp : ∀ d : Int, (0 : Rat) < (1 - rate / 100) ^ d := fun d => zpow_pos hb0 d
  apply one_div_lt_one_div_of_lt (hp _)
  exact zpow_lt_zpow_right_of_lt_one₀ hb0 hb1 (by omega)

/-- Rate 50 %, years 2020 and 2021: a cost of 10 in the second year counts as 20. -/
example : (match operationCost { sampleCfg with rate := 50, years := [2020, 2021] } [(0, 1), (1, 10)] with
    | .ok x => some x | .error _ => none) = some 21 := by decide +kernel

end Pyensys
