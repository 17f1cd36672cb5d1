import Verif.Props.GlpkCoupledRuns

/-!
# C153, C154: objective of the coupled model for GLPK, trees without unit, failures of the reading of the network, examples
-/

namespace Pyensys

/-! ## objective -/

/-- costs of an instance and period, with the penalty of the coupled model; the economic dispatch has no penalty for excess generation -/
def gxPeriodCost (c : GnCase) (pen : Rat) (p : GProb) (x : Nat → Rat) (i j : Nat) : Rat :=
  ((List.range c.conv.length).map ((gnSol p x).convC i j)).sum + ((List.range c.res.length).map ((gnSol p x).resC i j)).sum +
  ((List.range c.hydro.length).map ((gnSol p x).hydroC i j)).sum - c.base * (c.pumps.zipIdx.map (fun q => q.1.2 * (gnSol p x).pump i j q.2)).sum +
  (if c.feas = true then pen * (if c.opf = true then ((List.range (c.cont + 1)).map (fun k =>
    ((List.range c.buses.length).map (fun n => (gnSol p x).lc i j k n + (gnSol p x).gc i j k n)).sum)).sum
    else p.val x (.lcs, [i, j]) 0) else 0)

theorem gxObj_sum (c : GnCase) (w : Nat → Rat) (pen : Rat) (p : GProb) (x : Nat → Rat) :
    gTermSum p x (gnObj c w pen) = ((gnTimes c).map (fun q => w q.1 * gnHours c q.2 * gxPeriodCost c pen p x q.1 q.2)).sum := by
  unfold gnObj
  rw [gTermSum_flatMap]
  congr 1
  apply List.map_congr_left
  intro q _
  simp only [gTermSum_append]
  have e : ∀ (tag : GTag) (n : Nat) (f : Nat → Rat), (∀ k, p.val x (tag, [q.1, q.2]) k = f k) →
      gTermSum p x ((List.range n).map (fun k => (((tag, [q.1, q.2]), k), w q.1 * gnHours c q.2))) = w q.1 * gnHours c q.2 * ((List.range n).map f).sum := by
    intro tag n f hf
    unfold gTermSum
    rw [List.map_map, ← sum_mul_map]
    congr 1
    apply List.map_congr_left
    intro k _
    simp only [Function.comp, hf]
  rw [e .thermalCG _ ((gnSol p x).convC q.1 q.2) (fun _ => rfl), e .resCG _ ((gnSol p x).resC q.1 q.2) (fun _ => rfl),
    e .hydroCG _ ((gnSol p x).hydroC q.1 q.2) (fun _ => rfl)]
  have e4 : gTermSum p x (c.pumps.zipIdx.map (fun r => (((.pumps, [q.1, q.2]), r.2), -w q.1 * gnHours c q.2 * c.base * r.1.2))) =
      w q.1 * gnHours c q.2 * (-(c.base * (c.pumps.zipIdx.map (fun r => r.1.2 * (gnSol p x).pump q.1 q.2 r.2)).sum)) := by
    unfold gTermSum
    rw [List.map_map, ← neg_mul, ← sum_mul_map, ← sum_mul_map]
    congr 1
    apply List.map_congr_left
    intro k _
    simp only [Function.comp, gnSol]
    ring
  rw [e4]
  have e5 : gTermSum p x (if c.feas = true then
      if c.opf = true then
        (List.range (c.cont + 1)).flatMap (fun k =>
          (List.range c.buses.length).map (fun n => (((.lc, [q.1, q.2, k]), n), w q.1 * gnHours c q.2 * pen)) ++
          (List.range c.buses.length).map (fun n => (((.gc, [q.1, q.2, k]), n), w q.1 * gnHours c q.2 * pen)))
      else [(((.lcs, [q.1, q.2]), 0), w q.1 * gnHours c q.2 * pen)]
     else []) = w q.1 * gnHours c q.2 * (if c.feas = true then pen * (if c.opf = true then ((List.range (c.cont + 1)).map (fun k =>
    ((List.range c.buses.length).map (fun n => (gnSol p x).lc q.1 q.2 k n + (gnSol p x).gc q.1 q.2 k n)).sum)).sum
    else p.val x (.lcs, [q.1, q.2]) 0) else 0) := by
    by_cases hf : c.feas = true
    · rw [if_pos hf, if_pos hf]
      by_cases hopf : c.opf = true
      · rw [if_pos hopf, if_pos hopf, gTermSum_flatMap, ← sum_mul_map, ← sum_mul_map]
        congr 1
        apply List.map_congr_left
        intro k _
        rw [gTermSum_append]
        unfold gTermSum
        rw [List.map_map, List.map_map, ← sum_map_add3, ← sum_mul_map, ← sum_mul_map]
        congr 1
        apply List.map_congr_left
        intro n _
        simp only [Function.comp, gnSol]
        ring
      · rw [if_neg hopf, if_neg hopf]
        simp only [gTermSum, List.map_cons, List.map_nil, List.sum_cons, List.sum_nil]
        ring
    · rw [if_neg hf, if_neg hf]
      simp [gTermSum]
  rw [e5]
  unfold gxPeriodCost
  ring

/-- **C153.** The objective of the coupled model: each instance counts with the weight of its scenario and each period with its hours. -/
theorem C153_objective_partial {data : List EnPeriod} {size : EnSize} {t : EnTree} {w : EnWeights} {links : EnLinks} {d : GxData}
    (h : GxOf data size t w links d) {p : GProb} {lp : GLp} (hr : gxRun d = .ok (p, lp)) (x : Nat → Rat) :
    lp.cost x = ((List.range d.net.insts).map (fun i => scenarioWeight data i *
      ((List.range d.net.periods).map (fun j => gnHours d.net j * gxPeriodCost d.net d.penalty p x i j)).sum)).sum := by
  obtain ⟨ht, _, _⟩ := h.tree
  obtain ⟨OF, hOF, _, _, hw, _⟩ := h.scenario
  obtain ⟨nodes, w', _, hw', _, hp, hb, _⟩ := gxRun_parts ht hr
  rw [hOF, Except.ok.injEq] at hw'
  subst hw'
  rw [gCost_eq ((gBuild_iff p lp).1 hb), show p.obj = gnObj d.net (fun i => (OF[i]?).getD 0) d.penalty by rw [hp]]
  refine (gxObj_sum d.net _ d.penalty p x).trans ?_
  unfold gnTimes
  rw [sum_flatMap']
  congr 1
  apply List.map_congr_left
  intro i hi
  rw [List.mem_range] at hi
  rw [List.map_map, ← sum_mul_map]
  congr 1
  apply List.map_congr_left
  intro j _
  simp only [Function.comp]
  rw [hw i hi, Option.getD_some]
  ring

/-! ## a tree without unit -/

theorem gStart_next : ∀ (A : List (GKey × List GBnd)) {k k' : GKey} {bs bs' : List GBnd} {B : List (GKey × List GBnd)} {s : Nat},
    ((A ++ (k, bs) :: (k', bs') :: B).map (·.1)).Nodup → gStart (A ++ (k, bs) :: (k', bs') :: B) k = some s →
    gStart (A ++ (k, bs) :: (k', bs') :: B) k' = some (s + bs.length) := by
  intro A
  induction A with
  | nil =>
    intro k k' bs bs' B s hn h
    simp only [List.nil_append, List.map_cons, List.nodup_cons, List.mem_cons, not_or] at hn
    simp only [List.nil_append, gStart, if_true, Option.some.injEq] at h ⊢
    subst h
    rw [if_neg hn.1.1]
    simp
  | cons a A ih =>
    intro k k' bs bs' B s hn h
    simp only [List.cons_append, List.map_cons, List.nodup_cons] at hn
    have h1 : a.1 ≠ k := by
      rintro rfl
      exact hn.1 (by simp)
    have h2 : a.1 ≠ k' := by
      rintro rfl
      exact hn.1 (by simp)
    simp only [List.cons_append, gStart] at h ⊢
    rw [if_neg h1] at h
    rw [if_neg h2]
    rw [Option.map_eq_some_iff] at h
    obtain ⟨s', h, rfl⟩ := h
    rw [ih hn.2 h]
    simp only [Option.map_some, Option.some.injEq]
    omega

/-- **C153 fails** if there are more trees than hydropower units: what leaves the tree after the last unit is tied to the cost of the
first conventional unit (the columns that come next), not to any output. -/
theorem C153_units_violated {d : GxData} {t : EnTree} (ht : GeTree d.en t) {p : GProb} {lp : GLp} (hr : gxRun d = .ok (p, lp))
    (ho : d.net.opf = true → GnOut d.net) (hh : d.net.hydro ≠ []) (hc : d.net.conv ≠ []) (hv : d.net.hydro.length < d.en.vectors)
    {x : Nat → Rat} (hx : GFeasible lp x) (i node : Nat) (hi : i < d.net.insts) (hn : d.conn[i]? = some node) :
    p.val x (.outp, [d.net.hydro.length]) node =
      ((List.range d.net.periods).map (fun j => gnHours d.net j * d.net.base * (gnSol p x).convC i j 0)).sum := by
  rw [((C153_plans_partial ht hr ho hh x).1 hx).2.2 _ _ _ hv hi hn]
  unfold gxEnergy
  congr 1
  apply List.map_congr_left
  intro j hj
  rw [List.mem_range] at hj
  congr 1
  show p.val x (.hydroGen, [i, j]) d.net.hydro.length = p.val x (.thermalCG, [i, j]) 0
  obtain ⟨nodes, w, _, _, _, hp, hb, _⟩ := gxRun_parts ht hr
  have hk := ((gBuild_iff p lp).1 hb).colKeys
  obtain ⟨A, B, hcols⟩ : ∃ A B, p.cols = A ++ ((.hydroGen, [i, j]), d.net.hydro.map (fun u => gUnitBnd u.min u.max)) ::
      ((.thermalCG, [i, j]), d.net.conv.map (fun _ => .lower 0)) :: B := by
    obtain ⟨l1, l2, hl⟩ := List.append_of_mem (mem_gnTimes.2 ⟨hi, hj⟩ : (i, j) ∈ gnTimes d.net)
    have hcom : ∃ A B, gnCommon d.net i j = A ++ ((.hydroGen, [i, j]), d.net.hydro.map (fun u => gUnitBnd u.min u.max)) ::
      ((.thermalCG, [i, j]), d.net.conv.map (fun _ => .lower 0)) :: B := by
      refine ⟨gSome (.thermal, [i, j]) (d.net.conv.map (fun u => if gnActive d.net u = true then gUnitBnd u.min u.max else .fixed 0)) ++
        gSome (.resGen, [i, j]) (d.net.res.map (fun u => gUnitBnd u.min (gnResMax d.net u i j))),
        gSome (.resCG, [i, j]) (d.net.res.map (fun _ => .lower 0)) ++ gSome (.hydroCG, [i, j]) (d.net.hydro.map (fun _ => .lower 0)) ++
        gSome (.pumps, [i, j]) (d.net.pumps.map (fun q => if q.1 / d.net.base ≠ 0 then .bounded 0 (q.1 / d.net.base) else .fixed 0)), ?_⟩
      unfold gnCommon
      rw [show gSome (.hydroGen, [i, j]) (d.net.hydro.map (fun u => gUnitBnd u.min u.max)) =
        [((.hydroGen, [i, j]), d.net.hydro.map (fun u => gUnitBnd u.min u.max))] from if_neg (by simpa using hh),
        show gSome (.thermalCG, [i, j]) (d.net.conv.map (fun _ => GBnd.lower 0)) =
        [((.thermalCG, [i, j]), d.net.conv.map (fun _ => .lower 0))] from if_neg (by simpa using hc)]
      simp
    obtain ⟨A, B, hAB⟩ := hcom
    rw [hp]
    simp only
    unfold gnCols
    rw [hl, List.flatMap_append, List.flatMap_cons]
    simp only
    rw [hAB]
    refine ⟨geCols d.en (if d.net.hydro = [] then [] else nodes) ++ (l1.flatMap (fun q => gnCommon d.net q.1 q.2) ++ A), ?_, ?_⟩
    rotate_left
    · simp only [List.append_assoc, List.cons_append]
      rfl
  obtain ⟨s, hs⟩ : ∃ s, gStart p.cols (.hydroGen, [i, j]) = some s := by
    obtain ⟨s, hs, _⟩ := gStart_mem hk (g := ((.hydroGen, [i, j]), d.net.hydro.map (fun u => gUnitBnd u.min u.max))) (by rw [hcols]; simp)
    exact ⟨s, hs⟩
  have hs2 : gStart p.cols (.thermalCG, [i, j]) = some (s + d.net.hydro.length) := by
    rw [hcols] at hk hs ⊢
    have := gStart_next A hk hs
    simpa using this
  unfold GProb.val
  rw [hs, hs2]
  simp

/-! ## C154: reading of the network -/

/-- **C154 fails** with more renewable than conventional units: the table of the profiles has one place for each conventional unit, IndexError. -/
theorem C154_many_res_violated {c : GnCase} (ht : 0 < c.insts ∧ 0 < c.periods) (h : c.conv.length < c.res.length) : gnRun c = .error .index := by
  have : gnInit c = .error .index := by
    unfold gnInit
    rw [if_pos]
    unfold gnResOk
    simp only [Bool.and_eq_true, Bool.or_eq_true, decide_eq_true_eq]
    omega
  unfold gnRun
  rw [this]
  rfl

/-- **C154 fails** if a later renewable or hydropower unit has more pieces of cost than the first one of its kind: IndexError. -/
theorem C154_more_pieces_violated {c : GnCase} (h : (∃ (a : GnRes) (l : List GnRes) (b : GnRes), c.res = a :: l ∧ b ∈ l ∧ a.pieces.length < b.pieces.length) ∨
    ∃ (a : GnUnit) (l : List GnUnit) (b : GnUnit), c.hydro = a :: l ∧ b ∈ l ∧ a.pieces.length < b.pieces.length) : gnRun c = .error .index := by
  have : gnInit c = .error .index := by
    unfold gnInit
    rcases h with ⟨a, l, b, h1, h2, h3⟩ | ⟨a, l, b, h1, h2, h3⟩
    · rw [if_pos]
      unfold gnResOk
      simp only [Bool.and_eq_true, List.all_eq_true, decide_eq_true_eq]
      rintro ⟨_, h4⟩
      have := h4 b (by rw [h1]; simp [h2])
      rw [h1] at this
      simp at this
      omega
    · have : ¬ (gnHydroOk c = true) := by
        unfold gnHydroOk
        simp only [List.all_eq_true, decide_eq_true_eq]
        intro h4
        have := h4 b (by rw [h1]; simp [h2])
        rw [h1] at this
        simp at this
        omega
      rw [if_pos this]
      split <;> rfl
  unfold gnRun
  rw [this]
  rfl

/-! ## examples -/

/-- one period with two names, of weights 2 and 1 -/
def exGxPeriods : List EnPeriod := [⟨2, [2, 1], .mat [[0, 0]], .mat [[0, 0]], false⟩]

/-- a conventional and a hydropower unit at the first bus feed the second one -/
def exGxNet : GnCase where
  insts := 2
  periods := 2
  conv := [⟨[(2, 0)], 0, 10, 3, 1, true⟩]
  res := []
  hydro := [⟨[(0, 0)], 0, 5, 2, 1, true⟩]
  pumps := []
  buses := [⟨1, 3, 0, [0, 0]⟩, ⟨2, 1, 4, [0, 0]⟩]
  branches := [⟨[some 0], true, 10, 1, 0, 0, 1, 2, 0, 1⟩]
  cont := 0
  resProfile := []
  demProfile := [1, 1]
  noDem := 0
  hours := [1, 2]
  base := 1
  loss := none
  lossPieces := none
  feas := false
  opf := true

/-- the tree of `exGxPeriods` -/
def exGxTree : EnTree := ⟨[⟨(0, 0), (0, 0)⟩, ⟨(0, 0), (1, 0)⟩, ⟨(1, 1), (2, 0)⟩], [(1, 2), (0, 0), (0, 0)], [(0, 1), (0, 0), (1, 1)], [0, 0, 0], [0, 1, 2], [(0, 0), (1, 2)]⟩

/-- the links of `exGxPeriods` -/
def exGxLinks : EnLinks := ⟨[(0, 0), (0, 0), (1, 1)], [(0, (0, 0)), (1, (1, 0)), (2, (2, 0))], [], 0⟩

/-- six units of energy are given to the tree -/
def exGx (opf : Bool) : GxData := ⟨⟨3, 1, exGxLinks, ⟨[1, 2, 1], [[0], [6], [0]], [[0], [0], [0]]⟩⟩, exGxTree.after, { exGxNet with opf := opf }, [1, 2], 1000⟩

theorem exGx_of (opf : Bool) : GxOf exGxPeriods ⟨1, [2], 3, 2, 1, 3⟩ exGxTree ⟨[1, 2, 1], [[0], [0], [0]], [[0], [0], [0]]⟩ exGxLinks (exGx opf) := by
  refine ⟨by decide +kernel, by decide +kernel, by decide +kernel, by decide +kernel, rfl, rfl, rfl, rfl, rfl, (by cases opf <;> decide +kernel), ?_⟩
  intro i hi
  have : i = 0 ∨ i = 1 := by simp only [exGx, exGxNet] at hi; omega
  rcases this with rfl | rfl
  · exact ⟨1, rfl, rfl⟩
  · exact ⟨2, rfl, rfl⟩

theorem exGx_well (opf : Bool) : GxWell (exGx opf).net := by
  refine ⟨?_, by show ∀ u ∈ exGxNet.conv, _; decide +kernel, by show ∀ u ∈ exGxNet.hydro, _; decide +kernel, fun _ => rfl⟩
  intro h
  simp only [exGx] at h
  subst h
  refine ⟨rfl, by decide, by decide, by decide, by decide, by decide, by decide, ?_, by decide, by decide⟩
  intro k h1 h2
  simp only [exGx, exGxNet] at h2
  omega

theorem exGx_bounds (opf : Bool) : GnBounds (exGx opf).net := by
  refine ⟨?_, ?_, by intro u hu; simp [exGx, exGxNet] at hu, by intro u hu; simp [exGx, exGxNet] at hu, by intro h; simp [exGx, exGxNet] at h⟩
  · show ∀ u ∈ exGxNet.conv, _
    intro u hu _
    simp only [exGxNet, List.mem_cons, List.not_mem_nil, or_false] at hu
    subst hu
    decide +kernel
  · show ∀ u ∈ exGxNet.hydro, _
    intro u hu
    simp only [exGxNet, List.mem_cons, List.not_mem_nil, or_false] at hu
    subst hu
    decide +kernel

/-- the hypotheses of C153 are met, with the power flow and with the economic dispatch -/
theorem C153_witness (opf : Bool) : ∃ p lp, gxRun (exGx opf) = .ok (p, lp) :=
  C153_runs_partial (exGx_of opf) (exGx_well opf) (by cases opf <;> decide +kernel) (exGx_bounds opf) (by simp [exGx, exGxNet]) (by simp [exGx])
    (by intro _; show ∀ u ∈ exGxNet.conv ++ exGxNet.hydro, _; decide +kernel)

/-- and a plan uses all the water: 5 in the first instance, counted twice, and 2 in the second one -/
theorem C153_plan_witness : ∃ p lp x, gxRun (exGx true) = .ok (p, lp) ∧ GFeasible lp x ∧ gxEnergy (exGx true).net (gnSol p x) 0 0 = 5 ∧
    gxEnergy (exGx true).net (gnSol p x) 1 0 = 2 ∧ scenarioWeight exGxPeriods 0 = 2 ∧ scenarioWeight exGxPeriods 1 = 1 ∧
    (exGx true).en.win 0 1 = 6 := by
  have h : okAnd (gxRun (exGx true)) (fun r => gCheck r.2 [0, 1, 0, 0, 2, 0, 0, 6, 0, 0, 5, 2, 3, 1, 6, 0, 2, 2, 8, 0, 4, 0, 8, 0, 3, 1, 12, 0,
      4, 0, -4, 4, 0, -4, 4, 0, -4, 4, 0, -4] &&
      decide (gxEnergy (exGx true).net (gnSol r.1 (gAt [0, 1, 0, 0, 2, 0, 0, 6, 0, 0, 5, 2, 3, 1, 6, 0, 2, 2, 8, 0, 4, 0, 8, 0, 3, 1, 12, 0,
      4, 0, -4, 4, 0, -4, 4, 0, -4, 4, 0, -4])) 0 0 = 5) &&
      decide (gxEnergy (exGx true).net (gnSol r.1 (gAt [0, 1, 0, 0, 2, 0, 0, 6, 0, 0, 5, 2, 3, 1, 6, 0, 2, 2, 8, 0, 4, 0, 8, 0, 3, 1, 12, 0,
      4, 0, -4, 4, 0, -4, 4, 0, -4, 4, 0, -4])) 1 0 = 2)) = true := by decide +kernel
  obtain ⟨⟨p, lp⟩, hr, h⟩ := okAnd_iff.1 h
  simp only [Bool.and_eq_true, decide_eq_true_eq] at h
  exact ⟨p, lp, _, hr, gCheck_ok h.1.1, h.1.2, h.2, by decide +kernel, by decide +kernel, by decide +kernel⟩

/-- two trees and one hydropower unit: the program is accepted and has a plan, in which 22 units leave the second tree, the cost of the conventional unit -/
theorem C153_units_witness : ∃ p lp x, gxRun ⟨⟨3, 2, exGxLinks, ⟨[1, 2, 1], [[0, 0], [6, 100], [0, 0]], [[0, 0], [0, 0], [0, 0]]⟩⟩, exGxTree.after, exGxNet,
    [1, 2], 1000⟩ = .ok (p, lp) ∧ GFeasible lp x ∧ p.val x (.outp, [1]) 1 = 22 ∧ (gnSol p x).convC 0 0 0 = 6 ∧ (gnSol p x).convC 0 1 0 = 8 := by
  have h : okAnd (gxRun ⟨⟨3, 2, exGxLinks, ⟨[1, 2, 1], [[0, 0], [6, 100], [0, 0]], [[0, 0], [0, 0], [0, 0]]⟩⟩, exGxTree.after, exGxNet, [1, 2], 1000⟩)
      (fun r => gCheck r.2 [0, 1, 0, 0, 78, 124, 0, 2, 0, 0, 156, 124, 0, 6, 0, 0, 100, 0, 0, 5, 2, 0, 22, 32, 3, 1, 6, 0, 2, 2, 8, 0, 4, 0, 8, 0, 3, 1, 12, 0,
      4, 0, -4, 4, 0, -4, 4, 0, -4, 4, 0, -4] &&
      decide (r.1.val (gAt [0, 1, 0, 0, 78, 124, 0, 2, 0, 0, 156, 124, 0, 6, 0, 0, 100, 0, 0, 5, 2, 0, 22, 32, 3, 1, 6, 0, 2, 2, 8, 0, 4, 0, 8, 0, 3, 1, 12, 0,
      4, 0, -4, 4, 0, -4, 4, 0, -4, 4, 0, -4]) (.outp, [1]) 1 = 22) &&
      decide ((gnSol r.1 (gAt [0, 1, 0, 0, 78, 124, 0, 2, 0, 0, 156, 124, 0, 6, 0, 0, 100, 0, 0, 5, 2, 0, 22, 32, 3, 1, 6, 0, 2, 2, 8, 0, 4, 0, 8, 0, 3, 1, 12, 0,
      4, 0, -4, 4, 0, -4, 4, 0, -4, 4, 0, -4])).convC 0 0 0 = 6) &&
      decide ((gnSol r.1 (gAt [0, 1, 0, 0, 78, 124, 0, 2, 0, 0, 156, 124, 0, 6, 0, 0, 100, 0, 0, 5, 2, 0, 22, 32, 3, 1, 6, 0, 2, 2, 8, 0, 4, 0, 8, 0, 3, 1, 12, 0,
      4, 0, -4, 4, 0, -4, 4, 0, -4, 4, 0, -4])).convC 0 1 0 = 8)) = true := by decide +kernel
  obtain ⟨⟨p, lp⟩, hr, h⟩ := okAnd_iff.1 h
  simp only [Bool.and_eq_true, decide_eq_true_eq] at h
  exact ⟨p, lp, _, hr, gCheck_ok h.1.1.1, h.1.1.2, h.1.2, h.2⟩

/-- the network of `exGxNet` for eleven instances -/
def exGxNet11 : GnCase := { exGxNet with insts := 11, buses := [⟨1, 3, 0, List.replicate 11 0⟩, ⟨2, 1, 4, List.replicate 11 0⟩] }

theorem exGxNet11_well : GxWell exGxNet11 := by
  refine ⟨?_, by decide +kernel, by decide +kernel, fun _ => rfl⟩
  intro _
  refine ⟨rfl, by decide, by decide, by decide, by decide, by decide, by decide, ?_, by decide, by decide⟩
  intro k k1 k2
  simp only [exGxNet11, exGxNet] at k2
  omega

/-- eleven scenarios and twelve trees meet the hypotheses of `C153_names_violated` -/
theorem C153_names_witness : ∃ data size t w links d, GxOf data size t w links d ∧ GxWell d.net ∧ gnInit d.net = .ok () ∧ d.net.hydro ≠ [] ∧
    11 < d.en.vectors ∧ 10 < d.net.insts := by
  obtain ⟨data, hd⟩ : ∃ data : List EnPeriod, data = [⟨11, List.replicate 11 1, .mat [], .mat [], false⟩] := ⟨_, rfl⟩
  have hpos : ∀ d ∈ data, 0 < d.names := by subst hd; simp
  have hunc : ∀ d ∈ data, d.unc = false := by subst hd; simp
  have hwt : ∀ d ∈ data, d.weights.length = d.names := by subst hd; simp
  have hprod : (data.map (·.names)).prod = 11 := by subst hd; simp
  obtain ⟨t, w, links, h1, _⟩ := coupled_nodes hpos (by rw [hd]; rfl) rfl hwt 12
  obtain ⟨size, t', w', links', OF, g1, _, _, _, g5⟩ := C114_weights data hpos _ (by rw [hd]; rfl) rfl hwt 12
  have hg := g1
  rw [h1, Except.ok.injEq] at hg
  obtain ⟨rfl, rfl, rfl, rfl⟩ : sizeOfL (data.map (·.names)) 12 = size ∧ t = t' ∧ w = w' ∧ links = links' := by
    simpa [Prod.mk.injEq] using hg
  rw [hprod] at g5
  refine ⟨data, sizeOfL (data.map (·.names)) 12, t, w, links, ⟨⟨(sizeOfL (data.map (·.names)) 12).nodes, 12, links, w⟩, t.after, exGxNet11,
    (List.range 11).map (fun i => match pyeneE (sizeOfL (data.map (·.names)) 12) t i with | .ok n => n | .error _ => 0), 1⟩, ?_, ?_, ?_, ?_, ?_, ?_⟩
  · refine ⟨h1, hpos, hunc, hwt, rfl, rfl, rfl, rfl, rfl, hprod.symm, ?_⟩
    intro i hi
    obtain ⟨_, n, hn, _⟩ := g5 i hi
    refine ⟨n, hn, ?_⟩
    rw [List.getElem?_map, List.getElem?_range (show i < 11 from hi), Option.map_some, hn]
  · exact exGxNet11_well
  · show gnInit exGxNet11 = .ok ()
    decide +kernel
  · show exGxNet11.hydro ≠ []
    decide
  · show 11 < 12
    decide
  · show 10 < 11
    decide

end Pyensys
