import Verif.Props.GlpkCases
import Verif.Props.ReduceBranches

/-!
# C149-C155: examples
-/

namespace Pyensys

/-- the point with the given values -/
def gAt (xs : List Rat) (n : Nat) : Rat := (xs[n]?).getD 0

/-- test of a point -/
def gCheck (lp : GLp) (xs : List Rat) : Bool :=
  (List.range lp.cols.length).all (fun n => match lp.cols[n]? with | some b => decide (b.holds (gAt xs n)) | none => true) &&
  (List.range lp.nrows).all (fun r => decide ((lp.rowBnd r).holds (lp.rowVal (gAt xs) r)))

theorem gCheck_ok {lp : GLp} {xs : List Rat} (h : gCheck lp xs = true) : GFeasible lp (gAt xs) := by
  unfold gCheck at h
  simp only [Bool.and_eq_true, List.all_eq_true, List.mem_range, decide_eq_true_eq] at h
  refine ⟨?_, h.2⟩
  intro n b hb
  have := h.1 n (List.getElem?_eq_some_iff.1 hb).1
  rw [hb] at this
  simpa using this

/-- a unit at the first bus feeds the second one over two lines, and the first line may fail -/
def exGn : GnCase where
  insts := 1
  periods := 1
  conv := [⟨[(2, 0)], 0, 10, 1, 1, true⟩]
  res := []
  hydro := []
  pumps := []
  buses := [⟨1, 3, 0, [0]⟩, ⟨2, 1, 4, [0]⟩]
  branches := [⟨[some 0, none], true, 10, 1, 0, 0, 1, 2, 0, 1⟩, ⟨[some 1, some 0], true, 10, 1, 0, 0, 1, 2, 0, 1⟩]
  cont := 1
  resProfile := []
  demProfile := [1]
  noDem := 0
  hours := [2]
  base := 1
  loss := none
  lossPieces := none
  feas := true
  opf := true

theorem exGn_well : GnWell exGn := by
  refine ⟨rfl, by decide, by decide, by decide, by decide, by decide, by decide, ?_, by decide, by decide⟩
  intro k h1 h2
  have : k = 1 := by simp only [exGn] at h2; omega
  subst this
  decide

theorem exGn_bounds : GnBounds exGn := by
  refine ⟨by decide +kernel, by decide, by intro u hu; simp [exGn] at hu, by intro u hu; simp [exGn] at hu, ?_⟩
  intro _ b hb hd i j hi hj
  have : i = 0 ∧ j = 0 := by simp only [exGn] at hi hj; omega
  obtain ⟨rfl, rfl⟩ := this
  revert b
  decide +kernel

theorem exGn_relaxed : GnRelaxed exGn := by
  refine ⟨rfl, rfl, by decide +kernel, by decide +kernel, by decide +kernel, by decide +kernel, ?_⟩
  show ∀ b ∈ exGn.branches, b.loss = 0
  decide +kernel

theorem exGn_hours : ∀ j, j < exGn.periods → 0 ≤ gnHours exGn j := by decide +kernel

theorem exGn_sound : GnSound exGn := by
  refine ⟨by decide, by decide, by decide, by decide, by decide⟩

/-- the hypotheses of C149, C150, C151, C154 and C155 are met, and what is returned is a plan in which the balance of the second bus needs power
in both states of the network -/
theorem C155_witness : ∃ p lp, gnRun exGn = .ok (p, lp) ∧ ∀ x, GReturned lp x → GFeasible lp x ∧ GnRules exGn (gnSol p x) ∧
    (gnSol p x).flow 0 0 1 0 = 0 := by
  obtain ⟨p, lp, hr, h⟩ := C155_returned_partial exGn_well (by decide +kernel) exGn_bounds exGn_relaxed exGn_hours
  refine ⟨p, lp, hr, fun x hx => ?_⟩
  have hx' := (h x hx).1
  have hf := (C149_plans_partial hr exGn_well.out x).2 hx'
  exact ⟨hf, hx', (C150_flows_partial hr exGn_well.out x hf 0 0 1 (by decide) (by decide) (by decide) 0 _ rfl).2 (by decide)⟩

/-- the columns of `exGn`: output, cost; intact: flows, curtailments, angles; contingency: the same -/
theorem C149_witness : ∃ p lp, gnRun exGn = .ok (p, lp) ∧ GFeasible lp (gAt [4, 16, 2, 2, 0, 0, 0, 0, 0, -2, 0, 4, 0, 0, 0, 0, 0, -4]) ∧
    (gnSol p (gAt [4, 16, 2, 2, 0, 0, 0, 0, 0, -2, 0, 4, 0, 0, 0, 0, 0, -4])).flow 0 0 1 1 = 4 := by
  have h : okAnd (gnRun exGn) (fun r => gCheck r.2 [4, 16, 2, 2, 0, 0, 0, 0, 0, -2, 0, 4, 0, 0, 0, 0, 0, -4] &&
    decide ((gnSol r.1 (gAt [4, 16, 2, 2, 0, 0, 0, 0, 0, -2, 0, 4, 0, 0, 0, 0, 0, -4])).flow 0 0 1 1 = 4)) = true := by decide +kernel
  obtain ⟨r, hr, h⟩ := okAnd_iff.1 h
  rw [Bool.and_eq_true, decide_eq_true_eq] at h
  exact ⟨r.1, r.2, hr, gCheck_ok h.1, h.2⟩

/-- `exGn` without contingency and with a pump -/
def exGnPump : GnCase :=
  ⟨1, 1, exGn.conv, [], [], [(1, 5)], exGn.buses, exGn.branches, 0, [], [1], 0, [2], 1, none, none, true, true⟩

/-- the hypotheses of `C149_pumps_violated` are met: to pump 1 the unit gives 6 for a demand of 4 -/
theorem C149_pumps_witness : ∃ p lp x, gnRun exGnPump = .ok (p, lp) ∧ GFeasible lp x ∧ GnNet exGnPump (gnSol p x) 0 0 0 ∧ GnSound exGnPump ∧
    (gnLive exGnPump).length = 2 ∧ gnPumped exGnPump (gnSol p x) 0 0 = 1 ∧ (gnSol p x).conv 0 0 0 = 6 ∧ (gnSol p x).lc 0 0 0 1 = 0 := by
  have h : okAnd (gnRun exGnPump) (fun r => gCheck r.2 [6, 24, 1, 5/2, 5/2, 0, 0, 0, 0, 0, -5/2] &&
    decide (gnPumped exGnPump (gnSol r.1 (gAt [6, 24, 1, 5/2, 5/2, 0, 0, 0, 0, 0, -5/2])) 0 0 = 1 ∧
      (gnSol r.1 (gAt [6, 24, 1, 5/2, 5/2, 0, 0, 0, 0, 0, -5/2])).conv 0 0 0 = 6 ∧
      (gnSol r.1 (gAt [6, 24, 1, 5/2, 5/2, 0, 0, 0, 0, 0, -5/2])).lc 0 0 0 1 = 0)) = true := by decide +kernel
  obtain ⟨r, hr, h⟩ := okAnd_iff.1 h
  rw [Bool.and_eq_true, decide_eq_true_eq] at h
  have hf := gCheck_ok h.1
  have ho : GnOut exGnPump := by intro k h1 h2; simp only [exGnPump] at h2; omega
  exact ⟨r.1, r.2, _, hr, hf, ((C149_plans_partial hr ho _).1 hf).net 0 0 0 (by decide) (by decide) (by decide), ⟨by decide, by decide, by decide, by decide, by decide⟩,
    by decide, h.2⟩

/-- **C149 fails** at an isolated bus (type 4): its balance is not asked for, so a branch from it brings power that nobody gives.  Here the demand of
4 is met without generation and without curtailment. -/
theorem C149_isolated_violated : ∃ p lp x, gnRun ⟨1, 1, exGn.conv, [], [], [], [⟨1, 3, 0, [0]⟩, ⟨2, 1, 4, [0]⟩, ⟨3, 4, 0, [0]⟩],
      [⟨[some 0], true, 10, 1, 0, 0, 1, 2, 0, 1⟩, ⟨[some 0], true, 10, 1, 0, 0, 3, 2, 2, 1⟩], 0, [], [1], 0, [1], 1, none, none, true, true⟩ = .ok (p, lp) ∧
    GFeasible lp x ∧ (gnSol p x).conv 0 0 0 = 0 ∧ (gnSol p x).lc 0 0 0 1 = 0 ∧ (gnSol p x).flow 0 0 0 1 = 4 := by
  have h : okAnd (gnRun ⟨1, 1, exGn.conv, [], [], [], [⟨1, 3, 0, [0]⟩, ⟨2, 1, 4, [0]⟩, ⟨3, 4, 0, [0]⟩],
      [⟨[some 0], true, 10, 1, 0, 0, 1, 2, 0, 1⟩, ⟨[some 0], true, 10, 1, 0, 0, 3, 2, 2, 1⟩], 0, [], [1], 0, [1], 1, none, none, true, true⟩) (fun r =>
    gCheck r.2 [0, 0, 0, 4, 0, 0, 0, 0, 0, 0, 0, 0, 4] &&
    decide ((gnSol r.1 (gAt [0, 0, 0, 4, 0, 0, 0, 0, 0, 0, 0, 0, 4])).conv 0 0 0 = 0 ∧
      (gnSol r.1 (gAt [0, 0, 0, 4, 0, 0, 0, 0, 0, 0, 0, 0, 4])).lc 0 0 0 1 = 0 ∧
      (gnSol r.1 (gAt [0, 0, 0, 4, 0, 0, 0, 0, 0, 0, 0, 0, 4])).flow 0 0 0 1 = 4)) = true := by decide +kernel
  obtain ⟨r, hr, h⟩ := okAnd_iff.1 h
  rw [Bool.and_eq_true, decide_eq_true_eq] at h
  exact ⟨r.1, r.2, _, hr, gCheck_ok h.1, h.2⟩

/-- `exGn` with a contingency that takes no line out -/
def exGnAll (losses : Option (List (Rat × Rat))) : GnCase :=
  ⟨1, 1, exGn.conv, [], [], [], exGn.buses, [⟨[some 0, some 0], true, 10, 1, 0, 0, 1, 2, 0, 1⟩, ⟨[some 1, some 1], true, 10, 1, 0, 0, 1, 2, 0, 1⟩], 1,
    [], [1], 0, [2], 1, none, losses, true, true⟩

/-- the hypotheses of `C150_unmatched_violated` are met -/
theorem C150_unmatched_witness : gnInit (exGnAll none) = .ok () ∧ (∀ b ∈ (exGnAll none).branches, b.on (exGnAll none).cont = true) ∧
    gnRun (exGnAll none) = .error .runtime := by decide +kernel

/-- **C150 fails** after such a contingency with losses too: the call succeeds, but the row of the last branch is merged with a row of the
losses and its flow need not follow the angles.  Here 4 flows between two buses with the same angle. -/
theorem C150_merged_violated : ∃ p lp x, gnRun (exGnAll (some [(0, 1/10)])) = .ok (p, lp) ∧ GFeasible lp x ∧ (gnSol p x).flow 0 0 1 1 = 4 ∧
    (gnSol p x).angle 0 0 1 0 = (gnSol p x).angle 0 0 1 1 := by
  have h : okAnd (gnRun (exGnAll (some [(0, 1/10)]))) (fun r =>
    gCheck r.2 [4, 16, 2, 2, 0, 0, 0, 0, 0, 0, 0, -2, 0, 4, 0, 0, 0, 0, 0, 0, 0, 0] &&
    decide ((gnSol r.1 (gAt [4, 16, 2, 2, 0, 0, 0, 0, 0, 0, 0, -2, 0, 4, 0, 0, 0, 0, 0, 0, 0, 0])).flow 0 0 1 1 = 4 ∧
      (gnSol r.1 (gAt [4, 16, 2, 2, 0, 0, 0, 0, 0, 0, 0, -2, 0, 4, 0, 0, 0, 0, 0, 0, 0, 0])).angle 0 0 1 0 =
        (gnSol r.1 (gAt [4, 16, 2, 2, 0, 0, 0, 0, 0, 0, 0, -2, 0, 4, 0, 0, 0, 0, 0, 0, 0, 0])).angle 0 0 1 1)) = true := by decide +kernel
  obtain ⟨r, hr, h⟩ := okAnd_iff.1 h
  rw [Bool.and_eq_true, decide_eq_true_eq] at h
  exact ⟨r.1, r.2, _, hr, gCheck_ok h.1, h.2⟩

/-- an expensive unit and a period of two hours -/
def exGnHours : GnCase :=
  ⟨1, 1, [⟨[(60000000, 0)], 0, 10, 1, 1, true⟩], [], [], [], exGn.buses, [⟨[some 0], true, 10, 1, 0, 0, 1, 2, 0, 1⟩], 0,
    [], [1], 0, [2], 1, none, none, true, true⟩

theorem exGnHours_well : GnWell exGnHours := by
  refine ⟨rfl, by decide, by decide, by decide, by decide, by decide, by decide, ?_, by decide, by decide⟩
  intro k h1 h2
  simp only [exGnHours] at h2
  omega

theorem exGnHours_bounds : GnBounds exGnHours := by
  refine ⟨by decide +kernel, by decide, by intro u hu; simp [exGnHours] at hu, by intro u hu; simp [exGnHours] at hu, ?_⟩
  intro _ b hb hd i j hi hj
  have : i = 0 ∧ j = 0 := by simp only [exGnHours] at hi hj; omega
  obtain ⟨rfl, rfl⟩ := this
  revert b
  decide +kernel

theorem exGnHours_relaxed : GnRelaxed exGnHours := by
  refine ⟨rfl, rfl, by decide +kernel, by decide +kernel, by decide +kernel, by decide +kernel, ?_⟩
  show ∀ b ∈ exGnHours.branches, b.loss = 0
  decide +kernel

/-- **C151 fails** when periods do not last one hour: the hours are in the pieces of the costs and again in the objective.  Here power for
60000000 per hour is not used although the penalty of curtailment is 100000000 per hour: every plan that GLPK returns costs 800000000 where another
one costs 480000000. -/
theorem C151_hours_violated : ∃ p lp y, gnRun exGnHours = .ok (p, lp) ∧ GFeasible lp y ∧ gnExpected exGnHours (gnSol p y) = 480000000 ∧
    ∀ x, GReturned lp x → gnExpected exGnHours (gnSol p x) = 800000000 ∧ (gnSol p x).lc 0 0 0 1 = 4 := by
  have h : okAnd (gnRun exGnHours) (fun r => gCheck r.2 [4, 480000000, 4, 0, 0, 0, 0, 0, -4] &&
    decide (gnExpected exGnHours (gnSol r.1 (gAt [4, 480000000, 4, 0, 0, 0, 0, 0, -4])) = 480000000)) = true := by decide +kernel
  obtain ⟨⟨p, lp⟩, hr, h⟩ := okAnd_iff.1 h
  rw [Bool.and_eq_true, decide_eq_true_eq] at h
  refine ⟨p, lp, _, hr, gCheck_ok h.1, h.2, fun x hx => ?_⟩
  have hh : ∀ j, j < exGnHours.periods → 0 ≤ gnHours exGnHours j := by decide +kernel
  have hidle := C155_feasible_partial exGnHours_relaxed exGnHours_bounds hh
  obtain ⟨rules, _⟩ := C151_cheapest_partial hr exGnHours_well hh _ hidle x hx
  have hle := (C151_value_partial hr exGnHours_well hh _ hidle x hx).2 _ hidle
  have e : gnSquared exGnHours (gnTight exGnHours (gnIdle exGnHours)) = 800000000 := by decide +kernel
  rw [e] at hle
  generalize gnSol p x = s at *
  have b0 := (rules.net 0 0 0 (by decide) (by decide) (by decide)).balance 0 _ rfl (by decide)
  have b1 := (rules.net 0 0 0 (by decide) (by decide) (by decide)).balance 1 _ rfl (by decide)
  have lim := rules.limits 0 0 0 (by decide) (by decide) (by decide)
  have l0 := (lim.lc rfl 0 _ rfl).2 (by decide +kernel)
  have l1 := (lim.lc rfl 1 _ rfl).1 (by decide +kernel)
  have g0 := (lim.gc rfl 0 _ rfl).1 (by decide)
  have g1 := (lim.gc rfl 1 _ rfl).2 (by decide)
  have u := ((rules.units 0 0 (by decide) (by decide)).conv 0 _ rfl).1 (by decide)
  simp [GnBalance, gnGenAt, gnNetFlow, exGnHours, exGn, gnDemand, gnMult, gnLossAt, gnNonTech, gnPumped, List.zipIdx] at b0 b1 l1 u
  simp [gnSquared, gnTimes, gnHours, gnUnitsHourly, gnPumpHourly, gnCurtailed, exGnHours, exGn, gnBest, List.zipIdx, List.range_succ] at hle
  simp [gnExpected, gnTimes, gnHours, gnUnitsHourly, gnPumpHourly, gnCurtailed, exGnHours, exGn, gnBest, List.zipIdx, List.range_succ]
  rw [max_eq_right (by linarith)] at hle ⊢
  rw [l0] at b0 hle ⊢
  rw [g1] at b1 hle ⊢
  constructor <;> linarith

/-- networks that meet the hypotheses of the failures of C150, C152 and C154: no demand in the period, profile below the minimum, no pieces,
single branch with a contingency, branch from a bus to itself, economic dispatch -/
theorem C154_failures_witness :
    gnRun ⟨1, 1, exGn.conv, [], [], [], exGn.buses, exGn.branches, 1, [], [0], 0, [2], 1, none, none, true, true⟩ = .error .assertion ∧
    gnRun ⟨1, 1, exGn.conv, [⟨[(0, 0)], 1, 2, 1, [0]⟩], [], [], exGn.buses, exGn.branches, 1, [1/4], [1], 0, [2], 1, none, none, true, true⟩ = .error .assertion ∧
    gnRun ⟨1, 1, [⟨[], 0, 10, 1, 1, true⟩], [], [], [], exGn.buses, exGn.branches, 1, [], [1], 0, [2], 1, none, none, true, true⟩ = .error .runtime ∧
    gnRun ⟨1, 1, exGn.conv, [], [], [], exGn.buses, [⟨[some 0, none], true, 10, 1, 0, 0, 1, 2, 0, 1⟩], 1, [], [1], 0, [2], 1, none, none, true, true⟩ = .error .runtime ∧
    gnRun ⟨1, 1, exGn.conv, [], [], [], exGn.buses, [⟨[some 0], true, 10, 1, 0, 0, 1, 1, 0, 0⟩], 0, [], [1], 0, [2], 1, none, none, true, true⟩ = .error .runtime ∧
    gnInit ⟨1, 1, exGn.conv, [], [], [], exGn.buses, exGn.branches, 1, [], [1], 0, [2], 1, none, none, true, false⟩ = .ok () := by
  decide +kernel

/-- the hypotheses of `C154_zero_demand_violated` are met by the first of these networks -/
theorem C154_zero_demand_witness : GnWell ⟨1, 1, exGn.conv, [], [], [], exGn.buses, exGn.branches, 1, [], [0], 0, [2], 1, none, none, true, true⟩ ∧
    gnMult ⟨1, 1, exGn.conv, [], [], [], exGn.buses, exGn.branches, 1, [], [0], 0, [2], 1, none, none, true, true⟩ ⟨2, 1, 4, [0]⟩ 0 0 = 0 := by
  refine ⟨⟨rfl, by decide, by decide, by decide, by decide, by decide, by decide, ?_, by decide, by decide⟩, by decide +kernel⟩
  intro k h1 h2
  have : k = 1 := by simp only at h2; omega
  subst this
  decide

/-- a line without rating: the other line has to carry everything, and no more than the angle difference 0 allows; all demand is curtailed -/
theorem C150_rate_witness : ∃ p lp x, gnRun ⟨1, 1, exGn.conv, [], [], [], exGn.buses,
      [⟨[some 0], true, 0, 1, 0, 0, 1, 2, 0, 1⟩, ⟨[some 1], true, 10, 1, 0, 0, 1, 2, 0, 1⟩], 0, [], [1], 0, [2], 1, none, none, true, true⟩ = .ok (p, lp) ∧
    GFeasible lp x ∧ (gnSol p x).lc 0 0 0 1 = 4 := by
  have h : okAnd (gnRun ⟨1, 1, exGn.conv, [], [], [], exGn.buses,
      [⟨[some 0], true, 0, 1, 0, 0, 1, 2, 0, 1⟩, ⟨[some 1], true, 10, 1, 0, 0, 1, 2, 0, 1⟩], 0, [], [1], 0, [2], 1, none, none, true, true⟩) (fun r =>
      gCheck r.2 [0, 0, 0, 0, 0, 4, 0, 0, 0, 0] && decide ((gnSol r.1 (gAt [0, 0, 0, 0, 0, 4, 0, 0, 0, 0])).lc 0 0 0 1 = 4)) = true := by decide +kernel
  obtain ⟨r, hr, h⟩ := okAnd_iff.1 h
  rw [Bool.and_eq_true, decide_eq_true_eq] at h
  exact ⟨r.1, r.2, _, hr, gCheck_ok h.1, h.2⟩

/-- a network that runs and meets the hypotheses of `C155_loss_violated` at its third bus: no plan exists, although the relaxation is on -/
theorem C155_loss_witness : ∃ p lp, gnRun ⟨1, 1, exGn.conv, [], [], [], [⟨1, 3, 0, [0]⟩, ⟨2, 1, 4, [0]⟩, ⟨3, 1, 4, [0]⟩],
      [⟨[some 0], true, 10, 1, 0, 0, 1, 2, 0, 1⟩], 0, [], [1], 0, [1], 1, some (1/10), none, true, true⟩ = .ok (p, lp) ∧ (∀ x, ¬ GFeasible lp x) ∧
    ∀ x, GReturned lp x := by
  have h : okAnd (gnRun ⟨1, 1, exGn.conv, [], [], [], [⟨1, 3, 0, [0]⟩, ⟨2, 1, 4, [0]⟩, ⟨3, 1, 4, [0]⟩],
      [⟨[some 0], true, 10, 1, 0, 0, 1, 2, 0, 1⟩], 0, [], [1], 0, [1], 1, some (1/10), none, true, true⟩) (fun _ => true) = true := by decide +kernel
  obtain ⟨⟨p, lp⟩, hr, _⟩ := okAnd_iff.1 h
  have ho : GnOut ⟨1, 1, exGn.conv, [], [], [], [⟨1, 3, 0, [0]⟩, ⟨2, 1, 4, [0]⟩, ⟨3, 1, 4, [0]⟩],
      [⟨[some 0], true, 10, 1, 0, 0, 1, 2, 0, 1⟩], 0, [], [1], 0, [1], 1, some (1/10), none, true, true⟩ := by
    intro k h1 h2
    simp only at h2
    omega
  have no : ∀ x, ¬ GFeasible lp x := by
    intro x hx
    have rules := (C149_plans_partial hr ho x).1 hx
    exact C155_loss_violated (l := 1/10) rfl (by decide +kernel) (n := 2) (b := ⟨3, 1, 4, [0]⟩) rfl (by decide) (by decide +kernel) (by decide +kernel) (by decide)
      (by decide) (rules.units 0 0 (by decide) (by decide)) (rules.limits 0 0 0 (by decide) (by decide) (by decide)) rfl
      (rules.net 0 0 0 (by decide) (by decide) (by decide))
  exact ⟨p, lp, hr, no, fun x ⟨y, hy, _⟩ => absurd hy (no y)⟩

end Pyensys
