import Verif.Props.GlpkPlans

/-!
# C149, C150, C154, C155: when a plan exists, and what goes wrong
-/

namespace Pyensys

/-! ## C155: with the relaxation there is always a plan -/

/-- a network that can do without power: the relaxation is on, losses are not a share of the demand, demands and minima are not negative,
and idle branches have no losses -/
structure GnRelaxed (c : GnCase) : Prop where
  feas : c.feas = true
  loss : c.loss = none
  demand : ∀ b ∈ c.buses, b.type ≠ 4 → 0 ≤ b.demand
  conv : ∀ u ∈ c.conv, 0 ≤ u.min
  res : ∀ u ∈ c.res, 0 ≤ u.min
  hydro : ∀ u ∈ c.hydro, 0 ≤ u.min
  idle : match c.lossPieces with
    | some ps => ∀ b ∈ c.branches, ∀ a ∈ ps, a.1 * b.r ≤ 0
    | none => ∀ b ∈ c.branches, b.loss = 0

/-- outputs at their minima, nothing else -/
def gnIdleUnits (c : GnCase) : GnSol where
  conv _ _ n := match c.conv[n]? with | some u => if gnActive c u = true then u.min else 0 | none => 0
  res _ _ n := match c.res[n]? with | some u => u.min | none => 0
  hydro _ _ n := match c.hydro[n]? with | some u => u.min | none => 0
  convC _ _ _ := 0
  resC _ _ _ := 0
  hydroC _ _ _ := 0
  pump _ _ _ := 0
  flow _ _ _ _ := 0
  loss _ _ _ _ := 0
  lc _ _ _ _ := 0
  gc _ _ _ _ := 0
  angle _ _ _ _ := 0

/-- all demand and all generation curtailed -/
def gnIdle (c : GnCase) : GnSol where
  conv := (gnIdleUnits c).conv
  res := (gnIdleUnits c).res
  hydro := (gnIdleUnits c).hydro
  convC _ _ _ := 0
  resC _ _ _ := 0
  hydroC _ _ _ := 0
  pump _ _ _ := 0
  flow _ _ _ _ := 0
  loss _ _ _ _ := 0
  lc i j _ n := match c.buses[n]? with | some b => if 0 < b.demand then b.demand * gnMult c b i j else 0 | none => 0
  gc i j _ n := match c.buses[n]? with | some b => gnGenAt c (gnIdleUnits c) i j b.number | none => 0
  angle _ _ _ _ := 0

theorem sum_zero_of {α : Type} (l : List α) (f : α → Rat) (h : ∀ a ∈ l, f a = 0) : (l.map f).sum = 0 := by
  induction l with
  | nil => rfl
  | cons a l ih => rw [List.map_cons, List.sum_cons, h a List.mem_cons_self, ih (fun b hb => h b (List.mem_cons_of_mem _ hb))]; ring

theorem gnGenAt_nonneg {c : GnCase} (h : GnRelaxed c) (i j : Nat) (n : Int) : 0 ≤ gnGenAt c (gnIdleUnits c) i j n := by
  unfold gnGenAt
  refine add_nonneg (add_nonneg ?_ ?_) ?_ <;> refine sum_map_nonneg _ _ ?_ <;> intro u hu
  · have hu' := mem_zipIdx_iff'.1 hu
    split
    · simp only [gnIdleUnits, hu']
      split
      · exact h.conv u.1 (List.mem_of_getElem? hu')
      · exact le_refl _
    · exact le_refl _
  · have hu' := mem_zipIdx_iff'.1 hu
    split
    · simp only [gnIdleUnits, hu']
      exact h.res u.1 (List.mem_of_getElem? hu')
    · exact le_refl _
  · have hu' := mem_zipIdx_iff'.1 hu
    split
    · simp only [gnIdleUnits, hu']
      exact h.hydro u.1 (List.mem_of_getElem? hu')
    · exact le_refl _

theorem gnGenAt_none {c : GnCase} {b : GnBus} (h : gnHasGen c b = false) (s : GnSol) (i j : Nat) : gnGenAt c s i j b.number = 0 := by
  unfold gnHasGen at h
  simp only [Bool.or_eq_false_iff, List.any_eq_false, beq_iff_eq] at h
  obtain ⟨⟨h1, h2⟩, h3⟩ := h
  unfold gnGenAt
  rw [sum_zero_of, sum_zero_of, sum_zero_of]
  · simp
  · intro u hu; rw [if_neg (h3 u.1 (mem_fst_zipIdx hu))]
  · intro u hu; rw [if_neg (h2 u.1 (mem_fst_zipIdx hu))]
  · intro u hu; rw [if_neg (h1 u.1 (mem_fst_zipIdx hu))]

/-- **C155.** With the relaxation on there is always a plan: all demand and all generation may be curtailed. -/
theorem C155_feasible_partial {c : GnCase} (h : GnRelaxed c) (hb : GnBounds c) (hh : ∀ j, j < c.periods → 0 ≤ gnHours c j) :
    GnRules c (gnTight c (gnIdle c)) := by
  refine gnTight_rules hh ?_ ?_ ?_
  · intro i j hi hj
    refine ⟨?_, ?_, ?_, ?_⟩
    · intro n u hu
      have hm := List.mem_of_getElem? hu
      simp only [gnIdle, gnIdleUnits, hu]
      refine ⟨fun ha => ?_, fun ha => ?_⟩
      · rw [if_pos ha]; exact ⟨le_refl _, hb.conv u hm ha⟩
      · rw [if_neg (by simp [ha])]
    · intro n u hu
      simp only [gnIdle, gnIdleUnits, hu]
      exact ⟨le_refl _, hb.res u (List.mem_of_getElem? hu) i j hi hj⟩
    · intro n u hu
      simp only [gnIdle, gnIdleUnits, hu]
      exact ⟨le_refl _, hb.hydro u (List.mem_of_getElem? hu)⟩
    · intro n q hq
      exact ⟨le_refl _, hb.pumps q (List.mem_of_getElem? hq)⟩
  · intro i j k hi hj _
    refine ⟨?_, ?_, ?_, ?_, ?_⟩
    · intro n b _
      exact ⟨fun _ h0 => ⟨by show -b.rate ≤ 0; linarith, le_of_lt h0⟩, fun _ => rfl⟩
    · intro _ n b _
      exact ⟨fun _ => le_refl _, fun _ => rfl⟩
    · intro hf n b hbn
      simp only [gnIdle, hbn]
      refine ⟨fun h0 => ?_, fun h0 => ?_⟩
      · rw [if_pos h0]
        exact ⟨le_of_lt (mul_pos h0 (hb.demand hf b (List.mem_of_getElem? hbn) h0 i j hi hj)), le_refl _⟩
      · rw [if_neg (not_lt.2 h0)]
    · intro hf n b hbn
      simp only [gnIdle, hbn]
      exact ⟨fun _ => gnGenAt_nonneg h i j _, fun hg => gnGenAt_none hg _ i j⟩
    · intro n b _ _
      rfl
  · intro i j k hi hj _
    refine ⟨?_, ?_, ?_⟩
    · intro n b hbn ht
      have hm := List.mem_of_getElem? hbn
      unfold GnBalance
      have e1 : gnGenAt c (gnIdle c) i j b.number = gnGenAt c (gnIdleUnits c) i j b.number := rfl
      have e2 : gnNetFlow c (gnIdle c) i j k b.number = 0 := by
        unfold gnNetFlow
        rw [sum_zero_of, sum_zero_of]
        · simp
        · intro l _; split <;> rfl
        · intro l _; split <;> rfl
      have e3 : gnLossAt c (gnIdle c) i j k b.number = 0 := by
        have hidle := h.idle
        unfold gnLossAt
        cases hl : c.lossPieces with
        | none =>
          rw [hl] at hidle
          simp only at hidle ⊢
          unfold gnNonTech
          apply sum_zero_of
          intro l hlm
          simp [hidle l hlm]
        | some ps =>
          simp only
          apply sum_zero_of
          intro l _
          split
          · show (0 : Rat) / 2 = 0; norm_num
          · rfl
      have e4 : gnPumped c (gnIdle c) i j = 0 := by
        unfold gnPumped
        apply sum_zero_of
        intro q _
        split <;> rfl
      have e5 : gnDemand c b i j = b.demand * gnMult c b i j := by unfold gnDemand; rw [h.loss]
      rw [e1, e2, e3, e4, e5, if_pos h.feas]
      simp only [gnIdle, hbn]
      have hd := h.demand b hm ht
      by_cases h0 : 0 < b.demand
      · rw [if_pos h0]; ring
      · rw [if_neg h0, show b.demand = 0 from le_antisymm (not_lt.1 h0) hd]; ring
    · intro n b _ _
      show (0 : Rat) = (0 - 0) / b.x
      simp
    · intro ps hps n b hbn _ a ha
      have hidle := h.idle
      rw [hps] at hidle
      have := hidle b (List.mem_of_getElem? hbn) a ha
      show (a.1 + a.2 * 0) * b.r ≤ 0 ∧ (a.1 - a.2 * 0) * b.r ≤ 0
      constructor <;> linarith

/-- **C155.** So the call returns, and what it returns obeys the rules and is the cheapest such plan. -/
theorem C155_returned_partial {c : GnCase} (hw : GnWell c) (hi : gnInit c = .ok ()) (hb : GnBounds c) (h : GnRelaxed c)
    (hh : ∀ j, j < c.periods → 0 ≤ gnHours c j) : ∃ p lp, gnRun c = .ok (p, lp) ∧
    ∀ x, GReturned lp x → GnRules c (gnSol p x) ∧ ∀ s, GnRules c s → gnPlanCost c (gnSol p x) ≤ gnPlanCost c s := by
  obtain ⟨p, lp, hr⟩ := C154_runs_partial hw hi hb
  exact ⟨p, lp, hr, fun x hx => C151_cheapest_partial hr hw hh _ (C155_feasible_partial h hb hh) x hx⟩

/-- **C155 fails** with losses as a share of the demand: a bus that no branch and no unit reaches has no plan, although the relaxation is on,
because no more than the demand itself can be curtailed. -/
theorem C155_loss_violated {c : GnCase} {l : Rat} (hl : c.loss = some l) (h0 : 0 < l) {s : GnSol} {i j k n : Nat} {b : GnBus}
    (hb : c.buses[n]? = some b) (ht : b.type ≠ 4) (hd : 0 < b.demand) (hm : 0 < gnMult c b i j) (hg : gnHasGen c b = false)
    (hbr : ∀ q ∈ c.branches, q.fbus ≠ b.number ∧ q.tbus ≠ b.number) (hu : GnUnits c s i j) (hlim : GnLimits c s i j k) (hf : c.feas = true)
    (hnet : GnNet c s i j k) : False := by
  have w := hnet.balance n b hb ht
  unfold GnBalance at w
  rw [gnGenAt_none hg, if_pos hf] at w
  have e2 : gnNetFlow c s i j k b.number = 0 := by
    unfold gnNetFlow
    rw [sum_zero_of, sum_zero_of]
    · simp
    · intro q hq; rw [if_neg (hbr q.1 (mem_fst_zipIdx hq)).1]
    · intro q hq; rw [if_neg (hbr q.1 (mem_fst_zipIdx hq)).2]
  have e3 : gnLossAt c s i j k b.number = 0 := by
    unfold gnLossAt
    split
    · apply sum_zero_of
      intro q hq
      rw [if_neg (by rw [not_or]; exact hbr q.1 (mem_fst_zipIdx hq))]
    · unfold gnNonTech
      apply sum_zero_of
      intro q hq
      rw [if_neg (hbr q hq).1, if_neg (hbr q hq).2]; ring
  have e4 : 0 ≤ gnPumped c s i j := by
    unfold gnPumped
    apply sum_map_nonneg
    intro q hq
    split
    · exact (hu.pump q.2 q.1 (mem_zipIdx_iff'.1 hq)).1
    · exact le_refl _
  have e5 : gnDemand c b i j = b.demand * gnMult c b i j * (1 + l) := by unfold gnDemand; rw [hl]
  have e6 := ((hlim.lc hf n b hb).1 hd).2
  have e7 := (hlim.gc hf n b hb).2 hg
  rw [e2, e3, e5, e7] at w
  have := mul_pos (mul_pos hd hm) h0
  nlinarith

/-! ## C150: flows -/

/-- **C150.** In every plan that GLPK returns and in every state of the network, a branch in service with a rating carries the difference of
the angles of its ends over its reactance, within its rating in both directions, and a branch out of service carries nothing. -/
theorem C150_flows_partial {c : GnCase} {p : GProb} {lp : GLp} (hr : gnRun c = .ok (p, lp)) (ho : GnOut c) (x : Nat → Rat) (hx : GFeasible lp x)
    (i j k : Nat) (hi : i < c.insts) (hj : j < c.periods) (hk : k ≤ c.cont) (n : Nat) (b : GnBranch) (hb : c.branches[n]? = some b) :
    (b.on k = true → (gnSol p x).flow i j k n = ((gnSol p x).angle i j k b.fpos - (gnSol p x).angle i j k b.tpos) / b.x ∧
      (0 < b.rate → |(gnSol p x).flow i j k n| ≤ b.rate)) ∧
    (b.on k = false → (gnSol p x).flow i j k n = 0) := by
  have h := (C149_plans_partial hr ho x).1 hx
  have l := (h.limits i j k hi hj hk).flow n b hb
  refine ⟨fun hon => ⟨(h.net i j k hi hj hk).law n b hb hon, fun h0 => ?_⟩, fun hoff => l.2 (.inl hoff)⟩
  obtain ⟨h1, h2⟩ := l.1 hon h0
  exact abs_le.2 ⟨by linarith, h2⟩

/-- **C150 fails** for a branch without rating: 0 stands for no limit in the input data, but the branch carries nothing, and while it is in service
the angles of its ends are forced to be equal. -/
theorem C150_rate_violated {c : GnCase} {p : GProb} {lp : GLp} (hr : gnRun c = .ok (p, lp)) (ho : GnOut c) (x : Nat → Rat) (hx : GFeasible lp x)
    (i j k : Nat) (hi : i < c.insts) (hj : j < c.periods) (hk : k ≤ c.cont) (n : Nat) (b : GnBranch) (hb : c.branches[n]? = some b)
    (h0 : b.rate = 0) (hon : b.on k = true) : (gnSol p x).flow i j k n = 0 ∧ (gnSol p x).angle i j k b.fpos = (gnSol p x).angle i j k b.tpos := by
  have h := (C149_plans_partial hr ho x).1 hx
  have e := ((h.limits i j k hi hj hk).flow n b hb).2 (.inr (by rw [h0]))
  have l := (h.net i j k hi hj hk).law n b hb hon
  refine ⟨e, ?_⟩
  rw [e] at l
  obtain ⟨hopf, hin, _⟩ := gnRun_parts hr
  have hx0 : b.x ≠ 0 := by
    unfold gnInit at hin
    by_contra hx0
    have : ¬ ∀ b ∈ c.branches, b.x ≠ 0 := fun h => h b (List.mem_of_getElem? hb) hx0
    repeat' (split at hin; · simp at hin)
    rename_i hcond _
    exact hcond ⟨hopf, this⟩
  have := (div_eq_iff hx0).1 l.symm
  linarith

/-! ## C149: pumps -/

/-- **C149 fails** with pumps: as soon as there are two buses and something is pumped, units and curtailment cover more than
demand, losses and pumps. -/
theorem C149_pumps_violated {c : GnCase} {s : GnSol} {i j k : Nat} (h : GnNet c s i j k) (hs : GnSound c) (hn : 2 ≤ (gnLive c).length)
    (hp : 0 < gnPumped c s i j) :
    ((gnLive c).map (fun b => gnDemand c b.1 i j)).sum + gnLossTotal c s i j k + gnPumped c s i j <
    (c.conv.zipIdx.map (fun u => s.conv i j u.2)).sum + (c.res.zipIdx.map (fun u => s.res i j u.2)).sum +
      (c.hydro.zipIdx.map (fun u => s.hydro i j u.2)).sum +
      ((gnLive c).map (fun b => if c.feas = true then s.lc i j k b.2 - s.gc i j k b.2 else 0)).sum := by
  rw [C149_total_partial h hs]
  have : (2 : Rat) ≤ ((gnLive c).length : Rat) := by exact_mod_cast hn
  nlinarith

end Pyensys
