import Verif.Model.SavedPyomo
import Verif.Props.SavedResults
import Verif.Props.Coupled
import Verif.Props.UserData

/-!
# Results saved and accumulated after runs with Pyomo (C195–C197), and printed losses (C198)
-/

namespace Pyensys

/-! ## C195: saved rows -/

/-- a solved model whose results can be saved: weights for periods and instances, load types 0 or 1, generators in three classes, curtailment variables as `feaLoop` numbers them; `D` are the demands (per unit) and `M` the limits of the renewable units -/
structure SpSound (x : ApiData) (noRES : Nat) (D M : Nat → Nat → Nat → Rat) : Prop where
  weights : x.weights.length = x.noTime
  ofaux : x.ofaux.length = x.noInst
  types : LoadTypesOk x
  classes : x.conv + x.hydro + noRES = x.sizes.noGen
  demand : ∀ n h t, n < x.noBus → h < x.noInst → t < x.noTime → busDemand x (n : Int) h t = .ok (D n h t)
  limit : ∀ r h t, r < noRES → h < x.noInst → t < x.noTime → resLimit x.resLinks x.resProfiles x.resMax x.noTime noRES r t h = .ok (M r h t)
  fea : x.feasibility = true → x.llFea = (feaLoop x.pd 0).1 ∧ x.pd.length = x.noBus ∧ x.sizes.noFea = x.pd.countP (fun p => decide (0 < p))

/-- the values (per unit) of a plan in instance `h` and period `t`: totals of the conventional, hydro and renewable units, of what renewables could produce and do not, of demand, pumps and curtailment -/
structure SpCell where
  conv : Rat
  hydro : Rat
  res : Rat
  spill : Rat
  demand : Rat
  pump : Rat
  curt : Rat

/-- the totals of a plan; units are numbered conventional, hydro, renewable; pump 0 is not a pump -/
def spCell (x : ApiData) (v : ApiVals) (noRES : Nat) (D M : Nat → Nat → Nat → Rat) (h t : Nat) : SpCell :=
  ⟨upTo x.conv (fun i => v.gen (h * x.sizes.noGen + i) t),
   upTo x.hydro (fun i => v.gen (h * x.sizes.noGen + (x.conv + i)) t),
   upTo noRES (fun i => v.gen (h * x.sizes.noGen + (x.conv + x.hydro + i)) t),
   upTo noRES (fun i => M i h t - v.gen (h * x.sizes.noGen + (x.conv + x.hydro + i)) t),
   upTo x.noBus (fun n => D n h t),
   upTo x.sizes.noPump (fun k => v.pump (h * (x.sizes.noPump + 1) + (k + 1)) t),
   if x.feasibility = true then upTo x.sizes.noFea (fun k => v.fea (h * x.sizes.noFea + k) t) else 0⟩

/-- the row of period `t`: base power times the totals -/
def spExpected (base : Rat) (t : Nat) (c : SpCell) : SpRow :=
  ⟨t, base * c.conv, base * c.hydro, base * c.res, base * c.spill, base * c.demand, base * c.pump, 0, base * c.curt⟩

theorem range'_upTo (s n : Nat) (f : Nat → Rat) : ((List.range' s n).map f).sum = upTo n (fun i => f (s + i)) := by
  unfold upTo
  rw [List.range'_eq_map_range, List.map_map]
  rfl

/-- the reports of a choice of periods and instances -/
structure SpReports (x : ApiData) (v : ApiVals) (a : ResultArgs) (noRES : Nat) (C : Nat → Nat → SpCell) : Prop where
  conv : getAllGeneration x v a .conv = .ok (x.total a (fun h t => (C h t).conv))
  hydro : getAllGeneration x v a .hydro = .ok (x.total a (fun h t => (C h t).hydro))
  res : getAllGeneration x v a .res = .ok (x.total a (fun h t => (C h t).res))
  spill : getAllRES x v a noRES = .ok (x.total a (fun h t => (C h t).spill))
  demand : ∃ d, getAllDemand x a = .ok d ∧ d.1 = x.total a (fun h t => (C h t).demand)
  pump : getAllPumps x v a = .ok (x.total a (fun h t => (C h t).pump))
  curt : ∃ d, getAllCurtailment x v a = .ok d ∧ d.1 = x.total a (fun h t => (C h t).curt)

theorem spReports {x : ApiData} {noRES : Nat} {D M : Nat → Nat → Nat → Rat} (hs : SpSound x noRES D M) (v : ApiVals) (a : ResultArgs)
    (ht : ∀ t ∈ x.timesOf a, t < x.noTime) (hh : ∀ h ∈ x.scensOf a, h < x.noInst) : SpReports x v a noRES (spCell x v noRES D M) := by
  have ha : ArgsOk x a := ⟨hs.weights, hs.ofaux, ht, hh⟩
  have hc := hs.classes
  obtain ⟨g, _⟩ := C116_all_generation x v a ha (by omega)
  refine ⟨?_, ?_, ?_, ?_, ?_, ?_, ?_⟩
  · rw [g .conv]; rfl
  · rw [g .hydro]
    simp only [genPositions, range'_upTo, spCell]
  · rw [g .res]
    simp only [genPositions, range'_upTo, spCell]
    rw [show x.sizes.noGen - (x.conv + x.hydro) = noRES by omega]
  · unfold getAllRES
    rw [addTo_fold _ (fun i => x.total a (fun h t => M i h t - v.gen (h * x.sizes.noGen + (x.conv + x.hydro + i)) t)) _ 0 (by
      intro i hi
      rw [List.mem_range] at hi
      exact (C116_spill x v a ha noRES i (by omega) (M i) (fun h h1 t h2 => hs.limit i h t hi (hh h h1) (ht t h2))).1), zero_add, total_sum]
    rfl
  · obtain ⟨r, h1, h2, _⟩ := C116_demand x a ha hs.types D (fun n hn h h1 t h2 => hs.demand n h t hn (hh h h1) (ht t h2))
    exact ⟨r, h1, h2⟩
  · rw [C116_pumps x v a ha]; rfl
  · by_cases hf : x.feasibility = true
    · obtain ⟨f1, f2, f3⟩ := hs.fea hf
      obtain ⟨r, h1, _, h2⟩ := C116_curtailment x v a ha hs.types hf f1 f2 f3
      refine ⟨r, h1, ?_⟩
      rw [h2]
      simp only [spCell, if_pos hf]
      rfl
    · refine ⟨(0, 0, 0), ?_, ?_⟩
      · unfold getAllCurtailment
        rw [if_neg hf]
      · simp only [spCell, if_neg hf]
        exact (total_zero x a).symm

theorem total_single (x : ApiData) (g : Nat → Nat → Rat) (h t : Nat) : x.total ⟨some [t], some [h], true⟩ g = x.base * g h t := by
  simp [ApiData.total, ApiData.scensOf, ApiData.timesOf, ApiData.scenWeight, ApiData.timeWeight, mul_comm]

theorem spRow_ok {x : ApiData} {noRES : Nat} {D M : Nat → Nat → Nat → Rat} (hs : SpSound x noRES D M) (hl : x.losses = false ∨ x.sizes.branches = 0) (v : ApiVals) {h t : Nat}
    (hh : h < x.noInst) (ht : t < x.noTime) : spRow x v noRES h t = .ok (spExpected x.base t (spCell x v noRES D M h t)) := by
  have hr := spReports hs v ⟨some [t], some [h], true⟩ (by intro t' h1; simp [ApiData.timesOf] at h1; omega) (by intro t' h1; simp [ApiData.scensOf] at h1; omega)
  obtain ⟨d, d1, d2⟩ := hr.demand
  obtain ⟨c, c1, c2⟩ := hr.curt
  have e : getAllLoss x = .ok 0 := by
    unfold getAllLoss
    rcases hl with hl | hl
    · rw [if_neg (by simp [hl])]
    · rw [hl]; split <;> rfl
  unfold spRow
  simp only [hr.conv, hr.hydro, hr.res, hr.spill, hr.pump, d1, c1, e, bind, Except.bind, d2, c2, total_single]
  rfl

/-- the entry of a column at a scenario and a period -/
def spAt (t : List (List SpRow)) (f : SpRow → Rat) (h k : Nat) : Rat := ((((t[h]?).bind (fun (l : List SpRow) => l[k]?)).map f)).getD 0

/-- the sum of a column with the weights of scenarios and periods -/
def spWeighted (x : ApiData) (t : List (List SpRow)) (f : SpRow → Rat) : Rat :=
  upTo x.noInst (fun h => x.ofaux.getD h 0 * upTo x.noTime (fun k => x.weights.getD k 0 * spAt t f h k))

/-- **C195.** After a run the saved tables have a row for every scenario and period, with base power times the totals of the plan in that scenario and period. -/
theorem C195_rows_partial {x : ApiData} {noRES : Nat} {D M : Nat → Nat → Nat → Rat} (hs : SpSound x noRES D M) (hl : x.losses = false ∨ x.sizes.branches = 0) (v : ApiVals) :
    ∃ t, spTables x v noRES = .ok t ∧ t.length = x.noInst ∧ ∀ h l, t[h]? = some l → l.length = x.noTime ∧
      ∀ k r, l[k]? = some r → r = spExpected x.base k (spCell x v noRES D M h k) := by
  have key : ∀ h, h < x.noInst → (List.range x.noTime).mapM (spRow x v noRES h) = .ok ((List.range x.noTime).map (fun k => spExpected x.base k (spCell x v noRES D M h k))) :=
    fun h hh => mapM_range_ok _ _ _ (fun k hk => spRow_ok hs hl v hh hk)
  refine ⟨_, mapM_range_ok _ _ _ (fun h hh => key h hh), by simp, ?_⟩
  intro h l hl'
  rw [List.getElem?_map, Option.map_eq_some_iff] at hl'
  obtain ⟨h', h1, rfl⟩ := hl'
  obtain ⟨_, h2⟩ := List.getElem?_eq_some_iff.1 h1
  rw [List.getElem_range] at h2
  subst h2
  refine ⟨by simp, ?_⟩
  intro k r hr
  rw [List.getElem?_map, Option.map_eq_some_iff] at hr
  obtain ⟨k', h1, rfl⟩ := hr
  obtain ⟨_, h2⟩ := List.getElem?_eq_some_iff.1 h1
  rw [List.getElem_range] at h2
  subst h2
  rfl

theorem upTo_mulL (n : Nat) (b : Rat) (f : Nat → Rat) : upTo n (fun e => b * f e) = b * upTo n f := by
  unfold upTo
  induction List.range n with
  | nil => simp
  | cons a l ih => simp only [List.map_cons, List.sum_cons, ih]; ring

theorem spWeighted_total {x : ApiData} {t : List (List SpRow)} {f : SpRow → Rat} {g : Nat → Nat → Rat}
    (h : ∀ i k, i < x.noInst → k < x.noTime → spAt t f i k = x.base * g i k) : spWeighted x t f = x.total {} g := by
  unfold spWeighted ApiData.total
  simp only [ApiData.scensOf, ApiData.timesOf, ApiData.scenWeight, ApiData.timeWeight, Option.getD_none, Bool.false_eq_true, if_false]
  have e : upTo x.noInst (fun h => x.ofaux.getD h 0 * upTo x.noTime (fun k => x.weights.getD k 0 * spAt t f h k)) =
      upTo x.noInst (fun h => x.base * (x.ofaux.getD h 0 * upTo x.noTime (fun k => x.weights.getD k 0 * g h k))) := by
    refine upTo_congr (fun i hi => ?_)
    have : upTo x.noTime (fun k => x.weights.getD k 0 * spAt t f i k) = upTo x.noTime (fun k => x.base * (x.weights.getD k 0 * g i k)) :=
      upTo_congr (fun k hk => by rw [h i k hi hk]; ring)
    rw [this, upTo_mulL]
    ring
  rw [e, upTo_mulL, mul_comm]
  rfl

/-- **C195.** The reports of the whole horizon are the sums of the columns of the saved tables with the weights of periods and scenarios. -/
theorem C195_totals_partial {x : ApiData} {noRES : Nat} {D M : Nat → Nat → Nat → Rat} (hs : SpSound x noRES D M) (v : ApiVals) {t : List (List SpRow)}
    (ht : spTables x v noRES = .ok t) :
    getAllGeneration x v {} .conv = .ok (spWeighted x t (·.generation)) ∧ getAllGeneration x v {} .hydro = .ok (spWeighted x t (·.hydropower)) ∧
    getAllGeneration x v {} .res = .ok (spWeighted x t (·.res)) ∧ getAllRES x v {} noRES = .ok (spWeighted x t (·.spill)) ∧
    (getAllDemand x {}).map (·.1) = .ok (spWeighted x t (·.demand)) ∧ getAllPumps x v {} = .ok (spWeighted x t (·.pump)) ∧
    (getAllCurtailment x v {}).map (·.1) = .ok (spWeighted x t (·.curtailment)) := by
  have hr := spReports hs v {} (by intro t h1; simpa [ApiData.timesOf] using h1) (by intro t h1; simpa [ApiData.scensOf] using h1)
  have hx : ∀ i k, i < x.noInst → k < x.noTime → ∃ l r, t[i]? = some l ∧ l[k]? = some r ∧ r = spExpected x.base k (spCell x v noRES D M i k) := by
    intro i k hi hk
    unfold spTables at ht
    rw [mapM_range_iff] at ht
    obtain ⟨l, h1, h2⟩ := ht.2 i hi
    rw [mapM_range_iff] at h2
    obtain ⟨r, h3, h4⟩ := h2.2 k hk
    refine ⟨l, r, h1, h3, ?_⟩
    by_cases hl : x.losses = false ∨ x.sizes.branches = 0
    · rw [spRow_ok hs hl v hi hk, Except.ok.injEq] at h4
      exact h4.symm
    · push Not at hl
      have e : getAllLoss x = .error .runtime := by
        unfold getAllLoss
        rw [if_pos (by simpa using hl.1)]
        obtain ⟨m, hm⟩ : ∃ m, x.sizes.branches = m + 1 := ⟨x.sizes.branches - 1, by omega⟩
        rw [hm, List.range_succ_eq_map, List.foldlM_cons]
        rfl
      have hr' := spReports hs v ⟨some [k], some [i], true⟩ (by intro t' h1; simp [ApiData.timesOf] at h1; omega) (by intro t' h1; simp [ApiData.scensOf] at h1; omega)
      obtain ⟨d, d1, d2⟩ := hr'.demand
      unfold spRow at h4
      simp only [hr'.conv, hr'.hydro, hr'.res, hr'.spill, hr'.pump, d1, e, bind, Except.bind] at h4
      exact absurd h4 (by simp)
  have at' : ∀ (f : SpRow → Rat) (g : SpCell → Rat), (∀ k c, f (spExpected x.base k c) = x.base * g c) →
      spWeighted x t f = x.total {} (fun h k => g (spCell x v noRES D M h k)) := by
    intro f g hfg
    refine spWeighted_total (fun i k hi hk => ?_)
    obtain ⟨l, r, h1, h2, h3⟩ := hx i k hi hk
    unfold spAt
    simp only [h1, Option.bind_some, h2, Option.map_some, Option.getD_some, h3, hfg]
  obtain ⟨d, d1, d2⟩ := hr.demand
  obtain ⟨c, c1, c2⟩ := hr.curt
  refine ⟨?_, ?_, ?_, ?_, ?_, ?_, ?_⟩
  · rw [hr.conv, at' (·.generation) (·.conv) (fun _ _ => rfl)]
  · rw [hr.hydro, at' (·.hydropower) (·.hydro) (fun _ _ => rfl)]
  · rw [hr.res, at' (·.res) (·.res) (fun _ _ => rfl)]
  · rw [hr.spill, at' (·.spill) (·.spill) (fun _ _ => rfl)]
  · rw [d1, at' (·.demand) (·.demand) (fun _ _ => rfl), ← d2]; rfl
  · rw [hr.pump, at' (·.pump) (·.pump) (fun _ _ => rfl)]
  · rw [c1, at' (·.curtailment) (·.curt) (fun _ _ => rfl), ← c2]; rfl

/-- **C195 fails** with losses: saving a run of a network with losses ends the program, with nothing in the tables. -/
theorem C195_losses_violated {x : ApiData} {noRES : Nat} {D M : Nat → Nat → Nat → Rat} (hs : SpSound x noRES D M) (hl : x.losses = true) (hb : 0 < x.sizes.branches)
    (hn : 0 < x.noInst ∧ 0 < x.noTime) (v : ApiVals) : spTables x v noRES = .error .runtime := by
  unfold spTables
  refine mapM_range_error _ _ _ hn.1 (mapM_range_error _ _ _ hn.2 ?_)
  have e : getAllLoss x = .error .runtime := by
    unfold getAllLoss
    rw [if_pos hl]
    obtain ⟨m, hm⟩ : ∃ m, x.sizes.branches = m + 1 := ⟨x.sizes.branches - 1, by omega⟩
    rw [hm, List.range_succ_eq_map, List.foldlM_cons]
    rfl
  have hr' := spReports hs v ⟨some [0], some [0], true⟩ (by intro t' h1; simp [ApiData.timesOf] at h1; omega) (by intro t' h1; simp [ApiData.scensOf] at h1; omega)
  obtain ⟨d, d1, d2⟩ := hr'.demand
  unfold spRow
  simp only [hr'.conv, hr'.hydro, hr'.res, hr'.spill, hr'.pump, d1, e, bind, Except.bind]

/-! ## C196: accumulated results -/

/-- the five parts of the cost of a run: conventional, renewable and hydro generation, pumps (a benefit), curtailment -/
def spPart (r : SpRun) (k : Nat) : Rat := spParts r.x r.value r.penalty r.plan (fun i => i == k)

/-- the cost of unit `g` over the horizon: each scenario counts with its weight -/
def spUnit (r : SpRun) (g : Nat) : Rat := upTo r.x.noInst (fun h => upTo r.x.noTime (fun t => r.plan.cost h g t) * r.x.ofaux.getD h 0)

/-- **C196.** The five parts are the costs of the conventional, the renewable and the hydro units, minus the value of what the pumps use, and the penalty of the curtailment. -/
theorem C196_parts_partial (r : SpRun) (hc : r.x.conv + r.x.hydro + r.noRES = r.x.sizes.noGen) :
    spPart r 0 = upTo r.x.conv (spUnit r) ∧ spPart r 1 = upTo r.noRES (fun i => spUnit r (r.x.conv + r.x.hydro + i)) ∧ spPart r 2 = upTo r.x.hydro (fun i => spUnit r (r.x.conv + i)) ∧
    spPart r 3 = - upTo r.x.noInst (fun h => upTo r.x.sizes.noPump (fun k => r.value k * r.x.base * upTo r.x.noTime (fun t => r.plan.pump h (k + 1) t)) * r.x.ofaux.getD h 0) ∧
    spPart r 4 = upTo r.x.noInst (fun h => upTo r.x.noTime (fun t => upTo r.x.sizes.noFea (fun k => r.plan.fea h k t) * r.penalty) * r.x.ofaux.getD h 0) := by
  refine ⟨?_, ?_, ?_, ?_, ?_⟩ <;> unfold spPart spParts <;> simp only [show ((0 : Nat) == 1) = false from rfl, show ((0 : Nat) == 2) = false from rfl, show ((0 : Nat) == 3) = false from rfl, show ((0 : Nat) == 4) = false from rfl,
    show ((1 : Nat) == 0) = false from rfl, show ((1 : Nat) == 2) = false from rfl, show ((1 : Nat) == 3) = false from rfl, show ((1 : Nat) == 4) = false from rfl,
    show ((2 : Nat) == 0) = false from rfl, show ((2 : Nat) == 1) = false from rfl, show ((2 : Nat) == 3) = false from rfl, show ((2 : Nat) == 4) = false from rfl,
    show ((3 : Nat) == 0) = false from rfl, show ((3 : Nat) == 1) = false from rfl, show ((3 : Nat) == 2) = false from rfl, show ((3 : Nat) == 4) = false from rfl,
    show ((4 : Nat) == 0) = false from rfl, show ((4 : Nat) == 1) = false from rfl, show ((4 : Nat) == 2) = false from rfl, show ((4 : Nat) == 3) = false from rfl,
    beq_self_eq_true, if_true, Bool.false_eq_true, if_false, add_zero, zero_add, sub_zero, zero_sub]
  · rfl
  · unfold spCosts
    simp only [genPositions, range'_upTo]
    rw [show r.x.sizes.noGen - (r.x.conv + r.x.hydro) = r.noRES by omega]
    rfl
  · unfold spCosts
    simp only [genPositions, range'_upTo]
    rfl
  · rfl
  · rfl

theorem spParts_sum (r : SpRun) : spParts r.x r.value r.penalty r.plan (fun _ => true) = upTo 5 (spPart r) := by
  show _ = spPart r 0 + (spPart r 1 + (spPart r 2 + (spPart r 3 + (spPart r 4 + 0))))
  simp only [spPart, spParts]
  simp only [show ((0 : Nat) == 1) = false from rfl, show ((0 : Nat) == 2) = false from rfl, show ((0 : Nat) == 3) = false from rfl, show ((0 : Nat) == 4) = false from rfl,
    show ((1 : Nat) == 0) = false from rfl, show ((1 : Nat) == 2) = false from rfl, show ((1 : Nat) == 3) = false from rfl, show ((1 : Nat) == 4) = false from rfl,
    show ((2 : Nat) == 0) = false from rfl, show ((2 : Nat) == 1) = false from rfl, show ((2 : Nat) == 3) = false from rfl, show ((2 : Nat) == 4) = false from rfl,
    show ((3 : Nat) == 0) = false from rfl, show ((3 : Nat) == 1) = false from rfl, show ((3 : Nat) == 2) = false from rfl, show ((3 : Nat) == 4) = false from rfl,
    show ((4 : Nat) == 0) = false from rfl, show ((4 : Nat) == 1) = false from rfl, show ((4 : Nat) == 2) = false from rfl, show ((4 : Nat) == 3) = false from rfl,
    beq_self_eq_true, if_true, Bool.false_eq_true, if_false]
  ring

theorem sumRange_split (a b c : Nat) (f : Nat → Rat) : ((List.range (a + b + c)).map f).sum =
    upTo a f + upTo b (fun i => f (a + i)) + upTo c (fun i => f (a + b + i)) := by
  have e : List.range (a + b + c) = List.range a ++ List.range' a b ++ List.range' (a + b) c := by
    rw [List.range_eq_range', List.range_eq_range', List.append_assoc]
    have h2 := List.range'_append_1 (s := a) (m := b) (n := c)
    rw [h2]
    have h3 := List.range'_append_1 (s := 0) (m := a) (n := b + c)
    rw [Nat.zero_add] at h3
    rw [h3]
    congr 1
    omega
  rw [e, List.map_append, List.map_append, List.sum_append, List.sum_append, range'_upTo, range'_upTo]
  rfl

/-- **C196.** With all the parts the objective is that of `get_OFparts` (C118): the objective of the run if the periods have weight 1. -/
theorem C196_objective_partial (r : SpRun) (hc : r.x.conv + r.x.hydro + r.noRES = r.x.sizes.noGen) (w : Nat → Rat) (hw : ∀ t < r.x.noTime, w t = 1) :
    upTo 5 (spPart r) = ofRule r.x.sizes.noGen r.x.sizes.noFea r.x.sizes.noPump r.x.noTime r.x.noInst w (fun h => r.x.ofaux.getD h 0) r.value r.x.base r.penalty
      r.plan.cost r.plan.fea r.plan.pump := by
  rw [← C118_unweighted_partial _ _ _ _ _ w _ _ _ _ _ _ _ hw, ← spParts_sum]
  unfold spParts ofParts
  simp only [if_true]
  congr 2
  rw [← hc, sumRange_split]
  unfold spCosts
  simp only [genPositions, range'_upTo]
  rw [show r.x.sizes.noGen - (r.x.conv + r.x.hydro) = r.noRES by omega]
  show upTo _ _ + _ + _ = _
  ring

theorem spAddCost_ok (r : SpRun) (f : Nat → Rat) (k : Nat) (hk : k < 5) : spAddCost r ((List.range 5).map f) k =
    .ok ((List.range 5).map (fun i => f i + if i = k then spPart r k else 0)) := by
  unfold spAddCost spPart
  generalize spParts r.x r.value r.penalty r.plan (fun i => i == k) = q
  have : k = 0 ∨ k = 1 ∨ k = 2 ∨ k = 3 ∨ k = 4 := by omega
  rcases this with rfl | rfl | rfl | rfl | rfl <;>
    simp [List.range, List.range.loop, npGet, npSet, bind, Except.bind, List.set]

/-- the accumulated data of a list of runs: what they should be -/
structure SpSum (runs : List SpRun) (curt spill : SpRun → Rat) (d : SpData) : Prop where
  cost : d.cost = (List.range 5).map (fun k => (runs.map (fun r => spPart r k)).sum)
  curtailment : d.curtailment = (runs.map curt).sum
  spill : d.spill = (runs.map spill).sum
  total : d.total = (runs.map (fun r => upTo 5 (spPart r))).sum

theorem spCosts_fold (r : SpRun) (f : Nat → Rat) : (List.range 5).foldlM (spAddCost r) ((List.range 5).map f) = .ok ((List.range 5).map (fun i => f i + spPart r i)) := by
  have key : ∀ n, n ≤ 5 → (List.range n).foldlM (spAddCost r) ((List.range 5).map f) = .ok ((List.range 5).map (fun i => f i + if i < n then spPart r i else 0)) := by
    intro n
    induction n with
    | zero => intro _; simp [pure, Except.pure]
    | succ n ih =>
      intro hn
      rw [List.range_succ (n := n), List.foldlM_append, ih (by omega)]
      show [n].foldlM (spAddCost r) _ = _
      rw [List.foldlM_cons, spAddCost_ok r _ n (by omega)]
      show Except.ok _ = _
      congr 1
      apply List.map_congr_left
      intro i _
      by_cases h1 : i = n
      · subst h1; simp
      · by_cases h2 : i < n
        · simp [h1, h2, show i < n + 1 by omega]
        · simp [h1, h2, show ¬ i < n + 1 by omega]
  rw [key 5 (le_refl _)]
  congr 1

/-- **C196.** After any history of saved runs, the accumulated parts of the cost, the total, the curtailment and the spill are the sums over the runs of what the runs report; the total is the sum of the parts. -/
theorem C196_history_partial (runs : List SpRun) (curt spill : SpRun → Rat) (hc : ∀ r ∈ runs, ∃ c, getAllCurtailment r.x r.v {} = .ok c ∧ c.1 = curt r)
    (hs : ∀ r ∈ runs, getAllRES r.x r.v {} r.noRES = .ok (spill r)) :
    ∃ d, runs.foldlM (spAccumulate true) {} = .ok d ∧ SpSum runs curt spill d ∧ d.total = d.cost.sum := by
  have key : ∀ (rest done : List SpRun) (d : SpData), (∀ r ∈ rest, r ∈ runs) → SpSum done curt spill d →
      ∃ d', rest.foldlM (spAccumulate true) d = .ok d' ∧ SpSum (done ++ rest) curt spill d' := by
    intro rest
    induction rest with
    | nil => intro done d _ h; exact ⟨d, rfl, by rwa [List.append_nil]⟩
    | cons r rest ih =>
      intro done d hm h
      obtain ⟨c, c1, c2⟩ := hc r (hm r (by simp))
      have hsp := hs r (hm r (by simp))
      have e : spAccumulate true d r = .ok ⟨(List.range 5).map (fun k => (done.map (fun r => spPart r k)).sum + spPart r k), d.curtailment + c.1, d.spill + spill r,
          d.total + upTo 5 (spPart r)⟩ := by
        unfold spAccumulate
        rw [if_neg (by simp), h.cost, spCosts_fold, ← spParts_sum]
        simp only [bind, Except.bind, c1, hsp]
      rw [List.foldlM_cons, e]
      have h2 : SpSum (done ++ [r]) curt spill ⟨(List.range 5).map (fun k => (done.map (fun r => spPart r k)).sum + spPart r k), d.curtailment + c.1, d.spill + spill r,
          d.total + upTo 5 (spPart r)⟩ := by
        constructor
        · simp
        · simp [h.curtailment, c2]
        · simp [h.spill]
        · simp [h.total]
      obtain ⟨d', h3, h4⟩ := ih _ _ (fun r hr => hm r (by simp [hr])) h2
      exact ⟨d', h3, by rwa [List.append_assoc] at h4⟩
  obtain ⟨d, h1, h2⟩ := key runs [] {} (fun _ h => h) ⟨by simp [List.range, List.range.loop], by simp, by simp, by simp⟩
  rw [List.nil_append] at h2
  refine ⟨d, h1, h2, ?_⟩
  rw [h2.total, h2.cost]
  show _ = upTo 5 _
  clear h1 h2 d key hc hs
  induction runs with
  | nil => simp [upTo_const]
  | cons r runs ih =>
    simp only [List.map_cons, List.sum_cons]
    rw [upTo_add, ih]

/-- **C196.** For sound runs whose tables are saved, the accumulated curtailment and spill are the sums of the columns of all saved tables, with the weights of periods and scenarios. -/
theorem C196_tables_partial (runs : List SpRun) (hs : ∀ r ∈ runs, ∃ D M, SpSound r.x r.noRES D M) (T : SpRun → List (List SpRow)) (hT : ∀ r ∈ runs, spTables r.x r.v r.noRES = .ok (T r)) :
    ∃ d, runs.foldlM (spAccumulate true) {} = .ok d ∧ SpSum runs (fun r => spWeighted r.x (T r) (·.curtailment)) (fun r => spWeighted r.x (T r) (·.spill)) d ∧ d.total = d.cost.sum := by
  refine C196_history_partial runs _ _ ?_ ?_
  · intro r hr
    obtain ⟨D, M, h⟩ := hs r hr
    have := (C195_totals_partial h r.v (hT r hr)).2.2.2.2.2.2
    cases hc : getAllCurtailment r.x r.v {} with
    | error e => rw [hc] at this; exact absurd this (by simp [Except.map])
    | ok c =>
      rw [hc] at this
      refine ⟨c, rfl, ?_⟩
      simpa [Except.map] using this
  · intro r hr
    obtain ⟨D, M, h⟩ := hs r hr
    exact (C195_totals_partial h r.v (hT r hr)).2.2.2.1

/-- **C196.** The accumulated data are what the summary saves; without `Directory2` nothing is accumulated, and without `Directory1` nothing is saved. -/
theorem C196_summary_partial (runs : List SpRun) (d : SpData) : runs.foldlM (spAccumulate false) d = .ok d ∧ spSummary true true d = .ok (some d) ∧
    ∀ dir2, spSummary false dir2 d = .ok none := by
  refine ⟨?_, rfl, fun _ => rfl⟩
  induction runs with
  | nil => rfl
  | cons r runs ih => rw [List.foldlM_cons]; exact ih

/-- **C196 fails** if results are wanted in the main folder only: the summary raises TypeError after all the runs. -/
theorem C196_summary_violated (d : SpData) : spSummary true false d = .error .type := rfl

/-- **C196.** Saving: what is accumulated does not depend on whether tables are saved, and the tables do not depend on what was accumulated. -/
theorem C196_save_partial {d1 d2 : SpData} {r : SpRun} {dir2 : Bool} {o : SpData × Option (List (List SpRow))} (h : spSave true dir2 d1 r = .ok o) :
    (∃ t, o.2 = some t ∧ spTables r.x r.v r.noRES = .ok t) ∧ spAccumulate dir2 d1 r = .ok o.1 ∧ spSave false dir2 d1 r = .ok (o.1, none) ∧
    ∀ o2, spSave true dir2 d2 r = .ok o2 → o2.2 = o.2 := by
  have key : ∀ d (o : SpData × Option (List (List SpRow))), spSave true dir2 d r = .ok o → ∃ t, spAccumulate dir2 d r = .ok o.1 ∧ spTables r.x r.v r.noRES = .ok t ∧ o.2 = some t := by
    intro d o h
    unfold spSave at h
    rw [except_bind_ok] at h
    obtain ⟨d', h1, h2⟩ := h
    rw [if_neg (by simp), except_bind_ok] at h2
    obtain ⟨t, h2, h3⟩ := h2
    rw [Except.ok.injEq] at h3
    subst h3
    exact ⟨t, h1, h2, rfl⟩
  obtain ⟨t, h1, h2, h3⟩ := key _ _ h
  refine ⟨⟨t, h3, h2⟩, h1, ?_, ?_⟩
  · unfold spSave
    rw [h1]
    rfl
  · intro o2 ho
    obtain ⟨t2, _, g2, g3⟩ := key _ _ ho
    rw [h2, Except.ok.injEq] at g2
    rw [g3, h3, g2]

/-! ## C197: marginal value of water -/

/-- **C197 (partial).** The reported marginal value of water is the (negative) dual value of the water balance up to less than one unit, on the side of zero; whole dual values are reported exactly, missing ones as 0. -/
theorem C197_marginal_partial : (∀ q : Rat, |(hydroMarginal (some q) : Rat) + q| < 1 ∧ |(hydroMarginal (some q) : Rat)| ≤ |q|) ∧
    (∀ n : Int, hydroMarginal (some n) = - n) ∧ hydroMarginal none = 0 := by
  refine ⟨fun q => ?_, fun n => ?_, rfl⟩
  · unfold hydroMarginal pyTruncQ
    by_cases h : q < 0
    · simp only [if_pos h]
      have h1 := Int.le_ceil q
      have h2 := Int.ceil_lt_add_one q
      have h3 : (⌈q⌉ : Rat) ≤ 0 := by exact_mod_cast (Int.ceil_le.2 (by push_cast; exact h.le) : ⌈q⌉ ≤ 0)
      push_cast
      rw [abs_of_nonpos h.le]
      refine ⟨?_, ?_⟩
      · rw [abs_lt]; constructor <;> linarith
      · rw [abs_of_nonneg (by linarith)]; linarith
    · simp only [if_neg h]
      have h1 := Int.floor_le q
      have h2 := Int.lt_floor_add_one q
      have h3 : (0 : Rat) ≤ ⌊q⌋ := by exact_mod_cast Int.floor_nonneg.2 (not_lt.1 h)
      push_cast
      rw [abs_of_nonneg (not_lt.1 h)]
      refine ⟨?_, ?_⟩
      · rw [abs_lt]; constructor <;> linarith
      · rw [abs_of_nonpos (by linarith)]; linarith
  · unfold hydroMarginal pyTruncQ
    simp

/-- **C197 fails** for small values: a marginal value below one unit of money is reported as 0. -/
theorem C197_small_violated (q : Rat) (h : |q| < 1) : hydroMarginal (some q) = 0 := by
  have := (C197_marginal_partial.1 q).2
  have h2 : |(hydroMarginal (some q) : Rat)| < 1 := lt_of_le_of_lt this h
  have h3 : |hydroMarginal (some q)| < 1 := by exact_mod_cast h2
  exact Int.abs_lt_one_iff.1 h3

/-! ## C198: printed losses -/

theorem foldl_addR (l : List Rat) (a : Rat) : l.foldl (fun s g => s + g) a = a + l.sum := by
  induction l generalizing a with
  | nil => simp
  | cons x l ih => rw [List.foldl_cons, ih, List.sum_cons]; ring

theorem foldl_subR (l : List Rat) (a : Rat) : l.foldl (fun s g => s - g) a = a - l.sum := by
  induction l generalizing a with
  | nil => simp
  | cons x l ih => rw [List.foldl_cons, ih, List.sum_cons]; ring

theorem foldl_zip (w : Nat → Rat) (d : List Rat) (e : List (Nat × Nat)) (h : d.length = e.length) (a : Rat) :
    (d.zip e).foldl (fun s q => s - q.1 + w q.2.2) a = a - d.sum + (e.map (fun q => w q.2)).sum := by
  induction d generalizing e a with
  | nil => cases e with
    | nil => simp
    | cons _ _ => simp at h
  | cons x d ih =>
    cases e with
    | nil => simp at h
    | cons y e =>
      rw [List.zip_cons_cons, List.foldl_cons, ih e (by simpa using h)]
      simp only [List.sum_cons, List.map_cons]
      ring

theorem feaLoop_second (w : Nat → Rat) : ∀ (pd : List Rat) (n : Nat), ((feaLoop pd n).1.map (fun q => w q.2)).sum =
    upTo (pd.countP (fun p => decide (0 < p))) (fun k => w (n + k)) + pd.countP (fun p => decide (p ≤ 0)) * w 0 := by
  intro pd
  induction pd with
  | nil => intro n; simp [feaLoop, upTo]
  | cons x pd ih =>
    intro n
    unfold feaLoop
    by_cases h : x > 0
    · have h' : decide (0 < x) = true := by simpa using h
      have h'' : decide (x ≤ 0) = false := by simpa using h
      simp only [if_pos h, List.map_cons, List.sum_cons, ih, List.countP_cons, h', if_true, h'', Bool.false_eq_true, if_false, add_zero]
      unfold upTo
      rw [List.range_succ_eq_map, List.map_cons, List.sum_cons, List.map_map, ← add_assoc]
      congr 2
      congr 1
      apply List.map_congr_left
      intro k _
      simp only [Function.comp]
      congr 1
      omega
    · have h' : decide (0 < x) = false := by simpa using h
      have h'' : decide (x ≤ 0) = true := by simpa using h
      simp only [if_neg h, List.map_cons, List.sum_cons, ih, List.countP_cons, h', if_true, h'', Bool.false_eq_true, if_false, add_zero]
      push_cast
      ring

/-- what the branches lose in a period: all that is generated and not given to the demand, without the losses given as data -/
def plTrue (c : PlCase) : Rat := c.gens.sum + upTo (c.pd.countP (fun p => decide (0 < p))) c.curt - c.demand.sum

theorem plFullLoss_eq (c : PlCase) (hd : c.demand.length = c.pd.length) :
    plFullLoss c = plTrue c - c.given.sum + c.pd.countP (fun p => decide (p ≤ 0)) * c.curt 0 := by
  unfold plFullLoss plTrue
  simp only
  rw [foldl_subR, foldl_zip c.curt _ _ (by rw [(feaLoop_spec (fun _ => 0) c.pd 0).1, hd]), foldl_addR, feaLoop_second]
  simp only [Nat.zero_add]
  ring

theorem plSum (q : Rat) : ∀ (f g : List Rat), f.length = g.length → ∀ s : Rat, ((f.zip g).map (fun p => q * (|p.1| / s) + p.2)).sum = q * ((f.map (fun a => |a|)).sum / s) + g.sum := by
  intro f
  induction f with
  | nil => intro g h s; cases g with
    | nil => simp
    | cons _ _ => simp at h
  | cons x f ih =>
    intro g h s
    cases g with
    | nil => simp at h
    | cons y g =>
      simp only [List.zip_cons_cons, List.map_cons, List.sum_cons, ih g (by simpa using h) s]
      ring

/-- **C198 (partial).** The printed losses of the branches, in any period: nothing if the flows add up to 0 or less; otherwise what is lost is multiplied by the ratio of the sizes of the flows to their (signed) sum. -/
theorem C198_losses_partial (c : PlCase) (hd : c.demand.length = c.pd.length) (hb : c.flows.length = c.given.length) :
    (c.flows.sum ≤ 0 → ∀ l ∈ plAllocate c, l = 0) ∧
    (0 < c.flows.sum → (plAllocate c).sum = (plTrue c - c.given.sum + c.pd.countP (fun p => decide (p ≤ 0)) * c.curt 0) * ((c.flows.map (fun a => |a|)).sum / c.flows.sum) + c.given.sum) := by
  unfold plAllocate
  simp only [foldl_addR, zero_add]
  constructor
  · intro h l hl
    rw [if_neg (not_lt.2 h), List.mem_map] at hl
    obtain ⟨_, _, rfl⟩ := hl
    rfl
  · intro h
    rw [if_pos h, plSum _ _ _ hb, plFullLoss_eq c hd]

/-- **C198 (partial).** If no flow is negative, some flow is positive, and every bus has demand (or there is no curtailment at the first), the printed losses add up to what is lost. -/
theorem C198_exact_partial (c : PlCase) (hd : c.demand.length = c.pd.length) (hb : c.flows.length = c.given.length) (hf : ∀ f ∈ c.flows, 0 ≤ f) (hp : 0 < c.flows.sum)
    (hc : (∀ p ∈ c.pd, 0 < p) ∨ c.curt 0 = 0) : (plAllocate c).sum = plTrue c := by
  rw [(C198_losses_partial c hd hb).2 hp]
  have e : c.flows.map (fun a => |a|) = c.flows := by
    conv_rhs => rw [← List.map_id c.flows]
    exact List.map_congr_left (fun a ha => abs_of_nonneg (hf a ha))
  have e2 : (c.pd.countP (fun p => decide (p ≤ 0)) : Rat) * c.curt 0 = 0 := by
    rcases hc with h | h
    · rw [List.countP_eq_zero.2 (by intro p hp; simpa using h p hp)]; simp
    · rw [h, mul_zero]
  rw [e, e2, div_self (ne_of_gt hp)]
  ring

/-- **C198 fails** with flows in both directions: the printed losses add up to more than is lost. -/
theorem C198_directions_violated (c : PlCase) (hd : c.demand.length = c.pd.length) (hb : c.flows.length = c.given.length) (hf : ∃ f ∈ c.flows, f < 0) (hp : 0 < c.flows.sum)
    (hc : ∀ p ∈ c.pd, 0 < p) (hl : c.given.sum < plTrue c) : plTrue c < (plAllocate c).sum := by
  rw [(C198_losses_partial c hd hb).2 hp, List.countP_eq_zero.2 (by intro p hp; simpa using hc p hp)]
  have key : ∀ l : List Rat, l.sum ≤ (l.map (fun a => |a|)).sum ∧ ((∃ f ∈ l, f < 0) → l.sum < (l.map (fun a => |a|)).sum) := by
    intro l
    induction l with
    | nil => simp
    | cons a l ih =>
      have := le_abs_self a
      simp only [List.sum_cons, List.map_cons]
      refine ⟨by linarith [ih.1], ?_⟩
      rintro ⟨f, hf, hn⟩
      rcases List.mem_cons.1 hf with rfl | hf
      · have : f < |f| := lt_of_lt_of_le hn (abs_nonneg f)
        linarith [ih.1]
      · linarith [ih.2 ⟨f, hf, hn⟩]
  have h1 : 1 < (c.flows.map (fun a => |a|)).sum / c.flows.sum := by
    rw [one_lt_div hp]
    exact (key _).2 hf
  have h2 : 0 < plTrue c - c.given.sum := by linarith
  push_cast
  nlinarith

/-- **C198 fails** at a bus without demand: the curtailment of the first bus with demand is counted once more for each of them, as losses. -/
theorem C198_curtailment_violated (c : PlCase) (hd : c.demand.length = c.pd.length) (hb : c.flows.length = c.given.length) (hf : ∀ f ∈ c.flows, 0 ≤ f) (hp : 0 < c.flows.sum) :
    (plAllocate c).sum = plTrue c + c.pd.countP (fun p => decide (p ≤ 0)) * c.curt 0 := by
  rw [(C198_losses_partial c hd hb).2 hp]
  have e : c.flows.map (fun a => |a|) = c.flows := by
    conv_rhs => rw [← List.map_id c.flows]
    exact List.map_congr_left (fun a ha => abs_of_nonneg (hf a ha))
  rw [e, div_self (ne_of_gt hp)]
  ring

/-! ## witnesses -/

/-- two scenarios, two periods, a conventional, a hydro and a renewable unit, a pump, two buses, one with demand -/
def exSp (losses : Bool) : ApiData :=
  ⟨⟨1, 2, 1, 3, 1, 1, 0, 0, 0⟩, 2, 2, [2, 3], [1 / 4, 3 / 4], 100, 2, [0, 0], [50, 0], 1, [1, 1, 1, 1], [1, 2], [(1, 0), (0, 0)], [.num 0, .num 1], [1], [1 / 2, 1 / 4], [1, 1], 1, 1, true, losses⟩

/-- a plan -/
def exSpV : ApiVals := ⟨fun p t => (p + t : Nat), fun p t => (p * t : Nat), fun p t => (1 : Rat) / (p + t + 1 : Nat)⟩

/-- demand of the example: 0.5 in the first period, 1 in the second -/
def exSpD (n _ t : Nat) : Rat := if n = 0 then (if t = 0 then 1 / 2 else 1) else 0

/-- limits of the example -/
def exSpM (_ _ t : Nat) : Rat := if t = 0 then 1 / 2 else 1 / 4

theorem exSp_sound (losses : Bool) : SpSound (exSp losses) 1 exSpD exSpM := by
  refine ⟨rfl, rfl, ?_, rfl, ?_, ?_, fun _ => ⟨by decide +kernel +revert, rfl, by decide +kernel +revert⟩⟩
  · intro n hn
    have : n = 0 ∨ n = 1 := by simp only [exSp] at hn; omega
    rcases this with rfl | rfl
    · left; rfl
    · right; rfl
  · intro n h t hn hh ht
    simp only [exSp] at hn hh ht
    have e1 : n = 0 ∨ n = 1 := by omega
    have e2 : h = 0 ∨ h = 1 := by omega
    have e3 : t = 0 ∨ t = 1 := by omega
    rcases e1 with rfl | rfl <;> rcases e2 with rfl | rfl <;> rcases e3 with rfl | rfl <;> cases losses <;> decide +kernel
  · intro n h t hn hh ht
    simp only [exSp] at hh ht
    have e1 : n = 0 := by omega
    have e2 : h = 0 ∨ h = 1 := by omega
    have e3 : t = 0 ∨ t = 1 := by omega
    subst e1
    rcases e2 with rfl | rfl <;> rcases e3 with rfl | rfl <;> cases losses <;> decide +kernel

/-- the example meets the hypotheses of C195 (and, with losses, those of the failure) and its first row is as expected -/
theorem C195_witness : SpSound (exSp false) 1 exSpD exSpM ∧ ((spTables (exSp false) exSpV 1).toOption.map (fun t => (t.map (fun l => l.take 1)).take 1)) =
    some [[⟨0, 0, 100, 200, -150, 50, 0, 0, 100⟩]] ∧ SpSound (exSp true) 1 exSpD exSpM ∧ (exSp true).losses = true ∧ 0 < (exSp true).sizes.branches :=
  ⟨exSp_sound false, by decide +kernel, exSp_sound true, rfl, by decide⟩

/-- a run of the example with costs -/
def exSpRun (k : Nat) : SpRun := ⟨exSp false, exSpV, 1, fun _ => 2, 1000, ⟨fun h g t => (h + g + t + k : Nat), fun _ _ _ => 0, fun _ _ _ => 1 / 100⟩⟩

/-- two runs of the example: the parts, and their total -/
theorem C196_witness : (([exSpRun 0, exSpRun 1].foldlM (spAccumulate true) {}).toOption.map (fun d => (d.cost, d.total))) = some ([7, 15, 11, -8, 0], 25) ∧
    ∀ r ∈ [exSpRun 0, exSpRun 1], ∃ D M, SpSound r.x r.noRES D M := by
  refine ⟨by decide +kernel, ?_⟩
  intro r hr
  simp only [List.mem_cons, List.not_mem_nil, or_false] at hr
  rcases hr with rfl | rfl <;> exact ⟨exSpD, exSpM, exSp_sound false⟩

/-- three branches, flows in both directions and a bus without demand: 12 are lost, 98/3 are printed -/
def exPl : PlCase := ⟨[100, 20], [110, 0], [110, 0], fun _ => 2, [0, 0, 0], [30, 20, -20]⟩

/-- the losses of the example: those of the branches with flows of one direction only would be exact -/
theorem C198_witness : plTrue exPl = 12 ∧ (plAllocate exPl).sum = 98 / 3 ∧ plTrue ⟨[100, 20], [110], [110], fun _ => 2, [0, 0], [30, 20]⟩ = 12 ∧
    (plAllocate ⟨[100, 20], [110], [110], fun _ => 2, [0, 0], [30, 20]⟩).sum = 12 := by decide +kernel

end Pyensys
