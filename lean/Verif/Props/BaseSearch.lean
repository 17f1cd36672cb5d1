import Verif.Model.BaseSearch
import Verif.Model.Solution
import Verif.Spec.Search
import Verif.Lemmas.SearchMain

/-! # C30: the anticipative solver -/

namespace Pyensys

/-- The base investment cost never yields a value. -/
theorem baseInvestmentFrom_error (rate : Rat) (s : Sol) : ∀ (y : Nat) (acc : Rat),
    ∃ e, baseInvestmentFrom rate y s acc = .error e ∧ (e = .name ∨ (e = .zeroDivision ∧ rate = 100)) := by
  induction s with
  | nil => intro y acc; exact ⟨_, rfl, .inl rfl⟩
  | cons a r ih =>
    intro y acc
    simp only [baseInvestmentFrom]
    cases h : discount rate (y : Int) with
    | ok w => exact ih _ _
    | error e =>
      refine ⟨e, rfl, .inr ?_⟩
      by_cases hb : 1 - rate / 100 = 0
      · have h100 : rate = 100 := by
          have h1 : rate / 100 = 1 := by linarith
          rw [div_eq_iff (by norm_num)] at h1
          linarith
        refine ⟨?_, h100⟩
        unfold discount at h
        simp only [hb, true_and] at h
        split at h
        · injection h with h; exact h.symm
        · split at h <;> cases h
      · unfold discount at h
        simp only [hb, false_and, if_false] at h
        split at h <;> cases h

theorem baseOptimality_error (cfg : Cfg) (info : Info) :
    ∃ e, baseOptimality cfg info = .error e ∧ (e = .name ∨ (e = .zeroDivision ∧ cfg.rate = 100)) := by
  obtain ⟨e, he, h⟩ := baseInvestmentFrom_error cfg.rate info.candInt 0 0
  refine ⟨e, ?_, h⟩
  have hinv : baseInvestment cfg info.candInt = .error e := he
  have happ : ∀ k, baseAppend cfg k info = .error e := by
    intro k; unfold baseAppend; rw [hinv]; rfl
  have hrep : ∀ k, baseReplace cfg k info = .error e := by
    intro k; unfold baseReplace; rw [hinv]; rfl
  unfold baseOptimality
  by_cases h0 : info.incPaths.length = 0
  · simp only [h0, if_true, happ]; rfl
  · simp only [h0, if_false]
    cases storedKey info with
    | none => simp only [happ]; rfl
    | some k => simp only [hrep]; rfl

/-- what a search result is made of: incumbent and recorded plans -/
def SameStore (a b : Info) : Prop :=
  a.incumbent = b.incumbent ∧ a.complete = b.complete ∧ a.partialTree = b.partialTree

theorem SameStore.trans {a b c : Info} (h : SameStore a b) (h' : SameStore b c) : SameStore a c :=
  ⟨h.1.trans h'.1, h.2.1.trans h'.2.1, h.2.2.trans h'.2.2⟩

theorem baseExploreList_same {slv : Info → Except PyErr Info}
    (hs : ∀ i j, slv i = .ok j → SameStore i j) (ns : List Nat) : ∀ i j,
    baseExploreList slv ns i = .ok j → SameStore i j := by
  induction ns with
  | nil => intro i j h; cases h; exact ⟨rfl, rfl, rfl⟩
  | cons n ns ih =>
    intro i j h
    simp only [baseExploreList] at h
    cases h1 : slv { i with level := i.level + 1, node := n } with
    | error e => rw [h1] at h; cases h
    | ok k =>
      rw [h1] at h
      have a := hs _ _ h1
      exact SameStore.trans (b := { i with level := i.level + 1, node := n }) ⟨rfl, rfl, rfl⟩
        (a.trans (ih _ _ h))

theorem baseExplore_same {cfg : Cfg} {slv : Info → Except PyErr Info}
    (hs : ∀ i j, slv i = .ok j → SameStore i j) (i j : Info)
    (h : baseExplore cfg slv i = .ok j) : SameStore i j := by
  unfold baseExplore at h
  cases h1 : baseExploreList slv (cfg.nbr i.node) i with
  | error e => rw [h1] at h; cases h
  | ok k =>
    rw [h1] at h
    cases h
    exact (baseExploreList_same hs _ _ _ h1).trans ⟨rfl, rfl, rfl⟩

/-- the first combination already raises -/
theorem baseHandler_cases {cfg : Cfg} {slv : Info → Except PyErr Info} (i j : Info)
    (h : baseHandler cfg slv i = .ok j) : available cfg i = [] ∧ baseExplore cfg slv i = .ok j := by
  unfold baseHandler at h
  cases h1 : baseExplore cfg slv i with
  | error e => rw [h1] at h; cases h
  | ok k =>
    simp only [h1] at h
    cases ha : available cfg i with
    | nil => rw [ha] at h; exact ⟨rfl, by cases h; rfl⟩
    | cons a l =>
      exfalso
      rw [ha] at h
      have : ∃ t, allCombos (a :: l) = [a] :: t := by
        unfold allCombos
        simp only [List.length_cons, List.range_succ_eq_map, List.flatMap_cons]
        simp only [combos, List.map_cons, List.map_nil, List.cons_append]
        exact ⟨_, rfl⟩
      obtain ⟨t, ht⟩ := this
      rw [ht] at h
      cases h

theorem baseSolve_same (cfg : Cfg) (fuel : Nat) : ∀ i j, baseSolve cfg fuel i = .ok j → SameStore i j := by
  induction fuel with
  | zero => intro i j h; cases h
  | succ n ih =>
    intro i j h
    simp only [baseSolve, baseBody] at h
    split at h
    · split at h
      · obtain ⟨e, he, _⟩ := baseOptimality_error cfg (construct (baseCheck cfg i).2)
        rw [he] at h; cases h
      · have := baseHandler_cases _ _ h
        exact SameStore.trans (b := construct (baseCheck cfg i).2) ⟨rfl, rfl, rfl⟩
          (baseExplore_same ih _ _ this.2)
    · cases h; exact ⟨rfl, rfl, rfl⟩

/-- **C30.** Whatever the problem, the OPF and the state: a call of the base solver that returns
normally leaves incumbent, partial and complete plan exactly as they were — no solution is ever
stored. -/
theorem C30_base_never_stores_a_plan (cfg : Cfg) (fuel : Nat) (a b : Info)
    (h : baseSolve cfg fuel a = .ok b) :
    b.incumbent = a.incumbent ∧ b.complete = a.complete ∧ b.partialTree = a.partialTree :=
  have := baseSolve_same cfg fuel a b h
  ⟨this.1.symm, this.2.1.symm, this.2.2.symm⟩

/-- **C30.** At a node without successors that the OPF accepts, the base solver raises: NameError,
or ZeroDivisionError for a return rate of 100 %. -/
theorem C30_base_raises_at_feasible_leaf (cfg : Cfg) (fuel : Nat) (info : Info)
    (hleaf : cfg.nbr info.node = [])
    (hopf : (cfg.opf info.log ⟨info.node, if info.newInt = [] then [] else
      info.candInt.flatMap (fun lg => lg.2.map (·.2)) ++ info.newInt.map (·.2)⟩).1 = true) :
    ∃ e, baseSolve cfg (fuel + 1) info = .error e ∧ (e = .name ∨ (e = .zeroDivision ∧ cfg.rate = 100)) := by
  have hr : baseRequest info = ⟨info.node, if info.newInt = [] then [] else
      info.candInt.flatMap (fun lg => lg.2.map (·.2)) ++ info.newInt.map (·.2)⟩ := by
    unfold baseRequest
    cases info.newInt <;> simp
  have hc : (baseCheck cfg info).1 = true := by unfold baseCheck; rw [hr]; exact hopf
  simp only [baseSolve, baseBody, hc, if_true]
  rw [if_pos]
  · exact baseOptimality_error cfg _
  · exact hleaf

/-- **C30.** At a node with successors that the OPF accepts, the base solver never returns normally
while an intervention is available. -/
theorem C30_base_raises_when_combining (cfg : Cfg) (fuel : Nat) (info b : Info)
    (hinner : cfg.nbr info.node ≠ []) (hnew : info.newInt = [])
    (hopf : (cfg.opf info.log ⟨info.node, []⟩).1 = true)
    (havail : ∃ kv ∈ cfg.pool, ∀ lg ∈ info.candInt, ∀ e ∈ lg.2, e.1 ≠ kv.1) :
    baseSolve cfg fuel info ≠ .ok b := by
  intro h
  cases fuel with
  | zero => cases h
  | succ n =>
    have hr : baseRequest info = ⟨info.node, []⟩ := by unfold baseRequest; simp [hnew]
    have hc : (baseCheck cfg info).1 = true := by unfold baseCheck; rw [hr]; exact hopf
    simp only [baseSolve, baseBody, hc, if_true] at h
    rw [if_neg (show ¬ cfg.nbr (construct (baseCheck cfg info).2).node = [] from hinner)] at h
    have hav := (baseHandler_cases _ _ h).1
    obtain ⟨kv, hkv, hne⟩ := havail
    have : kv ∈ available cfg (construct (baseCheck cfg info).2) := by
      rw [available_eq, List.mem_filter]
      refine ⟨hkv, ?_⟩
      rw [Bool.and_eq_true]
      constructor
      · rw [List.all_eq_true]
        intro lg hlg
        rw [Bool.not_eq_true', Bool.eq_false_iff]
        intro hm
        have hlg' : lg ∈ info.candInt ++ [(info.level, info.newInt)] := hlg
        rw [List.mem_append] at hlg'
        unfold ADC.itemMem at hm
        rw [List.any_eq_true] at hm
        obtain ⟨x, hx, hxe⟩ := hm
        have hk : x.1 = kv.1 := by
          rw [Bool.and_eq_true] at hxe; exact of_decide_eq_true hxe.1
        rcases hlg' with h1 | h1
        · exact hne lg h1 x hx hk
        · rw [List.mem_singleton] at h1
          rw [h1, hnew] at hx
          cases hx
      · have : (construct (baseCheck cfg info).2).newInt = [] := hnew
        rw [this]; rfl
    rw [hav] at this
    cases this

/-- **C30.** If the OPF accepts everything, the base solver raises on every problem, whatever the
height of the control graph. -/
theorem C30_base_raises_on_feasible_problem (cfg : Cfg) (h fuel : Nat) (info : Info)
    (hh : HeightLe cfg h info.node) (hf : h < fuel) (hopf : ∀ log rq, (cfg.opf log rq).1 = true) :
    ∃ e, baseSolve cfg fuel info = .error e ∧ (e = .name ∨ (e = .zeroDivision ∧ cfg.rate = 100)) := by
  induction h generalizing fuel info with
  | zero =>
    cases fuel with
    | zero => omega
    | succ n => exact C30_base_raises_at_feasible_leaf cfg n info hh (hopf _ _)
  | succ k ih =>
    cases fuel with
    | zero => omega
    | succ n =>
      cases hn : cfg.nbr info.node with
      | nil => exact C30_base_raises_at_feasible_leaf cfg n info hn (hopf _ _)
      | cons c cs =>
        have hc : (baseCheck cfg info).1 = true := hopf _ _
        obtain ⟨e, he, h2⟩ := ih n { construct (baseCheck cfg info).2 with
          level := info.level + 1, node := c } (hh c (by rw [hn]; exact List.mem_cons_self)) (by omega)
        refine ⟨e, ?_, h2⟩
        simp only [baseSolve, baseBody, hc, if_true]
        have hnode : (construct (baseCheck cfg info).2).node = info.node := rfl
        rw [if_neg (by rw [hnode, hn]; exact List.cons_ne_nil _ _)]
        unfold baseHandler baseExplore
        rw [hnode, hn]
        simp only [baseExploreList]
        have : (construct (baseCheck cfg info).2).level = info.level := rfl
        rw [this, he]
        rfl

/-- **C30.** For an anticipative problem the access function returns nothing (Python's `None`); when
it returns tables, they come from the non-anticipative search. -/
theorem C30_access_function (cfg : Cfg) (td : TreeData) (fuel : Nat) (na : Bool) :
    (na = false → accessFunction na cfg td fuel = .ok none) ∧
    ∀ t, accessFunction na cfg td fuel = .ok (some t) →
      na = true ∧ ∃ f b, runSearch cfg fuel = .ok (f, b) ∧ getSolution td b.complete = .ok t := by
  refine ⟨fun h => by subst h; rfl, fun t h => ?_⟩
  unfold accessFunction at h
  cases na with
  | false => simp at h
  | true =>
    refine ⟨rfl, ?_⟩
    simp only [Bool.not_true, Bool.false_eq_true, if_false] at h
    cases hr : runSearch cfg fuel with
    | error e => rw [hr] at h; cases h
    | ok r =>
      rw [hr] at h
      cases hg : getSolution td r.2.complete with
      | error e =>
        have h' : (getSolution td r.2.complete >>= fun t => Except.ok (some t)) = .ok (some t) := h
        rw [hg] at h'; cases h'
      | ok t' =>
        have h' : (getSolution td r.2.complete >>= fun t => Except.ok (some t)) = .ok (some t) := h
        rw [hg] at h'; cases h'
        exact ⟨r.1, r.2, rfl, hg⟩

/-- A problem that meets the hypotheses: two levels, one option, an OPF that accepts everything. -/
def baseSample : Cfg :=
  { pool := [(0, { cost := 5 })], nodes := [0, 1, 2], nbr := fun n => if n = 0 then [1, 2] else [],
    years := [2020, 2030], rate := 3, opf := fun _ _ => (true, 1) }

example : HeightLe baseSample 1 ({} : Info).node := by
  intro c hc
  simp [baseSample] at hc
  rcases hc with rfl | rfl <;> rfl
example : ∀ log rq, (baseSample.opf log rq).1 = true := fun _ _ => rfl
example : baseSample.nbr ({} : Info).node ≠ [] ∧ ∃ kv ∈ baseSample.pool,
    ∀ lg ∈ ({} : Info).candInt, ∀ e ∈ lg.2, e.1 ≠ kv.1 :=
  ⟨by decide, (0, { cost := 5 }), by simp [baseSample], fun lg h => by cases h⟩
/-- the solver does return normally when the OPF rejects the root -/
example : ∃ b, baseSolve { baseSample with opf := fun _ _ => (false, 0) } 3 {} = .ok b := ⟨_, rfl⟩

end Pyensys
