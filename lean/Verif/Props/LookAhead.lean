import Verif.Model.LookAhead
import Verif.Lemmas.SearchMain

/-!
# The look-ahead of the plan search (C243)
-/

namespace Pyensys

/-! ## specification -/

/-- no intervention with the key and the data of `e` (in the sense of `==`) is in the candidate or new -/
def laFree (info : Info) (e : Int × BinVar) : Bool :=
  !(info.candInt.any (fun g => g.2.any (fun x => decide (x.1 = e.1) && x.2 == e.2))) && !(info.newInt.any (fun x => decide (x.1 = e.1) && x.2 == e.2))

/-- what is active at a successor: of every level of the candidate and of the new interventions those with at most one year of construction left, and the options of the
pool that are neither in the candidate nor new and need no construction -/
def laActive (cfg : Cfg) (info : Info) : List BinVar :=
  (info.candTime.zip info.candInt).flatMap (fun p => ((p.1.2.zip p.2.2).filter (fun q => decide (q.1.2 ≤ 1))).map (·.2.2)) ++
    ((info.newTime.zip info.newInt).filter (fun q => decide (q.1.2 ≤ 1))).map (·.2.2) ++
    (cfg.pool.filter (fun e => laFree info e && decide (e.2.installationTime ≤ 0))).map (·.2)

/-- the requests `reqs` are put one after the other to the solver with log `log` until one is infeasible: `k` of them are, the answer is `f`, the last cost `c` -/
structure LaAsked (opf : List Request → Request → Bool × Rat) (log reqs : List Request) (c0 : Rat) (k : Nat) (f : Bool) (c : Rat) : Prop where
  le : k ≤ reqs.length
  before : ∀ j r, reqs[j]? = some r → j + 1 < k → (opf (log ++ reqs.take j) r).1 = true
  last : ∀ j r, reqs[j]? = some r → j + 1 = k → opf (log ++ reqs.take j) r = (f, c)
  stop : k < reqs.length → f = false
  none : k = 0 → f = true ∧ c = c0

/-! ## proofs -/

theorem la_pops {V : Type} (l : List (Int × V)) : ∀ (av : List (Int × V)), (av.map (·.1)).Nodup →
    (av.map (·.1)).foldlM (fun (g : List (Int × V)) (k : Int) => popOnly g k) (l ++ av) = .ok l := by
  intro av
  induction av with
  | nil => intro _; simp [pure, Except.pure]
  | cons e av ih =>
    intro hn
    obtain ⟨k, v⟩ := e
    rw [List.map_cons, List.nodup_cons] at hn
    rw [List.map_cons, List.foldlM_cons]
    have : popOnly (l ++ (k, v) :: av) k = .ok (l ++ av) := by
      unfold popOnly
      rw [listPop_hit k l av v (by
        intro x hx hk
        exact hn.1 (List.mem_map.2 ⟨x, hx, hk⟩))]
    simp only [this, bind, Except.bind]
    exact ih hn.2

theorem la_available (cfg : Cfg) (info : Info) (hpool : (cfg.pool.map (·.1)).Nodup) :
    availableNow cfg info = .ok (cfg.pool.filter (fun e => laFree info e && decide (e.2.installationTime ≤ 0))) := by
  have h := availableNow_eq (cfg := { cfg with rate := 0 }) (info := info) ⟨hpool, (by decide : (0 : Rat) ≠ 100)⟩
  have e1 : availableNow { cfg with rate := 0 } info = availableNow cfg info := rfl
  have e2 : available { cfg with rate := 0 } info = available cfg info := rfl
  rw [e1, e2, available_eq, List.filter_filter] at h
  rw [h]
  congr 1
  apply List.filter_congr
  intro e _
  have e3 : laFree info e = (info.candInt.all (fun lg => !ADC.itemMem lg.2 e) && !ADC.itemMem info.newInt e) := by
    unfold laFree ADC.itemMem
    rw [List.not_any_eq_all_not]
  rw [e3, Bool.and_comm]

/-- what is active when the times have been shifted -/
def laReady (cfg : Cfg) (info : Info) : List BinVar :=
  (builtSol info.candTime info.candInt).flatMap (fun kg => kg.2.map (·.2)) ++ (builtGroup info.newTime info.newInt).map (·.2) ++
    (cfg.pool.filter (fun e => laFree info e && decide (e.2.installationTime ≤ 0))).map (·.2)

theorem la_built_at_once (av : Group) : builtGroup (av.map (fun e => (e.1, 0))) av = av := by
  unfold builtGroup
  induction av with
  | nil => rfl
  | cons e av ih => simpa using ih

theorem laSuccessor_eq (cfg : Cfg) (info : Info) (hpool : (cfg.pool.map (·.1)).Nodup) (hs : SolAligned info.candTime info.candInt)
    (hn : GroupAligned info.newTime info.newInt) :
    laSuccessor cfg info = .ok ((cfg.opf info.log ⟨info.node, laReady cfg info⟩).1,
      { info with log := info.log ++ [⟨info.node, laReady cfg info⟩], lastCost := (cfg.opf info.log ⟨info.node, laReady cfg info⟩).2 }) := by
  unfold laSuccessor
  rw [la_available cfg info hpool]
  simp only [bind, Except.bind]
  obtain ⟨av, hav⟩ : ∃ av, av = cfg.pool.filter (fun e => laFree info e && decide (e.2.installationTime ≤ 0)) := ⟨_, rfl⟩
  have hnd : (av.map (·.1)).Nodup := by
    rw [hav]
    exact (List.filter_sublist.map _).nodup hpool
  have hact : laReady cfg info = (builtSol info.candTime info.candInt).flatMap (fun kg => kg.2.map (·.2)) ++
      (builtGroup (info.newTime ++ av.map (fun e => (e.1, 0))) (info.newInt ++ av)).map (·.2) := by
    have hlen : info.newTime.length = info.newInt.length := by
      have := congrArg List.length hn.1
      simpa using this
    unfold laReady
    rw [← hav, List.append_assoc]
    congr 1
    have : builtGroup (info.newTime ++ av.map (fun e => (e.1, 0))) (info.newInt ++ av) = builtGroup info.newTime info.newInt ++ builtGroup (av.map (fun e => (e.1, 0))) av := by
      unfold builtGroup
      rw [List.zip_append hlen, List.filter_append, List.map_append]
    rw [this, la_built_at_once, List.map_append]
  rw [← hav]
  unfold checkFeasibility
  rw [ready_eq { info with newInt := info.newInt ++ av, newTime := info.newTime ++ av.map (fun e => (e.1, 0)) } hs]
  simp only [bind, Except.bind, pure, Except.pure, ← hact]
  rw [la_pops info.newInt av hnd]
  have h2 := la_pops info.newTime (av.map (fun e => (e.1, (0 : Int)))) (by rw [List.map_map]; exact hnd)
  rw [List.map_map] at h2
  have e3 : (Prod.fst ∘ fun e : Int × BinVar => (e.1, (0 : Int))) = (·.1) := rfl
  rw [e3] at h2
  simp only [h2]

theorem laLoop_eq (cfg : Cfg) (hpool : (cfg.pool.map (·.1)).Nodup) : ∀ (ns : List Nat) (info : Info), SolAligned info.candTime info.candInt →
    GroupAligned info.newTime info.newInt →
    ∃ k f c m, laLoop cfg ns info = .ok (f, { info with node := m, log := info.log ++ (ns.map (fun n => (⟨n, laReady cfg info⟩ : Request))).take k, lastCost := c }) ∧
      LaAsked cfg.opf info.log (ns.map (fun n => (⟨n, laReady cfg info⟩ : Request))) info.lastCost k f c := by
  intro ns
  induction ns with
  | nil =>
    intro info _ _
    exact ⟨0, true, info.lastCost, info.node, by simp [laLoop], ⟨by simp, by simp, by simp, by simp, by simp⟩⟩
  | cons n ns ih =>
    intro info hs hn
    obtain ⟨r, hr⟩ : ∃ r : Request, r = ⟨n, laReady cfg info⟩ := ⟨_, rfl⟩
    have hstep := laSuccessor_eq cfg { info with node := n } hpool hs hn
    have ea : laReady cfg { info with node := n } = laReady cfg info := rfl
    simp only [ea, ← hr] at hstep
    cases hf : (cfg.opf info.log r).1 with
    | false =>
      refine ⟨1, false, (cfg.opf info.log r).2, n, ?_, ⟨by simp, ?_, ?_, by simp, by simp⟩⟩
      · rw [laLoop, hstep]
        simp only [bind, Except.bind, hf, Bool.false_eq_true, if_false, pure, Except.pure, List.map_cons, List.take_succ_cons, List.take_zero, ← hr]
      · intro j _ _ hj
        omega
      · intro j r' hj hj1
        have : j = 0 := by omega
        subst this
        simp only [List.map_cons, List.getElem?_cons_zero, Option.some.injEq, ← hr] at hj
        subst hj
        simp only [List.take_zero, List.append_nil]
        exact Prod.ext hf rfl
    | true =>
      obtain ⟨i2, hi2⟩ : ∃ i2 : Info, i2 = { info with node := n, log := info.log ++ [r], lastCost := (cfg.opf info.log r).2 } := ⟨_, rfl⟩
      obtain ⟨k, f, c, m, h1, h2⟩ := ih i2 (by rw [hi2]; exact hs) (by rw [hi2]; exact hn)
      have eb : laReady cfg i2 = laReady cfg info := by rw [hi2]; rfl
      rw [eb] at h1 h2
      refine ⟨k + 1, f, c, m, ?_, ⟨?_, ?_, ?_, ?_, by simp⟩⟩
      · rw [laLoop, hstep]
        simp only [bind, Except.bind, hf, if_true]
        rw [← hi2, h1, hi2]
        simp only [List.map_cons, List.take_succ_cons, List.append_assoc, List.singleton_append, ← hr]
      · have := h2.le
        simp only [List.length_map] at this
        simp only [List.map_cons, List.length_cons, List.length_map]
        omega
      · intro j r' hj hj1
        cases j with
        | zero =>
          simp only [List.map_cons, List.getElem?_cons_zero, Option.some.injEq, ← hr] at hj
          subst hj
          simpa using hf
        | succ j =>
          simp only [List.map_cons, List.getElem?_cons_succ] at hj
          have := h2.before j r' hj (by omega)
          rw [hi2] at this
          simpa [← hr, List.append_assoc] using this
      · intro j r' hj hj1
        cases j with
        | zero =>
          have hk : k = 0 := by omega
          obtain ⟨e1, e2⟩ := h2.none hk
          simp only [List.map_cons, List.getElem?_cons_zero, Option.some.injEq, ← hr] at hj
          subst hj
          rw [hi2] at e2
          simp only [List.take_zero, List.append_nil]
          exact Prod.ext (by rw [hf, e1]) e2.symm
        | succ j =>
          simp only [List.map_cons, List.getElem?_cons_succ] at hj
          have := h2.last j r' hj (by omega)
          rw [hi2] at this
          simpa [← hr, List.append_assoc] using this
      · intro hk
        apply h2.stop
        simp only [List.map_cons, List.length_cons, List.length_map] at hk ⊢
        omega

theorem la_shift_times (d : Int) (t : Times) : shiftTimes (-d) (shiftTimes d t) = t := by
  unfold shiftTimes
  rw [List.map_map]
  conv_rhs => rw [← List.map_id t]
  apply List.map_congr_left
  rintro ⟨k, v⟩ _
  simp

theorem la_shift_levels (d : Int) (l : List (Int × Times)) : shiftLevels (-d) (shiftLevels d l) = l := by
  unfold shiftLevels
  rw [List.map_map]
  conv_rhs => rw [← List.map_id l]
  apply List.map_congr_left
  rintro ⟨k, t⟩ _
  simp [la_shift_times]

theorem la_shift_keys (d : Int) (t : Times) : (shiftTimes d t).map (·.1) = t.map (·.1) := by
  unfold shiftTimes
  rw [List.map_map]
  rfl

theorem la_sol_shift (d : Int) {ts : List (Int × Times)} {s : Sol} (h : SolAligned ts s) : SolAligned (shiftLevels d ts) s := by
  induction h with
  | nil => exact List.Forall₂.nil
  | cons hab _ ih => exact List.Forall₂.cons ⟨hab.1, by rw [la_shift_keys]; exact hab.2.1, hab.2.2⟩ ih

theorem la_sol_keys {ts : List (Int × Times)} {s : Sol} (h : SolAligned ts s) : ∀ e ∈ ts, KeysNodup e.2 := by
  induction h with
  | nil => simp
  | cons hab _ ih =>
    intro e he
    rcases List.mem_cons.1 he with rfl | he
    · unfold KeysNodup
      rw [hab.2.1]
      exact hab.2.2
    · exact ih e he

theorem la_built_shift (t : Times) (g : Group) : builtGroup (shiftTimes (-1) t) g = ((t.zip g).filter (fun q => decide (q.1.2 ≤ 1))).map (·.2) := by
  unfold builtGroup shiftTimes
  induction t generalizing g with
  | nil => rfl
  | cons e t ih =>
    cases g with
    | nil => rfl
    | cons x g =>
      have := ih g
      by_cases h : e.2 ≤ 1
      · simpa [h] using this
      · have h' : ¬ (e.2 + -1 ≤ 0) := by omega
        simpa [h, h'] using this

/-- **C243.** The look-ahead from a node: for an aligned candidate and aligned new interventions, every successor of the node is put to the solver in turn, until one is
infeasible, with what will be active there a year later; the answer is whether none was infeasible; and apart from the log and the last cost nothing changes. -/
theorem C243_lookahead (cfg : Cfg) (info : Info) (hpool : (cfg.pool.map (·.1)).Nodup) (hs : SolAligned info.candTime info.candInt)
    (hn : GroupAligned info.newTime info.newInt) :
    ∃ k f c, laVerify cfg info = .ok (f, { info with
        log := info.log ++ ((cfg.nbr info.node).map (fun n => (⟨n, laActive cfg info⟩ : Request))).take k, lastCost := c }) ∧
      LaAsked cfg.opf info.log ((cfg.nbr info.node).map (fun n => (⟨n, laActive cfg info⟩ : Request))) info.lastCost k f c := by
  have hkt : KeysNodup info.newTime := by
    unfold KeysNodup
    rw [hn.1]
    exact hn.2
  obtain ⟨i1, hi1⟩ : ∃ i1 : Info, i1 = { info with level := info.level + 1, candTime := shiftLevels (-1) info.candTime, newTime := shiftTimes (-1) info.newTime } := ⟨_, rfl⟩
  have hs1 : SolAligned i1.candTime i1.candInt := by rw [hi1]; exact la_sol_shift (-1) hs
  have hn1 : GroupAligned i1.newTime i1.newInt := by
    rw [hi1]
    exact ⟨by rw [la_shift_keys]; exact hn.1, hn.2⟩
  obtain ⟨k, f, c, m, h1, h2⟩ := laLoop_eq cfg hpool (cfg.nbr info.node) i1 hs1 hn1
  have hact : laReady cfg i1 = laActive cfg info := by
    rw [hi1]
    unfold laReady laActive
    simp only
    rw [la_built_shift, List.map_map]
    congr 2
    clear h1 h2 hs1 hn1 hi1 i1
    generalize info.candTime = ts at hs ⊢
    generalize info.candInt = s at hs ⊢
    induction hs with
    | nil => rfl
    | @cons t g ts s _ _ ih =>
      have e : builtSol (shiftLevels (-1) (t :: ts)) (g :: s) = (g.1, builtGroup (shiftTimes (-1) t.2) g.2) :: builtSol (shiftLevels (-1) ts) s := rfl
      rw [e, List.flatMap_cons, List.zip_cons_cons, List.flatMap_cons, ih, la_built_shift, List.map_map]
      rfl
  rw [hact] at h1 h2
  have el : i1.log = info.log := by rw [hi1]
  have ec : i1.lastCost = info.lastCost := by rw [hi1]
  rw [el, ec] at h2
  refine ⟨k, f, c, ?_, h2⟩
  unfold laVerify
  rw [updateTimes_eq (-1) { info with level := info.level + 1 } (la_sol_keys hs) hkt]
  simp only [bind, Except.bind]
  rw [← hi1, h1]
  simp only
  rw [updateTimes_eq 1 { i1 with node := info.node, level := i1.level - 1, log := i1.log ++ ((cfg.nbr info.node).map (fun n => (⟨n, laActive cfg info⟩ : Request))).take k, lastCost := c } (la_sol_keys hs1) (by
    unfold KeysNodup
    simp only
    rw [hn1.1]
    exact hn1.2)]
  simp only [pure, Except.pure, hi1]
  have e1 := la_shift_levels (-1) info.candTime
  have e2 := la_shift_times (-1) info.newTime
  rw [Int.neg_neg] at e1 e2
  rw [e1, e2, show info.level + 1 - 1 = info.level by omega]

/-- a tree of three nodes and a pool of three options, of which option 1 needs construction; the network of node 2 cannot be operated -/
def laCfg : Cfg :=
  { pool := [(0, { cost := 1 }), (1, { cost := 2, installationTime := 5 }), (2, { cost := 3 })]
    nodes := [0, 1, 2], nbr := fun n => if n = 0 then [1, 2, 1] else [], years := [2020, 2030]
    rate := 5, opf := fun _ r => (r.node ≠ 2, r.active.length) }

/-- option 1 is chosen at the root and needs one more year -/
def laInfo : Info :=
  { candPath := [(0, 0)], candInt := [(0, [(1, { cost := 2, installationTime := 5 })])], candTime := [(0, [(1, 1)])], newInt := [(0, { cost := 1 })], newTime := [(0, 3)] }

/-- the hypotheses are met; options 1 (one year left) and 2 (at once) are active, option 0 is not (three years left); the second successor is infeasible, so that the third is not tried -/
example : (laCfg.pool.map (·.1)).Nodup ∧ SolAligned laInfo.candTime laInfo.candInt ∧ GroupAligned laInfo.newTime laInfo.newInt ∧
    (laActive laCfg laInfo).map (·.cost) = [2, 3] ∧ (laVerify laCfg laInfo).toOption.map (fun r => (r.1, r.2.log.map (·.node))) = some (false, [1, 2]) ∧
    (laVerify laCfg laInfo).toOption.map (fun r => (r.2.candTime, r.2.newTime)) = some (laInfo.candTime, laInfo.newTime) := by
  refine ⟨by decide, ?_, ?_, by decide +kernel, by decide +kernel, by decide +kernel⟩
  · exact .cons ⟨rfl, rfl, by simp [Distinct]⟩ .nil
  · exact ⟨rfl, by simp [Distinct, laInfo]⟩

end Pyensys
