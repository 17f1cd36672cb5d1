import Verif.Lemmas.SearchMain
import Mathlib.Data.List.Chain

/-! # The recursion: `solve` terminates without exception and restores the candidate -/

namespace Pyensys

/-- What a call of `solve` for a node guarantees. -/
structure SolvePost (cfg : Cfg) (a : Info) (b : Info) : Prop where
  evo : Evo cfg a b
  same : ∃ d, Same cfg d a b
  node : b.node = a.node
  level : b.level = a.level - 1
  clear : Clear b
  log : a.log <+: b.log

/-- `info` has evolved from `a₀`. -/
structure From (cfg : Cfg) (a₀ info : Info) : Prop where
  start : StoredAny a₀
  evo : Evo cfg a₀ info

theorem From.step {cfg a₀ a b} (h : From cfg a₀ a) (e : Evo cfg a b) : From cfg a₀ b :=
  ⟨h.start, h.evo.trans e⟩
theorem From.st {cfg a₀ a} (hg : GoodCfg cfg) (h : From cfg a₀ a) : StoredAny a :=
  h.evo.stored hg h.start

/-- `slv` behaves like `solve` on all nodes of height at most `h`. -/
def SlvOK (cfg : Cfg) (a₀ : Info) (slv : Info → Except PyErr (Bool × Info)) (h : Nat) : Prop :=
  ∀ info, AtNode cfg info → HeightLe cfg h info.node →
    info.candPath.length + h < cfg.years.length → From cfg a₀ info →
    ∃ f b, slv info = .ok (f, b) ∧ SolvePost cfg info b

theorem rootPath_snoc {cfg : Cfg} {ns : List Nat} {m n : Nat} (h : RootPath cfg (ns ++ [m]))
    (hn : n ∈ cfg.nbr m) : RootPath cfg (ns ++ [m] ++ [n]) := by
  obtain ⟨h1, h2⟩ := h
  refine ⟨?_, ?_⟩
  · cases ns <;> simpa using h1
  · rw [List.isChain_append]
    refine ⟨h2, by simp, ?_⟩
    intro x hx y hy
    simp at hx hy
    subst hx; subst hy; exact hn

theorem exploreList_spec {cfg a₀ slv h} (hg : GoodCfg cfg) (hslv : SlvOK cfg a₀ slv h) (m : Nat)
    (ns : List Nat) (pre : List Nat) :
    ∀ info : Info, CandOK cfg info → info.candPath.map (·.2) = pre ++ [m] →
      RootPath cfg (pre ++ [m]) → info.level + 1 = info.candPath.length →
      (∀ n ∈ ns, n ∈ cfg.nbr m ∧ HeightLe cfg h n) →
      info.candPath.length + h < cfg.years.length → From cfg a₀ info →
      ∃ f b, exploreList slv ns info = .ok (f, b) ∧ Evo cfg info b ∧ (∃ d, Same cfg d info b) ∧
        b.level = info.level ∧ info.log <+: b.log ∧
        (Clear b ∨ (b.newInt = info.newInt ∧ b.newTime = info.newTime)) := by
  induction ns with
  | nil =>
    intro info _ _ _ _ _ _ _
    exact ⟨true, info, rfl, Evo.refl _, ⟨0, Same.refl _ _⟩, rfl, List.prefix_refl _,
      Or.inr ⟨rfl, rfl⟩⟩
  | cons n ns ih =>
    intro info hc hp hr hl hns hy hs
    let I : Info := { info with level := info.level + 1, node := n }
    have hsI : Same cfg 0 info I := ⟨rfl, rfl, rfl, (shiftLevels_zero _).symm, fun _ => Int.le_refl _⟩
    have heI : Evo cfg info I := Evo.frame rfl rfl rfl
    have hat : AtNode cfg I := by
      refine ⟨hc.congr hsI, hl, ?_⟩
      change RootPath cfg (info.candPath.map (·.2) ++ [n])
      rw [hp]
      exact rootPath_snoc hr (hns n (by simp)).1
    obtain ⟨f, b, h1, hpost⟩ := hslv I hat (hns n (by simp)).2 hy (hs.step heI)
    obtain ⟨d, hsame⟩ := hpost.same
    have hsame' : Same cfg d info b := by simpa using hsI.trans hsame
    have hlev : b.level = info.level := by
      rw [hpost.level]
      change info.level + 1 - 1 = info.level
      omega
    have hev : Evo cfg info b := heI.trans hpost.evo
    have hlog : info.log <+: b.log := hpost.log
    cases f
    · refine ⟨false, b, ?_, hev, ⟨d, hsame'⟩, hlev, hlog, Or.inl hpost.clear⟩
      unfold exploreList
      have h1' : slv { info with level := info.level + 1, node := n } = .ok (false, b) := h1
      rw [h1', exc_bind_ok]
      rfl
    · obtain ⟨f2, b2, g1, g2, ⟨d2, g3⟩, g4, g5, g6⟩ := ih b (hc.congr hsame')
        (by rw [hsame'.path]; exact hp) hr (by rw [hlev, hsame'.path]; exact hl)
        (fun x hx => hns x (by simp [hx])) (by rw [hsame'.path]; exact hy) (hs.step hev)
      refine ⟨f2, b2, ?_, hev.trans g2, ⟨d + d2, hsame'.trans g3⟩, g4.trans hlev, hlog.trans g5, ?_⟩
      · conv_lhs => unfold exploreList
        have h1' : slv { info with level := info.level + 1, node := n } = .ok (true, b) := h1
        rw [h1', exc_bind_ok]
        simpa using g1
      · rcases g6 with g6 | g6
        · exact Or.inl g6
        · exact Or.inl ⟨g6.1.trans hpost.clear.int, g6.2.trans hpost.clear.time⟩

theorem explore_spec {cfg a₀ slv h info} (hg : GoodCfg cfg) (hslv : SlvOK cfg a₀ slv h)
    (hat : AtNode cfg info) (hnew : NewOK cfg info)
    (hh : ∀ n ∈ cfg.nbr info.node, HeightLe cfg h n)
    (hy : info.candPath.length + (h + 1) < cfg.years.length) (hs : From cfg a₀ info) :
    ∃ f b, explore cfg slv info = .ok (f, b) ∧ Evo cfg info b ∧ (∃ d, Same cfg d info b) ∧
      b.node = info.node ∧ b.level = info.level ∧
      (Clear b ∨ (b.newInt = info.newInt ∧ b.newTime = info.newTime)) ∧
      (∃ act, ready info = .ok act ∧ info.log ++ [⟨info.node, act⟩] <+: b.log ∧
        ((cfg.opf info.log ⟨info.node, act⟩).1 = false → f = false)) := by
  obtain ⟨act, hact, hcf⟩ := checkFeasibility_spec (cfg := cfg) hat.cand
  generalize hr : cfg.opf info.log ⟨info.node, act⟩ = r at hcf
  let I : Info := { info with log := info.log ++ [⟨info.node, act⟩], lastCost := r.2 }
  have hsI : Same cfg 0 info I := ⟨rfl, rfl, rfl, (shiftLevels_zero _).symm, fun _ => Int.le_refl _⟩
  have heI : Evo cfg info I := Evo.frame rfl rfl rfl
  have hatI : AtNode cfg I := hat.congr hsI rfl rfl
  have hnI : NewOK cfg I := ⟨hnew.aligned, hnew.pool, hnew.disj, hnew.times⟩
  unfold explore
  rw [hcf, exc_bind_ok]
  cases hf : r.1
  · exact ⟨false, I, by simp [I], heI, ⟨0, hsI⟩, rfl, rfl, Or.inr ⟨rfl, rfl⟩,
      act, hact, List.prefix_refl _, fun _ => rfl⟩
  · -- feasible: push, explore the successors, pop
    have hcK : CandOK cfg (construct I) := construct_ok hatI hnI
    have heK : Evo cfg I (construct I) := Evo.frame rfl rfl rfl
    have hstK : From cfg a₀ (construct I) := hs.step (heI.trans heK)
    obtain ⟨f, b, h1, h2, ⟨d, h3⟩, h4, h4l, h5⟩ := exploreList_spec hg hslv info.node
      (cfg.nbr info.node) (info.candPath.map (·.2)) (construct I) hcK
      (by simp [construct, I]) hat.root
      (by change info.level + 1 = _; rw [hat.level]; simp [construct, I])
      (fun n hn => ⟨hn, hh n hn⟩) (by simp [construct, I]; omega) hstK
    let B : Info := { b with node := info.node }
    have hsB : Same cfg d (construct I) B := ⟨h3.path, h3.int, h3.op, h3.time, h3.nonpos⟩
    have heB : Evo cfg (construct I) B := h2.trans (Evo.frame rfl rfl rfl)
    have hES : exploreSuccessors cfg slv (construct I) = .ok (f, B) := by
      unfold exploreSuccessors
      change (exploreList slv (cfg.nbr info.node) (construct I) >>= _) = _
      rw [h1, exc_bind_ok]
      rfl
    have hGE : ∃ X, graphExploration cfg slv (construct I) = .ok (f, X) ∧ Evo cfg B X ∧
        SameRest B X := by
      unfold graphExploration
      rw [hES, exc_bind_ok]
      simp only
      split
      · obtain ⟨R, P, C, hst⟩ := (hstK.step heB).st hg
        obtain ⟨X, R', P', k1, k2, k3, k4, k5⟩ := eliminateOffspring_spec hst
        refine ⟨X, ?_, Evo.one (.elim _ _ (hcK.congr hsB) k1), k5⟩
        rw [k1, exc_bind_ok]; rfl
      · exact ⟨B, rfl, Evo.refl _, SameRest.refl _⟩
    obtain ⟨X, hX, hevX, hrX⟩ := hGE
    have hsX : Same cfg d (construct I) X := by simpa using hsB.trans hrX.same
    have hlevB : B.level = info.level := h4
    obtain ⟨Y, g1, g2, g3, g4, g5, g6, g7, g8, g9, g10, g11, _⟩ :=
      returnToPrevious_construct hsX (hrX.level.trans hlevB)
    refine ⟨f, Y, ?_, ?_, ⟨d, by simpa using hsI.trans g2⟩, ?_, ?_, ?_, act, hact, ?_, ?_⟩
    · simp only [if_true]
      change (graphExploration cfg slv (construct I) >>= _) = _
      rw [hX, exc_bind_ok]
      simp only
      rw [g1]; rfl
    · exact (((heI.trans heK).trans heB).trans hevX).trans (Evo.frame g3 g4 g5)
    · rw [g6, hrX.node]
    · rw [g7, hrX.level]; exact hlevB
    · rw [g8, g9, hrX.newInt, hrX.newTime]
      rcases h5 with h5 | h5
      · left
        exact ⟨by rw [g8, hrX.newInt]; exact h5.int, by rw [g9, hrX.newTime]; exact h5.time⟩
      · right; exact h5
    · rw [g11, hrX.log]; exact h4l
    · intro hfalse; rw [hr, hf] at hfalse; cases hfalse

theorem afterExploration_spec {cfg a₀ info} (hg : GoodCfg cfg) (hc : CandOK cfg info)
    (hs : From cfg a₀ info) :
    ∃ b, afterExploration cfg info = .ok b ∧ Evo cfg info b ∧ Same cfg 0 info b ∧
      b.node = info.node ∧ b.level = info.level ∧ b.newInt = info.newInt ∧
      b.newTime = info.newTime ∧ b.log = info.log := by
  have step1 : ∃ X, (if info.lastReached then storePartial info else .ok info) = .ok X ∧
      Evo cfg info X ∧ SameRest info X := by
    split
    · obtain ⟨R, P, C, hst⟩ := hs.st hg
      obtain ⟨X, P', h1, h2, h3, h4, _⟩ := storePartial_spec hst
      exact ⟨X, h1, Evo.one (.storeP _ _ h1), h4⟩
    · exact ⟨info, rfl, Evo.refl _, SameRest.refl _⟩
  obtain ⟨X, hX, hevX, hrX⟩ := step1
  have hstX := hs.step (hevX)
  have step2 : ∃ b, (if (cfg.nbr X.node).length > 1 ∧ X.lastReached then do
        let i ← eliminateOffspring X
        return { i with lastReached := false }
      else return X) = .ok b ∧ Evo cfg X b ∧ Same cfg 0 X b ∧ b.node = X.node ∧
      b.level = X.level ∧ b.newInt = X.newInt ∧ b.newTime = X.newTime ∧ b.log = X.log := by
    split
    · obtain ⟨R, P, C, hst⟩ := hstX.st hg
      obtain ⟨Z, R', P', k1, k2, k3, k4, k5⟩ := eliminateOffspring_spec hst
      refine ⟨{ Z with lastReached := false }, by rw [k1]; rfl,
        (Evo.one (.elim _ _ (hc.congr hrX.same) k1)).trans (Evo.frame rfl rfl rfl), ?_,
        k5.node, k5.level, k5.newInt, k5.newTime, k5.log⟩
      have := (k5.same (cfg := cfg))
      exact ⟨this.path, this.int, this.op, this.time, this.nonpos⟩
    · exact ⟨X, rfl, Evo.refl _, Same.refl _ _, rfl, rfl, rfl, rfl, rfl⟩
  obtain ⟨b, hb, hevb, hsb, hb1, hb2, hb3, hb4, hb5⟩ := step2
  refine ⟨b, ?_, hevX.trans hevb, by simpa using hrX.same.trans hsb, hb1.trans hrX.node,
    hb2.trans hrX.level, hb3.trans hrX.newInt, hb4.trans hrX.newTime, hb5.trans hrX.log⟩
  unfold afterExploration
  by_cases hl : info.lastReached = true
  · rw [if_pos hl] at hX
    simp only [hl, if_true, hX, exc_bind_ok]
    exact hb
  · rw [if_neg hl] at hX
    cases hX
    have hl' : info.lastReached = false := by simpa using hl
    have hb' : info = b := by simpa [hl'] using hb
    subst hb'
    simp [hl']

theorem handlerStep_spec {cfg a₀ slv h} {st : Bool × Info} (hg : GoodCfg cfg) (hslv : SlvOK cfg a₀ slv h)
    (hat : AtNode cfg st.2) (hh : ∀ n ∈ cfg.nbr st.2.node, HeightLe cfg h n)
    (hy : st.2.candPath.length + (h + 1) < cfg.years.length) (hs : From cfg a₀ st.2) {c : Group}
    (hc : c.Sublist (available cfg st.2)) :
    ∃ f b, handlerStep cfg slv st c = .ok (f, b) ∧ Evo cfg st.2 b ∧ (∃ d, Same cfg d st.2 b) ∧
      b.node = st.2.node ∧ b.level = st.2.level ∧ Clear b ∧
      ∃ act seg, ready (addNew st.2 c) = .ok act ∧ b.log = st.2.log ++ ⟨st.2.node, act⟩ :: seg := by
  have hsA : Same cfg 0 st.2 (addNew st.2 c) :=
    ⟨rfl, rfl, rfl, (shiftLevels_zero _).symm, fun _ => Int.le_refl _⟩
  have hatA : AtNode cfg (addNew st.2 c) := hat.congr hsA rfl rfl
  have hevA : Evo cfg st.2 (addNew st.2 c) := Evo.frame rfl rfl rfl
  obtain ⟨f, b, h1, h2, ⟨d, h3⟩, h4, h5, _, act, hact, h6, _⟩ := explore_spec hg hslv hatA
    (newOK_addNew hg hat.cand hc) hh hy (hs.step hevA)
  have hsb : Same cfg d st.2 b := by simpa using hsA.trans h3
  obtain ⟨b2, g1, g2, g3, g4, g5, _, _, g8⟩ := afterExploration_spec hg (hat.cand.congr hsb)
    (hs.step (hevA.trans h2))
  obtain ⟨seg, hseg⟩ := h6
  refine ⟨st.1 || f, clearNew b2, ?_, ?_, ⟨d, ?_⟩, g4.trans h4, g5.trans h5, ⟨rfl, rfl⟩, act, seg,
    hact, ?_⟩
  · unfold handlerStep
    rw [h1, exc_bind_ok]
    simp only
    rw [g1]; rfl
  · exact ((hevA.trans h2).trans g2).trans (Evo.frame rfl rfl rfl)
  · have hsC : Same cfg 0 b2 (clearNew b2) :=
      ⟨rfl, rfl, rfl, (shiftLevels_zero _).symm, fun _ => Int.le_refl _⟩
    simpa using (hsb.trans g3).trans hsC
  · change b2.log = _
    rw [g8, ← hseg]
    change (st.2.log ++ [⟨st.2.node, act⟩]) ++ seg = _
    simp

theorem handlerFold_spec {cfg a₀ slv h} (hg : GoodCfg cfg) (hslv : SlvOK cfg a₀ slv h) (cs : List Group) :
    ∀ st : Bool × Info, AtNode cfg st.2 → Clear st.2 →
      (∀ n ∈ cfg.nbr st.2.node, HeightLe cfg h n) →
      st.2.candPath.length + (h + 1) < cfg.years.length → From cfg a₀ st.2 →
      (∀ c ∈ cs, c.Sublist (available cfg st.2)) →
      ∃ f b, cs.foldlM (handlerStep cfg slv) st = .ok (f, b) ∧ Evo cfg st.2 b ∧
        (∃ d, Same cfg d st.2 b) ∧ b.node = st.2.node ∧ b.level = st.2.level ∧ Clear b ∧
        ∃ segs : List (List Request), b.log = st.2.log ++ segs.flatten ∧
          List.Forall₂ (fun c seg => ∃ (d : Int) (act : List BinVar) (rest : List Request),
            seg = ⟨st.2.node, act⟩ :: rest ∧
            ready { addNew st.2 c with candTime := shiftLevels d st.2.candTime } = .ok act)
            cs segs := by
  induction cs with
  | nil =>
    intro st _ hcl _ _ _ _
    exact ⟨st.1, st.2, rfl, Evo.refl _, ⟨0, Same.refl _ _⟩, rfl, rfl, hcl, [], by simp, .nil⟩
  | cons c cs ih =>
    intro st hat hcl hh hy hs hc
    obtain ⟨f, b, h1, h2, ⟨d, h3⟩, h4, h5, h6, act, seg, h7, h8⟩ :=
      handlerStep_spec hg hslv hat hh hy hs (hc c (by simp))
    have hav := available_same (cfg := cfg) h3 hcl h6
    obtain ⟨f2, b2, g1, g2, ⟨d2, g3⟩, g4, g5, g6, segs, g7, g8⟩ := ih (f, b) (hat.congr h3 h4 h5) h6
      (by simp only; rw [h4]; exact hh) (by simp only; rw [h3.path]; exact hy) (hs.step h2)
      (by intro c' hc'; simp only; rw [hav]; exact hc c' (by simp [hc']))
    simp only at g2 g3 g4 g5 g7 g8
    refine ⟨f2, b2, by rw [List.foldlM_cons, h1, exc_bind_ok, g1], h2.trans g2,
      ⟨d + d2, h3.trans g3⟩, g4.trans h4, g5.trans h5, g6, (⟨st.2.node, act⟩ :: seg) :: segs, ?_,
      .cons ⟨0, act, seg, rfl, ?_⟩ ?_⟩
    · rw [g7, h8]; simp
    · rw [shiftLevels_zero]; exact h7
    · refine g8.imp ?_
      rintro x sg ⟨e, act', rest, hsg, hrd⟩
      refine ⟨d + e, act', rest, by rw [hsg, h4], ?_⟩
      rw [← hrd, h3.time, shiftLevels_add]
      unfold ready constructedFromCandidate constructedFromNew
      simp only [addNew]
      rw [h3.int]

theorem interventionsHandler_spec {cfg a₀ slv h info} (hg : GoodCfg cfg) (hslv : SlvOK cfg a₀ slv h)
    (hat : AtNode cfg info) (hcl : Clear info)
    (hh : ∀ n ∈ cfg.nbr info.node, HeightLe cfg h n)
    (hy : info.candPath.length + (h + 1) < cfg.years.length) (hs : From cfg a₀ info) :
    ∃ f b, interventionsHandler cfg slv info = .ok (f, b) ∧ Evo cfg info b ∧
      (∃ d, Same cfg d info b) ∧ b.node = info.node ∧ b.level = info.level ∧ Clear b ∧
      ∃ segs : List (List Request), b.log = info.log ++ segs.flatten ∧
        List.Forall₂ (fun c seg => ∃ (d : Int) (act : List BinVar) (rest : List Request),
          seg = ⟨info.node, act⟩ :: rest ∧
          ready { addNew info c with candTime := shiftLevels d info.candTime } = .ok act)
          (allCombos (available cfg info)) segs := by
  obtain ⟨f, b, h1, h2, ⟨d, h3⟩, h4, h5, h6, segs, h7, h8⟩ := handlerFold_spec hg hslv
    (allCombos (available cfg info)) (false, info) hat hcl hh hy hs
    (fun c hc => ((mem_allCombos _ _).1 hc).1)
  simp only at h2 h3 h4 h5 h7 h8
  obtain ⟨R, P, C, hst⟩ := (hs.step h2).st hg
  obtain ⟨X, R', g1, g2, g3, g4, _⟩ := restorePartial_spec hst
  refine ⟨f, X, ?_, h2.trans (Evo.one (.restoreP _ _ g1)), ⟨d, by simpa using h3.trans g4.same⟩,
    g4.node.trans h4, g4.level.trans h5, ⟨g4.newInt.trans h6.int, g4.newTime.trans h6.time⟩,
    segs, ?_, h8⟩
  · unfold interventionsHandler
    rw [h1, exc_bind_ok]
    simp only
    rw [g1]; rfl
  · rw [g4.log]; exact h7

theorem solveLeaf_spec {cfg a₀ info} (hg : GoodCfg cfg) (hat : AtNode cfg info) (hcl : Clear info)
    (hleaf : cfg.nbr info.node = []) (hy : info.candPath.length < cfg.years.length)
    (hs : From cfg a₀ info) :
    ∃ f b, solveLeaf cfg info = .ok (f, b) ∧ Evo cfg info b ∧ Same cfg 0 info b ∧
      b.node = info.node ∧ b.level = info.level - 1 ∧ Clear b ∧
      ∃ act reqs, ready info = .ok act ∧ b.log = info.log ++ ⟨info.node, act⟩ :: reqs ∧
        List.Forall₂ (fun c rq => rq.node = info.node ∧
          ready (addNew info c) = .ok rq.active)
          (allCombos ((available cfg info).filter (fun kv => kv.2.installationTime ≤ 0))) reqs := by
  let I : Info := { info with lastReached := true }
  have hsI : Same cfg 0 info I := ⟨rfl, rfl, rfl, (shiftLevels_zero _).symm, fun _ => Int.le_refl _⟩
  have heI : Evo cfg info I := Evo.frame rfl rfl rfl
  have hatI : AtNode cfg I := hat.congr hsI rfl rfl
  have hclI : Clear I := ⟨hcl.int, hcl.time⟩
  obtain ⟨f, Y, act, h1, h1', h2, h3, h4, h5, h6, h7, h8, h9, h10⟩ := checkAndStore_spec hg hatI
    (newOK_nil hclI.int hclI.time) hleaf hy ((hs.step heI).st hg)
  have hclY : Clear Y := ⟨h7.trans hclI.int, h8.trans hclI.time⟩
  have hatY : AtNode cfg Y := hatI.congr h4 h5 h6
  obtain ⟨f2, Z, g1, g2, g3, g4, g5, g6, g7, reqs, g8, g9⟩ := optimiseLastNode_spec hg hatY hclY
    (by rw [h5]; exact hleaf) (by rw [h4.path]; exact hy) ((hs.step (heI.trans h3)).st hg)
  have hsZ : Same cfg 0 info Z := by simpa using (hsI.trans h4).trans g3
  have hav : available cfg Y = available cfg info := by
    have := available_same (cfg := cfg) (hsI.trans h4) hcl hclY
    simpa using this
  have hready : ∀ c, ready (addNew Y c) = ready (addNew info c) := by
    intro c
    have e1 : (addNew Y c).candTime = (addNew info c).candTime := by
      change Y.candTime = info.candTime
      rw [h4.time, shiftLevels_zero]
    have e2 : (addNew Y c).candInt = (addNew info c).candInt := h4.int
    unfold ready constructedFromCandidate constructedFromNew
    rw [e1, e2]
    rfl
  refine ⟨if f then true else f2, { Z with level := Z.level - 1 }, ?_,
    ((heI.trans h3).trans g2).trans (Evo.frame rfl rfl rfl),
    ⟨hsZ.path, hsZ.int, hsZ.op, hsZ.time, hsZ.nonpos⟩, g4.trans h5, ?_, ⟨g6.int, g6.time⟩,
    act, reqs, h1, ?_, ?_⟩
  · unfold solveLeaf
    obtain ⟨p, hp1, hp2⟩ := exc_bind_eq_ok.1 h2
    have hp1' : checkFeasibility cfg { info with lastReached := true } = .ok p := hp1
    rw [hp1', exc_bind_ok]
    obtain ⟨f', K⟩ := p
    cases f'
    · simp only [Bool.false_eq_true, if_false] at hp2 ⊢
      cases hp2
      rw [g1, exc_bind_ok]
      rfl
    · simp only [if_true] at hp2 ⊢
      obtain ⟨q, hq1, hq2⟩ := exc_bind_eq_ok.1 hp2
      cases hq2
      rw [hq1, exc_bind_ok, g1, exc_bind_ok]
      rfl
  · change Z.level - 1 = _
    rw [g5, h6]
  · change Z.log = _
    rw [g8, h10]
    simp [I]
  · rw [hav] at g9
    refine g9.imp ?_
    intro c rq hcr
    exact ⟨hcr.1.trans h5, by rw [← hready]; exact hcr.2⟩

theorem timeAdjustment_spec {cfg info} (hat : AtNode cfg info) (hn : info.node ≠ 0)
    (hy : info.candPath.length < cfg.years.length) :
    ∃ adj, timeAdjustment cfg info = .ok adj ∧ (Sorted cfg → 0 ≤ adj) ∧
      ∃ (n : Nat) (h : n + 1 < cfg.years.length), info.candPath.length = n + 1 ∧
        adj = cfg.years[n + 1] - cfg.years[n] := by
  obtain ⟨n, hlen⟩ : ∃ n, info.candPath.length = n + 1 := by
    cases hp : info.candPath with
    | nil =>
      have := hat.root.1
      rw [hp] at this
      simp at this
      exact absurd this hn
    | cons x l => exact ⟨l.length, by simp⟩
  have hn1 : n + 1 < cfg.years.length := by omega
  unfold timeAdjustment
  have e1 : info.level = ((n + 1 : Nat) : Int) := by rw [hat.level, hlen]
  have e2 : info.level - 1 = ((n : Nat) : Int) := by rw [e1]; omega
  rw [e2, e1, pyGet_nat _ _ hn1, exc_bind_ok, pyGet_nat _ n (by omega), exc_bind_ok]
  refine ⟨_, rfl, ?_, n, hn1, hlen, rfl⟩
  intro hs
  have := List.pairwise_iff_getElem.1 hs n (n + 1) (by omega) hn1 (by omega)
  omega

theorem solveBody_spec {cfg a₀ slv h} (hg : GoodCfg cfg)
    (hslv : ∀ h', h = h' + 1 → SlvOK cfg a₀ slv h') : SlvOK cfg a₀ (solveBody cfg slv) h := by
  intro info hat hh hy hs
  have hA : Same cfg 0 info (clearNew info) :=
    ⟨rfl, rfl, rfl, (shiftLevels_zero _).symm, fun _ => Int.le_refl _⟩
  have hatA : AtNode cfg (clearNew info) := hat.congr hA rfl rfl
  have hclA : Clear (clearNew info) := ⟨rfl, rfl⟩
  have hevA : Evo cfg info (clearNew info) := Evo.frame rfl rfl rfl
  -- the time adjustment
  have hadj : ∃ adj B, (if (clearNew info).node ≠ 0 then timeAdjustment cfg (clearNew info)
      else .ok (-1)) = .ok adj ∧
      (if (clearNew info).node ≠ 0 then updateTimes (-adj) (clearNew info)
      else .ok (clearNew info)) = .ok B ∧
      B.node = info.node ∧ B.level = info.level ∧ Clear B ∧ B.incumbent = info.incumbent ∧
      B.partialTree = info.partialTree ∧ B.complete = info.complete ∧ B.log = info.log ∧
      Same cfg (if info.node ≠ 0 then -adj else 0) info B ∧
      (info.node ≠ 0 → Sorted cfg → 0 ≤ adj) := by
    by_cases hz : info.node = 0
    · refine ⟨-1, clearNew info, ?_, ?_, rfl, rfl, hclA, rfl, rfl, rfl, rfl, ?_, ?_⟩
      · simp [clearNew, hz]
      · simp [clearNew, hz]
      · simpa [hz] using hA
      · intro h; exact absurd hz h
    · have hz' : (clearNew info).node ≠ 0 := hz
      obtain ⟨adj, h1, h2, _⟩ := timeAdjustment_spec hatA hz (show info.candPath.length < _ by omega)
      refine ⟨adj, { clearNew info with candTime := shiftLevels (-adj) info.candTime }, ?_, ?_, rfl,
        rfl, ⟨rfl, rfl⟩, rfl, rfl, rfl, rfl, ?_, fun _ => h2⟩
      · rw [if_pos hz']; exact h1
      · rw [if_pos hz', updateTimes_eq (-adj) (clearNew info) hatA.cand.timeNodup (by
          simp [clearNew, KeysNodup])]
        rfl
      · rw [if_pos hz]
        exact ⟨rfl, rfl, rfl, rfl, fun hs => by have := h2 hs; omega⟩
  obtain ⟨adj, B, ha1, ha2, hB1, hB2, hB3, hB4, hB5, hB6, hB7, hB8, hB9⟩ := hadj
  have hevB : Evo cfg info B := Evo.frame hB4 hB5 hB6
  have hatB : AtNode cfg B := hat.congr hB8 hB1 hB2
  have hsB : From cfg a₀ B := hs.step (hevB)
  have hbody : solveBody cfg slv info =
      if cfg.nbr B.node = [] then solveLeaf cfg B else solveInner cfg slv adj B := by
    unfold solveBody
    by_cases hz : (clearNew info).node ≠ 0
    · rw [if_pos hz] at ha1 ha2
      simp only [hz, ne_eq, not_false_eq_true, if_true, ha1, exc_bind_ok, ha2]
    · rw [if_neg hz] at ha1 ha2
      cases ha1; cases ha2
      simp only [hz, if_false, exc_bind_ok]
  rw [hbody]
  split
  · next hleaf =>
    obtain ⟨f, b, h1, h2, h3, h4, h5, h6, act, reqs, _, h7, _⟩ := solveLeaf_spec hg hatB hB3 hleaf
      (by rw [hB8.path]; omega) hsB
    refine ⟨f, b, h1, hevB.trans h2, ⟨_, hB8.trans h3⟩, h4.trans hB1, by rw [h5, hB2], h6, ?_⟩
    rw [h7, hB7]; exact List.prefix_append _ _
  · next hleaf =>
    obtain ⟨h', rfl⟩ : ∃ h', h = h' + 1 := by
      cases h with
      | zero => rw [hB1] at hleaf; exact absurd hh hleaf
      | succ h' => exact ⟨h', rfl⟩
    have hslv' := hslv h' rfl
    have hhB : ∀ n ∈ cfg.nbr B.node, HeightLe cfg h' n := by rw [hB1]; exact hh
    have hyB : B.candPath.length + (h' + 1) < cfg.years.length := by rw [hB8.path]; exact hy
    obtain ⟨f1, b1, h1, h2, ⟨d1, h3⟩, h4, h5, h6, act, _, h7, _⟩ := explore_spec hg hslv' hatB
      (newOK_nil hB3.int hB3.time) hhB hyB hsB
    have hcl1 : Clear b1 := by
      rcases h6 with h6 | h6
      · exact h6
      · exact ⟨h6.1.trans hB3.int, h6.2.trans hB3.time⟩
    have hst1 := hsB.step (h2)
    have hat1 : AtNode cfg b1 := hatB.congr h3 h4 h5
    obtain ⟨b2, g1, g2, g3, g4, g5, g6, g7, g8⟩ := afterExploration_spec hg hat1.cand hst1
    have hcl2 : Clear b2 := ⟨g6.trans hcl1.int, g7.trans hcl1.time⟩
    have hat2 : AtNode cfg b2 := hat1.congr g3 g4 g5
    have hst2 := hst1.step (g2)
    obtain ⟨f3, b3, k1, k2, ⟨d3, k3⟩, k4, k5, k6, segs, k7, _⟩ := interventionsHandler_spec hg hslv' hat2 hcl2
      (by rw [g4, h4]; exact hhB) (by rw [g3.path, h3.path]; exact hyB) hst2
    have hnode3 : b3.node = info.node := by rw [k4, g4, h4, hB1]
    have hlev3 : b3.level = info.level := by rw [k5, g5, h5, hB2]
    have hsame3 : Same cfg ((if info.node ≠ 0 then -adj else 0) + d1 + 0 + d3) info b3 :=
      ((hB8.trans h3).trans g3).trans k3
    have hev3 : Evo cfg info b3 := ((hevB.trans h2).trans g2).trans k2
    have hlog3 : info.log <+: b3.log := by
      rw [k7, g8, ← hB7]
      exact ((List.prefix_append _ _).trans h7).trans (List.prefix_append _ _)
    have hc3 : CandOK cfg b3 := hat.cand.congr hsame3
    have hsi : ∀ Z, (if b3.node ≠ 0 then updateTimes adj b3 else .ok b3) = .ok Z →
        solveInner cfg slv adj B = .ok (f3, { Z with level := Z.level - 1 }) := by
      intro Z hZ
      unfold solveInner
      rw [h1, exc_bind_ok]
      simp only
      rw [g1, exc_bind_ok, k1, exc_bind_ok]
      simp only
      by_cases hz : b3.node ≠ 0
      · rw [if_pos hz] at hZ
        simp only [hz, ne_eq, not_false_eq_true, if_true, hZ, exc_bind_ok, exc_pure]
      · rw [if_neg hz] at hZ
        cases hZ
        simp only [hz, if_false, exc_bind_ok, exc_pure]
    by_cases hz : info.node = 0
    · have hZ := hsi b3 (by rw [hnode3]; simp [hz])
      refine ⟨f3, _, hZ, ?_, ⟨_, ⟨hsame3.path, hsame3.int, hsame3.op, hsame3.time, hsame3.nonpos⟩⟩,
        hnode3, ?_, ⟨k6.int, k6.time⟩, hlog3⟩
      · exact hev3.trans (Evo.frame rfl rfl rfl)
      · change b3.level - 1 = _; rw [hlev3]
    · have hZ := hsi { b3 with candTime := shiftLevels adj b3.candTime, newTime := [] } (by
        rw [if_pos (by rw [hnode3]; exact hz), updateTimes_eq adj b3 hc3.timeNodup (by
          rw [k6.time]; simp [KeysNodup]), k6.time]
        rfl)
      refine ⟨f3, _, hZ, ?_, ⟨d1 + d3, hsame3.path, hsame3.int, hsame3.op, ?_, ?_⟩,
        hnode3, ?_, ⟨k6.int, rfl⟩, hlog3⟩
      · exact hev3.trans (Evo.frame rfl rfl rfl)
      · change shiftLevels adj b3.candTime = _
        rw [hsame3.time, if_pos hz, shiftLevels_add]
        congr 1; omega
      · intro hsrt
        have := h3.nonpos hsrt
        have := k3.nonpos hsrt
        omega
      · change b3.level - 1 = _; rw [hlev3]

theorem solve_spec {cfg a₀} (hg : GoodCfg cfg) (h fuel : Nat) (hf : h < fuel) :
    SlvOK cfg a₀ (solve cfg fuel) h := by
  induction h generalizing fuel with
  | zero =>
    obtain ⟨n, rfl⟩ : ∃ n, fuel = n + 1 := ⟨fuel - 1, by omega⟩
    exact solveBody_spec hg (fun h' hh => by omega)
  | succ h ih =>
    obtain ⟨n, rfl⟩ : ∃ n, fuel = n + 1 := ⟨fuel - 1, by omega⟩
    refine solveBody_spec hg (fun h' hh => ?_)
    have : h' = h := by omega
    subst this
    exact ih n (by omega)

/-- the initial state of the search -/
theorem atNode_start {cfg} : AtNode cfg ({} : Info) := by
  refine ⟨?_, rfl, ?_⟩
  · constructor
    · rfl
    · left; rfl
    · rfl
    · exact .nil
    · rfl
    · intro lg h; cases h
    · exact List.nodup_nil
    · intro _; exact .nil
  · refine ⟨rfl, ?_⟩; simp

theorem stored_start : StoredAny ({} : Info) := ⟨[], [], [], rfl, rfl, rfl⟩

/-! ### alignment of keys = being a list of rows -/

theorem PlanAligned.rows {p : Plan} (h : PlanAligned p) : ∃ R, p = planOf R := by
  obtain ⟨a, b, c, d⟩ := p
  obtain ⟨h1, h2, h3⟩ := h
  simp only at h1 h2 h3
  induction a generalizing b c d with
  | nil =>
    simp only [List.map_nil, List.map_eq_nil_iff] at h1 h2 h3
    subst h1; subst h2; subst h3
    exact ⟨[], rfl⟩
  | cons x a ih =>
    cases b with
    | nil => simp at h1
    | cons y b =>
      cases c with
      | nil => simp at h2
      | cons z c =>
        cases d with
        | nil => simp at h3
        | cons w d =>
          simp only [List.map_cons, List.cons.injEq] at h1 h2 h3
          obtain ⟨R, hR⟩ := ih b c d h1.2 h2.2 h3.2
          refine ⟨(x.1, ⟨x.2, y.2, z.2, w.2⟩) :: R, ?_⟩
          simp only [planOf, Plan.mk.injEq] at hR ⊢
          obtain ⟨e1, e2, e3, e4⟩ := hR
          subst e1; subst e2; subst e3; subst e4
          refine ⟨rfl, ?_, ?_, ?_⟩
          · exact congrArg (· :: _) (Prod.ext h1.1 rfl)
          · exact congrArg (· :: _) (Prod.ext h2.1 rfl)
          · exact congrArg (· :: _) (Prod.ext h3.1 rfl)

theorem planAligned_planOf (R : List (Int × Row)) : PlanAligned (planOf R) := by
  constructor <;> simp [planOf]

theorem StoreAligned.storedAny {info : Info} (h : StoreAligned info) : StoredAny info := by
  obtain ⟨R, hR⟩ := h.inc.rows
  obtain ⟨P, hP⟩ := h.part.rows
  obtain ⟨C, hC⟩ := h.comp.rows
  exact ⟨R, P, C, hR, hP, hC⟩

theorem StoredAny.aligned {info : Info} (h : StoredAny info) : StoreAligned info := by
  obtain ⟨R, P, C, hs⟩ := h
  exact ⟨by rw [hs.inc]; exact planAligned_planOf R, by rw [hs.part]; exact planAligned_planOf P,
    by rw [hs.comp]; exact planAligned_planOf C⟩

end Pyensys
