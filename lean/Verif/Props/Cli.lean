import Verif.Model.Cli
import Verif.Props.Energy
import Verif.Props.AttestOptions
import Verif.Props.PlanData
import Verif.Props.GlpkResults
import Verif.Props.SavedResults
import Mathlib.Tactic.Linarith

/-!
# The options of the command line (C207-C209)
-/

namespace Pyensys

/-! ## specification -/

/-- `n` identical units, one at each of the buses 1, 2, ..., `n` -/
def CliPlaced (u : CliUnits) (n : Int) (max cost : Rat) : Prop :=
  u.number = n ∧ (u.bus.length : Int) = n ∧ (u.max.length : Int) = n ∧ (u.cost.length : Int) = n ∧
    ∀ i : Nat, (i : Int) < n → u.bus[i]? = some ((i : Int) + 1) ∧ u.max[i]? = some max ∧ u.cost[i]? = some cost

/-- the table of a network of `branches` branches in which one branch after the other fails: all branches, and then for contingency `k` all branches but the one that fails; the second entry is the position of the buses of that contingency -/
def cliOutages (noBus branches : Nat) (fails : List Nat) : List (Nat × Nat) :=
  (List.range branches).map (fun b => (b, 0)) ++
    fails.zipIdx.flatMap (fun f => ((List.range branches).filter (fun b => b + 1 ≠ f.1)).map (fun b => (b, (f.2 + 1) * noBus)))

/-! ## lemmas -/

theorem cliUnits_iff (n : Int) (m q : Rat) (u : CliUnits) :
    cliUnits n m q = .ok u ↔ 0 ≤ n ∧ u = ⟨n, (List.range n.toNat).map (fun (x : Nat) => (x : Int) + 1), List.replicate n.toNat m, List.replicate n.toNat q⟩ := by
  unfold cliUnits
  split
  · rename_i h
    constructor
    · intro h1; cases h1
    · rintro ⟨h1, _⟩; omega
  · rename_i h
    constructor
    · intro h1
      injection h1 with h1
      exact ⟨by omega, h1.symm⟩
    · rintro ⟨_, rfl⟩; rfl

theorem cliUnits_placed {n : Int} {m q : Rat} {u : CliUnits} (h : cliUnits n m q = .ok u) : CliPlaced u n m q := by
  obtain ⟨hn, rfl⟩ := (cliUnits_iff n m q u).1 h
  refine ⟨rfl, by simp [hn], by simp [hn], by simp [hn], ?_⟩
  intro i hi
  have : i < n.toNat := by omega
  refine ⟨?_, ?_, ?_⟩
  · simp [this]
  · simp [this]
  · simp [this]

/-- the renewable units, whatever else happens -/
theorem cliRes_iff (n : Int) (c d : CliConf) : cliRes n c = .ok d ↔ 0 ≤ n ∧
    d = { c with resNumber := n, resBus := (List.range n.toNat).map (fun (x : Nat) => (x : Int) + 1),
                 resMax := if n = 0 then .list [] else .num 0, resCost := if n = 0 then .list [] else .num 10 } := by
  unfold cliRes
  by_cases h : n < 0
  · rw [if_pos h]
    constructor
    · intro h1; cases h1
    · rintro ⟨h1, _⟩; omega
  · rw [if_neg h]
    by_cases h0 : n = 0
    · subst h0
      simp only [if_true]
      constructor
      · intro h1
        injection h1 with h1
        exact ⟨le_refl _, h1.symm⟩
      · rintro ⟨_, rfl⟩; rfl
    · rw [if_neg h0, if_neg h0, if_neg h0]
      constructor
      · intro h1
        injection h1 with h1
        exact ⟨by omega, h1.symm⟩
      · rintro ⟨_, rfl⟩; rfl

theorem cliPath_inj (dir : Tok) {a b : Tok} (ha : a.head? ≠ some '/') (hb : b.head? ≠ some '/') (h : cliPath dir a = cliPath dir b) : a = b := by
  unfold cliPath at h
  rw [if_neg ha, if_neg hb] at h
  exact List.append_cancel_left h

/-! ## C207 -/

/-- where a case file is looked for: a path from the root as it is, other names in the folder `json` next to the program -/
def caseFile (dir : Tok) : Tok → Tok
  | '/' :: r => '/' :: r
  | name => dir ++ ['/', 'j', 's', 'o', 'n', '/'] ++ name

theorem cliPath_eq (dir name : Tok) : cliPath dir name = caseFile dir name := by
  unfold cliPath
  split
  · rename_i h
    cases name with
    | nil => cases h
    | cons a r =>
      simp only [List.head?_cons, Option.some.injEq] at h
      subst h
      rfl
  · rename_i h
    unfold caseFile
    split
    · exact absurd rfl h
    · rfl

/-- what run-n and run-en hand to the engine -/
structure CliAsked (dir : Tok) (a : CliArgs) (loss feas : Bool) (time : Int) (network : Tok) (c : CliConf) : Prop where
  hydro : CliPlaced c.hydro (a.hydro.getD 3) 1000 (1 / 100)
  pumps : CliPlaced c.pumps (a.pump.getD 0) 1 (1 / 1000)
  res : c.resNumber = a.res.getD 0 ∧ (c.resBus.length : Int) = a.res.getD 0 ∧ ∀ i : Nat, (i : Int) < a.res.getD 0 → c.resBus[i]? = some ((i : Int) + 1)
  time : c.noTime = a.time.getD time
  sec : c.security = a.sec.getD []
  feas : c.feas = a.feas.getD feas
  file : c.file = some (caseFile dir (a.network.getD network))
  losses : c.losses = true ↔ a.loss.getD loss = true ∧ ¬ 0 < a.linearloss.getD 0
  loss : c.loss = if 0 < a.linearloss.getD 0 then a.linearloss else none
  baseload : c.baseload = [0]

theorem cliUpdateN_iff (dir : Tok) (k : CliKw) (c d : CliConf) : cliUpdateN dir k c = .ok d ↔
    ∃ p r, cliUnits (k.pump.getD 0) 1 (1 / 1000) = .ok p ∧ cliRes (k.res.getD 0) { c with pumps := p } = .ok r ∧
      d = cliBaseload k (cliSolver k (cliLosses k
        { r with noDem := 2, noRES := 2, noTime := k.time, security := k.sec.getD [], feas := k.feas.getD true, file := some (cliPath dir k.network) })) := by
  unfold cliUpdateN
  rw [except_bind_ok]
  constructor
  · rintro ⟨p, hp, h⟩
    obtain ⟨r, hr, h⟩ := except_bind_ok.1 h
    injection h with h
    exact ⟨p, r, hp, hr, h.symm⟩
  · rintro ⟨p, r, hp, hr, rfl⟩
    exact ⟨p, hp, except_bind_ok.2 ⟨r, hr, rfl⟩⟩

theorem cliGroup_iff (n : Int) (c d : CliConf) : cliGroup n c = .ok d ↔ ∃ u, cliUnits n 1000 (1 / 100) = .ok u ∧ d = { c with hydro := u } := by
  unfold cliGroup
  rw [except_bind_ok]
  constructor
  · rintro ⟨p, hp, h⟩
    injection h with h
    exact ⟨p, hp, h.symm⟩
  · rintro ⟨p, hp, rfl⟩
    exact ⟨p, hp, rfl⟩

theorem cliRun_iff (dir : Tok) (cmd : CliCmd) (a : CliArgs) (c : CliConf) : cliRun dir cmd a = .ok (some c) ↔
    ∃ k u p r, cliParse cmd a = some k ∧ cliUnits (a.hydro.getD 3) 1000 (1 / 100) = .ok u ∧ cliUnits (k.pump.getD 0) 1 (1 / 1000) = .ok p ∧
      cliRes (k.res.getD 0) { (cliUpdateE dir k { cliDefault with hydro := u }) with pumps := p } = .ok r ∧
      cliCase cmd (cliBaseload k (cliSolver k (cliLosses k
        { r with noDem := 2, noRES := 2, noTime := k.time, security := k.sec.getD [], feas := k.feas.getD true, file := some (cliPath dir k.network) }))) = .ok c := by
  unfold cliRun
  cases hk : cliParse cmd a with
  | none =>
    constructor
    · intro h
      injection h with h
      cases h
    · rintro ⟨k, u, p, r, h, _⟩
      cases h
  | some k =>
    dsimp only
    rw [except_bind_ok]
    constructor
    · rintro ⟨d, hd, h⟩
      obtain ⟨u, hu, rfl⟩ := (cliGroup_iff _ _ _).1 hd
      obtain ⟨e, he, h⟩ := except_bind_ok.1 h
      obtain ⟨p, r, hp, hr, rfl⟩ := (cliUpdateN_iff _ _ _ _).1 he
      obtain ⟨f, hf, h⟩ := except_bind_ok.1 h
      injection h with h
      injection h with h
      subst h
      exact ⟨k, u, p, r, rfl, hu, hp, hr, hf⟩
    · rintro ⟨k', u, p, r, hk', hu, hp, hr, hf⟩
      injection hk' with hk'
      subst hk'
      refine ⟨_, (cliGroup_iff _ _ _).2 ⟨u, hu, rfl⟩, ?_⟩
      refine except_bind_ok.2 ⟨_, (cliUpdateN_iff _ _ _ _).2 ⟨p, r, hp, hr, rfl⟩, ?_⟩
      exact except_bind_ok.2 ⟨c, hf, rfl⟩

theorem cliLosses_of (k : CliKw) (c : CliConf) : cliLosses k c =
    { c with losses := if 0 < k.linearloss.getD 0 then false else k.loss.getD false, loss := if 0 < k.linearloss.getD 0 then k.linearloss else c.loss } := by
  unfold cliLosses
  cases hq : k.linearloss with
  | none => simp
  | some q =>
    dsimp only [Option.getD_some]
    by_cases h : 0 < q
    · simp only [if_pos h]
    · simp only [if_neg h]

/-- C207: the configuration that run-n and run-en hand to the engine is the one asked for -/
theorem C207_run_n_partial (dir : Tok) (a : CliArgs) (c : CliConf) (h : cliRun dir .runN a = .ok (some c)) :
    CliAsked dir a false false 1 "case4.json".toList c ∧ c.tree = none ∧ c.pyomo = false ∧ c.glpk = true := by
  obtain ⟨k, u, p, r, hk, hu, hp, hr, hc⟩ := (cliRun_iff _ _ _ _).1 h
  unfold cliParse at hk
  dsimp only at hk
  split at hk
  · cases hk
  injection hk with hk
  subst hk
  dsimp only [Option.getD_some] at hp hr
  obtain ⟨hr0, rfl⟩ := (cliRes_iff _ _ _).1 hr
  injection hc with hc
  subst hc
  rw [cliLosses_of]
  dsimp only [cliBaseload, cliSolver, cliUpdateE, cliDefault, Option.getD_some]
  rw [if_neg (by intro hh; cases hh)]
  refine ⟨⟨cliUnits_placed hu, cliUnits_placed hp, ⟨rfl, ?_, ?_⟩, rfl, rfl, rfl, congrArg some (cliPath_eq _ _), ?_, ?_, rfl⟩, rfl, rfl, rfl⟩
  · simp [hr0]
  · intro i hi
    have : i < (a.res.getD 0).toNat := by omega
    simp [this]
  · dsimp only
    by_cases hq : 0 < a.linearloss.getD 0
    · simp [hq]
    · simp [hq]
  · dsimp only
    by_cases hq : 0 < a.linearloss.getD 0
    · rw [if_pos hq, if_pos hq]
      cases hl : a.linearloss with
      | none => rw [hl] at hq; exact absurd hq (by simp)
      | some q => rfl
    · rw [if_neg hq, if_neg hq]

theorem cliSolver_of (k : CliKw) (c : CliConf) (h1 : c.pyomo = false) (h2 : c.glpk = true) :
    cliSolver k c = { c with pyomo := k.usepyomo.getD false, glpk := !(k.usepyomo.getD false) } := by
  unfold cliSolver
  rcases hk : k.usepyomo with _ | b
  · rw [if_neg (by intro hh; cases hh)]
    cases c
    simp_all
  · cases b
    · rw [if_neg (by intro hh; cases hh)]
      cases c
      simp_all
    · rw [if_pos rfl]
      rfl

theorem C207_run_en_partial (dir : Tok) (a : CliArgs) (c : CliConf) (h : cliRun dir .runEN a = .ok (some c)) :
    CliAsked dir a true true 24 "case14_con.json".toList c ∧ c.tree = some (caseFile dir (a.tree.getD "ResolutionTreeMonth01.json".toList)) ∧
      c.pyomo = a.usepyomo.getD false ∧ c.glpk = !(a.usepyomo.getD false) := by
  obtain ⟨k, u, p, r, hk, hu, hp, hr, hc⟩ := (cliRun_iff _ _ _ _).1 h
  unfold cliParse at hk
  dsimp only at hk
  split at hk
  · cases hk
  injection hk with hk
  subst hk
  dsimp only [Option.getD_some] at hp hr
  obtain ⟨hr0, rfl⟩ := (cliRes_iff _ _ _).1 hr
  injection hc with hc
  subst hc
  rw [cliLosses_of, cliSolver_of _ _ rfl rfl]
  dsimp only [cliBaseload, cliUpdateE, cliDefault, Option.getD_some]
  refine ⟨⟨cliUnits_placed hu, cliUnits_placed hp, ⟨rfl, ?_, ?_⟩, rfl, rfl, rfl, congrArg some (cliPath_eq _ _), ?_, ?_, rfl⟩, congrArg some (cliPath_eq _ _), rfl, rfl⟩
  · simp [hr0]
  · intro i hi
    have : i < (a.res.getD 0).toNat := by omega
    simp [this]
  · dsimp only
    by_cases hq : 0 < a.linearloss.getD 0
    · simp [hq]
    · simp [hq]
  · dsimp only
    by_cases hq : 0 < a.linearloss.getD 0
    · rw [if_pos hq, if_pos hq]
      cases hl : a.linearloss with
      | none => rw [hl] at hq; exact absurd hq (by simp)
      | some q => rfl
    · rw [if_neg hq, if_neg hq]

theorem cliRun_exists {dir : Tok} {cmd : CliCmd} {a : CliArgs} {k : CliKw} (hk : cliParse cmd a = some k) (hc : ∀ d, ∃ e, cliCase cmd d = .ok e) :
    (∃ c, cliRun dir cmd a = .ok (some c)) ↔ 0 ≤ a.hydro.getD 3 ∧ 0 ≤ k.pump.getD 0 ∧ 0 ≤ k.res.getD 0 := by
  constructor
  · rintro ⟨c, h⟩
    obtain ⟨k', u, p, r, hk', hu, hp, hr, _⟩ := (cliRun_iff _ _ _ _).1 h
    rw [hk] at hk'
    injection hk' with hk'
    subst hk'
    exact ⟨((cliUnits_iff _ _ _ _).1 hu).1, ((cliUnits_iff _ _ _ _).1 hp).1, ((cliRes_iff _ _ _).1 hr).1⟩
  · rintro ⟨h1, h2, h3⟩
    obtain ⟨e, he⟩ := hc _
    exact ⟨e, (cliRun_iff _ _ _ _).2 ⟨k, _, _, _, hk, (cliUnits_iff _ _ _ _).2 ⟨h1, rfl⟩, (cliUnits_iff _ _ _ _).2 ⟨h2, rfl⟩, (cliRes_iff _ _ _).2 ⟨h3, rfl⟩, he⟩⟩

/-- C207: with the options that a command knows, a configuration is handed over exactly when no number of units is negative -/
theorem C207_accepted_partial (dir : Tok) (a : CliArgs) :
    (a.tree = none → a.usepyomo = none → a.baseline = none →
      ((∃ c, cliRun dir .runN a = .ok (some c)) ↔ 0 ≤ a.hydro.getD 3 ∧ 0 ≤ a.pump.getD 0 ∧ 0 ≤ a.res.getD 0)) ∧
    (a.baseline = none → ((∃ c, cliRun dir .runEN a = .ok (some c)) ↔ 0 ≤ a.hydro.getD 3 ∧ 0 ≤ a.pump.getD 0 ∧ 0 ≤ a.res.getD 0)) := by
  constructor
  · intro h1 h2 h3
    have hk : ∃ k, cliParse .runN a = some k ∧ k.pump = some (a.pump.getD 0) ∧ k.res = some (a.res.getD 0) := by
      unfold cliParse
      dsimp only
      rw [if_neg (by rw [h1, h2, h3]; decide)]
      exact ⟨_, rfl, rfl, rfl⟩
    obtain ⟨k, hk, hp, hr⟩ := hk
    rw [cliRun_exists hk (fun d => ⟨d, rfl⟩), hp, hr]
    rfl
  · intro h3
    have hk : ∃ k, cliParse .runEN a = some k ∧ k.pump = some (a.pump.getD 0) ∧ k.res = some (a.res.getD 0) := by
      unfold cliParse
      dsimp only
      rw [if_neg (by rw [h3]; decide)]
      exact ⟨_, rfl, rfl, rfl⟩
    obtain ⟨k, hk, hp, hr⟩ := hk
    rw [cliRun_exists hk (fun d => ⟨d, rfl⟩), hp, hr]
    rfl

/-- C207, run-example-hydro: the fixed part of the example (24 time steps, two plants of 200 MW at the buses 1 and 5, no losses, penalties allowed), and the options it
does respect: the tree, the network, the pumps, the renewables, the contingencies and the baseload -/
theorem C207_example_partial (dir : Tok) (a : CliArgs) (c : CliConf) (h : cliRun dir .example a = .ok (some c)) :
    c.hydro = ⟨2, [1, 5], [200, 200], [1 / 1000, 1 / 1000]⟩ ∧ c.noTime = 24 ∧ c.losses = false ∧ c.feas = true ∧
    CliPlaced c.pumps (a.pump.getD 0) 1 (1 / 1000) ∧ c.resNumber = a.res.getD 0 ∧ c.security = a.sec.getD [] ∧
    c.file = some (caseFile dir (a.network.getD "case14_con.json".toList)) ∧ c.tree = some (caseFile dir (a.tree.getD "TreeMonth01_01RD.json".toList)) ∧
    c.baseload = [a.baseline.getD 0, a.baseline.getD 0] := by
  obtain ⟨k, u, p, r, hk, hu, hp, hr, hc⟩ := (cliRun_iff _ _ _ _).1 h
  unfold cliParse at hk
  dsimp only at hk
  split at hk
  · cases hk
  injection hk with hk
  subst hk
  dsimp only [Option.getD_some] at hp hr
  obtain ⟨hr0, rfl⟩ := (cliRes_iff _ _ _).1 hr
  injection hc with hc
  subst hc
  rw [cliLosses_of]
  dsimp only [cliBaseload, cliSolver, cliUpdateE, cliDefault, Option.getD_some]
  rw [if_neg (by intro hh; cases hh)]
  exact ⟨rfl, rfl, rfl, rfl, cliUnits_placed hp, rfl, rfl, congrArg some (cliPath_eq _ _), congrArg some (cliPath_eq _ _), rfl⟩

/-- C207, violated by run-example-hydro: the number of hydropower plants, the losses, the feasibility and the number of time steps that the user asks for have no effect -/
theorem C207_violated_example (dir : Tok) (a b : CliArgs) (ha : cliRun dir .example a ≠ .error .value) (hb : cliRun dir .example b ≠ .error .value)
    (h : b = { a with hydro := b.hydro, loss := b.loss, feas := b.feas, time := b.time }) : cliRun dir .example a = cliRun dir .example b := by
  have e1 : b.tree = a.tree := by rw [h]
  have e2 : b.network = a.network := by rw [h]
  have e3 : b.pump = a.pump := by rw [h]
  have e4 : b.res = a.res := by rw [h]
  have e5 : b.sec = a.sec := by rw [h]
  have e6 : b.linearloss = a.linearloss := by rw [h]
  have e7 : b.usepyomo = a.usepyomo := by rw [h]
  have e8 : b.baseline = a.baseline := by rw [h]
  clear h
  by_cases hu : a.usepyomo.isSome = true
  · have p1 : cliParse .example a = none := by unfold cliParse; dsimp only; rw [if_pos hu]
    have p2 : cliParse .example b = none := by unfold cliParse; dsimp only; rw [if_pos (by rw [e7]; exact hu)]
    unfold cliRun
    rw [p1, p2]
  · have p1 : cliParse .example a = some ⟨some (a.tree.getD "TreeMonth01_01RD.json".toList), a.network.getD "case14_con.json".toList, some (a.pump.getD 0), some (a.res.getD 0), some (a.sec.getD []),
      some (a.loss.getD true), some (a.feas.getD true), a.time.getD 24, some (a.linearloss.getD 0), none, some (a.baseline.getD 0)⟩ := by
      unfold cliParse; dsimp only; rw [if_neg hu]
    have p2 : cliParse .example b = some ⟨some (a.tree.getD "TreeMonth01_01RD.json".toList), a.network.getD "case14_con.json".toList, some (a.pump.getD 0), some (a.res.getD 0), some (a.sec.getD []),
      some (b.loss.getD true), some (b.feas.getD true), b.time.getD 24, some (a.linearloss.getD 0), none, some (a.baseline.getD 0)⟩ := by
      unfold cliParse; dsimp only; rw [if_neg (by rw [e7]; exact hu), e1, e2, e3, e4, e5, e6, e8]
    unfold cliRun at ha hb ⊢
    rw [p1] at ha ⊢
    rw [p2] at hb ⊢
    dsimp only [cliGroup, cliUpdateN, Option.getD_some, cliUnits] at ha hb ⊢
    by_cases h1 : a.hydro.getD 3 < 0
    · rw [if_pos h1] at ha
      exact absurd rfl ha
    by_cases h2 : b.hydro.getD 3 < 0
    · rw [if_pos h2] at hb
      exact absurd rfl hb
    by_cases h3 : a.pump.getD 0 < 0
    · rw [if_neg h1, if_pos h3] at ha
      exact absurd rfl ha
    rw [if_neg h1, if_neg h2, if_neg h3]
    by_cases h4 : a.res.getD 0 < 0
    · rw [if_neg h1, if_neg h3] at ha
      refine absurd ?_ ha
      simp [cliRes, h4, bind, Except.bind]
    by_cases h5 : a.res.getD 0 = 0
    · simp [cliRes, h5, bind, Except.bind, cliLosses_of, cliSolver, cliBaseload, cliCase, cliUpdateE]
    · simp [cliRes, h4, h5, bind, Except.bind, cliLosses_of, cliSolver, cliBaseload, cliCase, cliUpdateE]

/-- C207, violated by run-ac: no plant of hydropower is built, whatever number is asked for -/
theorem C207_violated_ac (dir : Tok) (a : CliArgs) (c : CliConf) (h : cliRun dir .runAC a = .ok (some c)) : c.hydro.number = 0 := by
  obtain ⟨k, u, p, r, hk, hu, hp, hr, hc⟩ := (cliRun_iff _ _ _ _).1 h
  injection hc with hc
  rw [← hc]

/-- C207, violated by run-res: the command never reaches the engine -/
theorem C207_violated_res (dir : Tok) (a : CliArgs) (c : CliConf) : cliRun dir .runRES a ≠ .ok (some c) := by
  intro h
  obtain ⟨k, u, p, r, hk, hu, hp, hr, hc⟩ := (cliRun_iff _ _ _ _).1 h
  cases hc

/-! ## C208: the tables of security -/

theorem cliSec_fold (R : List (Nat × Nat)) : ∀ (pre post : List (Nat × Nat)), R.foldlM cliSecStep (pre ++ post, pre.length) =
    if R.length ≤ post.length then .ok (pre ++ R ++ post.drop R.length, pre.length + R.length) else .error .index := by
  induction R with
  | nil =>
    intro pre post
    rw [if_pos (by simp)]
    simp [pure, Except.pure]
  | cons r R ih =>
    intro pre post
    rw [List.foldlM_cons]
    cases post with
    | nil =>
      rw [if_neg (by simp)]
      have : cliSecStep (pre ++ [], pre.length) r = .error .index := by
        unfold cliSecStep npSet
        dsimp only
        rw [if_neg (by simp)]
        rfl
      rw [this]
      rfl
    | cons x post =>
      have e : cliSecStep (pre ++ x :: post, pre.length) r = .ok ((pre ++ [r]) ++ post, (pre ++ [r]).length) := by
        unfold cliSecStep
        dsimp only
        rw [npSet_ok r (by simp)]
        simp [bind, Except.bind]
      rw [e]
      change R.foldlM cliSecStep ((pre ++ [r]) ++ post, (pre ++ [r]).length) = _
      rw [ih (pre ++ [r]) post]
      by_cases hl : R.length ≤ post.length
      · rw [if_pos hl, if_pos (by simpa using hl)]
        simp
        omega
      · rw [if_neg hl, if_neg (by simpa using hl)]

open Classical in
theorem cliOther_count (branches : Nat) (s : CliSec) : ((List.range branches).filter (fun xb => cliOther xb s)).length =
    (if ∃ n : Nat, s = .num n ∧ 1 ≤ n ∧ n ≤ branches then branches - 1 else branches) := by
  cases s with
  | text c =>
    rw [if_neg (by rintro ⟨n, h, _⟩; cases h)]
    have : (List.range branches).filter (fun xb => cliOther xb (.text c)) = List.range branches := List.filter_eq_self.2 (fun _ _ => rfl)
    rw [this, List.length_range]
  | num m =>
    by_cases h : ∃ n : Nat, CliSec.num m = .num n ∧ 1 ≤ n ∧ n ≤ branches
    · rw [if_pos h]
      obtain ⟨n, hn, h1, h2⟩ := h
      injection hn with hn
      subst hn
      have key : ∀ b : Nat, n ≤ b → ((List.range b).filter (fun xb => cliOther xb (.num n))).length = b - 1 := by
        intro b
        induction b with
        | zero => intro hb; omega
        | succ b ih =>
          intro hb
          rw [List.range_succ (n := b), List.filter_append, List.length_append]
          by_cases hb' : n ≤ b
          · rw [ih hb']
            have : cliOther b (.num n) = true := by
              unfold cliOther
              simp only [decide_eq_true_eq]
              omega
            simp [this]
            omega
          · have hb2 : n = b + 1 := by omega
            have e1 : (List.range b).filter (fun xb => cliOther xb (.num n)) = List.range b := by
              refine List.filter_eq_self.2 ?_
              intro x hx
              have := List.mem_range.1 hx
              unfold cliOther
              simp only [decide_eq_true_eq]
              omega
            have e2 : cliOther b (.num n) = false := by
              unfold cliOther
              simp only [decide_eq_false_iff_not, not_not]
              omega
            rw [e1]
            simp [e2]
      exact key branches h2
    · rw [if_neg h]
      have : (List.range branches).filter (fun xb => cliOther xb (.num m)) = List.range branches := by
        refine List.filter_eq_self.2 ?_
        intro x hx
        have hx' := List.mem_range.1 hx
        unfold cliOther
        simp only [decide_eq_true_eq]
        intro hc
        exact h ⟨x + 1, by rw [← hc]; push_cast; rfl, by omega, by omega⟩
      rw [this, List.length_range]

open Classical in
/-- the contingencies that are branch numbers -/
noncomputable def cliValid (branches : Nat) (sec : List CliSec) : List CliSec := sec.filter (fun s => decide (∃ n : Nat, s = .num n ∧ 1 ≤ n ∧ n ≤ branches))

open Classical in
theorem cliSecRows_length (noBus branches : Nat) (sec : List CliSec) :
    (cliSecRows noBus branches sec).length + (cliValid branches sec).length = branches * sec.length := by
  have key : ∀ (sec : List CliSec) (j : Nat), (((sec.zipIdx j).flatMap (fun s => ((List.range branches).filter (fun xb => cliOther xb s.1)).map (fun xb => (xb, (s.2 + 1) * noBus)))).length +
      (cliValid branches sec).length = branches * sec.length) := by
    intro sec
    induction sec with
    | nil => intro j; simp [cliValid]
    | cons s sec ih =>
      intro j
      have ih' := ih (j + 1)
      rw [List.zipIdx_cons, List.flatMap_cons, List.length_append, List.length_map, cliOther_count]
      have hv : (cliValid branches (s :: sec)).length = (if ∃ n : Nat, s = .num n ∧ 1 ≤ n ∧ n ≤ branches then 1 else 0) + (cliValid branches sec).length := by
        unfold cliValid
        by_cases h : ∃ n : Nat, s = .num n ∧ 1 ≤ n ∧ n ≤ branches
        · rw [List.filter_cons_of_pos (by simpa only [decide_eq_true_eq] using h), if_pos h, List.length_cons]
          omega
        · rw [List.filter_cons_of_neg (by simpa only [decide_eq_true_eq] using h), if_neg h]
          omega
      rw [hv, List.length_cons, Nat.mul_succ]
      by_cases h : ∃ n : Nat, s = .num n ∧ 1 ≤ n ∧ n ≤ branches
      · rw [if_pos h, if_pos h]
        obtain ⟨n, _, h1, h2⟩ := h
        omega
      · rw [if_neg h, if_neg h]
        omega
  exact key sec 0

open Classical in
/-- C208: the tables of security can be built exactly when every contingency is the number of a branch (for networks with branches); they then list, for each contingency, all the other branches -/
theorem C208_contingencies (noBus branches : Nat) (sec : List CliSec) (t : List (Nat × Nat)) : cliSecTable noBus branches sec = .ok t ↔
    ∃ fails : List Nat, sec = fails.map (fun (n : Nat) => CliSec.num n) ∧ (∀ n ∈ fails, 1 ≤ n ∧ n ≤ branches) ∧ t = cliOutages noBus branches fails := by
  have hlen := cliSecRows_length noBus branches sec
  have hle : (cliValid branches sec).length ≤ sec.length := List.length_filter_le _ _
  generalize hw : branches * sec.length = w at hlen
  have hw' : (branches : Int) * (1 + sec.length) = branches + w := by rw [← hw]; push_cast; ring
  -- the table fits exactly when all the contingencies are branches
  have hfit : cliSecTable noBus branches sec = if (cliValid branches sec).length = sec.length then
      .ok ((List.range branches).map (fun xb => (xb, 0)) ++ cliSecRows noBus branches sec) else cliSecTable noBus branches sec := by
    by_cases hv : (cliValid branches sec).length = sec.length
    · rw [if_pos hv]
      unfold cliSecTable
      rw [hw', if_neg (by omega)]
      have hm : ((branches : Int) + w - sec.length).toNat = branches + (cliSecRows noBus branches sec).length := by omega
      rw [hm]
      dsimp only
      have hf := cliSec_fold ((List.range branches).map (fun xb => (xb, 0)) ++ cliSecRows noBus branches sec) [] (List.replicate (branches + (cliSecRows noBus branches sec).length) (0, 0))
      rw [if_pos (by simp)] at hf
      simp only [List.nil_append, List.length_nil] at hf
      rw [hf]
      simp [bind, Except.bind]
    · rw [if_neg hv]
  have hbad : (cliValid branches sec).length ≠ sec.length → ∀ t, cliSecTable noBus branches sec ≠ .ok t := by
    intro hv t ht
    unfold cliSecTable at ht
    rw [hw'] at ht
    by_cases hneg : (branches : Int) + w - sec.length < 0
    · rw [if_pos hneg] at ht; cases ht
    · rw [if_neg hneg] at ht
      dsimp only at ht
      have hf := cliSec_fold ((List.range branches).map (fun xb => (xb, 0)) ++ cliSecRows noBus branches sec) [] (List.replicate ((branches : Int) + w - sec.length).toNat (0, 0))
      rw [if_neg (by simp only [List.length_append, List.length_map, List.length_range, List.length_replicate]; omega)] at hf
      simp only [List.nil_append, List.length_nil] at hf
      rw [hf] at ht
      cases ht
  have hrows : ∀ fails : List Nat, sec = fails.map (fun (n : Nat) => CliSec.num n) →
      (List.range branches).map (fun xb => (xb, 0)) ++ cliSecRows noBus branches sec = cliOutages noBus branches fails := by
    rintro fails rfl
    unfold cliOutages cliSecRows
    rw [List.zipIdx_map, List.flatMap_map]
    congr 2
    funext f
    obtain ⟨n, k⟩ := f
    dsimp only [Prod.map]
    congr 1
    refine List.filter_congr ?_
    intro x _
    unfold cliOther
    simp only [ne_eq, decide_eq_decide]
    constructor
    · intro h hh; exact h (by rw [← hh]; push_cast; rfl)
    · intro h hh; exact h (by exact_mod_cast hh)
  constructor
  · intro h
    have hv : (cliValid branches sec).length = sec.length := by
      by_contra hv
      exact hbad hv t h
    have hall : ∀ s ∈ sec, ∃ n : Nat, s = .num n ∧ 1 ≤ n ∧ n ≤ branches := by
      intro s hs
      have := List.length_filter_eq_length_iff.1 hv s hs
      simpa using this
    obtain ⟨fails, hf⟩ : ∃ fails : List Nat, sec = fails.map (fun (n : Nat) => CliSec.num n) := by
      clear hlen hle hw hw' hfit hbad hrows h hv
      induction sec with
      | nil => exact ⟨[], rfl⟩
      | cons s sec ih =>
        obtain ⟨n, hn, _⟩ := hall s (by simp)
        obtain ⟨f, hf⟩ := ih (fun s hs => hall s (by simp [hs]))
        exact ⟨n :: f, by rw [hn, hf]; rfl⟩
    refine ⟨fails, hf, ?_, ?_⟩
    · intro n hn
      obtain ⟨m, hm, h1, h2⟩ := hall (.num n) (by rw [hf]; exact List.mem_map_of_mem hn)
      injection hm with hm
      have : n = m := by exact_mod_cast hm
      subst this
      exact ⟨h1, h2⟩
    · rw [hfit, if_pos hv] at h
      injection h with h
      rw [← h, hrows fails hf]
  · rintro ⟨fails, hf, hall, rfl⟩
    have hv : (cliValid branches sec).length = sec.length := by
      refine List.length_filter_eq_length_iff.2 ?_
      intro s hs
      rw [hf] at hs
      obtain ⟨n, hn, rfl⟩ := List.mem_map.1 hs
      simp only [decide_eq_true_eq]
      exact ⟨n, rfl, hall n hn⟩
    rw [hfit, if_pos hv, hrows fails hf]

/-! ## C209: what the command line can start -/

theorem cliStart_iff (noBus branches : Nat) (c : CliConf) (s : CliStart) : cliStart noBus branches c = .ok s ↔
    (List.range c.hydro.number.toNat).mapM (cliHydroUnit c) = .ok s.hydro ∧ (List.range c.resNumber.toNat).mapM (cliResUnit c) = .ok s.res ∧
      cliSecTable noBus branches (c.security.map .text) = .ok s.table ∧ 1 ≤ c.noTime := by
  have ht : cliTimes c.noTime = .ok () ↔ 1 ≤ c.noTime := by
    unfold cliTimes
    by_cases h1 : c.noTime < 0
    · rw [if_pos h1]
      exact ⟨(fun h => by cases h), (fun h => by omega)⟩
    · rw [if_neg h1]
      by_cases h2 : c.noTime = 0
      · rw [if_pos h2]
        exact ⟨(fun h => by cases h), (fun h => by omega)⟩
      · rw [if_neg h2]
        exact ⟨(fun _ => by omega), (fun _ => rfl)⟩
  unfold cliStart
  rw [except_bind_ok]
  constructor
  · rintro ⟨h, hh, h1⟩
    obtain ⟨r, hr, h1⟩ := except_bind_ok.1 h1
    obtain ⟨t, htt, h1⟩ := except_bind_ok.1 h1
    obtain ⟨u, hu, h1⟩ := except_bind_ok.1 h1
    injection h1 with h1
    subst h1
    exact ⟨hh, hr, htt, ht.1 hu⟩
  · rintro ⟨h1, h2, h3, h4⟩
    refine ⟨_, h1, except_bind_ok.2 ⟨_, h2, except_bind_ok.2 ⟨_, h3, except_bind_ok.2 ⟨(), ht.2 h4, rfl⟩⟩⟩⟩

/-- with texts as contingencies there is no table, unless there are none -/
theorem cliSec_text (noBus branches : Nat) (sec : List Char) (t : List (Nat × Nat)) : cliSecTable noBus branches (sec.map .text) = .ok t ↔
    sec = [] ∧ t = (List.range branches).map (fun b => (b, 0)) := by
  rw [C208_contingencies]
  constructor
  · rintro ⟨fails, hf, _, rfl⟩
    cases sec with
    | nil =>
      cases fails with
      | nil => exact ⟨rfl, by simp [cliOutages]⟩
      | cons => cases hf
    | cons c sec =>
      cases fails with
      | nil => cases hf
      | cons f fails =>
        rw [List.map_cons, List.map_cons] at hf
        injection hf with h1 _
        cases h1
  · rintro ⟨rfl, rfl⟩
    exact ⟨[], rfl, by simp, by simp [cliOutages]⟩

/-- the renewable units that the command line asks for can not be built -/
theorem cliRes_none {n : Int} {c d : CliConf} (h : cliRes n c = .ok d) (e : CliConf) (h1 : e.resNumber = d.resNumber) (h2 : e.resMax = d.resMax) (h3 : e.resCost = d.resCost)
    (l : List CliUnit) : (List.range e.resNumber.toNat).mapM (cliResUnit e) = .ok l ↔ n = 0 ∧ l = [] := by
  obtain ⟨hn, rfl⟩ := (cliRes_iff _ _ _).1 h
  dsimp only at h1 h2 h3
  rw [h1]
  by_cases h0 : n = 0
  · subst h0
    simp [pure, Except.pure, eq_comm]
  · rw [if_neg h0] at h2
    constructor
    · intro h4
      exfalso
      obtain ⟨_, h5⟩ := (mapM_range_iff _ _ _).1 h4
      obtain ⟨a, _, h6⟩ := h5 0 (by omega)
      unfold cliResUnit at h6
      obtain ⟨_, _, h6⟩ := except_bind_ok.1 h6
      rw [h2] at h6
      obtain ⟨_, h6, _⟩ := except_bind_ok.1 h6
      cases h6
    · rintro ⟨h4, _⟩
      exact absurd h4 h0

/-- the plants of hydropower are built as they were placed -/
theorem cliHydro_of {c : CliConf} {n : Int} {m q : Rat} (hb : c.baseload = [0]) (h : CliPlaced c.hydro n m q) :
    (List.range c.hydro.number.toNat).mapM (cliHydroUnit c) = .ok ((List.range n.toNat).map (fun (i : Nat) => (⟨(i : Int) + 1, m, q, 0⟩ : CliUnit))) := by
  obtain ⟨h1, h2, h3, h4, h5⟩ := h
  rw [h1]
  refine mapM_range_ok _ _ _ ?_
  intro i hi
  obtain ⟨e1, e2, e3⟩ := h5 i (by omega)
  unfold cliHydroUnit
  have : cliEach c.baseload i = .ok 0 := by rw [hb]; rfl
  rw [this, (pyGet_nat_iff _ _ _).2 e1, (pyGet_nat_iff _ _ _).2 e2, (pyGet_nat_iff _ _ _).2 e3]
  rfl

/-- C209: with the configuration of run-n or run-en the engine starts exactly when no renewable unit and no contingency is asked for and there is a time step; the plants of hydropower are then those asked for -/
theorem C209_start_partial (dir : Tok) (a : CliArgs) (c : CliConf) (cmd : CliCmd) (hcmd : cmd = .runN ∨ cmd = .runEN) (h : cliRun dir cmd a = .ok (some c)) (noBus branches : Nat) (s : CliStart) :
    cliStart noBus branches c = .ok s ↔ a.res.getD 0 = 0 ∧ a.sec.getD [] = [] ∧ 1 ≤ c.noTime ∧
      s.hydro = (List.range (a.hydro.getD 3).toNat).map (fun (i : Nat) => (⟨(i : Int) + 1, 1000, 1 / 100, 0⟩ : CliUnit)) ∧ s.res = [] ∧ s.table = (List.range branches).map (fun b => (b, 0)) := by
  have hasked : CliPlaced c.hydro (a.hydro.getD 3) 1000 (1 / 100) ∧ c.security = a.sec.getD [] ∧ c.baseload = [0] := by
    rcases hcmd with rfl | rfl
    · have := (C207_run_n_partial dir a c h).1
      exact ⟨this.hydro, this.sec, this.baseload⟩
    · have := (C207_run_en_partial dir a c h).1
      exact ⟨this.hydro, this.sec, this.baseload⟩
  obtain ⟨hh, hs, hb⟩ := hasked
  have hres : ∀ l : List CliUnit, (List.range c.resNumber.toNat).mapM (cliResUnit c) = .ok l ↔ a.res.getD 0 = 0 ∧ l = [] := by
    intro l
    obtain ⟨k, u, p, r, hk, hu, hp, hr, hc⟩ := (cliRun_iff _ _ _ _).1 h
    have hkr : k.res.getD 0 = a.res.getD 0 := by
      rcases hcmd with rfl | rfl
      · unfold cliParse at hk
        dsimp only at hk
        split at hk
        · cases hk
        injection hk with hk
        rw [← hk]
        rfl
      · unfold cliParse at hk
        dsimp only at hk
        split at hk
        · cases hk
        injection hk with hk
        rw [← hk]
        rfl
    rw [hkr] at hr
    have hc' : c = cliBaseload k (cliSolver k (cliLosses k
        { r with noDem := 2, noRES := 2, noTime := k.time, security := k.sec.getD [], feas := k.feas.getD true, file := some (cliPath dir k.network) })) := by
      rcases hcmd with rfl | rfl
      · injection hc with hc
        exact hc.symm
      · injection hc with hc
        exact hc.symm
    have keep : ∀ d : CliConf, (cliBaseload k (cliSolver k (cliLosses k d))).resNumber = d.resNumber ∧ (cliBaseload k (cliSolver k (cliLosses k d))).resMax = d.resMax ∧
        (cliBaseload k (cliSolver k (cliLosses k d))).resCost = d.resCost := by
      intro d
      have s1 : ∀ e : CliConf, (cliBaseload k e).resNumber = e.resNumber ∧ (cliBaseload k e).resMax = e.resMax ∧ (cliBaseload k e).resCost = e.resCost := by
        intro e; unfold cliBaseload; split <;> exact ⟨rfl, rfl, rfl⟩
      have s2 : ∀ e : CliConf, (cliSolver k e).resNumber = e.resNumber ∧ (cliSolver k e).resMax = e.resMax ∧ (cliSolver k e).resCost = e.resCost := by
        intro e; unfold cliSolver; split <;> exact ⟨rfl, rfl, rfl⟩
      rw [(s1 _).1, (s1 _).2.1, (s1 _).2.2, (s2 _).1, (s2 _).2.1, (s2 _).2.2, cliLosses_of]
      exact ⟨rfl, rfl, rfl⟩
    refine cliRes_none hr c ?_ ?_ ?_ l
    · rw [hc', (keep _).1]
    · rw [hc', (keep _).2.1]
    · rw [hc', (keep _).2.2]
  rw [cliStart_iff, hres, cliSec_text, hs, cliHydro_of hb hh]
  constructor
  · rintro ⟨h1, ⟨h2, h3⟩, ⟨h4, h5⟩, h6⟩
    injection h1 with h1
    exact ⟨h2, h4, h6, h1.symm, h3, h5⟩
  · rintro ⟨h1, h2, h3, h4, h5, h6⟩
    exact ⟨by rw [h4], ⟨h1, h5⟩, ⟨h2, h6⟩, h3⟩

/-- C209, violated: no call of run-n or run-en that asks for renewable units starts, and none that asks for contingencies -/
theorem C209_violated_units (dir : Tok) (a : CliArgs) (c : CliConf) (cmd : CliCmd) (hcmd : cmd = .runN ∨ cmd = .runEN) (h : cliRun dir cmd a = .ok (some c))
    (hask : (∃ n : Int, 1 ≤ n ∧ a.res = some n) ∨ (∃ x l, a.sec = some (x :: l))) (noBus branches : Nat) (s : CliStart) : cliStart noBus branches c ≠ .ok s := by
  intro hs
  obtain ⟨h1, h2, _⟩ := (C209_start_partial dir a c cmd hcmd h noBus branches s).1 hs
  rcases hask with ⟨n, hn, ha⟩ | ⟨x, l, ha⟩
  · rw [ha] at h1
    simp at h1
    omega
  · rw [ha] at h2
    cases h2

/-! ## witnesses -/

/-- run-n --hydro 2, 3 pumps, linear losses of 5% -/
def cliExample : CliArgs := { hydro := some 2, pump := some 3, loss := some true, linearloss := some (1 / 20), time := some 4 }

example : ((cliRun "/p".toList .runN cliExample).toOption.join.map (fun c => (c.hydro.bus, c.pumps.bus, c.losses, c.loss, c.noTime))) = some ([1, 2], [1, 2, 3], false, some (1 / 20), 4) := by decide +kernel
example : ((cliRun "/p".toList .runN cliExample).toOption.join.bind (fun c => (cliStart 4 3 c).toOption)) =
    some ⟨[⟨1, 1000, 1 / 100, 0⟩, ⟨2, 1000, 1 / 100, 0⟩], [], [(0, 0), (1, 0), (2, 0)]⟩ := by decide +kernel
example : ((cliRun "/p".toList .runN { cliExample with sec := some ['2'] }).toOption.join.bind (fun c => (cliStart 4 3 c).toOption)) = none := by decide +kernel
example : ((cliRun "/p".toList .runN { cliExample with res := some 1 }).toOption.join.bind (fun c => (cliStart 4 3 c).toOption)) = none := by decide +kernel
example : cliRun "/p".toList .runN { cliExample with pump := some (-1) } = .error .value := by decide +kernel
example : cliSecTable 4 3 [.num 2, .num 3] = .ok [(0, 0), (1, 0), (2, 0), (0, 4), (2, 4), (0, 8), (1, 8)] := by decide +kernel
example : cliSecTable 4 3 [.num 4] = .error .index := by decide +kernel
example : (cliRun "/p".toList .example { cliExample with linearloss := none }).toOption.join.map (fun c => (c.hydro.number, c.losses, c.noTime)) = some (2, false, 24) := by decide +kernel
example : (cliRun "/p".toList .runAC { hydro := some 5 }).toOption.join.map (fun c => (c.hydro.number, c.noTime)) = some (0, 24) := by decide +kernel

end Pyensys
