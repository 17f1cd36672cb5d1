import Verif.Model.Settings

/-!
# C46, C72: loading a JSON document
-/

namespace Pyensys

variable {P T : Type}

/-! ## Vocabulary -/

/-- a section of the document is present: there is an entry and it is an object -/
def Present (doc : List (String × Json)) (name : String) : Prop := ∃ d, jget doc name = some (.obj d)

/-! ## Lemmas -/

theorem section_some {doc : List (String × Json)} {name : String} {d : List (String × Json)} :
    section? doc name = .ok (some d) ↔ jget doc name = some (.obj d) := by
  unfold section?
  cases h : jget doc name with
  | none => simp
  | some j => cases j <;> simp

theorem section_none {doc : List (String × Json)} {name : String} (h : section? doc name = .ok none) :
    ¬ Present doc name := by
  rintro ⟨d, hd⟩
  rw [section_some.2 hd] at h
  cases h

/-- what a successful reading consists of -/
theorem read_parts (env : ReadEnv P T) (ps : Params P T) (doc : List (String × Json)) (r : Params P T)
    (h : readDocument env ps doc = .ok r) :
    loadProblem doc = .ok r.problem ∧ loadTime env doc = .ok r.time ∧ loadMPC env doc = .ok r.mpc ∧
    (∃ fs, loadProfiles env doc = .ok (fs, r.profilesInit) ∧ fs.mapM (adjustProfile r.time.periods) = .ok r.profiles) ∧
    loadOutput doc = .ok r.output ∧ loadPPOpt doc = .ok r.ppOpt ∧
    loadOptProfiles env ps.tables doc = .ok (r.optProfiles, r.optProfilesInit, r.tables) ∧
    loadBinVars ps.binVars doc = .ok r.binVars ∧ r.initialised = true := by
  unfold readDocument at h
  simp only [bind, Except.bind] at h
  split at h
  · cases h
  rename_i p1 h1
  split at h
  · cases h
  rename_i p2 h2
  split at h
  · cases h
  rename_i p3 h3
  split at h
  · cases h
  rename_i p4 h4
  split at h
  · cases h
  rename_i p5 h5
  split at h
  · cases h
  rename_i p6 h6
  split at h
  · cases h
  rename_i p7 h7
  split at h
  · cases h
  rename_i p8 h8
  split at h
  · cases h
  rename_i p9 h9
  injection h with h
  subst h
  exact ⟨h1, h2, h3, ⟨p4.1, h4, h9⟩, h5, h6, h7, h8, rfl⟩

theorem problem_initialised (doc : List (String × Json)) (p : ProblemSettings) (h : loadProblem doc = .ok p) :
    (p.initialised = true ↔ Present doc "problem") ∧ (¬ Present doc "problem" → p = {}) := by
  unfold loadProblem at h
  split at h
  · cases h
  · rename_i hs
    injection h with h
    subst h
    exact ⟨⟨fun h => (by cases h), fun hp => absurd hp (section_none hs)⟩, fun _ => rfl⟩
  · rename_i d hs
    have hp : Present doc "problem" := ⟨d, section_some.1 hs⟩
    injection h with h
    subst h
    exact ⟨⟨fun _ => hp, fun _ => rfl⟩, fun hn => absurd hp hn⟩

theorem time_initialised (env : ReadEnv P T) (doc : List (String × Json)) (p : TimeSettings)
    (h : loadTime env doc = .ok p) :
    (p.initialised = true ↔ Present doc "opf_time_settings") ∧ (¬ Present doc "opf_time_settings" → p = {}) := by
  unfold loadTime at h
  split at h
  · cases h
  · rename_i hs
    injection h with h
    subst h
    exact ⟨⟨fun h => (by cases h), fun hp => absurd hp (section_none hs)⟩, fun _ => rfl⟩
  · rename_i d hs
    have hp : Present doc "opf_time_settings" := ⟨d, section_some.1 hs⟩
    refine ⟨⟨fun _ => hp, fun _ => ?_⟩, fun hn => absurd hp hn⟩
    simp only [bind, Except.bind] at h
    split at h
    · cases h
    split at h
    · cases h
    split at h
    · cases h
    split at h
    · cases h
    split at h
    · cases h
    split at h
    · split at h
      · cases h
      injection h with h
      subst h
      rfl
    · cases h

theorem mpc_initialised (env : ReadEnv P T) (doc : List (String × Json)) (p : MPCSettings)
    (h : loadMPC env doc = .ok p) :
    (p.initialised = true ↔ Present doc "pandapower_mpc_settings") ∧
      (¬ Present doc "pandapower_mpc_settings" → p = {}) := by
  unfold loadMPC at h
  split at h
  · cases h
  · rename_i hs
    injection h with h
    subst h
    exact ⟨⟨fun h => (by cases h), fun hp => absurd hp (section_none hs)⟩, fun _ => rfl⟩
  · rename_i d hs
    have hp : Present doc "pandapower_mpc_settings" := ⟨d, section_some.1 hs⟩
    refine ⟨⟨fun _ => hp, fun _ => ?_⟩, fun hn => absurd hp hn⟩
    simp only [bind, Except.bind] at h
    split at h
    · cases h
    split at h
    · split at h
      · cases h
      split at h
      · split at h
        · cases h
        split at h
        · cases h
        injection h with h
        subst h
        rfl
      · split at h
        · cases h
        injection h with h
        subst h
        rfl
    · cases h

theorem profiles_initialised (env : ReadEnv P T) (doc : List (String × Json)) (fs : List Frame) (b : Bool)
    (h : loadProfiles env doc = .ok (fs, b)) :
    (b = true ↔ Present doc "pandapower_profiles_data") ∧ (¬ Present doc "pandapower_profiles_data" → fs = []) := by
  unfold loadProfiles at h
  split at h
  · cases h
  · rename_i hs
    injection h with h
    injection h with h1 h2
    subst h1
    subst h2
    exact ⟨⟨fun h => (by cases h), fun hp => absurd hp (section_none hs)⟩, fun _ => rfl⟩
  · rename_i d hs
    have hp : Present doc "pandapower_profiles_data" := ⟨d, section_some.1 hs⟩
    refine ⟨⟨fun _ => hp, fun _ => ?_⟩, fun hn => absurd hp hn⟩
    split at h
    · cases h
    injection h with h
    injection h with h1 h2
    exact h2.symm

theorem output_initialised (doc : List (String × Json)) (p : OutSettings) (h : loadOutput doc = .ok p) :
    (p.initialised = true ↔ Present doc "output_settings") ∧ (¬ Present doc "output_settings" → p = {}) := by
  unfold loadOutput at h
  split at h
  · cases h
  · rename_i hs
    injection h with h
    subst h
    exact ⟨⟨fun h => (by cases h), fun hp => absurd hp (section_none hs)⟩, fun _ => rfl⟩
  · rename_i d hs
    have hp : Present doc "output_settings" := ⟨d, section_some.1 hs⟩
    refine ⟨⟨fun _ => hp, fun _ => ?_⟩, fun hn => absurd hp hn⟩
    simp only [bind, Except.bind] at h
    split at h
    · cases h
    split at h
    · cases h
    split at h
    · cases h
    split at h
    · split at h
      · cases h
      injection h with h
      subst h
      rfl
    · cases h

theorem ppOpt_initialised (doc : List (String × Json)) (p : PPOptSettings) (h : loadPPOpt doc = .ok p) :
    (p.initialised = true ↔ Present doc "pandapower_optimisation_settings") ∧
      (¬ Present doc "pandapower_optimisation_settings" → p = {}) := by
  unfold loadPPOpt at h
  split at h
  · cases h
  · rename_i hs
    injection h with h
    subst h
    exact ⟨⟨fun h => (by cases h), fun hp => absurd hp (section_none hs)⟩, fun _ => rfl⟩
  · rename_i d hs
    have hp : Present doc "pandapower_optimisation_settings" := ⟨d, section_some.1 hs⟩
    injection h with h
    subst h
    exact ⟨⟨fun _ => hp, fun _ => rfl⟩, fun hn => absurd hp hn⟩

theorem opt_initialised (env : ReadEnv P T) (ts : List (String × T)) (doc : List (String × Json)) (l : List P)
    (b : Bool) (ts' : List (String × T)) (h : loadOptProfiles env ts doc = .ok (l, b, ts')) :
    (b = true ↔ Present doc "optimisation_profiles_data") ∧
      (¬ Present doc "optimisation_profiles_data" → l = [] ∧ ts' = ts) := by
  unfold loadOptProfiles at h
  split at h
  · cases h
  · rename_i hs
    injection h with h
    injection h with h1 h2
    injection h2 with h2 h3
    subst h1
    subst h2
    subst h3
    exact ⟨⟨fun h => (by cases h), fun hp => absurd hp (section_none hs)⟩, fun _ => ⟨rfl, rfl⟩⟩
  · rename_i d hs
    have hp : Present doc "optimisation_profiles_data" := ⟨d, section_some.1 hs⟩
    refine ⟨⟨fun _ => hp, fun _ => ?_⟩, fun hn => absurd hp hn⟩
    split at h
    · split at h
      · cases h
      injection h with h
      injection h with h1 h2
      injection h2 with h2 h3
      exact h2.symm
    · split at h
      · cases h
      · split at h
        · cases h
        split at h
        · cases h
        injection h with h
        injection h with h1 h2
        injection h2 with h2 h3
        exact h2.symm
      · cases h
    · cases h

/-! ## C46 -/

/-- **C46.** After a successful reading, each group of settings is marked initialised exactly when its
section is present in the document. -/
theorem C46_initialised_iff_present (env : ReadEnv P T) (ps : Params P T) (doc : List (String × Json))
    (r : Params P T) (h : readDocument env ps doc = .ok r) :
    (r.problem.initialised = true ↔ Present doc "problem") ∧
    (r.time.initialised = true ↔ Present doc "opf_time_settings") ∧
    (r.mpc.initialised = true ↔ Present doc "pandapower_mpc_settings") ∧
    (r.profilesInit = true ↔ Present doc "pandapower_profiles_data") ∧
    (r.output.initialised = true ↔ Present doc "output_settings") ∧
    (r.ppOpt.initialised = true ↔ Present doc "pandapower_optimisation_settings") ∧
    (r.optProfilesInit = true ↔ Present doc "optimisation_profiles_data") ∧ r.initialised = true := by
  obtain ⟨h1, h2, h3, ⟨fs, h4, _⟩, h5, h6, h7, _, h9⟩ := read_parts env ps doc r h
  exact ⟨(problem_initialised doc _ h1).1, (time_initialised env doc _ h2).1, (mpc_initialised env doc _ h3).1,
    (profiles_initialised env doc _ _ h4).1, (output_initialised doc _ h5).1, (ppOpt_initialised doc _ h6).1,
    (opt_initialised env _ doc _ _ _ h7).1, h9⟩

/-- **C46.** Settings whose section is missing have their default values, whatever the reader object held
before; without time settings there is one period. -/
theorem C46_absent_defaults (env : ReadEnv P T) (ps : Params P T) (doc : List (String × Json))
    (r : Params P T) (h : readDocument env ps doc = .ok r) :
    (¬ Present doc "problem" → r.problem = {}) ∧
    (¬ Present doc "opf_time_settings" → r.time = {} ∧ r.time.periods = 1) ∧
    (¬ Present doc "pandapower_mpc_settings" → r.mpc = {}) ∧
    (¬ Present doc "pandapower_profiles_data" → r.profiles = []) ∧
    (¬ Present doc "output_settings" → r.output = {}) ∧
    (¬ Present doc "pandapower_optimisation_settings" → r.ppOpt = {}) ∧
    (¬ Present doc "optimisation_profiles_data" → r.optProfiles = []) := by
  obtain ⟨h1, h2, h3, ⟨fs, h4, h4'⟩, h5, h6, h7, _, h9⟩ := read_parts env ps doc r h
  refine ⟨(problem_initialised doc _ h1).2, ?_, (mpc_initialised env doc _ h3).2, ?_,
    (output_initialised doc _ h5).2, (ppOpt_initialised doc _ h6).2, ?_⟩
  · intro hn
    have := (time_initialised env doc _ h2).2 hn
    rw [this]
    exact ⟨rfl, rfl⟩
  · intro hn
    rw [(profiles_initialised env doc _ _ h4).2 hn] at h4'
    injection h4' with h4'
    exact h4'.symm
  · intro hn
    exact ((opt_initialised env _ doc _ _ _ h7).2 hn).1

/-- a value given in a section, or else a default -/
def GivenOr (d : List (String × Json)) (key : String) (default v : Json) : Prop :=
  (∀ w, jget d key = some w → v = w) ∧ (jget d key = none → v = default)

theorem givenOr_jdef (d : List (String × Json)) (key : String) (v : Json) : GivenOr d key v (jdef d key v) := by
  unfold jdef
  exact ⟨fun w hw => by rw [hw]; rfl, fun hn => by rw [hn]; rfl⟩

/-- **C46.** Keys missing in a section that is present take their documented defaults, the others the
given values. -/
theorem C46_optional_keys (env : ReadEnv P T) (ps : Params P T) (doc : List (String × Json))
    (r : Params P T) (h : readDocument env ps doc = .ok r) :
    (∀ d, jget doc "problem" = some (.obj d) →
      GivenOr d "system" (.str "") r.problem.system ∧ GivenOr d "name" (.str "") r.problem.problem ∧
      GivenOr d "multi_objective" (.bool false) r.problem.multiObjective ∧
      GivenOr d "stochastic" (.bool false) r.problem.stochastic ∧
      GivenOr d "inter_temporal" (.bool false) r.problem.interTemporal ∧
      GivenOr d "opf_optimizer" (.str "pandapower") r.problem.opfOptimizer ∧
      GivenOr d "problem_optimizer" (.str "") r.problem.problemOptimizer ∧
      GivenOr d "opf_type" (.str "ac") r.problem.opfType ∧
      GivenOr d "return_rate_in_percentage" (.num 0) r.problem.returnRate ∧
      GivenOr d "non_anticipative" (.bool false) r.problem.nonAnticipative) ∧
    (∀ d, jget doc "pandapower_optimisation_settings" = some (.obj d) →
      GivenOr d "continue_on_divergence" (.bool false) r.ppOpt.onDivergence ∧
      GivenOr d "display_progress_bar" (.bool false) r.ppOpt.progressBar ∧
      GivenOr d "optimisation_software" (.str "pypower") r.ppOpt.software) := by
  obtain ⟨h1, _, _, _, _, h6, _⟩ := read_parts env ps doc r h
  constructor
  · intro d hd
    unfold loadProblem at h1
    rw [section_some.2 hd] at h1
    injection h1 with h1
    rw [← h1]
    exact ⟨givenOr_jdef d _ _, givenOr_jdef d _ _, givenOr_jdef d _ _, givenOr_jdef d _ _, givenOr_jdef d _ _,
      givenOr_jdef d _ _, givenOr_jdef d _ _, givenOr_jdef d _ _, givenOr_jdef d _ _, givenOr_jdef d _ _⟩
  · intro d hd
    unfold loadPPOpt at h6
    rw [section_some.2 hd] at h6
    injection h6 with h6
    rw [← h6]
    exact ⟨givenOr_jdef d _ _, givenOr_jdef d _ _, givenOr_jdef d _ _⟩

/-- **C42.** After a document has been read, every stored profile has exactly one row per period of the time
settings, and comes from one of the document's profiles, in order, by the adjustment (with the same columns). -/
theorem C42_after_reading (env : ReadEnv P T) (ps : Params P T) (doc : List (String × Json)) (r : Params P T)
    (h : readDocument env ps doc = .ok r) :
    (∀ g ∈ r.profiles, g.rows.length = r.time.periods) ∧
    ∃ fs, loadProfiles env doc = .ok (fs, r.profilesInit) ∧
      List.Forall₂ (fun f g => adjustProfile r.time.periods f = .ok g ∧ g.columns = f.columns) fs r.profiles := by
  obtain ⟨_, _, _, ⟨fs, h4, h5⟩, _⟩ := read_parts env ps doc r h
  have one : ∀ (n : Nat) (f g : Frame), adjustProfile n f = .ok g → g.rows.length = n ∧ g.columns = f.columns := by
    intro n f g hg
    unfold adjustProfile recalculate at hg
    split at hg
    · split at hg
      · cases hg
      · split at hg
        · injection hg with hg
          rw [← hg]
          simp
        · cases hg
    · split at hg
      · cases hg
      · injection hg with hg
        rw [← hg]
        exact ⟨by omega, rfl⟩
  have hf : List.Forall₂ (fun f g => adjustProfile r.time.periods f = .ok g) fs r.profiles := by
    clear h h4
    generalize r.profiles = gs at h5
    generalize r.time.periods = n at h5
    induction fs generalizing gs with
    | nil =>
      simp only [List.mapM_nil] at h5
      injection h5 with h5
      rw [← h5]
      exact .nil
    | cons f fs ih =>
      rw [List.mapM_cons] at h5
      simp only [bind, Except.bind] at h5
      cases hf : adjustProfile n f with
      | error e => rw [hf] at h5; cases h5
      | ok g =>
        rw [hf] at h5
        simp only at h5
        cases hfs : fs.mapM (adjustProfile n) with
        | error e => rw [hfs] at h5; cases h5
        | ok gs' =>
          rw [hfs] at h5
          injection h5 with h5
          rw [← h5]
          exact .cons hf (ih gs' hfs)
  refine ⟨?_, fs, h4, hf.imp (fun f g hg => ⟨hg, (one _ f g hg).2⟩)⟩
  intro g hg
  clear h5 h4 h
  generalize r.profiles = gs at hf hg
  induction hf with
  | nil => cases hg
  | cons hab _ ih =>
    rcases List.mem_cons.1 hg with rfl | hg
    · exact (one _ _ _ hab).1
    · exact ih hg

/-- **C46.** The case file: the path given is kept, except that a path ending in 'm' is first converted and
then gets "at" appended (so `case.m` is read from `case.mat`); the frequency is the one given. -/
theorem C46_case_file (env : ReadEnv P T) (ps : Params P T) (doc : List (String × Json)) (r : Params P T)
    (h : readDocument env ps doc = .ok r) (d : List (String × Json))
    (hd : jget doc "pandapower_mpc_settings" = some (.obj d)) :
    ∃ p f, jget d "mat_file_path" = some (.str p) ∧ jget d "frequency" = some f ∧ r.mpc.frequency = f ∧
      (p.toList.getLast? = some 'm' → env.matFile p = .ok () ∧ r.mpc.path = p ++ "at") ∧
      (p.toList.getLast? ≠ some 'm' → r.mpc.path = p) := by
  obtain ⟨_, _, h3, _⟩ := read_parts env ps doc r h
  unfold loadMPC at h3
  rw [section_some.2 hd] at h3
  simp only [bind, Except.bind, jreq] at h3
  cases hp : jget d "mat_file_path" with
  | none => rw [hp] at h3; cases h3
  | some p =>
    rw [hp] at h3
    simp only at h3
    cases p with
    | str p =>
      simp only at h3
      cases hc : p.toList.getLast? with
      | none => rw [hc] at h3; cases h3
      | some c =>
        rw [hc] at h3
        simp only at h3
        cases hf : jget d "frequency" with
        | none =>
          rw [hf] at h3
          split at h3
          · cases hm : env.matFile p with
            | error e => rw [hm] at h3; cases h3
            | ok u => rw [hm] at h3; cases h3
          · cases h3
        | some f =>
          rw [hf] at h3
          split at h3
          · rename_i hcm
            subst hcm
            cases hm : env.matFile p with
            | error e => rw [hm] at h3; cases h3
            | ok u =>
              rw [hm] at h3
              injection h3 with h3
              rw [← h3]
              exact ⟨p, f, rfl, rfl, rfl, fun _ => ⟨hm, rfl⟩, fun hn => absurd hc hn⟩
          · rename_i hcm
            injection h3 with h3
            rw [← h3]
            refine ⟨p, f, rfl, rfl, rfl, fun hm => ?_, fun _ => rfl⟩
            rw [hc] at hm
            injection hm with hm
            exact absurd hm hcm
    | _ => cases h3

/-- **C46.** A present section without one of its required keys is never accepted. -/
theorem C46_required_keys (env : ReadEnv P T) (ps : Params P T) (doc : List (String × Json))
    (d : List (String × Json)) (k : String) (hk : jget d k = none)
    (hs : (jget doc "opf_time_settings" = some (.obj d) ∧ k ∈ ["begin", "end", "frequency", "time_block"]) ∨
      (jget doc "pandapower_mpc_settings" = some (.obj d) ∧ k ∈ ["mat_file_path", "frequency"]) ∨
      (jget doc "output_settings" = some (.obj d) ∧ k ∈ ["directory", "format", "output_variables"])) :
    ∀ r, readDocument env ps doc ≠ .ok r := by
  intro r h
  obtain ⟨_, h2, h3, _, h5, _⟩ := read_parts env ps doc r h
  have hreq : jreq d k = .error .key := by unfold jreq; rw [hk]
  rcases hs with ⟨hd, hk⟩ | ⟨hd, hk⟩ | ⟨hd, hk⟩
  · unfold loadTime at h2
    rw [section_some.2 hd] at h2
    simp only [List.mem_cons, List.not_mem_nil, or_false] at hk
    simp only [bind, Except.bind] at h2
    split at h2
    · cases h2
    rename_i a1 e1
    split at h2
    · cases h2
    rename_i a2 e2
    split at h2
    · cases h2
    rename_i a3 e3
    split at h2
    · cases h2
    split at h2
    · cases h2
    rename_i a5 e5
    rcases hk with rfl | rfl | rfl | rfl
    · rw [hreq] at e1; cases e1
    · rw [hreq] at e2; cases e2
    · rw [hreq] at e3; cases e3
    · rw [hreq] at e5; cases e5
  · unfold loadMPC at h3
    rw [section_some.2 hd] at h3
    simp only [List.mem_cons, List.not_mem_nil, or_false] at hk
    simp only [bind, Except.bind] at h3
    rcases hk with rfl | rfl
    · rw [hreq] at h3; cases h3
    · rw [hreq] at h3
      split at h3
      · cases h3
      split at h3
      · split at h3
        · cases h3
        split at h3
        · split at h3
          · cases h3
          · cases h3
        · cases h3
      · cases h3
  · unfold loadOutput at h5
    rw [section_some.2 hd] at h5
    simp only [List.mem_cons, List.not_mem_nil, or_false] at hk
    simp only [bind, Except.bind] at h5
    split at h5
    · cases h5
    rename_i a1 e1
    split at h5
    · cases h5
    rename_i a2 e2
    split at h5
    · cases h5
    rename_i a3 e3
    rcases hk with rfl | rfl | rfl
    · rw [hreq] at e1; cases e1
    · rw [hreq] at e2; cases e2
    · rw [hreq] at e3; cases e3

/-! ## C72 -/

/-- **C72, the remainder that holds:** a second reading with the same object gives the same parameters
as a fresh object, except for the binary variables and the tables. -/
theorem C72_fresh_except_partial (env : ReadEnv P T) (ps : Params P T) (doc : List (String × Json))
    (r : Params P T) (h : readDocument env ps doc = .ok r) :
    ∃ r0, readDocument env {} doc = .ok r0 ∧
      r = { r0 with binVars := ps.binVars ++ r0.binVars, tables := r.tables } ∧
      (r.tables = r0.tables ∨ r.tables = ps.tables) := by
  obtain ⟨h1, h2, h3, ⟨fs, h4, h4'⟩, h5, h6, h7, h8, h9⟩ := read_parts env ps doc r h
  have h7' : ∃ ts0, loadOptProfiles env [] doc = .ok (r.optProfiles, r.optProfilesInit, ts0) ∧
      (r.tables = ts0 ∨ r.tables = ps.tables) := by
    unfold loadOptProfiles at h7 ⊢
    split at h7
    · cases h7
    · injection h7 with h7
      injection h7 with g1 g2
      injection g2 with g2 g3
      rw [← g1, ← g2, ← g3]
      exact ⟨[], rfl, Or.inr rfl⟩
    · split at h7
      · split at h7
        · cases h7
        · injection h7 with h7
          injection h7 with g1 g2
          injection g2 with g2 g3
          rw [← g1, ← g2, ← g3]
          exact ⟨[], rfl, Or.inr rfl⟩
      · split at h7
        · cases h7
        · split at h7
          · cases h7
          split at h7
          · cases h7
          · injection h7 with h7
            injection h7 with g1 g2
            injection g2 with g2 g3
            rw [← g1, ← g2, ← g3]
            exact ⟨_, rfl, Or.inl rfl⟩
        · cases h7
      · cases h7
  obtain ⟨ts0, h7a, h7b⟩ := h7'
  have h8' : ∃ vs, loadBinVars [] doc = .ok vs ∧ r.binVars = ps.binVars ++ vs := by
    unfold loadBinVars at h8 ⊢
    split at h8
    · split at h8
      · cases h8
      · rename_i vs hvs
        injection h8 with h8
        exact ⟨vs, rfl, h8.symm⟩
    · cases h8
  obtain ⟨vs, h8a, h8b⟩ := h8'
  refine ⟨{ r with binVars := vs, tables := ts0 }, ?_, ?_, h7b⟩
  · unfold readDocument
    simp only [bind, Except.bind, h1, h2, h3, h4, h5, h6, h7a, h8a, h4', pure, Except.pure]
    rw [← h9]
  · simp only [← h8b]

/-- **C72 is violated**: reading the same document twice with one reader object doubles the binary
variables, for every document that declares some. -/
theorem C72_binary_variables_violated (env : ReadEnv P T) (doc : List (String × Json)) (r r' : Params P T)
    (h : readDocument env {} doc = .ok r) (h' : readDocument env r doc = .ok r') :
    r'.binVars = r.binVars ++ r.binVars := by
  obtain ⟨r0, h1, h2, _⟩ := C72_fresh_except_partial env r doc r' h'
  rw [h] at h1
  injection h1 with h1
  subst h1
  rw [h2]

/-- **C72.** The second reading succeeds whenever the first did. -/
theorem C72_second_reading_succeeds_partial (env : ReadEnv P T) (ps : Params P T) (doc : List (String × Json))
    (r : Params P T) (h : readDocument env {} doc = .ok r) : ∃ r', readDocument env ps doc = .ok r' := by
  obtain ⟨h1, h2, h3, ⟨fs, h4, h4'⟩, h5, h6, h7, h8, h9⟩ := read_parts env {} doc r h
  have h7' : ∃ x, loadOptProfiles env ps.tables doc = .ok x := by
    unfold loadOptProfiles at h7 ⊢
    split at h7
    · cases h7
    · exact ⟨_, rfl⟩
    · split at h7
      · split at h7
        · cases h7
        · exact ⟨_, rfl⟩
      · split at h7
        · cases h7
        · split at h7
          · cases h7
          split at h7
          · cases h7
          · exact ⟨_, rfl⟩
        · cases h7
      · cases h7
  obtain ⟨x, h7a⟩ := h7'
  have h8' : ∃ vs, loadBinVars ps.binVars doc = .ok vs := by
    unfold loadBinVars at h8 ⊢
    split at h8
    · split at h8
      · cases h8
      · exact ⟨_, rfl⟩
    · cases h8
  obtain ⟨vs, h8a⟩ := h8'
  unfold readDocument
  simp only [bind, Except.bind, h1, h2, h3, h4, h5, h6, h7a, h8a, h4', pure, Except.pure]
  exact ⟨_, rfl⟩

/-! ## Instances -/

/-- no files, no pandas: only sections that need none can be read -/
def envEx : ReadEnv Unit Unit where
  dateRange := fun _ _ f => if f = "1H" then .ok 24 else .error .value
  matFile := fun _ => .ok ()
  ppProfile := fun _ => .ok none
  optProfile := fun _ => .ok ()
  table := fun _ => .error .key
  attestProfile := fun _ => .error .key

/-- a document with a problem, hourly periods and one binary variable -/
def docEx : List (String × Json) :=
  [("problem", .obj [("system", .str "power"), ("non_anticipative", .bool true)]),
   ("opf_time_settings", .obj [("begin", .str "2021-1-1"), ("end", .str "2021-1-2"), ("frequency", .str "hourly"),
      ("time_block", .str "1")]),
   ("optimisation_binary_variables", .arr [.obj [("element_type", .str "line"), ("costs", .arr [.num 3])]])]

/-- it can be read: 24 periods, pandapower as default OPF, one variable -/
example : ∃ r, readDocument envEx {} docEx = .ok r ∧ r.time = ⟨24, true⟩ ∧
    r.problem.opfOptimizer = .str "pandapower" ∧ r.problem.nonAnticipative = .bool true ∧
    r.binVars.length = 1 ∧ r.mpc.initialised = false := ⟨_, rfl, rfl, rfl, rfl, rfl, rfl⟩

end Pyensys
