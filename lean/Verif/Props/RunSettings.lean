import Verif.Model.RunSettings
import Verif.Props.Settings

/-!
# C237-C239: settings of the runs, output writer, preparing an object again
-/

namespace Pyensys

variable {P T : Type}

/-! ## Vocabulary -/

/-- the user's name of a solver -/
def RsNamed (name : String) (f : RsSolver) : Prop := (name = "pypower" ∧ f = .runopp) ∨ (name = "power models" ∧ f = .runpmAcOpf)

/-- `v` is what a section says about a key: the given value, or else the default -/
theorem rs_given {d : List (String × Json)} {key : String} {default v w : Json} (h1 : GivenOr d key default v) (h2 : GivenOr d key default w) : v = w := by
  cases h : jget d key with
  | none => rw [h1.2 h, h2.2 h]
  | some u => rw [h1.1 u h, h2.1 u h]

/-- the values that count as true: numbers different from 0, texts, lists and objects that are not empty -/
inductive RsTruthy : Json → Prop
  | bool : RsTruthy (.bool true)
  | num (x : Rat) : x ≠ 0 → RsTruthy (.num x)
  | str (s : String) : s ≠ "" → RsTruthy (.str s)
  | arr (x : Json) (l : List Json) : RsTruthy (.arr (x :: l))
  | obj (x : String × Json) (l : List (String × Json)) : RsTruthy (.obj (x :: l))

/-! ## Lemmas -/

theorem rs_truthy (j : Json) : rsTrue j = true ↔ RsTruthy j := by
  constructor
  · intro h
    cases j with
    | null => simp [rsTrue] at h
    | bool b => simp only [rsTrue] at h; subst h; exact .bool
    | num x => exact .num x (by simpa [rsTrue] using h)
    | str t => exact .str t (by simpa [rsTrue] using h)
    | arr l => cases l with
      | nil => simp [rsTrue] at h
      | cons x l => exact .arr x l
    | obj l => cases l with
      | nil => simp [rsTrue] at h
      | cons x l => exact .obj x l
  · intro h
    cases h <;> simp_all [rsTrue]

theorem rs_not_truthy {j : Json} (h : ¬ RsTruthy j) : rsTrue j = false := by
  cases hj : rsTrue j with
  | false => rfl
  | true => exact absurd ((rs_truthy j).1 hj) h

theorem rs_settings (p : Params P T) (buses : List Int) (s : RsState) :
    (rsInitialise p buses s).settings =
      if p.ppOpt.initialised = true ∧ p.problem.initialised = true then
        ⟨p.ppOpt.progressBar, p.ppOpt.software, p.problem.opfType, p.ppOpt.onDivergence, if p.time.initialised = true then List.range p.time.periods else []⟩
      else s.settings := by
  have h1 : (rsLoad p s).settings = s.settings := by unfold rsLoad; split <;> rfl
  have h2 : (rsControl p (rsLoad p s)).settings = s.settings := by rw [← h1]; unfold rsControl; split <;> rfl
  have h3 : (rsWrite p (rsControl p (rsLoad p s))).settings = s.settings := by rw [← h2]; unfold rsWrite; split <;> rfl
  unfold rsInitialise rsUnits rsDefine
  by_cases ha : p.ppOpt.initialised = true <;> by_cases hb : p.time.initialised = true <;> by_cases hc : p.problem.initialised = true <;> simp [ha, hb, hc, h3]

theorem rs_time (env : ReadEnv P T) (doc : List (String × Json)) (t : TimeSettings) (h : loadTime env doc = .ok t) (d : List (String × Json))
    (hd : jget doc "opf_time_settings" = some (.obj d)) :
    ∃ (b e : Json) (block : String), jget d "begin" = some b ∧ jget d "end" = some e ∧ jget d "frequency" = some (.str "hourly") ∧ jget d "time_block" = some (.str block) ∧
      env.dateRange b e (block ++ "H") = .ok t.periods ∧ t.initialised = true := by
  unfold loadTime at h
  rw [section_some.2 hd] at h
  have req : ∀ (k : String) (v : Json), jreq d k = .ok v → jget d k = some v := by
    intro k v hk
    unfold jreq at hk
    cases hg : jget d k with
    | none => rw [hg] at hk; cases hk
    | some w => rw [hg] at hk; injection hk with hk; rw [hk]
  simp only [bind, Except.bind] at h
  split at h
  · cases h
  rename_i b eb
  split at h
  · cases h
  rename_i e ee
  split at h
  · cases h
  rename_i f ef
  split at h
  · cases h
  rename_i a ea
  split at h
  · cases h
  rename_i tb et
  split at h
  · rename_i tb'
    split at h
    · cases h
    rename_i n en
    injection h with h
    subst h
    unfold frequencyAlias at ea
    split at ea
    · injection ea with ea
      subst ea
      exact ⟨b, e, tb', req _ _ eb, req _ _ ee, req _ _ ef, req _ _ et, en, rfl⟩
    · cases ea
  · cases h

/-! ## C237 -/

/-- **C237.** A document with the sections of the problem and of pandapower, which names one of both solvers (by default pypower) and AC (the default), without "inter_temporal":
every power flow calls that solver, whatever the object was prepared with before.  The progress bar is that of the document for power models. -/
theorem C237_single_partial (env : ReadEnv P T) (ps : Params P T) (doc : List (String × Json)) (r : Params P T) (hr : readDocument env ps doc = .ok r)
    (pd od : List (String × Json)) (hp : jget doc "problem" = some (.obj pd)) (ho : jget doc "pandapower_optimisation_settings" = some (.obj od))
    (hopt : GivenOr pd "opf_optimizer" (.str "pandapower") (.str "pandapower")) (htype : GivenOr pd "opf_type" (.str "ac") (.str "ac"))
    (inter : Json) (hi : GivenOr pd "inter_temporal" (.bool false) inter) (hi0' : ¬ RsTruthy inter)
    (name : String) (f : RsSolver) (hname : GivenOr od "optimisation_software" (.str "pypower") (.str name)) (hf : RsNamed name f)
    (bar : Json) (hbar : GivenOr od "display_progress_bar" (.bool false) bar) (buses : List Int) (st : RsState) :
    ∃ b, rsRun r (rsInitialise r buses st).settings = .ok (.single f b) ∧ (f = .runpmAcOpf → (b = true ↔ RsTruthy bar)) := by
  have hi0 := rs_not_truthy hi0'
  have hk := C46_optional_keys env ps doc r hr
  have hini := C46_initialised_iff_present env ps doc r hr
  obtain ⟨_, _, _, _, k5, k6, _, k8, _, _⟩ := hk.1 pd hp
  obtain ⟨_, o2, o3⟩ := hk.2 od ho
  rw [rs_settings, if_pos ⟨hini.2.2.2.2.2.1.2 ⟨od, ho⟩, hini.1.2 ⟨pd, hp⟩⟩]
  unfold rsRun
  rw [rs_given k6 hopt, rs_given k5 hi, rs_given k8 htype, rs_given o3 hname, rs_given o2 hbar]
  rcases hf with ⟨rfl, rfl⟩ | ⟨rfl, rfl⟩
  · exact ⟨false, by simp [rsPandapower, hi0, rsSingle, rsTry, rsOption], fun h => by cases h⟩
  · exact ⟨rsTrue bar, by simp [rsPandapower, hi0, rsSingle, rsTry, rsOption], fun _ => rs_truthy bar⟩

/-- **C237.** With "inter_temporal" and time settings a power flow is one run of that solver over all periods of the date range, 0, 1, ..., with both options of the document. -/
theorem C237_series_partial (env : ReadEnv P T) (ps : Params P T) (doc : List (String × Json)) (r : Params P T) (hr : readDocument env ps doc = .ok r)
    (pd od td : List (String × Json)) (hp : jget doc "problem" = some (.obj pd)) (ho : jget doc "pandapower_optimisation_settings" = some (.obj od))
    (ht : jget doc "opf_time_settings" = some (.obj td))
    (hopt : GivenOr pd "opf_optimizer" (.str "pandapower") (.str "pandapower")) (htype : GivenOr pd "opf_type" (.str "ac") (.str "ac"))
    (inter : Json) (hi : GivenOr pd "inter_temporal" (.bool false) inter) (hi1' : RsTruthy inter)
    (name : String) (f : RsSolver) (hname : GivenOr od "optimisation_software" (.str "pypower") (.str name)) (hf : RsNamed name f)
    (bar : Json) (hbar : GivenOr od "display_progress_bar" (.bool false) bar) (cont : Json) (hcont : GivenOr od "continue_on_divergence" (.bool false) cont)
    (buses : List Int) (st : RsState) :
    ∃ (b e : Json) (block : String) (n : Nat) (go bars : Bool), jget td "begin" = some b ∧ jget td "end" = some e ∧ jget td "time_block" = some (.str block) ∧
      env.dateRange b e (block ++ "H") = .ok n ∧ (go = true ↔ RsTruthy cont) ∧ (bars = true ↔ RsTruthy bar) ∧
      rsRun r (rsInitialise r buses st).settings = .ok (.series (List.range n) go bars f) := by
  have hi1 := (rs_truthy inter).2 hi1'
  have hk := C46_optional_keys env ps doc r hr
  have hini := C46_initialised_iff_present env ps doc r hr
  obtain ⟨_, h2, _⟩ := read_parts env ps doc r hr
  obtain ⟨b, e, block, hb, he, _, hbl, hn, hti⟩ := rs_time env doc r.time h2 td ht
  obtain ⟨_, _, _, _, k5, k6, _, k8, _, _⟩ := hk.1 pd hp
  obtain ⟨o1, o2, o3⟩ := hk.2 od ho
  refine ⟨b, e, block, r.time.periods, rsTrue cont, rsTrue bar, hb, he, hbl, hn, rs_truthy cont, rs_truthy bar, ?_⟩
  rw [rs_settings, if_pos ⟨hini.2.2.2.2.2.1.2 ⟨od, ho⟩, hini.1.2 ⟨pd, hp⟩⟩]
  unfold rsRun
  rw [rs_given k6 hopt, rs_given k5 hi, rs_given k8 htype, rs_given o3 hname, rs_given o2 hbar, rs_given o1 hcont]
  rcases hf with ⟨rfl, rfl⟩ | ⟨rfl, rfl⟩ <;> simp [rsPandapower, hi1, rsSeries, rsOption, hti, bind, Except.bind]

/-- **C237.** With "inter_temporal" a solver or a type that does not exist is an error in every power flow. -/
theorem C237_unknown_partial (env : ReadEnv P T) (ps : Params P T) (doc : List (String × Json)) (r : Params P T) (hr : readDocument env ps doc = .ok r)
    (pd od : List (String × Json)) (hp : jget doc "problem" = some (.obj pd)) (ho : jget doc "pandapower_optimisation_settings" = some (.obj od))
    (hopt : GivenOr pd "opf_optimizer" (.str "pandapower") (.str "pandapower"))
    (inter : Json) (hi : GivenOr pd "inter_temporal" (.bool false) inter) (hi1' : RsTruthy inter)
    (type soft : String) (htype : GivenOr pd "opf_type" (.str "ac") (.str type)) (hname : GivenOr od "optimisation_software" (.str "pypower") (.str soft))
    (hx : type ≠ "ac" ∨ ∀ f, ¬ RsNamed soft f) (buses : List Int) (st : RsState) :
    rsRun r (rsInitialise r buses st).settings = .error .key := by
  have hi1 := (rs_truthy inter).2 hi1'
  have hk := C46_optional_keys env ps doc r hr
  have hini := C46_initialised_iff_present env ps doc r hr
  obtain ⟨_, _, _, _, k5, k6, _, k8, _, _⟩ := hk.1 pd hp
  obtain ⟨_, _, o3⟩ := hk.2 od ho
  rw [rs_settings, if_pos ⟨hini.2.2.2.2.2.1.2 ⟨od, ho⟩, hini.1.2 ⟨pd, hp⟩⟩]
  unfold rsRun
  rw [rs_given k6 hopt, rs_given k5 hi, rs_given k8 htype, rs_given o3 hname]
  have hopt : rsOption (.str type) (.str soft) = .error .key := by
    unfold rsOption
    split
    · rename_i heq
      injection heq with heq
      rcases hx with hx | hx
      · exact absurd heq hx
      split
      · rename_i h2
        injection h2 with h2
        exact absurd (Or.inl ⟨h2, rfl⟩) (hx .runopp)
      · rename_i h2
        injection h2 with h2
        exact absurd (Or.inr ⟨h2, rfl⟩) (hx .runpmAcOpf)
      · rename_i h2; cases h2
      · rename_i h2; cases h2
      · rfl
    · rename_i h2; cases h2
    · rename_i h2; cases h2
    · rfl
  simp [rsPandapower, hi1, rsSeries, hopt, bind, Except.bind]

/-- **C237 fails for one period:** without "inter_temporal" a solver or a type that does not exist is no error; no power flow is run at all. -/
theorem C237_violated_unknown (env : ReadEnv P T) (ps : Params P T) (doc : List (String × Json)) (r : Params P T) (hr : readDocument env ps doc = .ok r)
    (pd od : List (String × Json)) (hp : jget doc "problem" = some (.obj pd)) (ho : jget doc "pandapower_optimisation_settings" = some (.obj od))
    (inter : Json) (hi : GivenOr pd "inter_temporal" (.bool false) inter) (hi0' : ¬ RsTruthy inter)
    (type soft : String) (htype : GivenOr pd "opf_type" (.str "ac") (.str type)) (hname : GivenOr od "optimisation_software" (.str "pypower") (.str soft))
    (hx : type ≠ "ac" ∨ ∀ f, ¬ RsNamed soft f) (buses : List Int) (st : RsState) :
    rsRun r (rsInitialise r buses st).settings = .ok .nothing := by
  have hi0 := rs_not_truthy hi0'
  have hk := C46_optional_keys env ps doc r hr
  have hini := C46_initialised_iff_present env ps doc r hr
  obtain ⟨_, _, _, _, k5, k6, _, k8, _, _⟩ := hk.1 pd hp
  obtain ⟨_, _, o3⟩ := hk.2 od ho
  rw [rs_settings, if_pos ⟨hini.2.2.2.2.2.1.2 ⟨od, ho⟩, hini.1.2 ⟨pd, hp⟩⟩]
  unfold rsRun
  rw [rs_given k5 hi, rs_given k8 htype, rs_given o3 hname]
  have htyp : type ≠ "ac" → ∀ s, rsOption (.str type) s = .error .key := by
    intro h s
    unfold rsOption
    split
    · rename_i heq
      injection heq with heq
      exact absurd heq h
    · rename_i h2; cases h2
    · rename_i h2; cases h2
    · rfl
  have hsing : ∀ (bar cont : Json) (steps : List Nat), rsSingle ⟨bar, .str soft, .str type, cont, steps⟩ = .nothing := by
    intro bar cont steps
    unfold rsSingle
    split
    · rename_i h2
      injection h2 with h2
      rcases hx with hx | hx
      · simp [htyp hx, rsTry]
      · exact absurd (Or.inl ⟨h2, rfl⟩) (hx .runopp)
    · rename_i h2
      injection h2 with h2
      rcases hx with hx | hx
      · simp [htyp hx, rsTry]
      · exact absurd (Or.inr ⟨h2, rfl⟩) (hx .runpmAcOpf)
    · rfl
  simp [hi0, hsing]

/-- **C237 fails without the section of pandapower:** the default solver is not used; without "inter_temporal" no power flow is run, with it every power flow is an error. -/
theorem C237_violated_section (env : ReadEnv P T) (ps : Params P T) (doc : List (String × Json)) (r : Params P T) (hr : readDocument env ps doc = .ok r)
    (ho : ¬ Present doc "pandapower_optimisation_settings") (hopt : r.problem.opfOptimizer = .str "pandapower") (buses : List Int) :
    (RsTruthy r.problem.interTemporal → rsRun r (rsInitialise r buses {}).settings = .error .key) ∧
    (¬ RsTruthy r.problem.interTemporal → rsRun r (rsInitialise r buses {}).settings = .ok .nothing) := by
  have hini := C46_initialised_iff_present env ps doc r hr
  have h0 : ¬ r.ppOpt.initialised = true := fun h => ho (hini.2.2.2.2.2.1.1 h)
  rw [rs_settings, if_neg (fun h => h0 h.1)]
  unfold rsRun
  rw [hopt]
  constructor
  · intro h
    simp [rsPandapower, rsSeries, rsOption, bind, Except.bind, (rs_truthy _).2 h]
  · intro h
    simp [rsPandapower, rsSingle, rs_not_truthy h]

/-- **C237 fails without time settings:** the default is one period, but with "inter_temporal" a power flow covers none. -/
theorem C237_violated_periods (env : ReadEnv P T) (ps : Params P T) (doc : List (String × Json)) (r : Params P T) (hr : readDocument env ps doc = .ok r)
    (pd od : List (String × Json)) (hp : jget doc "problem" = some (.obj pd)) (ho : jget doc "pandapower_optimisation_settings" = some (.obj od))
    (ht : ¬ Present doc "opf_time_settings") (hopt : r.problem.opfOptimizer = .str "pandapower") (hi' : RsTruthy r.problem.interTemporal)
    (buses : List Int) (st : RsState) :
    r.time.periods = 1 ∧ ∀ c, rsRun r (rsInitialise r buses st).settings = .ok c → ∃ go bar f, c = .series [] go bar f := by
  have hi := (rs_truthy _).2 hi'
  have hini := C46_initialised_iff_present env ps doc r hr
  refine ⟨((C46_absent_defaults env ps doc r hr).2.1 ht).2, ?_⟩
  intro c hc
  have h0 : r.time.initialised = false := by
    cases h : r.time.initialised with
    | false => rfl
    | true => exact absurd (hini.2.1.1 h) ht
  rw [rs_settings, if_pos ⟨hini.2.2.2.2.2.1.2 ⟨od, ho⟩, hini.1.2 ⟨pd, hp⟩⟩] at hc
  unfold rsRun rsSeries at hc
  rw [hopt] at hc
  simp only [rsPandapower, decide_true, if_true, hi, h0, bind, Except.bind] at hc
  split at hc
  · cases hc
  · rename_i f hf
    injection hc with hc
    exact ⟨_, _, _, hc.symm⟩

/-- **C237 fails for the progress bar of pypower:** it is never shown in a power flow of one period. -/
theorem C237_violated_bar (s : RsSettings) (b : Bool) : rsSingle s = .single .runopp b → b = false := by
  intro h
  unfold rsSingle at h
  split at h
  · unfold rsTry at h
    split at h
    · injection h with _ h; exact h.symm
    · cases h
  · rename_i hs
    unfold rsTry at h
    split at h
    · rename_i f hf
      injection h with h1 _
      subst h1
      rw [hs] at hf
      unfold rsOption at hf
      split at hf
      · simp at hf
      · cases hf
      · cases hf
      · cases hf
    · cases h
  · cases h

/-! ## C238 -/

/-- what the user asks for in an entry of "output_variables" -/
structure RsAsked (d : List (String × Json)) (l : RsLog) : Prop where
  dataset : jget d "name_dataset" = some l.dataset
  name : jget d "name_variable" = some l.name
  indexes : ∃ i, jget d "variable_indexes" = some i ∧ (i = .arr [] → l.index = none) ∧ (∀ x xs, i = .arr (x :: xs) → l.index = some i)

theorem rs_output (doc : List (String × Json)) (o : OutSettings) (h : loadOutput doc = .ok o) (d : List (String × Json)) (hd : jget doc "output_settings" = some (.obj d)) :
    ∃ l, jget d "directory" = some o.directory ∧ jget d "format" = some o.format ∧ jget d "output_variables" = some (.obj l) ∧ o.initialised = true ∧
      l.mapM (fun e => loadOutputVar e.2) = .ok o.vars := by
  unfold loadOutput at h
  rw [section_some.2 hd] at h
  have req : ∀ (k : String) (v : Json), jreq d k = .ok v → jget d k = some v := by
    intro k v hk
    unfold jreq at hk
    cases hg : jget d k with
    | none => rw [hg] at hk; cases hk
    | some w => rw [hg] at hk; injection hk with hk; rw [hk]
  simp only [bind, Except.bind] at h
  split at h
  · cases h
  rename_i a ea
  split at h
  · cases h
  rename_i b eb
  split at h
  · cases h
  rename_i c ec
  split at h
  · rename_i l
    split at h
    · cases h
    rename_i vs hv
    injection h with h
    subst h
    exact ⟨l, req _ _ ea, req _ _ eb, req _ _ ec, rfl, hv⟩
  · cases h

theorem rs_var (j : Json) (v : OutputVar) (h : loadOutputVar j = .ok v) : ∃ d, j = .obj d ∧ RsAsked d (rsLog v) := by
  unfold loadOutputVar at h
  split at h
  · rename_i d
    have req : ∀ (k : String) (v : Json), jreq d k = .ok v → jget d k = some v := by
      intro k v hk
      unfold jreq at hk
      cases hg : jget d k with
      | none => rw [hg] at hk; cases hk
      | some w => rw [hg] at hk; injection hk with hk; rw [hk]
    simp only [bind, Except.bind] at h
    split at h
    · cases h
    rename_i a ea
    split at h
    · cases h
    rename_i b eb
    split at h
    · cases h
    rename_i c ec
    injection h with h
    subst h
    refine ⟨d, rfl, ⟨req _ _ ea, req _ _ eb, c, req _ _ ec, ?_, ?_⟩⟩
    · intro hc; subst hc; simp [rsLog, rsTrue]
    · intro x xs hc; subst hc; simp [rsLog, rsTrue]
  · cases h
  · cases h

theorem rs_mapM (l : List (String × Json)) : ∀ vs : List OutputVar, l.mapM (fun e => loadOutputVar e.2) = .ok vs →
    List.Forall₂ (fun (e : String × Json) (g : RsLog) => ∃ d, e.2 = .obj d ∧ RsAsked d g) l (vs.map rsLog) := by
  induction l with
  | nil =>
    intro vs h
    injection h with h
    subst h
    exact List.Forall₂.nil
  | cons e l ih =>
    intro vs h
    simp only [List.mapM_cons, bind, Except.bind] at h
    split at h
    · cases h
    rename_i v hv
    split at h
    · cases h
    rename_i ws hw
    injection h with h
    subst h
    exact List.Forall₂.cons (rs_var e.2 v hv) (ih ws hw)

theorem rs_writer (p : Params P T) (buses : List Int) (s : RsState) :
    (rsInitialise p buses s).writer = if p.output.initialised = true ∧ p.time.initialised = true then
        some ⟨List.range p.time.periods, p.output.directory, p.output.format, p.output.vars.map rsLog⟩
      else if p.mpc.initialised = true then none else s.writer := by
  have h0 : (rsLoad p s).writer = if p.mpc.initialised = true then none else s.writer := by unfold rsLoad; split <;> rfl
  have h1 : (rsControl p (rsLoad p s)).writer = if p.mpc.initialised = true then none else s.writer := by rw [← h0]; unfold rsControl; split <;> rfl
  unfold rsInitialise rsUnits
  have h3 : (rsDefine p (rsWrite p (rsControl p (rsLoad p s)))).writer = (rsWrite p (rsControl p (rsLoad p s))).writer := by
    unfold rsDefine
    split
    · rfl
    · split <;> rfl
  show (rsDefine p (rsWrite p (rsControl p (rsLoad p s)))).writer = _
  rw [h3]
  unfold rsWrite
  split
  · rfl
  · exact h1

/-- **C238.** With output settings and time settings the network has a writer for every period of the date range, in the directory and format of the document, that logs exactly the
variables of the document in their order: an empty list of indices stands for all elements.  This holds after every preparation, also after those between power flows. -/
theorem C238_writer_partial (env : ReadEnv P T) (ps : Params P T) (doc : List (String × Json)) (r : Params P T) (hr : readDocument env ps doc = .ok r)
    (od td : List (String × Json)) (ho : jget doc "output_settings" = some (.obj od)) (ht : jget doc "opf_time_settings" = some (.obj td)) (buses : List Int) (st : RsState) :
    ∃ (b e : Json) (block : String) (n : Nat) (vars : List (String × Json)) (w : RsWriter), jget td "begin" = some b ∧ jget td "end" = some e ∧
      jget td "time_block" = some (.str block) ∧ env.dateRange b e (block ++ "H") = .ok n ∧ jget od "output_variables" = some (.obj vars) ∧
      (rsInitialise r buses st).writer = some w ∧ (rsRenew r buses st).writer = some w ∧
      w.steps = List.range n ∧ jget od "directory" = some w.directory ∧ jget od "format" = some w.format ∧
      List.Forall₂ (fun (e : String × Json) (g : RsLog) => ∃ d, e.2 = .obj d ∧ RsAsked d g) vars w.logs := by
  obtain ⟨_, h2, _, _, h5, _⟩ := read_parts env ps doc r hr
  obtain ⟨b, e, block, hb, he, _, hbl, hn, hti⟩ := rs_time env doc r.time h2 td ht
  obtain ⟨l, hdir, hfmt, hvars, hoi, hm⟩ := rs_output doc r.output h5 od ho
  refine ⟨b, e, block, r.time.periods, l, ⟨List.range r.time.periods, r.output.directory, r.output.format, r.output.vars.map rsLog⟩, hb, he, hbl, hn, hvars, ?_, ?_, rfl, hdir, hfmt,
    rs_mapM l _ hm⟩
  · rw [rs_writer, if_pos ⟨hoi, hti⟩]
  · unfold rsRenew
    rw [rs_writer, if_pos ⟨hoi, hti⟩]

/-- **C238 fails without time settings:** output settings are accepted but the network gets no writer. -/
theorem C238_violated_no_time (env : ReadEnv P T) (ps : Params P T) (doc : List (String × Json)) (r : Params P T) (hr : readDocument env ps doc = .ok r)
    (ht : ¬ Present doc "opf_time_settings") (buses : List Int) : (rsInitialise r buses {}).writer = none := by
  have hini := C46_initialised_iff_present env ps doc r hr
  rw [rs_writer, if_neg (fun h => ht (hini.2.1.1 h.2))]
  split <;> rfl

/-! ## C239 -/

/-- **C239.** If a document has a case file and the sections of the problem and of pandapower, the state of an object after it is prepared with the document does not depend on what
it was prepared with before. -/
theorem C239_fresh_partial (env : ReadEnv P T) (ps : Params P T) (doc : List (String × Json)) (r : Params P T) (hr : readDocument env ps doc = .ok r)
    (hm : Present doc "pandapower_mpc_settings") (hp : Present doc "problem") (ho : Present doc "pandapower_optimisation_settings") (buses : List Int) (st : RsState) :
    rsInitialise r buses st = rsInitialise r buses {} ∧ rsRenew r buses st = rsInitialise r buses {} := by
  have hini := C46_initialised_iff_present env ps doc r hr
  have h1 := hini.2.2.1.2 hm
  have h2 := hini.1.2 hp
  have h3 := hini.2.2.2.2.2.1.2 ho
  have key : ∀ s : RsState, rsInitialise r buses s = rsInitialise r buses {} := by
    intro s
    unfold rsInitialise rsLoad rsControl rsWrite rsDefine rsUnits
    by_cases a : r.profilesInit = true <;> by_cases b : r.output.initialised = true <;> by_cases c : r.time.initialised = true <;> simp [h1, h2, h3, a, b, c]
  exact ⟨key st, key _⟩

/-- **C239.** What is loaded is the case of the document with its profiles as controllers. -/
theorem C239_network_partial (env : ReadEnv P T) (ps : Params P T) (doc : List (String × Json)) (r : Params P T) (hr : readDocument env ps doc = .ok r)
    (hm : Present doc "pandapower_mpc_settings") (buses : List Int) (st : RsState) :
    (rsInitialise r buses st).case = some (r.mpc.path, r.mpc.frequency) ∧ (rsInitialise r buses st).controllers = r.profiles ∧ (rsInitialise r buses st).units = buses := by
  have hini := C46_initialised_iff_present env ps doc r hr
  have h1 := hini.2.2.1.2 hm
  have h4 : r.profilesInit = true ∨ r.profiles = [] := by
    by_cases h : Present doc "pandapower_profiles_data"
    · exact Or.inl (hini.2.2.2.1.2 h)
    · exact Or.inr ((C46_absent_defaults env ps doc r hr).2.2.2.1 h)
  unfold rsInitialise rsLoad rsControl rsWrite rsDefine rsUnits
  rcases h4 with a | a
  · by_cases b : r.output.initialised = true <;> by_cases c : r.time.initialised = true <;> by_cases d : r.ppOpt.initialised = true <;> by_cases e : r.problem.initialised = true <;>
      simp [h1, a, b, c, d, e]
  · by_cases a' : r.profilesInit = true <;> by_cases b : r.output.initialised = true <;> by_cases c : r.time.initialised = true <;> by_cases d : r.ppOpt.initialised = true <;>
      by_cases e : r.problem.initialised = true <;> simp [h1, a, a', b, c, d, e]

/-- **C239 fails without the section of pandapower:** the runs keep the settings of the document before. -/
theorem C239_violated_settings (env : ReadEnv P T) (ps : Params P T) (doc : List (String × Json)) (r : Params P T) (hr : readDocument env ps doc = .ok r)
    (ho : ¬ Present doc "pandapower_optimisation_settings") (buses : List Int) (st : RsState) : (rsInitialise r buses st).settings = st.settings := by
  have hini := C46_initialised_iff_present env ps doc r hr
  rw [rs_settings, if_neg (fun h => ho (hini.2.2.2.2.2.1.1 h.1))]

/-- **C239 fails without a case file:** the generators of flexible units are added to those of the document before. -/
theorem C239_violated_units (env : ReadEnv P T) (ps : Params P T) (doc : List (String × Json)) (r : Params P T) (hr : readDocument env ps doc = .ok r)
    (hm : ¬ Present doc "pandapower_mpc_settings") (buses : List Int) (st : RsState) :
    (rsInitialise r buses st).case = st.case ∧ (rsInitialise r buses st).units = st.units ++ buses := by
  have hini := C46_initialised_iff_present env ps doc r hr
  have h1 : ¬ r.mpc.initialised = true := fun h => hm (hini.2.2.1.1 h)
  unfold rsInitialise rsLoad rsControl rsWrite rsDefine rsUnits
  by_cases a : r.profilesInit = true <;> by_cases b : r.output.initialised = true <;> by_cases c : r.time.initialised = true <;> by_cases d : r.ppOpt.initialised = true <;>
    by_cases e : r.problem.initialised = true <;> simp [h1, a, b, c, d, e]

/-! ## a case -/

/-- an environment with 24 periods -/
def rsEnv : ReadEnv Unit Unit := ⟨fun _ _ _ => .ok 24, fun _ => .ok (), fun _ => .ok (some []), fun _ => .ok (), fun _ => .ok ("", ()), fun _ => .ok ()⟩

/-- a document -/
def rsDoc (software : String) (inter : Bool) : List (String × Json) :=
  [("problem", .obj [("inter_temporal", .bool inter)]),
   ("opf_time_settings", .obj [("begin", .str "2021-1-1"), ("end", .str "2021-1-2"), ("frequency", .str "hourly"), ("time_block", .str "1")]),
   ("pandapower_mpc_settings", .obj [("mat_file_path", .str "case5.mat"), ("frequency", .num 50)]),
   ("output_settings", .obj [("directory", .str "out"), ("format", .str ".xlsx"),
      ("output_variables", .obj [("a", .obj [("name_dataset", .str "res_bus"), ("name_variable", .str "p_mw"), ("variable_indexes", .arr [])]),
        ("b", .obj [("name_dataset", .str "res_line"), ("name_variable", .str "loading_percent"), ("variable_indexes", .arr [.num 3])])])]),
   ("pandapower_optimisation_settings", .obj [("optimisation_software", .str software)])]

/-- the call of a document -/
def rsCallOf (software : String) (inter : Bool) : Except PyErr RsCall := do
  let r ← readDocument rsEnv {} (rsDoc software inter)
  rsRun r (rsInitialise r [] {}).settings

/-- the numbers of periods and of variables of the writer, and the variables without indices -/
def rsWriterOf : Except PyErr (Option (Nat × List Bool)) := do
  let r ← readDocument rsEnv {} (rsDoc "pypower" true)
  .ok ((rsInitialise r [] {}).writer.map (fun w => (w.steps.length, w.logs.map (fun g => g.index.isNone))))

example : rsCallOf "power models" false = .ok (.single .runpmAcOpf false) ∧ rsCallOf "pypower" true = .ok (.series (List.range 24) false false .runopp) ∧
    rsCallOf "gurobi" false = .ok .nothing ∧ rsCallOf "gurobi" true = .error .key := by
  refine ⟨rfl, rfl, rfl, rfl⟩

example : rsWriterOf = .ok (some (24, [true, false])) := rfl

end Pyensys
