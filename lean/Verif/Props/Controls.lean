import Verif.Model.Controls
import Verif.Props.Coupled
import Verif.Props.SavedPyomo
import Verif.Props.AttestOptions
import Mathlib.Tactic.Linarith
import Mathlib.Tactic.FieldSimp

/-!
# The controls of the engine (C213-C216)
-/

namespace Pyensys

/-! ## C213: initialise and run -/

/-- an engine before `initialise` -/
def runFresh : RunState := ⟨false, false⟩

theorem runCall_state {s : RunState} {c : RunCall} {r : RunState × RunOut} (h : runCall s c = .ok r) :
    (r.1.conf = true ↔ s.conf = true ∨ c = .initConf) ∧ (r.1.compiled = true ↔ s.compiled = true ∨ c = .initPath) := by
  cases c with
  | initConf =>
    injection h with h
    subst h
    simp
  | initPath =>
    injection h with h
    subst h
    simp
  | runObject =>
    unfold runCall at h
    dsimp only at h
    unfold runOther at h
    cases hc : s.compiled
    · rw [hc] at h; cases h
    · rw [hc] at h
      injection h with h
      subst h
      simp [hc]
  | run solver =>
    unfold runCall at h
    dsimp only at h
    by_cases h1 : solver = some "pyomo".toList
    · rw [if_pos h1] at h
      cases hc : s.conf
      · rw [hc] at h; cases h
      · rw [hc] at h
        injection h with h
        subst h
        simp [hc]
    · rw [if_neg h1] at h
      by_cases h2 : solver = some "CLP".toList
      · rw [if_pos h2] at h; cases h
      · rw [if_neg h2] at h
        unfold runOther at h
        cases hc : s.compiled
        · rw [hc] at h; cases h
        · rw [hc] at h
          injection h with h
          subst h
          simp [hc]

theorem runBind {ε α β : Type} {x : Except ε α} {f : α → Except ε β} {b : β} : (x >>= f) = .ok b ↔ ∃ a, x = .ok a ∧ f a = .ok b := by
  cases x <;> simp [bind, Except.bind]

theorem runCalls_state (l : List RunCall) : ∀ (s : RunState) (o : List RunOut) (r : RunState × List RunOut),
    l.foldlM runStep (s, o) = .ok r →
    (r.1.conf = true ↔ s.conf = true ∨ RunCall.initConf ∈ l) ∧ (r.1.compiled = true ↔ s.compiled = true ∨ RunCall.initPath ∈ l) ∧ r.2.length = o.length + l.length := by
  induction l with
  | nil =>
    intro s o r h
    injection h with h
    subst h
    simp
  | cons c l ih =>
    intro s o r h
    rw [List.foldlM_cons] at h
    obtain ⟨st, hst, h⟩ := runBind.1 h
    obtain ⟨q, hq, hst⟩ := runBind.1 hst
    injection hst with hst
    subst hst
    obtain ⟨h1, h2, h3⟩ := ih _ _ _ h
    obtain ⟨g1, g2⟩ := runCall_state hq
    refine ⟨?_, ?_, ?_⟩
    · rw [h1, g1, List.mem_cons, or_assoc, @eq_comm _ c]
    · rw [h2, g2, List.mem_cons, or_assoc, @eq_comm _ c]
    · rw [h3]; simp; omega

/-- C213: after any history of calls without exceptions, `run('pyomo')` gives the solved model exactly if the engine was initialised with a configuration, and `run()` evaluates the compiled model exactly if it was initialised with a workbook; runs change nothing of this -/
theorem C213_run_partial (l : List RunCall) (s : RunState) (o : List RunOut) (h : runCalls runFresh l = .ok (s, o)) :
    (runCall s (.run (some "pyomo".toList)) = .ok (s, .model) ↔ RunCall.initConf ∈ l) ∧ (runCall s (.run none) = .ok (s, .evaluated) ↔ RunCall.initPath ∈ l) := by
  obtain ⟨h1, h2, _⟩ := runCalls_state l _ _ _ h
  have h1' : s.conf = true ↔ RunCall.initConf ∈ l := by rw [h1]; simp [runFresh]
  have h2' : s.compiled = true ↔ RunCall.initPath ∈ l := by rw [h2]; simp [runFresh]
  constructor
  · rw [← h1']
    unfold runCall
    dsimp only
    rw [if_pos rfl]
    cases s.conf
    · constructor
      · intro h; cases h
      · intro h; cases h
    · exact ⟨fun _ => rfl, fun _ => rfl⟩
  · rw [← h2']
    unfold runCall
    dsimp only
    rw [if_neg (by intro hh; cases hh), if_neg (by intro hh; cases hh)]
    unfold runOther
    cases s.compiled
    · constructor
      · intro h; cases h
      · intro h; cases h
    · exact ⟨fun _ => rfl, fun _ => rfl⟩

/-- C213, violated: a history in which a model is handed to `run` before a workbook was read always raises an AttributeError at that point; so run-en with pyomo and run-example-hydro never give results -/
theorem C213_violated_object (l rest : List RunCall) (s : RunState) (o : List RunOut) (h : runCalls runFresh l = .ok (s, o)) (hl : RunCall.initPath ∉ l) :
    runCalls runFresh (l ++ .runObject :: rest) = .error .attribute := by
  obtain ⟨_, h2, _⟩ := runCalls_state l _ _ _ h
  have hs : s.compiled = false := by
    cases hc : s.compiled
    · rfl
    · rcases h2.1 hc with h3 | h3
      · cases h3
      · exact absurd h3 hl
  unfold runCalls at h ⊢
  rw [List.foldlM_append, h]
  change List.foldlM runStep (s, o) (RunCall.runObject :: rest) = _
  rw [List.foldlM_cons]
  have : runCall s .runObject = .error .attribute := by
    unfold runCall runOther
    dsimp only
    rw [hs]
    rfl
  unfold runStep
  dsimp only
  rw [this]
  rfl

/-- C213, violated: `run('CLP')` always raises -/
theorem C213_violated_clp (s : RunState) (r : RunState × RunOut) : runCall s (.run (some "CLP".toList)) ≠ .ok r := by
  intro h
  unfold runCall at h
  dsimp only at h
  rw [if_neg (by decide), if_pos rfl] at h
  cases h

example : runCalls runFresh runCase = .error .attribute := by decide +kernel
example : runCalls runFresh [.initConf, .run (some "pyomo".toList), .initPath, .run none, .runObject] = .ok (⟨true, true⟩, [.nothing, .model, .nothing, .evaluated, .evaluated]) := by decide +kernel

/-! ## C214: water -/

/-- the value given last to plant `xv + 1`, if any -/
def waterGiven (calls : List (Int × Rat)) (xv : Nat) : Option Rat := ((calls.filter (fun c => decide (c.1 = (xv : Int) + 1))).getLast?).map (·.2)

theorem npRowSet_nat (l : List Rat) (i : Nat) (q : Rat) (h : i < l.length) : npRowSet l (i : Int) q = .ok (l.set i q) := by
  unfold npRowSet
  rw [if_neg (by omega), if_pos (by exact_mod_cast h), Int.toNat_natCast]

/-- one call for plant `k + 1` of `n` -/
theorem setHydro_ok (win : List (List Rat)) (row : List Rat) (hrow : win[1]? = some row) (n k : Nat) (hn : row.length = n) (hk : k < n) (q : Rat) :
    setHydro (n : Int) win ((k : Int) + 1) q = .ok (win.set 1 (row.set k q)) := by
  unfold setHydro
  have : npGet win 1 = .ok row := by unfold npGet; rw [hrow]
  rw [this]
  show (if (n : Int) = 1 then _ else _) = _
  by_cases h1 : (n : Int) = 1
  · rw [if_pos h1]
    have hk0 : k = 0 := by omega
    subst hk0
    have hl : row.length = 1 := by omega
    match row, hl with
    | [a], _ => rfl
  · rw [if_neg h1]
    have e : (k : Int) + 1 - 1 = (k : Int) := by ring
    rw [e, npRowSet_nat row k q (by omega)]
    rfl

/-- C214: after any sequence of `set_Hydro` for existing plants, the input of each plant is the value given last to it, and no other input has changed -/
theorem C214_inputs_partial (win : List (List Rat)) (row : List Rat) (hrow : win[1]? = some row) (n : Nat) (hn : row.length = n) (calls : List (Int × Rat))
    (hc : ∀ c ∈ calls, 1 ≤ c.1 ∧ c.1 ≤ n) : ∃ r, setHydros (n : Int) win calls = .ok r ∧
      (∀ xv, xv < n → winOf r xv 1 = (waterGiven calls xv).getD (winOf win xv 1)) ∧ ∀ xv x, x ≠ 1 → winOf r xv x = winOf win xv x := by
  suffices h : ∀ (calls : List (Int × Rat)), (∀ c ∈ calls, 1 ≤ c.1 ∧ c.1 ≤ n) → ∃ row', setHydros (n : Int) win calls = .ok (win.set 1 row') ∧ row'.length = n ∧
      ∀ xv, xv < n → row'[xv]? = some ((waterGiven calls xv).getD (winOf win xv 1)) by
    obtain ⟨row', h1, h2, h3⟩ := h calls hc
    have hlt : 1 < win.length := (List.getElem?_eq_some_iff.1 hrow).1
    refine ⟨_, h1, ?_, ?_⟩
    · intro xv hxv
      unfold winOf at h3 ⊢
      rw [List.getElem?_set_self hlt]
      simp only [Option.bind_some]
      rw [h3 xv hxv]
      rfl
    · intro xv x hx
      unfold winOf
      rw [List.getElem?_set_ne (by omega)]
  intro calls
  induction calls using List.reverseRecOn with
  | nil =>
    intro _
    refine ⟨row, ?_, hn, ?_⟩
    · show (pure win : Except PyErr _) = _
      have : win.set 1 row = win := by
        obtain ⟨h, e⟩ := List.getElem?_eq_some_iff.1 hrow
        rw [← e]
        exact List.set_getElem_self h
      rw [this]
      rfl
    · intro xv hxv
      have : row[xv]? = some row[xv] := List.getElem?_eq_getElem (by omega)
      simp [waterGiven, winOf, hrow, this]
  | append_singleton calls c ih =>
    intro hc
    obtain ⟨row', h1, h2, h3⟩ := ih (fun d hd => hc d (by simp [hd]))
    obtain ⟨hc1, hc2⟩ := hc c (by simp)
    have hlt : 1 < win.length := (List.getElem?_eq_some_iff.1 hrow).1
    obtain ⟨k, hk⟩ : ∃ k : Nat, c.1 = (k : Int) + 1 := ⟨(c.1 - 1).toNat, by omega⟩
    have hkn : k < n := by omega
    refine ⟨row'.set k c.2, ?_, by simp [h2], ?_⟩
    · unfold setHydros at h1 ⊢
      rw [List.foldlM_append, h1]
      show (setHydro (n : Int) (win.set 1 row') c.1 c.2 >>= fun w => pure w) = _
      rw [hk, setHydro_ok (win.set 1 row') row' (List.getElem?_set_self hlt) n k h2 hkn c.2]
      show (Except.ok _ : Except PyErr _) = _
      rw [List.set_set]
    · intro xv hxv
      have hf : waterGiven (calls ++ [c]) xv = if xv = k then some c.2 else waterGiven calls xv := by
        unfold waterGiven
        rw [List.filter_append]
        by_cases h : xv = k
        · subst h
          rw [if_pos rfl]
          simp [hk]
        · rw [if_neg h]
          have : ¬ ((k : Int) = (xv : Int)) := by omega
          simp [hk, this]
      rw [hf]
      by_cases h : xv = k
      · subst h
        rw [if_pos rfl, List.getElem?_set_self (by omega)]
        rfl
      · rw [if_neg h, List.getElem?_set_ne (by omega)]
        exact h3 xv hxv

/-- C214: a plant never produces more than the water that was given to it last (both counted with the weights of the tree), whatever was given to it before and to other plants -/
theorem C214_water_partial (data : List EnPeriod) (hpos : ∀ d ∈ data, 0 < d.names) (d0 : EnPeriod) (hd0 : data[0]? = some d0)
    (hroot : d0.unc = false) (hw : ∀ d ∈ data, d.weights.length = d.names) (hnn : ∀ d ∈ data, ∀ x ∈ d.weights, 0 ≤ x)
    (v : Nat) (size : EnSize) (t : EnTree) (w : EnWeights)
    (links : EnLinks) (h : enInitialise data (some v) = .ok (size, t, w, links)) (hone : t.uncertainty.sum ≠ 1)
    (OF : List Rat) (hOF : ofWeights size t w = .ok OF)
    (win : List (List Rat)) (row : List Rat) (hrow : win[1]? = some row) (n : Nat) (hn : row.length = n) (calls : List (Int × Rat)) (hc : ∀ c ∈ calls, 1 ≤ c.1 ∧ c.1 ≤ n)
    (xg : Nat) (hxg : xg < n) (V : Rat) (hV : waterGiven calls xg = some V) (hzero : ∀ x, x ≠ 1 → winOf win xg x = 0) (r : List (List Rat)) (hr : setHydros (n : Int) win calls = .ok r)
    (wout : Nat → Rat) (hout : ∀ x, 0 ≤ wout x)
    (soc : Nat → Nat → Rat) (hsoc : EnFeasible links (fun x => w.wght.getD x 0) (winOf r xg) wout soc) (hs : ∀ x e, 0 ≤ soc x e)
    (gen : Nat → Nat → Rat) (noGen conv : Nat) (weights : List Rat) (noTime : Nat) (base : Rat)
    (hlink : ∀ j p, j < OF.length → pyeneE size t j = .ok p → wout p = inFromEM gen noGen conv weights noTime base j xg) :
    ((List.range OF.length).map (fun j => OF.getD j 0 *
        (((List.range noTime).map (fun xt => gen (j * noGen + (conv + xg)) xt * (weights[xt]?).getD 0)).sum * base))).sum ≤ d0.weights.getD 0 0 * V := by
  obtain ⟨r', hr', h1, h2⟩ := C214_inputs_partial win row hrow n hn calls hc
  rw [hr] at hr'
  injection hr' with hr'
  subst hr'
  refine C115_water data hpos d0 hd0 hroot hw hnn v size t w links h hone OF hOF V (winOf r xg) wout ⟨?_, ?_⟩ hout soc hsoc hs gen noGen conv weights noTime base xg hlink
  · rw [h1 xg hxg, hV]
    rfl
  · intro x hx
    rw [h2 xg x hx, hzero x hx]

/-- C214, violated: with several plants number 0 is the last one; with one plant every number is -/
theorem C214_violated_numbers (win : List (List Rat)) (row : List Rat) (hrow : win[1]? = some row) (q : Rat) :
    (∀ n : Nat, 2 ≤ n → row.length = n → setHydro (n : Int) win 0 q = setHydro (n : Int) win (n : Int) q) ∧
    (∀ i j : Int, setHydro 1 win i q = setHydro 1 win j q) := by
  have hg : npGet win 1 = .ok row := by unfold npGet; rw [hrow]
  constructor
  · intro n hn hl
    have hn1 : ¬ (n : Int) = 1 := by omega
    unfold setHydro
    rw [hg]
    show (if (n : Int) = 1 then _ else _) = (if (n : Int) = 1 then _ else _)
    rw [if_neg hn1, if_neg hn1]
    have e : npRowSet row (0 - 1) q = npRowSet row ((n : Int) - 1) q := by
      unfold npRowSet
      rw [if_pos (by omega), if_neg (by omega), if_neg (by omega), if_pos (by omega), hl]
      congr 2
    rw [e]
  · intro i j
    unfold setHydro
    rw [hg]
    rfl

example : setHydros 2 [[0, 0], [0, 0], [0, 0]] [(1, 5), (2, 7), (1, 6)] = .ok [[0, 0], [6, 7], [0, 0]] := by decide +kernel
example : waterGiven [(1, 5), (2, 7), (1, 6)] 0 = some 6 := by decide +kernel
example : setHydro 1 [[0], [0]] 9 4 = .ok [[0], [4]] := by decide +kernel
example : setHydro 2 [[0, 0], [0, 0]] 3 4 = .error .index := by decide +kernel

/-! ## C215: marginal values and water left -/

/-- C215: the flag of a plant is raised only if the marginal value of its water exceeds the penalty -/
theorem C215_flag_partial (q penalty base : Rat) (hb : base ≠ 0) (hp : 0 ≤ penalty / base) :
    (hydroFlag (some q) penalty base = .ok true → penalty / base < -q) ∧ (∀ n : Int, (q : Rat) = n → (hydroFlag (some q) penalty base = .ok true ↔ penalty / base < -q)) ∧
      hydroFlag none penalty base = .ok false := by
  have h0 : hydroFlag (some q) penalty base = .ok (decide (penalty / base < ((-1 * pyTruncQ q : Int) : Rat))) := by
    unfold hydroFlag
    dsimp only
    rw [if_neg hb]
  obtain ⟨hm1, hm2, _⟩ := C197_marginal_partial
  have hm : hydroMarginal (some q) = -1 * pyTruncQ q := rfl
  refine ⟨?_, ?_, rfl⟩
  · intro h
    rw [h0] at h
    injection h with h
    have h := of_decide_eq_true h
    have h3 := (hm1 q).2
    rw [hm] at h3
    have h4 : (0 : Rat) < ((-1 * pyTruncQ q : Int) : Rat) := lt_of_le_of_lt hp h
    rw [abs_of_pos h4] at h3
    -- the value has the sign of the marginal value
    have hneg : q < 0 := by
      by_contra hc
      have hc : 0 ≤ q := not_lt.1 hc
      have : (0 : Int) ≤ pyTruncQ q := by
        unfold pyTruncQ
        rw [if_neg (not_lt.2 hc)]
        exact Int.floor_nonneg.2 hc
      have h5 : (0 : Int) < -1 * pyTruncQ q := by exact_mod_cast h4
      omega
    rw [abs_of_neg hneg] at h3
    exact lt_of_lt_of_le h h3
  · intro n hn
    rw [h0]
    have : -1 * pyTruncQ q = -n := by
      have := hm2 n
      rw [← hn] at this
      rw [← hm, this]
    rw [this, hn]
    push_cast
    constructor
    · intro h
      injection h with h
      exact of_decide_eq_true h
    · intro h
      rw [decide_eq_true h]

/-- C215, violated: a fraction of the marginal value is dropped, so that the flag is not raised although the value exceeds the penalty; the results of GLPK say otherwise -/
theorem C215_violated_flag (n : Nat) (f penalty base : Rat) (hb : base ≠ 0) (hf : 0 < f) (hf1 : f < 1) (hp : penalty / base = n) :
    penalty / base < -(-((n : Rat) + f)) ∧ hydroFlag (some (-((n : Rat) + f))) penalty base = .ok false ∧ glpkFlag (-((n : Rat) + f)) penalty base = .ok true := by
  have hlt : penalty / base < -(-((n : Rat) + f)) := by rw [hp]; linarith
  refine ⟨hlt, ?_, ?_⟩
  · unfold hydroFlag
    dsimp only
    rw [if_neg hb]
    have ht : pyTruncQ (-((n : Rat) + f)) = -(n : Int) := by
      unfold pyTruncQ
      have hn : (0 : Rat) ≤ n := by exact_mod_cast Nat.zero_le n
      rw [if_pos (by linarith)]
      rw [Int.ceil_eq_iff]
      push_cast
      constructor <;> linarith
    rw [ht, hp]
    have : ¬ ((n : Rat) < ((-1 * -(n : Int) : Int) : Rat)) := by push_cast; linarith
    rw [decide_eq_false this]
  · unfold glpkFlag
    rw [if_neg hb, decide_eq_true hlt]

/-- C215: the mean marginal value is off by less than one -/
theorem C215_mean_partial (qs : List Rat) (hq : qs ≠ []) : ∃ m, meanMarginal (qs.map some) = .ok m ∧ |m - (qs.map (fun q => -q)).sum / qs.length| < 1 := by
  unfold meanMarginal
  have hl : qs.length ≠ 0 := by rw [ne_eq, List.length_eq_zero_iff]; exact hq
  have hpos : (0 : Rat) < qs.length := by exact_mod_cast Nat.pos_of_ne_zero hl
  rw [if_neg (by simpa using hl)]
  refine ⟨_, rfl, ?_⟩
  have key : ∀ qs : List Rat, qs ≠ [] → |((((qs.map some).map hydroMarginal).sum : Int) : Rat) - (qs.map (fun q => -q)).sum| < qs.length := by
    intro qs
    induction qs with
    | nil => intro h; exact absurd rfl h
    | cons q qs ih =>
      intro _
      have h1 := (C197_marginal_partial.1 q).1
      simp only [List.map_cons, List.sum_cons, List.length_cons]
      rw [Int.cast_add, Nat.cast_add, Nat.cast_one]
      by_cases hqs : qs = []
      · subst hqs
        simp only [List.map_nil, List.sum_nil, List.length_nil]
        rw [Int.cast_zero, Nat.cast_zero]
        have e : (hydroMarginal (some q) : Rat) + 0 - (-q + 0) = hydroMarginal (some q) + q := by ring
        rw [e]
        linarith
      · have h2 := ih hqs
        have e : (hydroMarginal (some q) : Rat) + ((((qs.map some).map hydroMarginal).sum : Int) : Rat) - (-q + (qs.map (fun q => -q)).sum) =
            (hydroMarginal (some q) + q) + (((((qs.map some).map hydroMarginal).sum : Int) : Rat) - (qs.map (fun q => -q)).sum) := by ring
        rw [e]
        refine lt_of_le_of_lt (abs_add_le _ _) ?_
        linarith
  have h2 := key qs hq
  rw [List.length_map, ← sub_div, abs_div, abs_of_pos hpos, div_lt_one hpos]
  exact h2

/-- C215: the total water left is the sum over the plants -/
theorem C215_left_partial (out : List Rat) : getAllHydro out.length out = .ok out.sum ∧ ∀ k (hk : k < out.length), getHydro out ((k : Int) + 1) = .ok out[k] := by
  constructor
  · unfold getAllHydro
    have : (List.range out.length).mapM (ctlOut out) = .ok out := by
      rw [mapM_ok_iff, List.forall₂_iff_get]
      refine ⟨by simp, ?_⟩
      intro i h1 h2
      simp only [List.get_eq_getElem, List.getElem_range]
      unfold ctlOut
      rw [List.getElem?_eq_getElem h2]
    rw [this]
    rfl
  · intro k hk
    unfold getHydro
    have e : ((k : Int) + 1 - 1).toNat = k := by omega
    rw [if_neg (by omega), e, List.getElem?_eq_getElem hk]

example : hydroFlag (some (-11 / 2)) 510 100 = .ok false ∧ glpkFlag (-11 / 2) 510 100 = .ok true := by decide +kernel
example : meanMarginal [some (-11 / 2), none, some (-7)] = .ok 4 := by decide +kernel
example : meanMarginal [] = .error .zeroDivision := by decide +kernel

/-! ## C216: lines -/

/-- the parameter of a branch -/
def ctlGet (k : CtlKind) (b : CtlBranch) : Rat :=
  match k with
  | .resistance => b.r
  | .reactance => b.x
  | .susceptance => b.b
  | .capacity => b.rate

theorem ctlGet_put (k j : CtlKind) (q : Rat) (b : CtlBranch) : ctlGet j (ctlPut k q b) = if j = k then q else ctlGet j b := by
  cases k <;> cases j <;> rfl

theorem ctlPut_put (k : CtlKind) (q : Rat) (b : CtlBranch) : ctlPut k q (ctlPut k q b) = ctlPut k q b := by
  cases k <;> rfl

theorem ctl_fold (k : CtlKind) (q : Rat) (is : List Nat) : ∀ l : List CtlBranch, (∀ i ∈ is, i < l.length) →
    ∃ r, (is.map (fun (i : Nat) => (i : Int))).foldlM (ctlSetAt k q) l = .ok r ∧ r.length = l.length ∧
      ∀ j (b : CtlBranch), l[j]? = some b → r[j]? = some (if j ∈ is then ctlPut k q b else b) := by
  induction is with
  | nil =>
    intro l _
    exact ⟨l, rfl, rfl, by intro j b hb; simpa using hb⟩
  | cons i is ih =>
    intro l hl
    have hi := hl i (by simp)
    have hs : ctlSetAt k q l (i : Int) = .ok (l.set i (ctlPut k q l[i])) := by
      unfold ctlSetAt
      dsimp only
      rw [if_neg (c := (i : Int) < 0) (by omega), if_neg (by omega), Int.toNat_natCast, List.getElem?_eq_getElem hi]
    obtain ⟨r, h1, h2, h3⟩ := ih (l.set i (ctlPut k q l[i])) (fun j hj => by simpa using hl j (by simp [hj]))
    refine ⟨r, ?_, by rw [h2]; simp, ?_⟩
    · rw [List.map_cons, List.foldlM_cons, hs]
      exact h1
    · intro j b hb
      by_cases hji : j = i
      · subst hji
        have hbe : l[j] = b := by
          rw [List.getElem?_eq_getElem hi] at hb
          injection hb
        rw [h3 j (ctlPut k q l[j]) (by rw [List.getElem?_set_self hi]), if_pos (c := j ∈ j :: is) (by simp), hbe]
        by_cases hm : j ∈ is
        · rw [if_pos hm, ctlPut_put]
        · rw [if_neg hm]
      · rw [h3 j b (by rw [List.getElem?_set_ne (by omega)]; exact hb)]
        have : (j ∈ i :: is) ↔ j ∈ is := by simp [hji]
        simp only [this]

/-- C216: setting a parameter of the branches at some positions changes this parameter of these branches, and nothing else; a capacity is divided by the base power -/
theorem C216_set_partial (base : Rat) (hb : base ≠ 0) (l : List CtlBranch) (is : List Nat) (his : ∀ i ∈ is, i < l.length) (value : Rat) (argv : List Tok) :
    ∃ r, setLineCapacity base l (.many (is.map (fun (i : Nat) => (i : Int)))) value argv = .ok r ∧ r.length = l.length ∧
      ∀ i (b : CtlBranch), l[i]? = some b → ∃ b', r[i]? = some b' ∧ ∀ j, ctlGet j b' =
        if i ∈ is ∧ j = ctlKind argv then (if j = .capacity then value / base else value) else ctlGet j b := by
  have hv : ctlValue base (ctlKind argv) value = .ok (if ctlKind argv = .capacity then value / base else value) := by
    cases ctlKind argv with
    | capacity =>
      show (if base = 0 then (.error .zeroDivision : Except PyErr Rat) else .ok (value / base)) = .ok (if CtlKind.capacity = CtlKind.capacity then value / base else value)
      rw [if_neg hb, if_pos rfl]
    | resistance => rfl
    | reactance => rfl
    | susceptance => rfl
  obtain ⟨r, h1, h2, h3⟩ := ctl_fold (ctlKind argv) (if ctlKind argv = .capacity then value / base else value) is l his
  refine ⟨r, ?_, h2, ?_⟩
  · unfold setLineCapacity
    rw [hv]
    exact h1
  · intro i b hbi
    refine ⟨_, h3 i b hbi, ?_⟩
    intro j
    by_cases hi : i ∈ is
    · rw [if_pos hi, ctlGet_put]
      by_cases hj : j = ctlKind argv
      · rw [if_pos hj, if_pos (c := i ∈ is ∧ j = ctlKind argv) ⟨hi, hj⟩, hj]
      · rw [if_neg hj, if_neg (c := i ∈ is ∧ j = ctlKind argv) (fun h => hj h.2)]
    · rw [if_neg hi, if_neg (c := i ∈ is ∧ j = ctlKind argv) (fun h => hi h.1)]

/-- C216: the word of an option names the parameter that is set, and without a word it is the capacity -/
theorem C216_words_partial (base : Rat) (hb : base ≠ 0) (l : List CtlBranch) (is : List Nat) (his : ∀ i ∈ is, i < l.length) (value : Rat) :
    ∀ e ∈ [(["BR_R".toList], CtlKind.resistance), (["BR_X".toList], .reactance), (["BR_B".toList], .susceptance), ([], .capacity)],
    ∃ r, setLineCapacity base l (.many (is.map (fun (i : Nat) => (i : Int)))) value e.1 = .ok r ∧ r.length = l.length ∧
      ∀ i (b : CtlBranch), l[i]? = some b → ∃ b', r[i]? = some b' ∧ ∀ j, ctlGet j b' =
        if i ∈ is ∧ j = e.2 then (if j = .capacity then value / base else value) else ctlGet j b := by
  intro e he
  have hk : ctlKind e.1 = e.2 := by
    simp only [List.mem_cons, List.not_mem_nil, or_false] at he
    rcases he with rfl | rfl | rfl | rfl <;> decide
  have := C216_set_partial base hb l is his value e.1
  rw [hk] at this
  exact this

/-- C216: after `set_LineCapacityAll` with a capacity, the flows that are admitted are exactly those with at most this power -/
theorem C216_all_partial (base : Rat) (hb : 0 < base) (l : List CtlBranch) (value : Rat) : ∃ r, setLineCapacityAll base l value [] = .ok r ∧ r.length = l.length ∧
    ∀ b ∈ r, ∀ flow, ctlFlowOk b flow ↔ |flow * base| ≤ value := by
  obtain ⟨r, h1, h2, h3⟩ := C216_set_partial base (ne_of_gt hb) l (List.range l.length) (fun i hi => List.mem_range.1 hi) value []
  refine ⟨r, h1, h2, ?_⟩
  intro b hbr flow
  obtain ⟨i, hi, rfl⟩ := List.getElem_of_mem hbr
  obtain ⟨b', e1, e2⟩ := h3 i l[i] (List.getElem?_eq_getElem (by omega))
  rw [List.getElem?_eq_getElem hi] at e1
  injection e1 with e1
  have e3 := e2 .capacity
  rw [if_pos ⟨List.mem_range.2 (by omega), rfl⟩, if_pos rfl, ← e1] at e3
  have e3 : r[i].rate = value / base := e3
  unfold ctlFlowOk
  rw [e3, abs_le]
  constructor
  · rintro ⟨f1, f2⟩
    rw [le_div_iff₀ hb] at f2
    have f3 : -(value / base) * base ≤ flow * base := mul_le_mul_of_nonneg_right f1 (le_of_lt hb)
    have f4 : value / base * base = value := div_mul_cancel₀ _ (ne_of_gt hb)
    exact ⟨by linarith [f3, f4, neg_mul (value / base) base], f2⟩
  · rintro ⟨f1, f2⟩
    have f2' := (le_div_iff₀ hb).2 f2
    have f1' : -flow ≤ value / base := (le_div_iff₀ hb).2 (by linarith [neg_mul flow base])
    exact ⟨by linarith, f2'⟩

/-- C216, violated: unlike those of the other controls, positions start at zero: asking for branch `k` changes the branch with the number `k + 1` -/
theorem C216_violated_number (base : Rat) (hb : base ≠ 0) (l : List CtlBranch) (k : Nat) (hk : k < l.length) (value : Rat) :
    ∃ r, setLineCapacity base l (.many [(k : Int)]) value [] = .ok r ∧ (r[k]?.map CtlBranch.rate = some (value / base)) ∧
      ∀ i, i ≠ k → r[i]? = l[i]? := by
  have hs : ctlSetAt .capacity (value / base) l (k : Int) = .ok (l.set k (ctlPut .capacity (value / base) l[k])) := by
    unfold ctlSetAt
    dsimp only
    rw [if_neg (c := (k : Int) < 0) (by omega), if_neg (by omega), Int.toNat_natCast, List.getElem?_eq_getElem hk]
  refine ⟨l.set k (ctlPut .capacity (value / base) l[k]), ?_, ?_, ?_⟩
  · have hkind : ctlKind [] = .capacity := rfl
    unfold setLineCapacity ctlValue
    rw [hkind]
    dsimp only
    rw [if_neg hb]
    show (ctlSetAt .capacity (value / base) l (k : Int) >>= fun r => pure r) = _
    rw [hs]
    rfl
  · rw [List.getElem?_set_self hk]
    rfl
  · intro i hi
    rw [List.getElem?_set_ne (by omega)]

/-- C216, violated: a single number, which the other controls take, is refused -/
theorem C216_violated_single (base : Rat) (l : List CtlBranch) (n : Int) (value : Rat) (argv : List Tok) (r : List CtlBranch) : setLineCapacity base l (.one n) value argv ≠ .ok r := by
  intro h
  unfold setLineCapacity at h
  obtain ⟨q, _, h⟩ := except_bind_ok.1 h
  cases h

/-- two branches -/
def ctlExample : List CtlBranch := [⟨1 / 10, 1 / 5, 0, 1⟩, ⟨1 / 20, 1 / 4, 0, 2⟩]

example : setLineCapacity 100 ctlExample (.many [1]) 50 [] = .ok [⟨1 / 10, 1 / 5, 0, 1⟩, ⟨1 / 20, 1 / 4, 0, 1 / 2⟩] := by decide +kernel
example : setLineCapacityAll 100 ctlExample 3 ["BR_X".toList] = .ok [⟨1 / 10, 3, 0, 1⟩, ⟨1 / 20, 3, 0, 2⟩] := by decide +kernel
example : setLineCapacity 100 ctlExample (.many [2]) 50 [] = .error .index := by decide +kernel

end Pyensys
