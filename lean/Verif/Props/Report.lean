import Verif.Model.Report
import Verif.Props.Solution
import Verif.Props.UserData

/-!
# C162-C164: the report of the planning tool
-/

namespace Pyensys

/-! ## the rows of the first and of the last scenario -/

theorem rpScanStep_eq (s : RpScan) (r : LineRow) : rpScanStep s r = ⟨min s.low r.1, max s.high r.1,
    if r.1 < s.low then [r] else if s.low = r.1 then s.lowRows ++ [r] else s.lowRows,
    if s.high < r.1 then [r] else if s.high = r.1 then s.highRows ++ [r] else s.highRows⟩ := by
  obtain ⟨lo, hi, lr, hr⟩ := s
  unfold rpScanStep
  dsimp only
  rcases Nat.lt_trichotomy r.1 lo with c1 | c1 | c1
  · rw [if_pos c1, if_pos c1, Nat.min_eq_right (by omega)]
    dsimp only
    rcases Nat.lt_trichotomy hi r.1 with c2 | c2 | c2
    · rw [if_pos c2, if_pos c2, Nat.max_eq_right (by omega)]; simp
    · subst c2; simp
    · have a1 : ¬ hi < r.1 := by omega
      have a2 : ¬ hi = r.1 := by omega
      rw [Nat.max_eq_left (by omega)]
      simp [a1, a2]
  · subst c1
    rcases Nat.lt_trichotomy hi r.1 with c2 | c2 | c2
    · simp [c2, Nat.max_eq_right (Nat.le_of_lt c2)]
    · subst c2; simp
    · have : ¬ hi < r.1 := by omega
      have h2 : ¬ hi = r.1 := by omega
      simp [this, h2]
      omega
  · have h3 : ¬ r.1 < lo := by omega
    have h4 : ¬ lo = r.1 := by omega
    rcases Nat.lt_trichotomy hi r.1 with c2 | c2 | c2
    · simp [c2, h3, h4]; omega
    · subst c2; simp [h3, h4]; omega
    · have : ¬ hi < r.1 := by omega
      have h2 : ¬ hi = r.1 := by omega
      simp [this, h2, h3, h4]
      omega

theorem filter_snoc_eq (l : List LineRow) (r : LineRow) (a : Nat) :
    (l ++ [r]).filter (fun x => decide (x.1 = a)) = l.filter (fun x => decide (x.1 = a)) ++ if r.1 = a then [r] else [] := by
  rw [List.filter_append]
  by_cases h : r.1 = a <;> simp [h]

theorem rpScan_spec (l : List LineRow) : let s := l.foldl rpScanStep {}
    (∀ r ∈ l, s.low ≤ r.1 ∧ r.1 ≤ s.high) ∧ (s.low = 1000 ∨ ∃ r ∈ l, r.1 = s.low) ∧ s.low ≤ 1000 ∧ (s.high = 0 ∨ ∃ r ∈ l, r.1 = s.high) ∧
    s.lowRows = l.filter (fun r => decide (r.1 = s.low)) ∧ s.highRows = l.filter (fun r => decide (r.1 = s.high)) := by
  induction l using List.reverseRecOn with
  | nil => simp
  | append_singleton l r ih =>
    obtain ⟨h1, h2, h2', h3, h4, h5⟩ := ih
    dsimp only
    rw [List.foldl_append, List.foldl_cons, List.foldl_nil]
    generalize l.foldl rpScanStep {} = s at h1 h2 h2' h3 h4 h5 ⊢
    rw [rpScanStep_eq]
    dsimp only
    rw [h4, h5, filter_snoc_eq, filter_snoc_eq]
    generalize s.low = lo at *
    generalize s.high = hi at *
    have none_of : ∀ a, (∀ x ∈ l, x.1 ≠ a) → l.filter (fun x => decide (x.1 = a)) = [] := by
      intro a h
      rw [List.filter_eq_nil_iff]
      intro x hx
      simpa using h x hx
    refine ⟨?_, ?_, by omega, ?_, ?_, ?_⟩
    · intro x hx
      rcases List.mem_append.1 hx with hx | hx
      · have := h1 x hx
        omega
      · rw [List.mem_singleton.1 hx]
        omega
    · by_cases c : r.1 < lo
      · exact .inr ⟨r, by simp, by omega⟩
      · rw [Nat.min_eq_left (by omega)]
        exact h2.imp id (fun ⟨x, hx, e⟩ => ⟨x, List.mem_append_left _ hx, e⟩)
    · by_cases c : hi < r.1
      · exact .inr ⟨r, by simp, by omega⟩
      · rw [Nat.max_eq_left (by omega)]
        exact h3.imp id (fun ⟨x, hx, e⟩ => ⟨x, List.mem_append_left _ hx, e⟩)
    · by_cases c : r.1 < lo
      · rw [if_pos c, Nat.min_eq_right (by omega), none_of r.1 (fun x hx => by have := h1 x hx; omega), if_pos rfl]
        rfl
      · rw [if_neg c, Nat.min_eq_left (by omega)]
        by_cases c' : lo = r.1
        · rw [if_pos c', if_pos c'.symm]
        · rw [if_neg c', if_neg (fun h => c' h.symm), List.append_nil]
    · by_cases c : hi < r.1
      · rw [if_pos c, Nat.max_eq_right (by omega), none_of r.1 (fun x hx => by have := h1 x hx; omega), if_pos rfl]
        rfl
      · rw [if_neg c, Nat.max_eq_left (by omega)]
        by_cases c' : hi = r.1
        · rw [if_pos c', if_pos c'.symm]
        · rw [if_neg c', if_neg (fun h => c' h.symm), List.append_nil]

/-- scenario `s` is the least (largest) scenario of the rows -/
def Least (l : List LineRow) (s : Nat) : Prop := (∃ r ∈ l, r.1 = s) ∧ ∀ r ∈ l, s ≤ r.1
def Largest (l : List LineRow) (s : Nat) : Prop := (∃ r ∈ l, r.1 = s) ∧ ∀ r ∈ l, r.1 ≤ s

/-- the report looks at the rows of the first and of the last scenario, if these are numbered below 1000 -/
theorem rpRows_spec (l : List LineRow) (a b : Nat) (ha : Least l a) (hb : Largest l b) (h : a < 1000) :
    rpRows l = (l.filter (fun r => decide (r.1 = a)), if a = b then [] else l.filter (fun r => decide (r.1 = b))) := by
  have hs := rpScan_spec l
  unfold rpRows
  dsimp only at hs ⊢
  obtain ⟨h1, h2, h2', h3, h4, h5⟩ := hs
  obtain ⟨⟨x, hx, hxa⟩, hmin⟩ := ha
  obtain ⟨⟨y, hy, hyb⟩, hmax⟩ := hb
  have ea : (l.foldl rpScanStep {}).low = a := by
    have := (h1 x hx).1
    rcases h2 with h2 | ⟨z, hz, hz'⟩
    · omega
    · have := hmin z hz
      omega
  have eb : (l.foldl rpScanStep {}).high = b := by
    have := (h1 y hy).2
    rcases h3 with h3 | ⟨z, hz, hz'⟩
    · omega
    · have := hmax z hz
      omega
  rw [h4, h5, ea, eb]

/-! ## C162: what is saved -/

/-- the years of a list of rows, each once, are those of the rows -/
theorem rpYears_spec (rows : List LineRow) : (rpYears rows).Nodup ∧ ∀ y, y ∈ rpYears rows ↔ ∃ r ∈ rows, r.2.1 = y := by
  unfold rpYears
  induction rows using List.reverseRecOn with
  | nil => simp
  | append_singleton l r ih =>
    rw [List.foldl_append, List.foldl_cons, List.foldl_nil]
    generalize l.foldl _ [] = ys at ih ⊢
    obtain ⟨h1, h2⟩ := ih
    by_cases h : r.2.1 ∈ ys
    · rw [if_pos (by simpa using h)]
      refine ⟨h1, fun y => ?_⟩
      rw [h2]
      constructor
      · rintro ⟨x, hx, e⟩
        exact ⟨x, List.mem_append_left _ hx, e⟩
      · rintro ⟨x, hx, e⟩
        rcases List.mem_append.1 hx with hx | hx
        · exact ⟨x, hx, e⟩
        · rw [List.mem_singleton.1 hx] at e
          exact (h2 y).1 (e ▸ h)
    · rw [if_neg (by simpa using h)]
      refine ⟨List.nodup_append.2 ⟨h1, by simp, ?_⟩, fun y => ?_⟩
      · intro a ha b hb e
        rw [List.mem_singleton.1 hb] at e
        exact h (e ▸ ha)
      · rw [List.mem_append, h2]
        constructor
        · rintro (⟨x, hx, e⟩ | hy)
          · exact ⟨x, List.mem_append_left _ hx, e⟩
          · exact ⟨r, by simp, (List.mem_singleton.1 hy).symm⟩
        · rintro ⟨x, hx, e⟩
          rcases List.mem_append.1 hx with hx | hx
          · exact .inl ⟨x, hx, e⟩
          · rw [List.mem_singleton.1 hx] at e
            exact .inr (by rw [← e]; simp)

/-- a report with the given totals and, for each of the years, zeros -/
def zeroReport (noLines : Nat) (years : List Int) (t1 t2 : Rat) : RpData :=
  let ys := years.map (fun y => (y, (⟨0, List.replicate noLines 0, List.replicate noLines 0⟩ : RpYear)))
  [("Scenario 1 (Active economy)", ⟨t1, 0, 0, ys⟩), ("Scenario 2 (Slow economy)", ⟨t2, 0, 0, ys⟩)]

theorem rpZeros_fold (v : RpYear) (ys : List Int) (h : ys.Nodup) : ys.foldl (fun d y => rpSet d y v) [] = ys.map (fun y => (y, v)) := by
  induction ys using List.reverseRecOn with
  | nil => rfl
  | append_singleton l y ih =>
    obtain ⟨h1, _, h3⟩ := List.nodup_append.1 h
    rw [List.foldl_append, List.foldl_cons, List.foldl_nil, ih h1, List.map_append]
    unfold rpSet
    rw [if_neg]
    · rfl
    · rw [List.any_map, List.any_eq_true]
      rintro ⟨x, hx, e⟩
      simp only [Function.comp, decide_eq_true_eq] at e
      exact h3 x hx y (by simp) e

theorem rpStart_zeros (noLines : Nat) (ys : List Int) (h : ys.Nodup) :
    rpStart.map (fun e => (e.1, rpZeros noLines ys e.2)) = zeroReport noLines ys 0 0 := by
  unfold rpStart rpZeros zeroReport rpName
  simp only [List.map_cons, List.map_nil, rpZeros_fold _ _ h]
  rfl

theorem rpUpdate_short (n : Nat) (ys : List Int) (t1 t2 : Rat) (xp : Nat) (f : RpScen → Except PyErr RpScen) :
    rpUpdate (zeroReport n ys t1 t2) (rpShortName xp) f = .error .key := by
  unfold rpUpdate rpAt zeroReport rpShortName
  by_cases h : xp = 0
  · simp only [h, if_true]; rfl
  · simp only [h, if_false]; rfl

/-- an intervention with at least one line cannot be entered -/
theorem rpRow_ok (n : Nat) (ys : List Int) (xp : Nat) (cs : List (Pos × Cap)) (r : LineRow) (d : RpData)
    (h : rpRow (rpShortName xp) cs (zeroReport n ys 0 0) r = .ok d) : d = zeroReport n ys 0 0 ∧ r.2.2 = .cluster [] := by
  unfold rpRow at h
  split at h
  · cases h
  · rename_i lin hl
    cases lin with
    | nil =>
      refine ⟨?_, hl⟩
      cases hf : rpFind [] (cs.map Prod.fst) 0 with
      | error e => rw [hf] at h; cases h
      | ok k =>
        rw [hf] at h
        cases h
        rfl
    | cons a as =>
      exfalso
      cases hf : rpFind (a :: as) (cs.map Prod.fst) 0 with
      | error e => rw [hf] at h; cases h
      | ok k =>
        rw [hf] at h
        rw [List.length_cons, List.range_succ_eq_map] at h
        have h' : (rpEnter (rpShortName xp) r.2.1 cs k (zeroReport n ys 0 0) 0 >>= fun d =>
            ((List.range as.length).map Nat.succ).foldlM (rpEnter (rpShortName xp) r.2.1 cs k) d) = .ok d := h
        have : ∀ d', rpEnter (rpShortName xp) r.2.1 cs k (zeroReport n ys 0 0) 0 ≠ .ok d' := by
          intro d' hd
          unfold rpEnter at hd
          rw [except_bind_ok] at hd
          obtain ⟨c, _, hd⟩ := hd
          rw [except_bind_ok] at hd
          obtain ⟨ax, _, hd⟩ := hd
          rw [except_bind_ok] at hd
          obtain ⟨v, _, hd⟩ := hd
          rw [rpUpdate_short] at hd
          cases hd
        rw [except_bind_ok] at h'
        obtain ⟨d', hd', _⟩ := h'
        exact this d' hd'

theorem rpRow_fold (n : Nat) (ys : List Int) (xp : Nat) (cs : List (Pos × Cap)) (rows : List LineRow) (d : RpData)
    (h : rows.foldlM (rpRow (rpShortName xp) cs) (zeroReport n ys 0 0) = .ok d) : d = zeroReport n ys 0 0 ∧ ∀ r ∈ rows, r.2.2 = .cluster [] := by
  induction rows with
  | nil => cases h; simp
  | cons r rows ih =>
    rw [List.foldlM_cons, except_bind_ok] at h
    obtain ⟨d', h1, h2⟩ := h
    obtain ⟨rfl, h3⟩ := rpRow_ok n ys xp cs r d' h1
    obtain ⟨h4, h5⟩ := ih h2
    exact ⟨h4, List.forall_mem_cons.2 ⟨h3, h5⟩⟩

/-- the last cost that is listed for a scenario, in millions; 0 if there is none -/
def lastCost (costs : List CostRow) (s : Option Nat) : Option Rat :=
  match (costs.filter (fun r => decide (some r.1 = s))).getLast? with
  | none => some 0
  | some r => r.2.map (fun c => c / 1000000)

theorem rpUpdate_first (n : Nat) (ys : List Int) (t1 t2 v : Rat) :
    rpUpdate (zeroReport n ys t1 t2) "Scenario 1 (Active economy)" (fun s => .ok ⟨v, s.flexible, s.operation, s.years⟩) = .ok (zeroReport n ys v t2) := rfl

theorem rpUpdate_second (n : Nat) (ys : List Int) (t1 t2 v : Rat) :
    rpUpdate (zeroReport n ys t1 t2) "Scenario 2 (Slow economy)" (fun s => .ok ⟨v, s.flexible, s.operation, s.years⟩) = .ok (zeroReport n ys t1 v) := rfl

theorem rpTotal_first (n : Nat) (ys : List Int) (t1 t2 : Rat) (c : Option Rat) :
    rpTotal (zeroReport n ys t1 t2) "Scenario 1 (Active economy)" c = (rpMillion c).map (fun v => zeroReport n ys v t2) := by
  cases c <;> rfl

theorem rpTotal_second (n : Nat) (ys : List Int) (t1 t2 : Rat) (c : Option Rat) :
    rpTotal (zeroReport n ys t1 t2) "Scenario 2 (Slow economy)" c = (rpMillion c).map (fun v => zeroReport n ys t1 v) := by
  cases c <;> rfl

theorem lastCost_snoc (costs : List CostRow) (r : CostRow) (s : Option Nat) :
    lastCost (costs ++ [r]) s = if some r.1 = s then r.2.map (fun c => c / 1000000) else lastCost costs s := by
  unfold lastCost
  rw [List.filter_append]
  by_cases h : some r.1 = s
  · rw [if_pos h, List.filter_cons, if_pos (by simpa using h), List.filter_nil, List.getLast?_append]
    rfl
  · rw [if_neg h, List.filter_cons, if_neg (by simpa using h), List.filter_nil, List.append_nil]

/-- the totals after the loop over the costs -/
theorem rpCost_fold (n : Nat) (ys : List Int) (scen : Option Nat) (costs : List CostRow) (d : RpData) :
    costs.foldlM (rpCost scen) (zeroReport n ys 0 0) = .ok d ↔
      (∀ r ∈ costs, r.1 = 0 ∨ some r.1 = scen → r.2 ≠ none) ∧ ∃ t1 t2, lastCost costs (some 0) = some t1 ∧ lastCost costs scen = some t2 ∧ d = zeroReport n ys t1 t2 := by
  induction costs using List.reverseRecOn generalizing d with
  | nil =>
    rw [List.foldlM_nil]
    constructor
    · intro h
      cases h
      exact ⟨by simp, 0, 0, rfl, rfl, rfl⟩
    · rintro ⟨_, t1, t2, h1, h2, rfl⟩
      cases h1
      cases h2
      rfl
  | append_singleton l r ih =>
    rw [List.foldlM_append, except_bind_ok]
    have step : ∀ d', [r].foldlM (rpCost scen) d' = rpCost scen d' r := by
      intro d'
      rw [List.foldlM_cons]
      cases rpCost scen d' r <;> rfl
    simp only [step]
    have key : ∀ t1 t2, rpCost scen (zeroReport n ys t1 t2) r = .ok d ↔ (r.1 = 0 ∨ some r.1 = scen → r.2 ≠ none) ∧
        ∃ a b, (if some r.1 = some 0 then r.2.map (fun c => c / 1000000) else some t1) = some a ∧
          (if some r.1 = scen then r.2.map (fun c => c / 1000000) else some t2) = some b ∧ d = zeroReport n ys a b := by
      intro t1 t2
      obtain ⟨s, c⟩ := r
      unfold rpCost
      simp only [Option.some.injEq]
      by_cases h0 : s = 0
      · simp only [h0, if_true, rpTotal_first, true_or, true_imp_iff]
        by_cases h1 : some 0 = scen
        · simp only [h1, if_true]
          cases c with
          | none => simp [rpMillion, Except.map, bind, Except.bind]
          | some c => simp [rpMillion, Except.map, bind, Except.bind, rpTotal_second, eq_comm]
        · simp only [h1, if_false]
          cases c with
          | none => simp [rpMillion, Except.map, bind, Except.bind]
          | some c => simp [rpMillion, Except.map, bind, Except.bind, eq_comm]
      · simp only [h0, if_false, false_or]
        by_cases h1 : some s = scen
        · simp only [h1, if_true]
          cases c with
          | none => simp [rpMillion, Except.map, bind, Except.bind, rpTotal_second]
          | some c => simp [rpMillion, Except.map, bind, Except.bind, rpTotal_second, eq_comm]
        · simp only [h1, if_false]
          simp [bind, Except.bind, eq_comm]
    constructor
    · rintro ⟨d', h1, h2⟩
      obtain ⟨h3, t1, t2, h4, h5, rfl⟩ := (ih d').1 h1
      obtain ⟨h6, a, b, h7, h8, h9⟩ := (key t1 t2).1 h2
      refine ⟨?_, a, b, ?_, ?_, h9⟩
      · intro x hx
        rcases List.mem_append.1 hx with hx | hx
        · exact h3 x hx
        · rw [List.mem_singleton.1 hx]; exact h6
      · rw [lastCost_snoc, h4]; exact h7
      · rw [lastCost_snoc, h5]; exact h8
    · rintro ⟨h1, a, b, h2, h3, h4⟩
      have hl : ∀ x ∈ l, x.1 = 0 ∨ some x.1 = scen → x.2 ≠ none := fun x hx => h1 x (List.mem_append_left _ hx)
      have hsome : ∀ s, (s = some 0 ∨ s = scen) → ∃ t, lastCost l s = some t := by
        intro s hs
        unfold lastCost
        cases hc : (l.filter (fun r => decide (some r.1 = s))).getLast? with
        | none => exact ⟨0, rfl⟩
        | some x =>
          have hm := List.mem_of_getLast? hc
          rw [List.mem_filter, decide_eq_true_eq] at hm
          have := hl x hm.1 (by
            rcases hs with rfl | rfl
            · exact .inl (Option.some.inj hm.2)
            · exact .inr hm.2)
          obtain ⟨c, hc'⟩ := Option.ne_none_iff_exists'.1 this
          exact ⟨c / 1000000, by show Option.map _ x.2 = _; rw [hc']; rfl⟩
      obtain ⟨t1, ht1⟩ := hsome (some 0) (.inl rfl)
      obtain ⟨t2, ht2⟩ := hsome scen (.inr rfl)
      refine ⟨zeroReport n ys t1 t2, (ih _).2 ⟨hl, t1, t2, ht1, ht2, rfl⟩, (key t1 t2).2 ⟨h1 r (by simp), a, b, ?_, ?_, h4⟩⟩
      · rw [lastCost_snoc, ht1] at h2; exact h2
      · rw [lastCost_snoc, ht2] at h3; exact h3

/-- **C162/C163**: what a saved report holds: for both scenarios the years of the rows of the first and of the last scenario, with zeros for every line, and the totals of scenario 0
and of the scenario of the last row (the last scenario); and all these rows are interventions on no line. -/
theorem C162_content_partial (t : Tables) (n : Nat) (cs : List (Pos × Cap)) (d : RpData) (h : saveInJsonW t n cs = .ok d) :
    (∀ r ∈ (rpRows t.lines).1 ++ (rpRows t.lines).2, r.2.2 = .cluster []) ∧
    ∃ t1 t2, lastCost t.investment (some 0) = some t1 ∧ lastCost t.investment (t.lines.getLast?.map Prod.fst) = some t2 ∧
      d = zeroReport n (rpYears ((rpRows t.lines).1 ++ (rpRows t.lines).2)) t1 t2 := by
  unfold saveInJsonW at h
  dsimp only at h
  rw [rpStart_zeros n _ (rpYears_spec _).1, except_bind_ok] at h
  obtain ⟨d1, h1, h⟩ := h
  obtain ⟨rfl, a1⟩ := rpRow_fold _ _ _ _ _ _ h1
  rw [except_bind_ok] at h
  obtain ⟨d2, h2, h⟩ := h
  obtain ⟨rfl, a2⟩ := rpRow_fold _ _ _ _ _ _ h2
  obtain ⟨_, b⟩ := (rpCost_fold _ _ _ _ _).1 h
  refine ⟨?_, b⟩
  intro r hr
  rcases List.mem_append.1 hr with hr | hr
  · exact a1 r hr
  · exact a2 r hr

/-- **C162 violated**: no report ever shows an intervention: whatever the solution and the clusters, in every report that is saved every line has 0 MVA in every year. -/
theorem C162_violated (t : Tables) (n : Nat) (cs : List (Pos × Cap)) (d : RpData) (h : saveInJsonW t n cs = .ok d) :
    ∀ e ∈ d, ∀ y ∈ e.2.years, y.2.branch = List.replicate n 0 := by
  obtain ⟨_, t1, t2, _, _, rfl⟩ := C162_content_partial t n cs d h
  intro e he y hy
  simp only [zeroReport, List.mem_cons, List.not_mem_nil, or_false] at he
  rcases he with rfl | rfl <;>
  · obtain ⟨z, _, rfl⟩ := List.mem_map.1 hy
    rfl

/-- **C162 violated**: a solution that builds a line in the first scenario (of those numbered below 1000) is never saved: the report raises an exception. -/
theorem C162_raises_violated (t : Tables) (n : Nat) (cs : List (Pos × Cap)) (a : Nat) (ha : Least t.lines a) (h : a < 1000) (r : LineRow) (hr : r ∈ t.lines) (hs : r.1 = a)
    (hp : r.2.2 ≠ .cluster []) : ∃ e, saveInJsonW t n cs = .error e := by
  cases hd : saveInJsonW t n cs with
  | error e => exact ⟨e, rfl⟩
  | ok d =>
    exfalso
    have := (C162_content_partial t n cs d hd).1
    have hb : ∃ b, Largest t.lines b := by
      obtain ⟨m, hm, hmax⟩ := Finset.exists_max_image (t.lines.map Prod.fst).toFinset id ⟨r.1, by simpa using ⟨_, _, hr⟩⟩
      rw [List.mem_toFinset, List.mem_map] at hm
      obtain ⟨x, hx, rfl⟩ := hm
      exact ⟨x.1, ⟨x, hx, rfl⟩, fun y hy => hmax y.1 (by rw [List.mem_toFinset]; exact List.mem_map.2 ⟨y, hy, rfl⟩)⟩
    obtain ⟨b, hb⟩ := hb
    rw [rpRows_spec t.lines a b ha hb h] at this
    exact hp (this r (List.mem_append_left _ (List.mem_filter.2 ⟨hr, by simpa using hs⟩)))

/-- the same for the last scenario -/
theorem C162_raises_last_violated (t : Tables) (n : Nat) (cs : List (Pos × Cap)) (a b : Nat) (ha : Least t.lines a) (hb : Largest t.lines b) (h : a < 1000) (r : LineRow)
    (hr : r ∈ t.lines) (hs : r.1 = b) (hp : r.2.2 ≠ .cluster []) : ∃ e, saveInJsonW t n cs = .error e := by
  by_cases hab : a = b
  · exact C162_raises_violated t n cs a ha h r hr (hs.trans hab.symm) hp
  cases hd : saveInJsonW t n cs with
  | error e => exact ⟨e, rfl⟩
  | ok d =>
    exfalso
    have := (C162_content_partial t n cs d hd).1
    rw [rpRows_spec t.lines a b ha hb h, if_neg hab] at this
    exact hp (this r (List.mem_append_right _ (List.mem_filter.2 ⟨hr, by simpa using hs⟩)))

/-- a plan that reinforces two lines of a cluster in 2030 by 10 and 20 MVA: the report fails with KeyError because it looks for 'Scenario 1' -/
example : saveInJsonW ⟨[(0, 2030, .cluster [1, 2])], [(0, some 5000000)], [(0, some 0)]⟩ 3 [(.cluster [1, 2], .list [10, 20])] = .error .key := by decide +kernel

/-- single lines raise TypeError -/
example : saveInJsonW ⟨[(0, 2030, .single 1)], [(0, some 5000000)], [(0, some 0)]⟩ 3 [(.single 1, .num 10)] = .error .type := by decide +kernel

/-- **C162** (the part that holds): a solution without interventions on lines whose costs are known is saved: no years, totals of scenario 0. -/
theorem C162_empty_partial (t : Tables) (n : Nat) (cs : List (Pos × Cap)) (hl : t.lines = []) (hc : ∀ r ∈ t.investment, r.1 = 0 → r.2 ≠ none) :
    ∃ t1, lastCost t.investment (some 0) = some t1 ∧ saveInJsonW t n cs = .ok (zeroReport n [] t1 0) := by
  have h1 : ∃ t1, lastCost t.investment (some 0) = some t1 := by
    unfold lastCost
    cases h : (t.investment.filter (fun r => decide (some r.1 = some 0))).getLast? with
    | none => exact ⟨0, rfl⟩
    | some x =>
      have hm := List.mem_of_getLast? h
      rw [List.mem_filter, decide_eq_true_eq] at hm
      obtain ⟨c, hc'⟩ := Option.ne_none_iff_exists'.1 (hc x hm.1 (Option.some.inj hm.2))
      exact ⟨c / 1000000, by show Option.map _ x.2 = _; rw [hc']; rfl⟩
  obtain ⟨t1, ht1⟩ := h1
  refine ⟨t1, ht1, ?_⟩
  have h0 : lastCost t.investment none = some 0 := by
    unfold lastCost
    rw [List.filter_eq_nil_iff.2 (by simp)]
    rfl
  unfold saveInJsonW
  dsimp only
  rw [rpStart_zeros n _ (rpYears_spec _).1, hl]
  show List.foldlM (rpCost none) (zeroReport n [] 0 0) t.investment = _
  rw [rpCost_fold]
  exact ⟨fun r hr h => hc r hr (h.resolve_right (by simp)), t1, 0, ht1, h0, rfl⟩

example : saveInJsonW ⟨[], [(0, some 5000000), (1, some 7000000)], [(0, some 0)]⟩ 3 [] =
    .ok [("Scenario 1 (Active economy)", ⟨5, 0, 0, []⟩), ("Scenario 2 (Slow economy)", ⟨0, 0, 0, []⟩)] := by decide +kernel

/-! ## C163: the totals -/

/-- **C163** (the part that holds): if the solution lists one cost `c` for scenario 0, every saved report states it as the total of the first scenario, in millions. -/
theorem C163_first_partial (t : Tables) (n : Nat) (cs : List (Pos × Cap)) (d : RpData) (h : saveInJsonW t n cs = .ok d) (c : Rat) (hc : (0, some c) ∈ t.investment)
    (hu : ∀ r ∈ t.investment, r.1 = 0 → r.2 = some c) : ∃ s, rpAt d "Scenario 1 (Active economy)" = .ok s ∧ s.total = c / 1000000 := by
  obtain ⟨_, t1, t2, h1, _, rfl⟩ := C162_content_partial t n cs d h
  refine ⟨_, rfl, ?_⟩
  show t1 = _
  unfold lastCost at h1
  cases hl : (t.investment.filter (fun r => decide (some r.1 = some 0))).getLast? with
  | none =>
    rw [List.getLast?_eq_none_iff, List.filter_eq_nil_iff] at hl
    exact absurd (decide_eq_true rfl) (hl _ hc)
  | some x =>
    rw [hl] at h1
    have hm := List.mem_of_getLast? hl
    rw [List.mem_filter, decide_eq_true_eq] at hm
    have h1 : x.2.map (fun c => c / 1000000) = some t1 := h1
    rw [hu x hm.1 (Option.some.inj hm.2)] at h1
    exact (Option.some.inj h1).symm

/-- **C163 violated**: if the scenarios are numbered from 1, the total of the first scenario is reported as 0 whatever it costs. -/
theorem C163_from_one_violated (t : Tables) (n : Nat) (cs : List (Pos × Cap)) (d : RpData) (h : saveInJsonW t n cs = .ok d) (hs : ∀ r ∈ t.investment, 1 ≤ r.1) :
    ∃ s, rpAt d "Scenario 1 (Active economy)" = .ok s ∧ s.total = 0 := by
  obtain ⟨_, t1, t2, h1, _, rfl⟩ := C162_content_partial t n cs d h
  refine ⟨_, rfl, ?_⟩
  show t1 = _
  unfold lastCost at h1
  rw [List.filter_eq_nil_iff.2 (by
    intro x hx
    have := hs x hx
    simp only [decide_eq_true_eq, Option.some.injEq]
    omega)] at h1
  exact (Option.some.inj h1).symm

/-- **C163 violated**: if the solution has no interventions on lines, the total of the second scenario is reported as 0 whatever it costs. -/
theorem C163_second_violated (t : Tables) (n : Nat) (cs : List (Pos × Cap)) (d : RpData) (h : saveInJsonW t n cs = .ok d) (hl : t.lines = []) :
    ∃ s, rpAt d "Scenario 2 (Slow economy)" = .ok s ∧ s.total = 0 := by
  obtain ⟨_, t1, t2, _, h2, rfl⟩ := C162_content_partial t n cs d h
  refine ⟨_, rfl, ?_⟩
  show t2 = _
  rw [hl] at h2
  unfold lastCost at h2
  rw [List.filter_eq_nil_iff.2 (by simp)] at h2
  exact (Option.some.inj h2).symm

/-! ## whole runs -/

/-- what a successful run of the tool has done -/
theorem attestInvestPath_ok (na : Bool) (cfg : Cfg) (td : TreeData) (fuel : Nat) (dir : List Char) (n : Nat) (f : RpFile) (h : attestInvestPath na cfg td fuel dir n = .ok f) :
    na = true ∧ ∃ b info t cs, runSearch cfg fuel = .ok (b, info) ∧ getSolution td info.complete = .ok t ∧ rpClusters info.incInt = .ok cs ∧ rpCase dir = .ok f.caseName ∧
      f.country = f.caseName ∧ saveInJsonW t n cs = .ok f.data := by
  unfold attestInvestPath at h
  cases na with
  | false => cases h
  | true =>
    refine ⟨rfl, ?_⟩
    simp only [Bool.not_true, Bool.false_eq_true, if_false] at h
    rw [except_bind_ok] at h
    obtain ⟨r, h1, h⟩ := h
    rw [except_bind_ok] at h
    obtain ⟨t, h2, h⟩ := h
    rw [except_bind_ok] at h
    obtain ⟨cs, h3, h⟩ := h
    rw [except_bind_ok] at h
    obtain ⟨name, h4, h⟩ := h
    rw [except_bind_ok] at h
    obtain ⟨d, h5, h⟩ := h
    cases h
    exact ⟨r.1, r.2, t, cs, h1, h2, h3, h4, rfl, h5⟩

/-- **C162 violated** for whole runs: the tool never writes a file that shows an intervention, and it writes none at all if the recorded plan builds a line in the first scenario. -/
theorem C162_tool_violated (na : Bool) (cfg : Cfg) (td : TreeData) (fuel : Nat) (dir : List Char) (n : Nat) :
    (∀ f, attestInvestPath na cfg td fuel dir n = .ok f → ∀ e ∈ f.data, ∀ y ∈ e.2.years, y.2.branch = List.replicate n 0) ∧
    ∀ b info t, runSearch cfg fuel = .ok (b, info) → getSolution td info.complete = .ok t → ∀ a, Least t.lines a → a < 1000 →
      (∃ r ∈ t.lines, r.1 = a ∧ r.2.2 ≠ .cluster []) → ∃ e, attestInvestPath na cfg td fuel dir n = .error e := by
  constructor
  · intro f h
    obtain ⟨_, _, _, t, cs, _, _, _, _, _, h6⟩ := attestInvestPath_ok na cfg td fuel dir n f h
    exact C162_violated t n cs _ h6
  · intro b info t h1 h2 a ha hlt ⟨r, hr, hra, hp⟩
    cases hx : attestInvestPath na cfg td fuel dir n with
    | error e => exact ⟨e, rfl⟩
    | ok f =>
      exfalso
      obtain ⟨_, b', info', t', cs, g1, g2, _, _, _, g6⟩ := attestInvestPath_ok na cfg td fuel dir n f hx
      rw [h1] at g1
      cases g1
      rw [h2] at g2
      cases g2
      obtain ⟨e, he⟩ := C162_raises_violated t n cs a ha hlt r hr hra hp
      rw [he] at g6
      cases g6

/-- **C162 violated**: an anticipative problem always ends in TypeError, although it is optimised. -/
theorem C162_anticipative_violated (cfg : Cfg) (td : TreeData) (fuel : Nat) (dir : List Char) (n : Nat) : attestInvestPath false cfg td fuel dir n = .error .type := rfl

/-- a problem with one option, a cluster of two lines, that is needed at the root -/
def rpExample : Cfg := vTree [(0, { cost := 5000000, position := .cluster [1, 2], elementType := "line", installationTime := 0, capacity := .list [10, 20] })]
  (fun _ r => (decide (r.active ≠ []), 0))

def rpExampleTree : TreeData := ⟨fun n => .ok (if n = 0 then [0, 1] else [n - 1]), fun n => .ok (if n = 0 then 2020 else 2030)⟩

/-- the tool fails on this problem, although the search finds and records the plan -/
theorem C162_run_violated : WellFormed rpExample 5 ∧ (finalPlan rpExample 5).map (fun p => (planRows p).map (fun r => r.2.1.map (fun g => g.2.map (fun e => e.2.position)))) =
      some [[[.cluster [1, 2]], []], [[.cluster [1, 2]], []]] ∧
    ∀ dir n, ∃ e, attestInvestPath true rpExample rpExampleTree 5 dir n = .error e := by
  have hwf : WellFormed rpExample 5 := ⟨by decide, by decide, 1, by simp [HeightLe, rpExample, vTree, graphOf], by omega, by decide⟩
  refine ⟨hwf, by decide +kernel, ?_⟩
  intro dir n
  obtain ⟨f, b, hrun⟩ := C15_search_never_raises _ _ hwf
  have hfp : finalPlan rpExample 5 = some b.complete := by unfold finalPlan; rw [hrun]
  have hlines : ((finalPlan rpExample 5).bind (fun p =>
      (p.graphPaths.foldlM (addSolution rpExampleTree p) {}).toOption.map (fun t => t.lines))) =
        some [(0, 2020, .cluster [1, 2]), (1, 2020, .cluster [1, 2]), (0, 2020, .cluster [1, 2]), (1, 2020, .cluster [1, 2])] := by decide +kernel
  rw [hfp] at hlines
  simp only [Option.bind_some] at hlines
  cases ht : b.complete.graphPaths.foldlM (addSolution rpExampleTree b.complete) {} with
  | error e => rw [ht] at hlines; cases hlines
  | ok t =>
    rw [ht] at hlines
    have hl : t.lines = [(0, 2020, .cluster [1, 2]), (1, 2020, .cluster [1, 2]), (0, 2020, .cluster [1, 2]), (1, 2020, .cluster [1, 2])] := by
      simpa [Except.toOption] using hlines
    have hg : getSolution rpExampleTree b.complete = .ok ⟨t.lines.mergeSort lineLe, (dropDuplicates t.investment).mergeSort costLe, (dropDuplicates t.operation).mergeSort costLe⟩ := by
      unfold getSolution
      rw [ht]
      rfl
    have hmem : ∀ r, r ∈ t.lines.mergeSort lineLe ↔ r ∈ t.lines := fun r => (List.mergeSort_perm _ _).mem_iff
    refine (C162_tool_violated true rpExample rpExampleTree 5 dir n).2 f b _ hrun hg 0 ⟨⟨(0, 2020, .cluster [1, 2]), (hmem _).2 (by rw [hl]; simp), rfl⟩, fun _ _ => Nat.zero_le _⟩
      (by omega) ⟨(0, 2020, .cluster [1, 2]), (hmem _).2 (by rw [hl]; simp), rfl, by simp⟩

/-! ## C164: the name of the case -/

theorem pyGet_inRange {α : Type} (l : List α) (n : Nat) (h : n < l.length) : pyGet l (n : Int) = .ok l[n] := by
  rw [pyGet_nat_iff, List.getElem?_eq_getElem h]

theorem rpBack_found (s chars : List Char) (n k : Nat) (hk : k ≤ n) (hn : n < s.length) (hc : s[k] ∈ chars) (hno : ∀ j (hj : j < s.length), k < j → j ≤ n → s[j] ∉ chars) :
    rpBack s chars (n : Int) = .ok (k : Int) := by
  unfold rpBack
  have : ((List.range ((n : Int) + 1 + s.length).toNat).map (fun k : Nat => (n : Int) - (k : Int))).find? (rpHit s chars) = some (k : Int) := by
    rw [List.find?_eq_some_iff_getElem]
    refine ⟨?_, n - k, by rw [List.length_map, List.length_range]; omega, ?_, ?_⟩
    · rw [rpHit, pyGet_inRange s k (by omega)]
      simpa using hc
    · rw [List.getElem_map, List.getElem_range]
      omega
    · intro j hj
      rw [List.getElem_map, List.getElem_range]
      have : ((n : Int) - (j : Int)) = ((n - j : Nat) : Int) := by omega
      rw [this, rpHit, pyGet_inRange s (n - j) (by omega)]
      simpa using hno (n - j) (by omega) (by omega) (by omega)
  rw [this]

/-- **C164**: for every path `folder/name.extension` the report is named after the file, whatever the folder, the name (also with dots) and the extension. -/
theorem C164_name_partial (folder name ext : List Char) (hn : ∀ c ∈ name, c ≠ '/' ∧ c ≠ '\\') (he : ∀ c ∈ ext, c ≠ '.') :
    rpCase (folder ++ '/' :: (name ++ '.' :: ext)) = .ok name := by
  have hlen : (folder ++ '/' :: (name ++ '.' :: ext)).length = folder.length + name.length + ext.length + 2 := by
    simp only [List.length_append, List.length_cons]
    omega
  have hget : ∀ j (hj : j < (folder ++ '/' :: (name ++ '.' :: ext)).length), folder.length ≤ j →
      (folder ++ '/' :: (name ++ '.' :: ext))[j]? = ('/' :: (name ++ '.' :: ext))[j - folder.length]? := fun j _ h => List.getElem?_append_right h
  have hname : ∀ i, i < name.length → (folder ++ '/' :: (name ++ '.' :: ext))[folder.length + 1 + i]? = name[i]? := by
    intro i hi
    rw [List.getElem?_append_right (by omega), show folder.length + 1 + i - folder.length = i + 1 by omega, List.getElem?_cons_succ, List.getElem?_append_left hi]
  have hext : ∀ i, (folder ++ '/' :: (name ++ '.' :: ext))[folder.length + 1 + name.length + i]? = ('.' :: ext)[i]? := by
    intro i
    rw [List.getElem?_append_right (by omega), show folder.length + 1 + name.length + i - folder.length = name.length + i + 1 by omega, List.getElem?_cons_succ,
      List.getElem?_append_right (by omega), Nat.add_sub_cancel_left]
  have hslash : (folder ++ '/' :: (name ++ '.' :: ext))[folder.length]? = some '/' := by
    rw [List.getElem?_append_right (le_refl _), Nat.sub_self]
    rfl
  generalize hs : folder ++ '/' :: (name ++ '.' :: ext) = s at *
  have b1 : rpBack s ['.'] ((s.length : Int) - 1) = .ok ((folder.length + 1 + name.length : Nat) : Int) := by
    rw [show ((s.length : Int) - 1) = ((s.length - 1 : Nat) : Int) by omega]
    refine rpBack_found s _ _ _ (by omega) (by omega) ?_ ?_
    · have := hext 0
      rw [Nat.add_zero, List.getElem?_cons_zero, List.getElem?_eq_getElem (by omega)] at this
      rw [Option.some.inj this]
      simp
    · intro j hj h1 h2
      have := hext (j - (folder.length + 1 + name.length))
      rw [show folder.length + 1 + name.length + (j - (folder.length + 1 + name.length)) = j by omega, List.getElem?_eq_getElem hj,
        show j - (folder.length + 1 + name.length) = (j - (folder.length + 1 + name.length) - 1) + 1 by omega, List.getElem?_cons_succ] at this
      have := he _ (List.mem_of_getElem? this.symm)
      simpa using this
  have b2 : rpBack s ['/', '\\'] (((folder.length + 1 + name.length : Nat) : Int) - 1) = .ok ((folder.length : Nat) : Int) := by
    rw [show (((folder.length + 1 + name.length : Nat) : Int) - 1) = ((folder.length + name.length : Nat) : Int) by omega]
    refine rpBack_found s _ _ _ (by omega) (by omega) ?_ ?_
    · rw [List.getElem?_eq_getElem (by omega)] at hslash
      rw [Option.some.inj hslash]
      simp
    · intro j hj h1 h2
      have := hname (j - (folder.length + 1)) (by omega)
      rw [show folder.length + 1 + (j - (folder.length + 1)) = j by omega, List.getElem?_eq_getElem hj] at this
      have := hn _ (List.mem_of_getElem? this.symm)
      simpa using this
  unfold rpCase
  rw [b1]
  show (rpBack s ['/', '\\'] (((folder.length + 1 + name.length : Nat) : Int) - 1) >>= _) = _
  rw [b2]
  show Except.ok (pySlice s (((folder.length : Nat) : Int) + 1) ((folder.length + 1 + name.length : Nat) : Int)) = _
  rw [show ((folder.length : Nat) : Int) + 1 = ((folder.length + 1 : Nat) : Int) by omega]
  unfold pySlice
  rw [sliceBound_nat _ _ (by omega), sliceBound_nat _ _ (by omega)]
  congr 1
  rw [← hs, show folder ++ '/' :: (name ++ '.' :: ext) = (folder ++ ['/']) ++ (name ++ '.' :: ext) by simp,
    show folder.length + 1 + name.length = (folder ++ ['/']).length + name.length by simp, List.take_length_add_append, List.take_left, List.drop_left' (by simp)]

example : rpCase "tests/json/case.v2.json".toList = .ok "case.v2".toList := by decide +kernel

theorem rpBack_none (s chars : List Char) (start : Int) (h : ∀ c ∈ s, c ∉ chars) : rpBack s chars start = .error .index := by
  unfold rpBack
  rw [List.find?_eq_none.2]
  intro x _
  unfold rpHit
  cases hx : pyGet s x with
  | error e => simp
  | ok c =>
    have : c ∈ s := by
      unfold pyGet at hx
      dsimp only at hx
      generalize (if x < 0 then x + (s.length : Int) else x) = j at hx
      split at hx
      · cases hx
      · split at hx
        · rename_i a ha
          cases hx
          exact List.mem_of_getElem? ha
        · cases hx
    simpa using h c this

theorem rpBack_error (s chars : List Char) (start : Int) (e : PyErr) (h : rpBack s chars start = .error e) : e = .index := by
  unfold rpBack at h
  split at h
  · cases h
  · cases h
    rfl

/-- a dot in the name of a folder only: the name is taken from the wrong place -/
example : rpCase "cases.d/case5".toList = .ok [] := by decide +kernel

/-- **C164 violated**: an input file named without a folder, or without an extension in a path without dots, ends the tool with IndexError after the search. -/
theorem C164_bare_violated (dir : List Char) (h : (∀ c ∈ dir, c ≠ '/' ∧ c ≠ '\\') ∨ (∀ c ∈ dir, c ≠ '.')) : rpCase dir = .error .index := by
  unfold rpCase
  rcases h with h | h
  · cases hb : rpBack dir ['.'] ((dir.length : Int) - 1) with
    | error e => rw [rpBack_error _ _ _ _ hb]; rfl
    | ok x =>
      show (rpBack dir ['/', '\\'] (x - 1) >>= _) = _
      rw [rpBack_none dir _ _ (fun c hc => by simpa using h c hc)]
      rfl
  · rw [rpBack_none dir _ _ (fun c hc => by simpa using h c hc)]
    rfl

/-- **C162**, what the report knows of the plan: the first intervention of every level of the first incumbent plan, in order, if every level has one. -/
theorem C162_clusters_partial (plan : Int × Sol) (rest : List (Int × Sol)) (h : ∀ x ∈ plan.2, x.2 ≠ []) : ∃ cs, rpClusters (plan :: rest) = .ok cs ∧ cs.length = plan.2.length ∧
    ∀ (i : Nat) (level : Int) (g : Group) (v : Int × BinVar) (more : Group), plan.2[i]? = some (level, g) → g = v :: more → cs[i]? = some (v.2.position, v.2.capacity) := by
  obtain ⟨c, sol⟩ := plan
  dsimp only at h ⊢
  refine ⟨_, rfl, ?_⟩
  dsimp only
  induction sol with
  | nil => exact ⟨rfl, fun i level g v more hi => by simp at hi⟩
  | cons x sol ih =>
    obtain ⟨ih1, ih2⟩ := ih (fun y hy => h y (List.mem_cons_of_mem _ hy))
    have hx := h x List.mem_cons_self
    obtain ⟨lv, gr⟩ := x
    cases gr with
    | nil => exact absurd rfl hx
    | cons a gr =>
      rw [List.filterMap_cons]
      dsimp only [List.head?_cons, Option.map_some]
      refine ⟨by rw [List.length_cons, List.length_cons, ih1], ?_⟩
      intro i level g v more hi hg
      cases i with
      | zero =>
        rw [List.getElem?_cons_zero, Option.some.injEq, Prod.mk.injEq] at hi
        rw [← hi.2] at hg
        injection hg with hg
        rw [List.getElem?_cons_zero, hg]
      | succ i =>
        rw [List.getElem?_cons_succ] at hi ⊢
        exact ih2 i level g v more hi hg

end Pyensys
