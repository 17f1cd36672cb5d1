import Verif.Model.Solution
import Verif.Props.SearchRun

/-! # C31: the solution tables -/

namespace Pyensys

/-! ## specification -/

/-- The rows the lines table should have for one recorded solution: for each node of its path, each
line intervention recorded at that position and each scenario `S n` of the node, the scenario, the
node's year `Y n` and the line. -/
def expectedLines (S : Nat → List Nat) (Y : Nat → Int) (r : Path × Sol × Rat × Rat) : List LineRow :=
  (r.1.zip r.2.1).flatMap (fun ng =>
    (ng.2.2.filter (fun e => e.2.elementType = "line")).flatMap (fun e =>
      (S ng.1.2).map (fun s => (s, Y ng.1.2, e.2.position))))

/-- scenario `s` ends in the last node of the recorded path -/
def EndsIn (S : Nat → List Nat) (r : Path × Sol × Rat × Rat) (s : Nat) : Prop :=
  ∃ n, r.1.getLast? = some n ∧ s ∈ S n.2

/-! ## lemmas -/

theorem addScenarioRows_eq {td : TreeData} {node : Nat} {y : Int} (hy : td.year node = .ok y) (pos : Pos)
    (ss : List Nat) : ∀ acc, addScenarioRows td node pos acc ss =
      .ok (acc ++ ss.map (fun s => (s, y, pos))) := by
  induction ss with
  | nil => intro acc; simp [addScenarioRows]
  | cons s ss ih =>
    intro acc
    simp only [addScenarioRows, hy]
    show addScenarioRows td node pos _ ss = _
    rw [ih]; simp

theorem addNodeRows_eq {td : TreeData} {node : Nat} {y : Int} {S : List Nat}
    (hy : td.year node = .ok y) (hs : td.scenarios node = .ok S)
    (g : Group) : ∀ acc, addNodeRows td node acc g =
      .ok (acc ++ (g.filter (fun e => e.2.elementType = "line")).flatMap (fun e =>
        S.map (fun s => (s, y, e.2.position)))) := by
  induction g with
  | nil => intro acc; simp [addNodeRows]
  | cons a g ih =>
    intro acc
    obtain ⟨k, v⟩ := a
    simp only [addNodeRows]
    by_cases hv : v.elementType = "line"
    · simp only [hv, if_true, hs]
      show (addScenarioRows td node v.position acc S >>= fun acc => addNodeRows td node acc g) = _
      rw [addScenarioRows_eq hy]
      show addNodeRows td node _ g = _
      rw [ih]; simp [hv]
    · simp only [hv, if_false]
      rw [ih]; simp [hv]

theorem addPathRows_eq {td : TreeData} {p : Plan} {sol : Int} {s : Sol} {S : Nat → List Nat}
    {Y : Nat → Int}
    (hy : ∀ n, td.year n = .ok (Y n)) (hs : ∀ n, td.scenarios n = .ok (S n))
    (hsol : listGet? p.interventions sol = some s) (hd : (s.map (·.1)).Nodup) :
    ∀ (path : Path) (s' : Sol) (acc : List LineRow), s' <:+ s → path.map (·.1) = s'.map (·.1) →
    addPathRows td p sol acc path = .ok (acc ++ (path.zip s').flatMap (fun ng =>
    (ng.2.2.filter (fun e => e.2.elementType = "line")).flatMap (fun e =>
      (S ng.1.2).map (fun s => (s, Y ng.1.2, e.2.position))))) := by
  intro path
  induction path with
  | nil => intro s' acc _ _; simp [addPathRows]
  | cons a path ih =>
    intro s' acc hsuf hk
    obtain ⟨l, n⟩ := a
    cases s' with
    | nil => simp at hk
    | cons b s' =>
      obtain ⟨l', g⟩ := b
      simp only [List.map_cons, List.cons.injEq] at hk
      obtain ⟨hl, hk⟩ := hk
      subst hl
      have hget : listGet? s l = some g := by
        obtain ⟨pre, rfl⟩ := hsuf
        unfold listGet?
        rw [List.find?_append]
        have : pre.find? (fun e => decide (e.1 = l)) = none := by
          rw [List.find?_eq_none]
          intro x hx hxe
          simp only [decide_eq_true_eq] at hxe
          simp only [List.map_append, List.map_cons, List.nodup_append] at hd
          exact hd.2.2 x.1 (List.mem_map_of_mem hx) l (List.mem_cons_self) hxe
        rw [this]
        simp
      simp only [addPathRows, recordedGroup, hsol, hget]
      show (addNodeRows td n acc g >>= fun acc => addPathRows td p sol acc path) = _
      rw [addNodeRows_eq (hy n) (hs n)]
      show addPathRows td p sol _ path = _
      rw [ih s' _ ((List.suffix_cons _ _).trans hsuf) hk]
      simp

theorem listGet?_rows {α : Type} {f : Row → α} {R : List (Int × Row)} (hd : (R.map (·.1)).Nodup)
    {kr : Int × Row} (h : kr ∈ R) : listGet? (col f R) kr.1 = some (f kr.2) := by
  induction R with
  | nil => cases h
  | cons a R ih =>
    simp only [List.map_cons, List.nodup_cons] at hd
    unfold listGet? col
    rw [List.map_cons, List.find?_cons]
    rcases List.mem_cons.1 h with rfl | h
    · simp
    · have hne : a.1 ≠ kr.1 := fun e => hd.1 (e ▸ List.mem_map_of_mem h)
      simp only [hne, decide_false]
      exact ih hd.2 h

theorem getSolution_fold {td : TreeData} {S : Nat → List Nat} {Y : Nat → Int} {R : List (Int × Row)}
    (hy : ∀ n, td.year n = .ok (Y n)) (hs : ∀ n, td.scenarios n = .ok (S n))
    (hd : (R.map (·.1)).Nodup)
    (hok : ∀ kr ∈ R, kr.2.path ≠ [] ∧ kr.2.path.map (·.1) = kr.2.sol.map (·.1) ∧
      (kr.2.sol.map (·.1)).Nodup) : ∀ (R' : List (Int × Row)) (t : Tables), (∀ kr ∈ R', kr ∈ R) →
    ((col Row.path R').foldlM (addSolution td (planOf R)) t) = .ok {
      lines := t.lines ++ R'.flatMap (fun kr => expectedLines S Y (kr.2.path, kr.2.sol, kr.2.inv, kr.2.op))
      investment := t.investment ++ R'.flatMap (fun kr =>
        (S (kr.2.path.getLast?.getD (0, 0)).2).map (fun s => (s, some kr.2.inv)))
      operation := t.operation ++ R'.flatMap (fun kr =>
        (S (kr.2.path.getLast?.getD (0, 0)).2).map (fun s => (s, some kr.2.op))) } := by
  intro R'
  induction R' with
  | nil => intro t _; simp [col]
  | cons a R' ih =>
    intro t hsub
    have ha := hsub a List.mem_cons_self
    obtain ⟨h1, h2, h3⟩ := hok a ha
    have e1 : addSolution td (planOf R) t (a.1, a.2.path) = .ok {
        lines := t.lines ++ expectedLines S Y (a.2.path, a.2.sol, a.2.inv, a.2.op)
        investment := t.investment ++
          (S (a.2.path.getLast?.getD (0, 0)).2).map (fun s => (s, some a.2.inv))
        operation := t.operation ++
          (S (a.2.path.getLast?.getD (0, 0)).2).map (fun s => (s, some a.2.op)) } := by
      unfold addSolution
      simp only
      rw [addPathRows_eq hy hs (listGet?_rows (f := Row.sol) hd ha) h3 a.2.path a.2.sol t.lines
        (List.suffix_refl _) h2]
      obtain ⟨n, hn⟩ : ∃ n, a.2.path.getLast? = some n := by
        cases hp : a.2.path.getLast? with
        | none => exact absurd (List.getLast?_eq_none_iff.1 hp) h1
        | some n => exact ⟨n, rfl⟩
      simp only [hn, hs, Option.getD_some]
      have hi : listGet? (planOf R).investmentCosts a.1 = some a.2.inv := listGet?_rows (f := Row.inv) hd ha
      have ho : listGet? (planOf R).operationCosts a.1 = some a.2.op := listGet?_rows (f := Row.op) hd ha
      rw [hi, ho]
      rfl
    show ((a.1, a.2.path) :: col Row.path R').foldlM (addSolution td (planOf R)) t = _
    rw [List.foldlM_cons, e1]
    show (col Row.path R').foldlM (addSolution td (planOf R)) _ = _
    rw [ih _ (fun kr h => hsub kr (List.mem_cons_of_mem _ h))]
    simp

theorem dropDuplicates_spec (l : List CostRow) :
    (dropDuplicates l).Nodup ∧ ∀ r, r ∈ dropDuplicates l ↔ r ∈ l := by
  have key : ∀ (l acc : List CostRow), acc.Nodup →
      (l.foldl (fun acc r => if acc.contains r then acc else acc ++ [r]) acc).Nodup ∧
      ∀ r, r ∈ l.foldl (fun acc r => if acc.contains r then acc else acc ++ [r]) acc ↔
        r ∈ acc ∨ r ∈ l := by
    intro l
    induction l with
    | nil => intro acc h; exact ⟨h, fun r => by simp⟩
    | cons a l ih =>
      intro acc h
      rw [List.foldl_cons]
      by_cases hc : a ∈ acc
      · have : acc.contains a = true := by simpa using hc
        simp only [this, if_true]
        refine ⟨(ih acc h).1, fun r => ?_⟩
        rw [(ih acc h).2]
        constructor
        · rintro (h | h)
          · exact .inl h
          · exact .inr (List.mem_cons_of_mem _ h)
        · rintro (h | h)
          · exact .inl h
          · rcases List.mem_cons.1 h with rfl | h
            · exact .inl hc
            · exact .inr h
      · have : acc.contains a = false := by simpa using hc
        simp only [this, Bool.false_eq_true, if_false]
        have hn : (acc ++ [a]).Nodup := by
          rw [List.nodup_append]
          refine ⟨h, by simp, ?_⟩
          intro x hx y hy e
          rw [List.mem_singleton] at hy
          subst hy; subst e; exact hc hx
        refine ⟨(ih _ hn).1, fun r => ?_⟩
        rw [(ih _ hn).2]
        simp only [List.mem_append, List.mem_cons, List.not_mem_nil, or_false]
        tauto
  have := key l [] List.nodup_nil
  exact ⟨this.1, fun r => by unfold dropDuplicates; rw [this.2]; simp⟩

theorem lineLe_iff (a b : LineRow) : lineLe a b = true ↔ a.1 < b.1 ∨ (a.1 = b.1 ∧ a.2.1 ≤ b.2.1) := by
  simp [lineLe]

theorem sorted_lines (l : List LineRow) : (l.mergeSort lineLe).Pairwise
    (fun a b => a.1 < b.1 ∨ (a.1 = b.1 ∧ a.2.1 ≤ b.2.1)) := by
  have := List.pairwise_mergeSort (le := lineLe)
    (fun a b c h1 h2 => by rw [lineLe_iff] at *; omega)
    (fun a b => by rw [Bool.or_eq_true, lineLe_iff, lineLe_iff]; omega) l
  exact this.imp (fun {a b} h => (lineLe_iff a b).1 h)

theorem sorted_costs (l : List CostRow) : (l.mergeSort costLe).Pairwise (fun a b => a.1 ≤ b.1) := by
  have := List.pairwise_mergeSort (le := costLe)
    (fun a b c h1 h2 => by simp only [costLe, decide_eq_true_eq] at *; omega)
    (fun a b => by simp only [costLe, Bool.or_eq_true, decide_eq_true_eq]; omega) l
  exact this.imp (fun {a b} h => by simpa [costLe] using h)

/-! ## C31 -/

/-- **C31.** For a plan whose four containers are aligned and have distinct keys, and whose
solutions carry one group per node of a non-empty path, `get_solution` returns: the lines table,
which is up to order exactly the expected rows of all recorded solutions and is sorted by scenario
and year; and cost tables without repeated rows, sorted by scenario, that give scenario `s` the cost
`c` exactly if `c` is the cost of a recorded solution in whose last node `s` ends. -/
theorem C31_tables_partial (td : TreeData) (S : Nat → List Nat) (Y : Nat → Int) (p : Plan)
    (hy : ∀ n, td.year n = .ok (Y n)) (hs : ∀ n, td.scenarios n = .ok (S n))
    (ha : PlanAligned p) (hd : Distinct p.graphPaths)
    (hok : ∀ r ∈ planRows p, r.1 ≠ [] ∧ r.1.map (·.1) = ints r.1.length ∧
      r.2.1.map (·.1) = ints r.1.length) :
    ∃ t, getSolution td p = .ok t ∧
      t.lines.Perm ((planRows p).flatMap (expectedLines S Y)) ∧
      t.lines.Pairwise (fun a b => a.1 < b.1 ∨ (a.1 = b.1 ∧ a.2.1 ≤ b.2.1)) ∧
      (t.investment.Nodup ∧ t.investment.Pairwise (fun a b => a.1 ≤ b.1) ∧
        ∀ s c, (s, c) ∈ t.investment ↔ ∃ r ∈ planRows p, EndsIn S r s ∧ c = some r.2.2.1) ∧
      (t.operation.Nodup ∧ t.operation.Pairwise (fun a b => a.1 ≤ b.1) ∧
        ∀ s c, (s, c) ∈ t.operation ↔ ∃ r ∈ planRows p, EndsIn S r s ∧ c = some r.2.2.2) := by
  obtain ⟨R, rfl⟩ := ha.rows
  rw [planRows_planOf] at *
  have hd' : (R.map (·.1)).Nodup := by
    have : (planOf R).graphPaths.map (·.1) = R.map (·.1) := by simp [planOf, col]
    unfold Distinct at hd; rwa [this] at hd
  have hok' : ∀ kr ∈ R, kr.2.path ≠ [] ∧ kr.2.path.map (·.1) = kr.2.sol.map (·.1) ∧
      (kr.2.sol.map (·.1)).Nodup := by
    intro kr hkr
    obtain ⟨h1, h2, h3⟩ := hok (kr.2.path, kr.2.sol, kr.2.inv, kr.2.op)
      (List.mem_map_of_mem (f := fun kr : Int × Row => (kr.2.path, kr.2.sol, kr.2.inv, kr.2.op)) hkr)
    refine ⟨h1, h2.trans h3.symm, ?_⟩
    rw [h3]
    exact nodup_ints _
  have hf := getSolution_fold hy hs hd' hok' R {} (fun _ h => h)
  have costs : ∀ (f : Row → Rat) (s : Nat) (c : Option Rat),
      (s, c) ∈ R.flatMap (fun kr => (S (kr.2.path.getLast?.getD (0, 0)).2).map (fun s => (s, some (f kr.2)))) ↔
      ∃ kr ∈ R, (∃ n, kr.2.path.getLast? = some n ∧ s ∈ S n.2) ∧ c = some (f kr.2) := by
    intro f s c
    simp only [List.mem_flatMap, List.mem_map, Prod.mk.injEq]
    constructor
    · rintro ⟨kr, hkr, s', hs', rfl, rfl⟩
      refine ⟨kr, hkr, ?_, rfl⟩
      cases hl : kr.2.path.getLast? with
      | none => exact absurd (List.getLast?_eq_none_iff.1 hl) (hok' kr hkr).1
      | some n => rw [hl] at hs'; exact ⟨n, rfl, hs'⟩
    · rintro ⟨kr, hkr, ⟨n, hn, hsn⟩, rfl⟩
      exact ⟨kr, hkr, s, by rw [hn]; exact hsn, rfl, rfl⟩
  have hget : getSolution td (planOf R) = ((col Row.path R).foldlM (addSolution td (planOf R)) {} >>=
      fun t => .ok {
        lines := t.lines.mergeSort lineLe
        investment := (dropDuplicates t.investment).mergeSort costLe
        operation := (dropDuplicates t.operation).mergeSort costLe }) := rfl
  rw [hf] at hget
  refine ⟨_, hget, ?_, ?_, ⟨?_, ?_, ?_⟩, ⟨?_, ?_, ?_⟩⟩
  · refine (List.mergeSort_perm _ _).trans ?_
    simp [List.flatMap_map]
  · exact sorted_lines _
  · exact (List.mergeSort_perm _ _).nodup_iff.2 (dropDuplicates_spec _).1
  · exact sorted_costs _
  · intro s c
    rw [(List.mergeSort_perm _ _).mem_iff, (dropDuplicates_spec _).2]
    simp only [List.nil_append]
    rw [costs Row.inv]
    simp [EndsIn]
  · exact (List.mergeSort_perm _ _).nodup_iff.2 (dropDuplicates_spec _).1
  · exact sorted_costs _
  · intro s c
    rw [(List.mergeSort_perm _ _).mem_iff, (dropDuplicates_spec _).2]
    simp only [List.nil_append]
    rw [costs Row.op]
    simp [EndsIn]

/-- **C31.** The lines table only contains line interventions: every row stems from a recorded
intervention of type "line" at a node of its scenario, with the node's year. -/
theorem C31_lines_only_partial (td : TreeData) (S : Nat → List Nat) (Y : Nat → Int) (p : Plan) (t : Tables)
    (hy : ∀ n, td.year n = .ok (Y n)) (hs : ∀ n, td.scenarios n = .ok (S n))
    (ha : PlanAligned p) (hd : Distinct p.graphPaths)
    (hok : ∀ r ∈ planRows p, r.1 ≠ [] ∧ r.1.map (·.1) = ints r.1.length ∧
      r.2.1.map (·.1) = ints r.1.length)
    (ht : getSolution td p = .ok t) (s : Nat) (y : Int) (pos : Pos) :
    (s, y, pos) ∈ t.lines ↔ ∃ r ∈ planRows p, ∃ (i : Nat) (n : Int × Nat) (lg : Int × Group),
      r.1[i]? = some n ∧ r.2.1[i]? = some lg ∧ s ∈ S n.2 ∧ y = Y n.2 ∧
      ∃ e ∈ lg.2, e.2.elementType = "line" ∧ e.2.position = pos := by
  obtain ⟨t', ht', hp, _⟩ := C31_tables_partial td S Y p hy hs ha hd hok
  rw [ht] at ht'
  cases ht'
  rw [hp.mem_iff]
  simp only [List.mem_flatMap, expectedLines, List.mem_map, List.mem_filter, Prod.mk.injEq,
    decide_eq_true_eq]
  constructor
  · rintro ⟨r, hr, ng, hng, e, ⟨he, hline⟩, s', hs', rfl, rfl, rfl⟩
    obtain ⟨i, hi⟩ := List.mem_iff_getElem?.1 hng
    rw [List.getElem?_zip_eq_some] at hi
    exact ⟨r, hr, i, ng.1, ng.2, hi.1, hi.2, hs', rfl, e, he, hline, rfl⟩
  · rintro ⟨r, hr, i, n, lg, h1, h2, h3, rfl, e, he, hline, rfl⟩
    refine ⟨r, hr, (n, lg), List.mem_iff_getElem?.2 ⟨i, ?_⟩, e, ⟨he, hline⟩, s, h3, rfl, rfl, rfl⟩
    rw [List.getElem?_zip_eq_some]
    exact ⟨h1, h2⟩

/-- **C31.** If no scenario ends in two different recorded solutions, each scenario that ends in one
has exactly one investment cost and one operation cost row. -/
theorem C31_one_cost_per_scenario_partial (td : TreeData) (S : Nat → List Nat) (Y : Nat → Int) (p : Plan)
    (t : Tables) (hy : ∀ n, td.year n = .ok (Y n)) (hs : ∀ n, td.scenarios n = .ok (S n))
    (ha : PlanAligned p) (hd : Distinct p.graphPaths)
    (hok : ∀ r ∈ planRows p, r.1 ≠ [] ∧ r.1.map (·.1) = ints r.1.length ∧
      r.2.1.map (·.1) = ints r.1.length)
    (hdis : ∀ r₁ ∈ planRows p, ∀ r₂ ∈ planRows p, ∀ s, EndsIn S r₁ s → EndsIn S r₂ s → r₁ = r₂)
    (ht : getSolution td p = .ok t) (r : Path × Sol × Rat × Rat) (hr : r ∈ planRows p) (s : Nat)
    (hsr : EndsIn S r s) :
    t.investment.filter (fun x => x.1 = s) = [(s, some r.2.2.1)] ∧
    t.operation.filter (fun x => x.1 = s) = [(s, some r.2.2.2)] := by
  obtain ⟨t', ht', _, _, ⟨hn, _, hm⟩, ⟨hn2, _, hm2⟩⟩ := C31_tables_partial td S Y p hy hs ha hd hok
  rw [ht] at ht'
  cases ht'
  have key : ∀ (l : List CostRow) (c : Rat), l.Nodup → (s, some c) ∈ l →
      (∀ c', (s, c') ∈ l → c' = some c) → l.filter (fun x => x.1 = s) = [(s, some c)] := by
    intro l c hl hc hu
    have h1 : (l.filter (fun x => x.1 = s)).Nodup := hl.filter _
    have h2 : ∀ x ∈ l.filter (fun x => x.1 = s), x = (s, some c) := by
      intro x hx
      rw [List.mem_filter] at hx
      obtain ⟨hx1, hx2⟩ := hx
      simp only [decide_eq_true_eq] at hx2
      obtain ⟨a, b⟩ := x
      simp only at hx2
      subst hx2
      rw [hu b hx1]
    have h3 : (s, some c) ∈ l.filter (fun x => x.1 = s) := by
      rw [List.mem_filter]; exact ⟨hc, by simp⟩
    generalize l.filter (fun x => decide (x.1 = s)) = m at h1 h2 h3 ⊢
    match m, h1, h2, h3 with
    | [a], _, h2, _ => rw [h2 a List.mem_cons_self]
    | a :: b :: m, h1, h2, _ =>
      exfalso
      have e1 := h2 a List.mem_cons_self
      have e2 := h2 b (List.mem_cons_of_mem _ List.mem_cons_self)
      rw [List.nodup_cons] at h1
      exact h1.1 (by rw [e1, ← e2]; exact List.mem_cons_self)
  constructor
  · refine key _ _ hn ((hm _ _).2 ⟨r, hr, hsr, rfl⟩) ?_
    intro c' hc'
    obtain ⟨r', hr', hs', rfl⟩ := (hm _ _).1 hc'
    rw [hdis r' hr' r hr s hs' hsr]
  · refine key _ _ hn2 ((hm2 _ _).2 ⟨r, hr, hsr, rfl⟩) ?_
    intro c' hc'
    obtain ⟨r', hr', hs', rfl⟩ := (hm2 _ _).1 hc'
    rw [hdis r' hr' r hr s hs' hsr]

/-- **C31** for whole runs: on a well-formed problem the access function raises nothing and, if the
recorded solutions have distinct keys, returns the tables of the recorded plan. -/
theorem C31_access_function_partial (cfg : Cfg) (fuel : Nat) (td : TreeData) (S : Nat → List Nat)
    (Y : Nat → Int) (hw : WellFormed cfg fuel)
    (hy : ∀ n, td.year n = .ok (Y n)) (hs : ∀ n, td.scenarios n = .ok (S n)) (f : Bool) (b : Info)
    (hrun : runSearch cfg fuel = .ok (f, b)) (hd : Distinct b.complete.graphPaths) :
    ∃ t, accessFunction true cfg td fuel = .ok (some t) ∧
      t.lines.Perm ((planRows b.complete).flatMap (expectedLines S Y)) ∧
      (∀ s c, (s, c) ∈ t.investment ↔ ∃ r ∈ planRows b.complete, EndsIn S r s ∧ c = some r.2.2.1) ∧
      (∀ s c, (s, c) ∈ t.operation ↔ ∃ r ∈ planRows b.complete, EndsIn S r s ∧ c = some r.2.2.2) := by
  have hb : Moment cfg fuel b := Or.inr ⟨fuel, {}, f, .start, hrun⟩
  have hok : ∀ r ∈ planRows b.complete, r.1 ≠ [] ∧ r.1.map (·.1) = ints r.1.length ∧
      r.2.1.map (·.1) = ints r.1.length := by
    intro r hr
    have h1 := C18_paths_are_root_to_leaf cfg fuel hw b hb b.complete (by simp) r hr
    have h2 := C25_interventions_from_pool cfg fuel hw b hb b.complete (by simp) r hr
    refine ⟨?_, h1.2, h2.2.2⟩
    intro h
    obtain ⟨m, hm, _⟩ := h1.1.2
    rw [h] at hm
    simp at hm
  obtain ⟨t, ht, h1, _, ⟨_, _, h2⟩, ⟨_, _, h3⟩⟩ := C31_tables_partial td S Y b.complete hy hs
    (C19_bookkeeping_aligned cfg fuel hw b hb).comp hd hok
  refine ⟨t, ?_, h1, h2, h3⟩
  unfold accessFunction
  simp only [Bool.not_true, Bool.false_eq_true, if_false, hrun]
  show (getSolution td b.complete >>= _) = _
  rw [ht]
  rfl

/-! ### the property fails when keys repeat -/

/-- number under which the pool entries active in a request are looked up -/
def activeCode (r : Request) : Nat :=
  r.active.foldl (fun a v => match v.position with
    | .single 0 => a + 1
    | .single 1 => a + 2
    | _ => a + 4) 0

/-- Root with four children, each with one child; three lines with construction times of 10, 30 and
10 years.  The OPF rejects five requests. -/
def mixTree : Cfg :=
  { pool := [opt 0 100 10, opt 1 100 30, opt 2 100 10], nodes := [0, 1, 2, 3, 4, 5, 6, 7, 8],
    nbr := graphOf [[1, 2, 3, 4], [5], [6], [7], [8]], years := [2020, 2030, 2040], rate := 0,
    opf := fun _ r => (!([(1, 1), (2, 0), (5, 5), (6, 4), (7, 7)].contains (r.node, activeCode r)), 0) }

theorem mixTree_wf : WellFormed mixTree 6 :=
  ⟨by decide, by decide, 2, by simp [HeightLe, mixTree, graphOf], by omega, by decide⟩

/-- scenarios 0-3 end in nodes 5-8 -/
def mixScen (n : Nat) : List Nat :=
  if n = 0 then [0, 1, 2, 3] else if n ≤ 4 then [n - 1] else [n - 5]
/-- years of the nodes -/
def mixYear (n : Nat) : Int := if n = 0 then 2020 else if n ≤ 4 then 2030 else 2040
/-- node data for `mixTree` -/
def mixData : TreeData := ⟨fun n => .ok (mixScen n), fun n => .ok (mixYear n)⟩

/-- what the access function returns -/
def accessResult (cfg : Cfg) (td : TreeData) (fuel : Nat) : Option Tables :=
  ((accessFunction true cfg td fuel).toOption).join

/-- **C31 fails** in a run on a well-formed problem (because incumbent keys can repeat, C20): the
recorded plan builds line 1 at the root for the scenario that ends in node 7, but line 1 appears
in no row of the lines table. -/
theorem C31_violated : ∃ (cfg : Cfg) (fuel : Nat) (p : Plan) (t : Tables), WellFormed cfg fuel ∧
    finalPlan cfg fuel = some p ∧ accessResult cfg mixData fuel = some t ∧
    (2, 2020, Pos.single 1) ∈ (planRows p).flatMap (expectedLines mixScen mixYear) ∧
    ∀ s y, (s, y, Pos.single 1) ∉ t.lines := by
  obtain ⟨f, b, hrun⟩ := C15_search_never_raises _ _ mixTree_wf
  have hfp : finalPlan mixTree 6 = some b.complete := by unfold finalPlan; rw [hrun]
  have hlines : ((finalPlan mixTree 6).bind (fun p =>
      (p.graphPaths.foldlM (addSolution mixData p) {}).toOption.map (fun t =>
        t.lines.all (fun r => r.2.2 != Pos.single 1)))) = some true := by decide +kernel
  have hexp : ((finalPlan mixTree 6).map (fun p => decide ((2, 2020, Pos.single 1) ∈
      (planRows p).flatMap (expectedLines mixScen mixYear)))) = some true := by decide +kernel
  rw [hfp] at hlines hexp
  simp only [Option.bind_some, Option.map_some, Option.some.injEq, decide_eq_true_eq] at hlines hexp
  cases ht : b.complete.graphPaths.foldlM (addSolution mixData b.complete) {} with
  | error e => rw [ht] at hlines; cases hlines
  | ok t =>
    rw [ht] at hlines
    have hl : t.lines.all (fun r => r.2.2 != Pos.single 1) = true := by
      simpa [Except.toOption] using hlines
    refine ⟨mixTree, 6, b.complete, { 
      lines := t.lines.mergeSort lineLe
      investment := (dropDuplicates t.investment).mergeSort costLe
      operation := (dropDuplicates t.operation).mergeSort costLe }, mixTree_wf, hfp, ?_, hexp, ?_⟩
    · have hg : getSolution mixData b.complete = .ok {
          lines := t.lines.mergeSort lineLe
          investment := (dropDuplicates t.investment).mergeSort costLe
          operation := (dropDuplicates t.operation).mergeSort costLe } := by
        unfold getSolution
        rw [ht]; rfl
      unfold accessResult accessFunction
      simp only [Bool.not_true, Bool.false_eq_true, if_false, hrun]
      show ((getSolution mixData b.complete >>= fun t => Except.ok (some t)).toOption).join = _
      rw [hg]; rfl
    · intro s y h
      have h' : (s, y, Pos.single 1) ∈ t.lines := (List.mergeSort_perm _ _).mem_iff.1 h
      have := List.all_eq_true.1 hl _ h'
      simp at this

/-- Non-vacuity of `C31_access_function_partial` (and so of `C31_tables_partial`): distinct keys and a
recorded line at the root. -/
example : (finalPlan (vTree [opt 0 10 0, opt 1 5 3] (fun _ r => (true, if r.active = [] then 1 else 0))) 5).map
    (fun p => (p.graphPaths.map (·.1), (planRows p).flatMap (expectedLines (fun n => if n = 0 then [0, 1] else [n - 1])
      (fun n => if n = 0 then 2020 else 2030)))) = some ([0, 1], [(0, 2020, .single 0), (1, 2020, .single 0),
      (0, 2020, .single 0), (1, 2020, .single 0)]) := by
  decide +kernel

/-! ## C58: rows belong to the scenario's own plan -/

/-- C58 needs non-anticipativity: if each scenario of a node on a recorded path ends in some recorded
solution through that node, and the plan is non-anticipative, then every row of the lines table for
scenario `s` is an intervention recorded in a solution in which `s` ends. -/
theorem C58_rows_of_own_plan_partial (td : TreeData) (S : Nat → List Nat) (Y : Nat → Int) (p : Plan)
    (t : Tables) (hy : ∀ n, td.year n = .ok (Y n)) (hs : ∀ n, td.scenarios n = .ok (S n))
    (ha : PlanAligned p) (hd : Distinct p.graphPaths)
    (hok : ∀ r ∈ planRows p, r.1 ≠ [] ∧ r.1.map (·.1) = ints r.1.length ∧
      r.2.1.map (·.1) = ints r.1.length)
    (hcov : ∀ r ∈ planRows p, ∀ (i : Nat) (n : Int × Nat), r.1[i]? = some n → ∀ s ∈ S n.2,
      ∃ r' ∈ planRows p, EndsIn S r' s ∧ r'.1[i]? = some n)
    (hna : NonAnticipative p)
    (ht : getSolution td p = .ok t) (s : Nat) (y : Int) (pos : Pos) (hrow : (s, y, pos) ∈ t.lines) :
    ∃ r ∈ planRows p, EndsIn S r s ∧ ∃ (i : Nat) (n : Int × Nat) (lg : Int × Group),
      r.1[i]? = some n ∧ r.2.1[i]? = some lg ∧ y = Y n.2 ∧
      ∃ e ∈ lg.2, e.2.elementType = "line" ∧ e.2.position = pos := by
  obtain ⟨r, hr, i, n, lg, h1, h2, h3, h4, h5⟩ :=
    (C31_lines_only_partial td S Y p t hy hs ha hd hok ht s y pos).1 hrow
  obtain ⟨r', hr', he, hi⟩ := hcov r hr i n h1 s h3
  refine ⟨r', hr', he, i, n, lg, hi, ?_, h4, h5⟩
  rw [← hna r hr r' hr' i n h1 hi]
  exact h2

/-- C58 fails in general: the recorded plan of a well-formed problem builds line 0 at the root only
for the scenario through node 1, but the lines table reports it for scenario 1, which ends in node 4,
as well. -/
theorem C58_violated : ∃ (cfg : Cfg) (fuel : Nat) (S : Nat → List Nat) (Y : Nat → Int) (p : Plan)
    (t : Tables), WellFormed cfg fuel ∧ finalPlan cfg fuel = some p ∧
    getSolution ⟨fun n => .ok (S n), fun n => .ok (Y n)⟩ p = .ok t ∧
    (1, 2020, Pos.single 0) ∈ t.lines ∧
    ∀ r ∈ planRows p, EndsIn S r 1 → ∀ lg ∈ r.2.1, ∀ e ∈ lg.2, e.2.position ≠ .single 0 := by
  let cfg : Cfg := yTree [opt 0 10 0, opt 1 20 0] (fun _ r =>
    ((r.node != 0 || r.active != []) &&
      (r.node != 2 || r.active != [(opt 0 10 0).2]), 0))
  let S : Nat → List Nat := fun n => if n = 0 then [0, 1] else if n % 2 = 1 then [0] else [1]
  let Y : Nat → Int := fun n => if n = 0 then 2020 else if n ≤ 2 then 2030 else 2040
  have hw : WellFormed cfg 6 := yTree_wf _ _ (by decide)
  obtain ⟨f, b, hrun⟩ := C15_search_never_raises _ _ hw
  have hfp : finalPlan cfg 6 = some b.complete := by unfold finalPlan; rw [hrun]
  have hb : Moment cfg 6 b := Or.inr ⟨6, {}, f, .start, hrun⟩
  have hdd : (finalPlan cfg 6).map (fun p => decide (p.graphPaths.map (·.1)).Nodup) = some true := by
    decide +kernel
  have hexp : ((finalPlan cfg 6).map (fun p => decide ((1, 2020, Pos.single 0) ∈
      (planRows p).flatMap (expectedLines S Y)))) = some true := by decide +kernel
  have hown : ((finalPlan cfg 6).map (fun p => (planRows p).all (fun r =>
      r.1.getLast? == some (2, 3) || (r.1.getLast? == some (2, 4) &&
        r.2.1.all (fun lg => lg.2.all (fun e => e.2.position != .single 0)))))) = some true := by
    decide +kernel
  rw [hfp] at hdd hexp hown
  simp only [Option.map_some, Option.some.injEq, decide_eq_true_eq] at hdd hexp hown
  obtain ⟨t, ht, hp, _⟩ := C31_tables_partial ⟨fun n => .ok (S n), fun n => .ok (Y n)⟩ S Y b.complete
    (fun _ => rfl) (fun _ => rfl) (C19_bookkeeping_aligned cfg 6 hw b hb).comp hdd (by
      intro r hr
      have h1 := C18_paths_are_root_to_leaf cfg 6 hw b hb b.complete (by simp) r hr
      have h2 := C25_interventions_from_pool cfg 6 hw b hb b.complete (by simp) r hr
      refine ⟨?_, h1.2, h2.2.2⟩
      intro h
      obtain ⟨m, hm, _⟩ := h1.1.2
      rw [h] at hm
      simp at hm)
  refine ⟨cfg, 6, S, Y, b.complete, t, hw, hfp, ht, hp.mem_iff.2 hexp, ?_⟩
  intro r hr hends lg hlg e he
  have := List.all_eq_true.1 hown r hr
  rw [Bool.or_eq_true, Bool.and_eq_true] at this
  rcases this with h | ⟨_, h⟩
  · exfalso
    obtain ⟨n, hn, hs⟩ := hends
    rw [hn] at h
    have : n = (2, 3) := by simpa using h
    subst this
    simp [S] at hs
  · have h3 := List.all_eq_true.1 (List.all_eq_true.1 h lg hlg) e he
    simpa using h3

/-- Non-vacuity of `C58_rows_of_own_plan_partial`: a plan with a common decision at the root. -/
def sharedPlan : Plan :=
  { interventions := [(0, [(0, [opt 0 10 0]), (1, [])]), (1, [(0, [opt 0 10 0]), (1, [opt 1 5 0])])]
    operationCosts := [(0, 7), (1, 8)]
    investmentCosts := [(0, 10), (1, 15)]
    graphPaths := [(0, [(0, 0), (1, 1)]), (1, [(0, 0), (1, 2)])] }

example : PlanAligned sharedPlan ∧ Distinct sharedPlan.graphPaths ∧ NonAnticipative sharedPlan ∧
    ∀ r ∈ planRows sharedPlan, ∀ (i : Nat) (n : Int × Nat), r.1[i]? = some n →
      ∀ s ∈ (fun n => if n = 0 then [0, 1] else [n - 1]) n.2,
      ∃ r' ∈ planRows sharedPlan, EndsIn (fun n => if n = 0 then [0, 1] else [n - 1]) r' s ∧
        r'.1[i]? = some n := by
  refine ⟨⟨rfl, rfl, rfl⟩, by unfold Distinct; decide, ?_, ?_⟩
  · intro r₁ h₁ r₂ h₂ i n e₁ e₂
    simp only [planRows, sharedPlan, List.zip_cons_cons, List.zip_nil_left, List.map_cons, List.map_nil,
      List.mem_cons, List.not_mem_nil, or_false] at h₁ h₂
    rcases h₁ with rfl | rfl <;> rcases h₂ with rfl | rfl <;> try rfl
    all_goals
      match i with
      | 0 => rfl
      | 1 => simp only [List.getElem?_cons_succ, List.getElem?_cons_zero, Option.some.injEq] at e₁ e₂
             rw [← e₁] at e₂; simp at e₂
      | i + 2 => simp at e₁
  · intro r h i n e s hs
    simp only [planRows, sharedPlan, List.zip_cons_cons, List.zip_nil_left, List.map_cons, List.map_nil,
      List.mem_cons, List.not_mem_nil, or_false] at h
    have hrow : ∀ (k : Nat), k < 2 → ∃ r' ∈ planRows sharedPlan,
        EndsIn (fun n => if n = 0 then [0, 1] else [n - 1]) r' k ∧ r'.1[0]? = some (0, 0) ∧
        r'.1[1]? = some (1, k + 1) := by
      intro k hk
      match k, hk with
      | 0, _ => exact ⟨_, List.mem_cons_self, ⟨(1, 1), rfl, by simp⟩, rfl, rfl⟩
      | 1, _ => exact ⟨_, List.mem_cons_of_mem _ List.mem_cons_self, ⟨(1, 2), rfl, by simp⟩, rfl, rfl⟩
    rcases h with rfl | rfl
    all_goals
      match i with
      | 0 =>
        simp only [List.getElem?_cons_zero, Option.some.injEq] at e
        subst e
        simp only [if_true, List.mem_cons, List.not_mem_nil, or_false] at hs
        obtain ⟨r', h1, h2, h3, _⟩ := hrow s (by omega)
        exact ⟨r', h1, h2, h3⟩
      | 1 =>
        simp only [List.getElem?_cons_succ, List.getElem?_cons_zero, Option.some.injEq] at e
        subst e
        simp at hs
        subst hs
        first
          | (obtain ⟨r', h1, h2, _, h3⟩ := hrow 0 (by omega); exact ⟨r', h1, h2, h3⟩)
          | (obtain ⟨r', h1, h2, _, h3⟩ := hrow 1 (by omega); exact ⟨r', h1, h2, h3⟩)
      | i + 2 => simp at e

end Pyensys
