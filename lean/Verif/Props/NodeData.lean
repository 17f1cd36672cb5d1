import Verif.Model.NodeData
import Verif.Props.Clustering
import Verif.Props.Network

/-! # C35, C66, C67: data of the nodes -/

namespace Pyensys

/-! ## Specification -/

/-- the rows of the input that concern bus `b`, year `y` and one of the scenarios `S` -/
def matching (data : List DataRow) (S : List Int) (y b : Int) : List DataRow :=
  data.filter (fun r => r.scenario ∈ S ∧ r.year = y ∧ r.bus = b)

/-- the same for flexible units -/
def matchingUnits (data : UnitTable) (S : List Int) (y b : Int) : List UnitRow :=
  data.rows.filter (fun r => r.scenario ∈ S ∧ r.year = y ∧ r.bus = b)

/-- the names of the scenarios (columns) of a node -/
def namesOf (scenariosNumber : List Int) (cols : List Nat) : List Int :=
  cols.filterMap (fun c => scenariosNumber[c]?)

/-! ## Lemmas -/

theorem unique_fold {α : Type} [DecidableEq α] (l : List α) : ∀ (acc : List α), acc.Nodup →
    (l.foldl (fun acc b => if b ∈ acc then acc else acc ++ [b]) acc).Nodup ∧
    ∀ b, b ∈ l.foldl (fun acc b => if b ∈ acc then acc else acc ++ [b]) acc ↔ b ∈ acc ∨ b ∈ l := by
  induction l with
  | nil => intro acc h; exact ⟨h, by simp⟩
  | cons a l ih =>
    intro acc h
    rw [List.foldl_cons]
    by_cases ha : a ∈ acc
    · rw [if_pos ha]
      obtain ⟨h1, h2⟩ := ih acc h
      refine ⟨h1, fun b => ?_⟩
      rw [h2, List.mem_cons]
      constructor
      · rintro (h | h)
        · exact Or.inl h
        · exact Or.inr (Or.inr h)
      · rintro (h | rfl | h)
        · exact Or.inl h
        · exact Or.inl ha
        · exact Or.inr h
    · rw [if_neg ha]
      obtain ⟨h1, h2⟩ := ih (acc ++ [a]) (by
        rw [List.nodup_append]
        refine ⟨h, List.nodup_singleton _, ?_⟩
        intro x hx y hy
        rw [List.mem_singleton] at hy
        subst hy
        rintro rfl
        exact ha hx)
      refine ⟨h1, fun b => ?_⟩
      rw [h2, List.mem_append, List.mem_singleton, List.mem_cons]
      tauto

theorem unique_nodup {α : Type} [DecidableEq α] (l : List α) : (uniqueOf l).Nodup :=
  (unique_fold l [] List.nodup_nil).1

theorem mem_unique {α : Type} [DecidableEq α] (l : List α) (b : α) : b ∈ uniqueOf l ↔ b ∈ l := by
  have := (unique_fold l [] List.nodup_nil).2 b
  simpa [uniqueOf] using this

theorem scenarioNumbers_eq (sn : List Int) (cols : List Nat) :
    (∀ c ∈ cols, c < sn.length) → scenarioNumbers sn cols = .ok (namesOf sn cols) := by
  unfold scenarioNumbers namesOf
  induction cols with
  | nil => intro _; rfl
  | cons c cols ih =>
    intro h
    have hc := h c List.mem_cons_self
    have := ih (fun x hx => h x (List.mem_cons_of_mem _ hx))
    rw [List.mapM_cons, List.getElem?_eq_getElem hc]
    simp only [bind, Except.bind]
    rw [this, List.filterMap_cons, List.getElem?_eq_getElem hc]
    rfl

/-! ## C35 -/

/-- **C35.** The table of a node has one row for each bus with matching input rows, no other, and
that row holds the means of p and q over the matching input rows. -/
theorem C35_bus_averages (data : List DataRow) (sn yn : List Int) (node : Cluster) (y : Int)
    (hs : ∀ c ∈ node.scenarios, c < sn.length) (hy : yn[node.level]? = some y) :
    ∃ rows, nodeBuses data sn yn node = .ok (y, rows) ∧ (rows.map (·.bus)).Nodup ∧
      (∀ b, b ∈ rows.map (·.bus) ↔ matching data (namesOf sn node.scenarios) y b ≠ []) ∧
      ∀ r ∈ rows,
        r.p = ((matching data (namesOf sn node.scenarios) y r.bus).map (·.p)).sum /
          (matching data (namesOf sn node.scenarios) y r.bus).length ∧
        r.q = ((matching data (namesOf sn node.scenarios) y r.bus).map (·.q)).sum /
          (matching data (namesOf sn node.scenarios) y r.bus).length := by
  generalize hS : namesOf sn node.scenarios = S
  have hfil : ∀ b, ((data.filter (fun r => r.scenario ∈ S)).filter (fun r => r.year = y)).filter
      (fun r => r.bus = b) = matching data S y b := by
    intro b
    unfold matching
    rw [List.filter_filter, List.filter_filter]
    apply List.filter_congr
    intro r _
    by_cases h1 : r.scenario ∈ S <;> by_cases h2 : r.year = y <;> by_cases h3 : r.bus = b <;> simp [h1, h2, h3]
  refine ⟨(uniqueOf (((data.filter (fun r => r.scenario ∈ S)).filter (fun r => r.year = y)).map (·.bus))).map
    (fun b => ⟨b, columnMean ((((data.filter (fun r => r.scenario ∈ S)).filter (fun r => r.year = y)).filter
      (fun r => r.bus = b)).map (·.p)), columnMean ((((data.filter (fun r => r.scenario ∈ S)).filter
      (fun r => r.year = y)).filter (fun r => r.bus = b)).map (·.q))⟩), ?_, ?_, ?_, ?_⟩
  · unfold nodeBuses yearAt
    rw [scenarioNumbers_eq sn node.scenarios hs, hS, hy]
    rfl
  · rw [List.map_map]
    have : ((fun (x : BusRow Rat) => x.bus) ∘ fun b =>
        (⟨b, columnMean ((((data.filter (fun r => r.scenario ∈ S)).filter (fun r => r.year = y)).filter
          (fun r => r.bus = b)).map (·.p)), columnMean ((((data.filter (fun r => r.scenario ∈ S)).filter
          (fun r => r.year = y)).filter (fun r => r.bus = b)).map (·.q))⟩ : BusRow Rat)) = id := rfl
    rw [this, List.map_id]
    exact unique_nodup _
  · intro b
    rw [List.mem_map, ← hfil b]
    constructor
    · rintro ⟨r, hr, rfl⟩
      obtain ⟨b, hb, rfl⟩ := List.mem_map.1 hr
      rw [mem_unique] at hb
      obtain ⟨e, he, hbe⟩ := List.mem_map.1 hb
      exact List.ne_nil_of_mem (List.mem_filter.2 ⟨he, by simpa using hbe⟩)
    · intro hne
      obtain ⟨e, he⟩ := List.exists_mem_of_ne_nil _ hne
      obtain ⟨he1, he2⟩ := List.mem_filter.1 he
      refine ⟨_, List.mem_map.2 ⟨b, ?_, rfl⟩, rfl⟩
      rw [mem_unique]
      exact List.mem_map.2 ⟨e, he1, by simpa using he2⟩
  · intro r hr
    obtain ⟨b, hb, rfl⟩ := List.mem_map.1 hr
    simp only [columnMean, hfil, List.length_map, and_self]

/-- **C35.** A node whose year or scenario is not in the table's labels raises IndexError. -/
theorem C35_unknown_year (data : List DataRow) (sn yn : List Int) (node : Cluster)
    (hs : ∀ c ∈ node.scenarios, c < sn.length) (hy : yn.length ≤ node.level) :
    nodeBuses data sn yn node = .error .index := by
  unfold nodeBuses yearAt
  rw [scenarioNumbers_eq sn node.scenarios hs, List.getElem?_eq_none hy]
  rfl

/-- **C35.** The averages lie between the smallest and largest matching input values. -/
theorem C35_between (data : List DataRow) (sn yn : List Int) (node : Cluster) (y : Int)
    (rows : List (BusRow Rat)) (hs : ∀ c ∈ node.scenarios, c < sn.length) (hy : yn[node.level]? = some y)
    (h : nodeBuses data sn yn node = .ok (y, rows)) (r : BusRow Rat) (hr : r ∈ rows) (lo hi : Rat)
    (hb : ∀ d ∈ matching data (namesOf sn node.scenarios) y r.bus, lo ≤ d.p ∧ d.p ≤ hi) : lo ≤ r.p ∧ r.p ≤ hi := by
  obtain ⟨rows', h1, _, h3, h4⟩ := C35_bus_averages data sn yn node y hs hy
  rw [h] at h1
  injection h1 with h1
  injection h1 with _ h1
  subst h1
  have hne := (h3 r.bus).1 (List.mem_map_of_mem hr)
  rw [(h4 r hr).1]
  have := mean_bounds ((matching data (namesOf sn node.scenarios) y r.bus).map (·.p)) (by simpa using hne) lo hi
    (by intro v hv; obtain ⟨d, hd, rfl⟩ := List.mem_map.1 hv; exact hb d hd)
  simpa using this

/-- **C35 for flexible units.** One row per bus with matching input rows; each of the ten columns is
the mean of the matching rows, or 0 if the table lacks the column. -/
theorem C35_unit_averages (data : UnitTable) (sn yn : List Int) (node : Cluster) (y : Int)
    (hs : ∀ c ∈ node.scenarios, c < sn.length) (hy : yn[node.level]? = some y) :
    ∃ rows, nodeUnits data sn yn node = .ok rows ∧ (rows.map (·.1)).Nodup ∧
      (∀ b, b ∈ rows.map (·.1) ↔ matchingUnits data (namesOf sn node.scenarios) y b ≠ []) ∧
      ∀ r ∈ rows, r.2.map (·.1) = unitColumns ∧ ∀ cv ∈ r.2,
        (cv.1 ∈ data.cols → cv.2 = ((matchingUnits data (namesOf sn node.scenarios) y r.1).map
          (fun u => u.vals cv.1)).sum / (matchingUnits data (namesOf sn node.scenarios) y r.1).length) ∧
        (cv.1 ∉ data.cols → cv.2 = 0) := by
  generalize hS : namesOf sn node.scenarios = S
  have hfil : ∀ b, ((data.rows.filter (fun r => r.scenario ∈ S)).filter (fun r => r.year = y)).filter
      (fun r => r.bus = b) = matchingUnits data S y b := by
    intro b
    unfold matchingUnits
    rw [List.filter_filter, List.filter_filter]
    apply List.filter_congr
    intro r _
    by_cases h1 : r.scenario ∈ S <;> by_cases h2 : r.year = y <;> by_cases h3 : r.bus = b <;> simp [h1, h2, h3]
  refine ⟨(uniqueOf (((data.rows.filter (fun r => r.scenario ∈ S)).filter (fun r => r.year = y)).map (·.bus))).map
    (fun b => (b, unitColumns.map (fun c => (c, if c ∈ data.cols then columnMean
      ((((data.rows.filter (fun r => r.scenario ∈ S)).filter (fun r => r.year = y)).filter
      (fun r => r.bus = b)).map (fun r => r.vals c)) else 0)))), ?_, ?_, ?_, ?_⟩
  · unfold nodeUnits yearAt
    rw [scenarioNumbers_eq sn node.scenarios hs, hS, hy]
    rfl
  · rw [List.map_map]
    have : ∀ (l : List Int) (f : Int → List (String × Rat)),
        l.map ((fun (x : Int × List (String × Rat)) => x.1) ∘ fun b => (b, f b)) = l := by
      intro l f
      conv_rhs => rw [← List.map_id l]
      rfl
    rw [this _ (fun b => unitColumns.map (fun c => (c, if c ∈ data.cols then columnMean
      ((((data.rows.filter (fun r => r.scenario ∈ S)).filter (fun r => r.year = y)).filter
      (fun r => r.bus = b)).map (fun r => r.vals c)) else 0)))]
    exact unique_nodup _
  · intro b
    rw [List.mem_map, ← hfil b]
    constructor
    · rintro ⟨r, hr, rfl⟩
      obtain ⟨b, hb, rfl⟩ := List.mem_map.1 hr
      rw [mem_unique] at hb
      obtain ⟨e, he, hbe⟩ := List.mem_map.1 hb
      exact List.ne_nil_of_mem (List.mem_filter.2 ⟨he, by simpa using hbe⟩)
    · intro hne
      obtain ⟨e, he⟩ := List.exists_mem_of_ne_nil _ hne
      obtain ⟨he1, he2⟩ := List.mem_filter.1 he
      refine ⟨_, List.mem_map.2 ⟨b, ?_, rfl⟩, rfl⟩
      rw [mem_unique]
      exact List.mem_map.2 ⟨e, he1, by simpa using he2⟩
  · intro r hr
    obtain ⟨b, hb, rfl⟩ := List.mem_map.1 hr
    refine ⟨?_, ?_⟩
    · rw [List.map_map]
      conv_rhs => rw [← List.map_id unitColumns]
      rfl
    · intro cv hcv
      obtain ⟨c, hc, rfl⟩ := List.mem_map.1 hcv
      refine ⟨?_, ?_⟩
      · intro h
        simp only at h ⊢
        rw [if_pos h, hfil]
        simp [columnMean]
      · intro h
        simp only at h ⊢
        rw [if_neg h]

/-! ## C66: the year of a node -/

/-- **C66.** The years used by the search (construction times, discounting) and the years of the
node data agree at every level exactly if the rows of the profile are in ascending order. -/
theorem C66_years_agree_iff (yn : List Int) :
    (∀ l : Nat, (optimisationYears yn)[l]? = yn[l]?) ↔ yn.Pairwise (· ≤ ·) := by
  constructor
  · intro h
    have : optimisationYears yn = yn := List.ext_getElem? h
    rw [← this]
    exact List.pairwise_insertionSort (· ≤ ·) yn
  · intro h l
    unfold optimisationYears
    rw [h.insertionSort_eq]

/-- **C66.** The sorted years are the same years, in ascending order. -/
theorem C66_same_years (yn : List Int) :
    (optimisationYears yn).Perm yn ∧ (optimisationYears yn).Pairwise (· ≤ ·) :=
  ⟨List.perm_insertionSort (· ≤ ·) yn, List.pairwise_insertionSort (· ≤ ·) yn⟩

/-- The sorting of the reader (`C66_year_of_node` in Props/Multipliers) is needed: for year labels that
are not ascending, level 0 would be discounted as 2020 but use the data of 2030. -/
theorem unsorted_labels_would_disagree : ∃ yn : List Int, (optimisationYears yn)[0]? = some 2020 ∧
    nodeBuses [⟨1, 2030, 7, 5, 6⟩, ⟨1, 2020, 7, 1, 2⟩] [1] yn ⟨[0], 0, 0⟩ = .ok (2030, [⟨7, 5, 6⟩]) := by
  refine ⟨[2030, 2020], by decide +kernel, ?_⟩
  decide +kernel

/-! ## C67: from the input table to the network of the OPF -/

/-- **C67.** From the demand table to the OPF: if every bus of the table has a load, the network in
which the OPF of a node is run holds, for each load, the mean of the input rows of the node's
scenarios, the node's year and the load's bus; a load without such rows keeps its values. -/
theorem C67_demand_reaches_opf (s3 : Rat) (hs3 : 0 < s3) (init net : Net Rat) (active : List BinVar)
    (data : List DataRow) (sn yn : List Int) (node : Cluster) (y : Int)
    (hs : ∀ c ∈ node.scenarios, c < sn.length) (hy : yn[node.level]? = some y)
    (hact : ∀ v ∈ active, LineInvestment v) (hup : Upgradable init (active.flatMap upgradesOf))
    (hlab : (init.loads.map (·.1)).Nodup) (hbus : (init.loads.map (·.2.bus)).Nodup)
    (hex : ∀ d ∈ data, ∃ e ∈ init.loads, e.2.bus = d.bus) :
    ∃ rows net', nodeBuses data sn yn node = .ok (y, rows) ∧
      opfNetwork s3 init net active (some (rows, [])) = .ok net' ∧
      net'.loads.length = init.loads.length ∧
      ∀ (i : Nat) (lab : Int) (l : Load Rat), init.loads[i]? = some (lab, l) →
        ∃ l', net'.loads[i]? = some (lab, l') ∧ l'.bus = l.bus ∧
          (matching data (namesOf sn node.scenarios) y l.bus = [] → l' = l) ∧
          (matching data (namesOf sn node.scenarios) y l.bus ≠ [] →
            l'.vals "p_mw" = some (((matching data (namesOf sn node.scenarios) y l.bus).map (·.p)).sum /
              (matching data (namesOf sn node.scenarios) y l.bus).length) ∧
            l'.vals "q_mvar" = some (((matching data (namesOf sn node.scenarios) y l.bus).map (·.q)).sum /
              (matching data (namesOf sn node.scenarios) y l.bus).length) ∧
            ∀ n, n ≠ "p_mw" → n ≠ "q_mvar" → l'.vals n = l.vals n) := by
  obtain ⟨rows, h1, h2, h3, h4⟩ := C35_bus_averages data sn yn node y hs hy
  have hexr : ∀ r ∈ rows, ∃ e ∈ init.loads, e.2.bus = r.bus := by
    intro r hr
    obtain ⟨d, hd⟩ := List.exists_mem_of_ne_nil _ ((h3 r.bus).1 (List.mem_map_of_mem hr))
    unfold matching at hd
    obtain ⟨hd1, hd2⟩ := List.mem_filter.1 hd
    simp only [decide_eq_true_eq] at hd2
    obtain ⟨e, he, hb⟩ := hex d hd1
    exact ⟨e, he, by rw [hb, hd2.2.2]⟩
  obtain ⟨net', g1, g2, _⟩ := C62_opf_network hs3 init net active rows hact hup h2 hlab hbus hexr
  refine ⟨rows, net', h1, g1, by rw [g2]; simp [withLoads], ?_⟩
  intro i lab l hi
  rw [g2]
  unfold withLoads
  simp only [List.getElem?_map, hi, Option.map_some]
  cases hf : rows.find? (fun r => r.bus = l.bus) with
  | none =>
    refine ⟨l, rfl, rfl, fun _ => rfl, ?_⟩
    intro hne
    obtain ⟨r, hr, hrb⟩ := List.mem_map.1 ((h3 l.bus).2 hne)
    have := List.find?_eq_none.1 hf r hr
    simp [hrb] at this
  | some r =>
    have hr := List.mem_of_find?_eq_some hf
    have hrb : r.bus = l.bus := by simpa using List.find?_some hf
    refine ⟨l.withPQ r.p r.q, rfl, rfl, ?_, ?_⟩
    · intro hnil
      have := (h3 l.bus).1 (by rw [← hrb]; exact List.mem_map_of_mem hr)
      exact absurd hnil this
    · intro _
      obtain ⟨hp, hq⟩ := h4 r hr
      rw [hrb] at hp hq
      refine ⟨?_, ?_, ?_⟩
      · simp [Load.withPQ, hp]
      · simp [Load.withPQ, hq]
      · intro n n1 n2
        simp [Load.withPQ, n1, n2]

/-! ## Instances -/

example : nodeBuses [⟨1, 2020, 3, 1, 2⟩, ⟨2, 2020, 3, 3, 4⟩, ⟨3, 2020, 3, 9, 9⟩, ⟨1, 2030, 3, 8, 8⟩, ⟨2, 2020, 7, 5, 5⟩]
    [1, 2, 3] [2020, 2030] ⟨[0, 1], 0, 0⟩ = .ok (2020, [⟨3, 2, 3⟩, ⟨7, 5, 5⟩]) := by decide +kernel

/-- the hypotheses of C67 hold for the example network of C62 -/
example : ∃ (i : Nat) (lab : Int) (l : Load Rat), netEx.loads[i]? = some (lab, l) ∧
    matching [⟨1, 2020, 7, 3, 4⟩] (namesOf [1] [0]) 2020 l.bus ≠ [] ∧
    (∀ d ∈ [(⟨1, 2020, 7, 3, 4⟩ : DataRow)], ∃ e ∈ netEx.loads, e.2.bus = d.bus) := by
  refine ⟨1, 1, ⟨7, fun _ => some 1⟩, rfl, by simp [matching, namesOf], ?_⟩
  intro d hd
  rw [List.mem_singleton] at hd
  subst hd
  exact ⟨(1, ⟨7, fun _ => some 1⟩), by simp [netEx], rfl⟩

end Pyensys
