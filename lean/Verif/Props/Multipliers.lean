import Verif.Model.Multipliers
import Verif.Props.NodeData
import Verif.Props.Clustering
import Verif.Props.GraphSearch
import Verif.Props.GraphProfile
import Mathlib.Data.List.ProdSigma
import Mathlib.Data.List.Nodup
import Mathlib.Data.List.Dedup

/-!
# C43, C66, C68: demand multipliers

C43: the multipliers; C66: years; C68: from the demand table to the plan.
-/

namespace Pyensys

/-! ## Vocabulary -/

/-- apparent power of the system in a scenario and year: the sum over the matching rows -/
def demandOf (mag : Rat → Rat → Rat) (data : List DataRow) (s y : Int) : Rat :=
  ((data.filter (fun r => r.scenario = s ∧ r.year = y)).map (fun r => mag r.p r.q)).sum

/-- `u` lists the distinct elements of `l` in the order in which they first appear in `l` -/
structure FirstAppearance {α : Type} [DecidableEq α] (l u : List α) : Prop where
  nodup : u.Nodup
  mem : ∀ a, a ∈ u ↔ a ∈ l
  order : ∀ a ∈ l, ∀ b ∈ l, u.idxOf a < u.idxOf b ↔ l.idxOf a < l.idxOf b

/-- `y0` is the first year of the table -/
def FirstYear (data : List DataRow) (y0 : Int) : Prop :=
  (∃ r ∈ data, r.year = y0) ∧ ∀ r ∈ data, y0 ≤ r.year

/-! ## Lemmas -/

theorem unique_snoc {α : Type} [DecidableEq α] (l : List α) (a : α) :
    uniqueOf (l ++ [a]) = if a ∈ uniqueOf l then uniqueOf l else uniqueOf l ++ [a] := by
  unfold uniqueOf
  rw [List.foldl_append]
  rfl

theorem unique_firstAppearance {α : Type} [DecidableEq α] (l : List α) : FirstAppearance l (uniqueOf l) := by
  refine ⟨unique_nodup l, mem_unique l, ?_⟩
  induction l using List.reverseRecOn with
  | nil => intro a ha; cases ha
  | append_singleton l x ih =>
    intro a ha b hb
    rw [unique_snoc]
    by_cases hx : x ∈ l
    · have hx' := (mem_unique l x).2 hx
      rw [if_pos hx']
      have ha' : a ∈ l := by
        rcases List.mem_append.1 ha with h | h
        · exact h
        · rw [List.mem_singleton] at h; subst h; exact hx
      have hb' : b ∈ l := by
        rcases List.mem_append.1 hb with h | h
        · exact h
        · rw [List.mem_singleton] at h; subst h; exact hx
      rw [List.idxOf_append_of_mem ha', List.idxOf_append_of_mem hb']
      exact ih a ha' b hb'
    · have hx' : x ∉ uniqueOf l := fun h => hx ((mem_unique l x).1 h)
      rw [if_neg hx']
      by_cases ha' : a ∈ l <;> by_cases hb' : b ∈ l
      · rw [List.idxOf_append_of_mem ha', List.idxOf_append_of_mem hb',
          List.idxOf_append_of_mem ((mem_unique l a).2 ha'), List.idxOf_append_of_mem ((mem_unique l b).2 hb')]
        exact ih a ha' b hb'
      · rw [List.idxOf_append_of_mem ha', List.idxOf_append_of_notMem hb',
          List.idxOf_append_of_mem ((mem_unique l a).2 ha'),
          List.idxOf_append_of_notMem (fun h => hb' ((mem_unique l b).1 h))]
        have h1 := List.idxOf_lt_length_of_mem ha'
        have h2 := List.idxOf_lt_length_of_mem ((mem_unique l a).2 ha')
        constructor <;> intro _ <;> omega
      · rw [List.idxOf_append_of_notMem ha', List.idxOf_append_of_mem hb',
          List.idxOf_append_of_notMem (fun h => ha' ((mem_unique l a).1 h)),
          List.idxOf_append_of_mem ((mem_unique l b).2 hb')]
        have h1 := List.idxOf_lt_length_of_mem hb'
        have h2 := List.idxOf_lt_length_of_mem ((mem_unique l b).2 hb')
        constructor <;> intro _ <;> omega
      · rcases List.mem_append.1 ha with h | h
        · exact absurd h ha'
        · rcases List.mem_append.1 hb with h' | h'
          · exact absurd h' hb'
          · rw [List.mem_singleton] at h h'
            subst h
            subst h'
            simp

theorem unique_of_nodup {α : Type} [DecidableEq α] (l : List α) (h : l.Nodup) : uniqueOf l = l := by
  induction l using List.reverseRecOn with
  | nil => rfl
  | append_singleton l x ih =>
    rw [unique_snoc]
    rw [List.nodup_append] at h
    obtain ⟨h1, _, h3⟩ := h
    rw [ih h1, if_neg]
    intro hx
    exact h3 x hx x (List.mem_singleton.2 rfl) rfl

theorem unique_append {α : Type} [DecidableEq α] (l m : List α) :
    uniqueOf (l ++ m) = uniqueOf (uniqueOf l ++ m) := by
  induction m using List.reverseRecOn with
  | nil => rw [List.append_nil, List.append_nil, unique_of_nodup _ (unique_nodup l)]
  | append_singleton m x ih => rw [← List.append_assoc, ← List.append_assoc, unique_snoc, unique_snoc, ih]

theorem unique_snoc_mem {α : Type} [DecidableEq α] (l m : List α) (h : ∀ x ∈ m, x ∈ l) :
    uniqueOf (l ++ m) = uniqueOf l := by
  induction m using List.reverseRecOn with
  | nil => rw [List.append_nil]
  | append_singleton m x ih =>
    rw [← List.append_assoc, unique_snoc, ih (fun y hy => h y (List.mem_append_left _ hy)), if_pos]
    exact (mem_unique l x).2 (h x (List.mem_append_right _ (List.mem_singleton.2 rfl)))

theorem unique_blocks {α β : Type} [DecidableEq α] (u : List α) (ys : List β) (hy : ys ≠ []) (hu : u.Nodup) :
    uniqueOf (u.flatMap (fun s => ys.map (fun _ => s))) = u := by
  induction u using List.reverseRecOn with
  | nil => rfl
  | append_singleton u x ih =>
    rw [List.flatMap_append]
    rw [List.nodup_append] at hu
    obtain ⟨h1, _, h3⟩ := hu
    rw [unique_append, ih h1]
    cases ys with
    | nil => exact absurd rfl hy
    | cons y ys =>
      have : ([x].flatMap fun s => (y :: ys).map (fun _ => s)) = [x] ++ ys.map (fun _ => x) := by simp
      rw [this, ← List.append_assoc, unique_snoc_mem, unique_of_nodup]
      · rw [List.nodup_append]
        exact ⟨h1, by simp, h3⟩
      · intro z hz
        rw [List.mem_map] at hz
        obtain ⟨_, _, rfl⟩ := hz
        simp

theorem pyMin_fold {α : Type} [LinearOrder α] (l : List α) : ∀ (a : α),
    (l.foldl (fun m x => if x < m then x else m) a ∈ a :: l) ∧
    (∀ x ∈ a :: l, l.foldl (fun m x => if x < m then x else m) a ≤ x) := by
  induction l with
  | nil => intro a; simp
  | cons b l ih =>
    intro a
    rw [List.foldl_cons]
    by_cases h : b < a
    · rw [if_pos h]
      obtain ⟨h1, h2⟩ := ih b
      refine ⟨List.mem_cons_of_mem _ h1, ?_⟩
      intro x hx
      rcases List.mem_cons.1 hx with rfl | hx
      · exact le_trans (h2 b List.mem_cons_self) (le_of_lt h)
      · exact h2 x hx
    · rw [if_neg h]
      obtain ⟨h1, h2⟩ := ih a
      constructor
      · rcases List.mem_cons.1 h1 with h' | h'
        · rw [h']; exact List.mem_cons_self
        · exact List.mem_cons_of_mem _ (List.mem_cons_of_mem _ h')
      · intro x hx
        rcases List.mem_cons.1 hx with rfl | hx
        · exact h2 _ List.mem_cons_self
        · rcases List.mem_cons.1 hx with rfl | hx
          · exact le_trans (h2 a List.mem_cons_self) (not_lt.1 h)
          · exact h2 x (List.mem_cons_of_mem _ hx)

theorem pyMin_eq {α : Type} [LinearOrder α] (l : List α) (m : α) (hm : m ∈ l) (hl : ∀ x ∈ l, m ≤ x) :
    pyMin l = .ok m := by
  cases l with
  | nil => cases hm
  | cons a l =>
    obtain ⟨h1, h2⟩ := pyMin_fold l a
    exact congrArg Except.ok (le_antisymm (h2 m hm) (hl _ h1))

theorem unique_length_le {α : Type} [DecidableEq α] (l : List α) :
    (uniqueOf l).length ≤ 1 ↔ ∀ a ∈ l, ∀ b ∈ l, a = b := by
  constructor
  · intro h a ha b hb
    have ha := (mem_unique l a).2 ha
    have hb := (mem_unique l b).2 hb
    match hu : uniqueOf l, h with
    | [], _ => rw [hu] at ha; cases ha
    | [x], _ =>
      rw [hu, List.mem_singleton] at ha hb
      rw [ha, hb]
    | x :: y :: r, h => simp at h
  · intro h
    have hn := unique_nodup l
    match hu : uniqueOf l with
    | [] => simp
    | [x] => simp
    | x :: y :: r =>
      rw [hu] at hn
      have hx := (mem_unique l x).1 (by rw [hu]; simp)
      have hy := (mem_unique l y).1 (by rw [hu]; simp)
      have := h x hx y hy
      subst this
      simp at hn

theorem systemPower_eq (mag : Rat → Rat → Rat) (data : List DataRow) (s y : Int) :
    systemPower mag data s y = demandOf mag data s y := by
  unfold systemPower demandOf
  have : ∀ (l : List DataRow) (a : Rat),
      l.foldl (fun acc r => acc + mag r.p r.q) a = a + (l.map (fun r => mag r.p r.q)).sum := by
    intro l
    induction l with
    | nil => intro a; simp
    | cons x l ih =>
      intro a
      rw [List.foldl_cons, ih, List.map_cons, List.sum_cons, add_assoc]
  rw [this, zero_add]

theorem totals_eq (mag : Rat → Rat → Rat) (data : List DataRow) :
    totalsTable mag data =
      (uniqueOf (data.map (·.scenario)) ×ˢ uniqueOf (data.map (·.year))).map
        (fun p => (⟨p.1, p.2, demandOf mag data p.1 p.2⟩ : TotalRow)) := by
  unfold totalsTable
  simp only [systemPower_eq]
  show _ = List.map _ (List.product _ _)
  unfold List.product
  rw [List.map_flatMap]
  simp only [List.map_map]
  rfl

theorem mem_scn (data : List DataRow) (s : Int) :
    s ∈ uniqueOf (data.map (·.scenario)) ↔ ∃ r ∈ data, r.scenario = s := by
  rw [mem_unique, List.mem_map]

theorem mem_yrs (data : List DataRow) (y : Int) :
    y ∈ uniqueOf (data.map (·.year)) ↔ ∃ r ∈ data, r.year = y := by
  rw [mem_unique, List.mem_map]

theorem totals_mem (mag : Rat → Rat → Rat) (data : List DataRow) (t : TotalRow) :
    t ∈ totalsTable mag data ↔ (∃ r ∈ data, r.scenario = t.scenario) ∧ (∃ r ∈ data, r.year = t.year) ∧
      t.s = demandOf mag data t.scenario t.year := by
  rw [totals_eq, List.mem_map]
  constructor
  · rintro ⟨p, hp, rfl⟩
    rw [List.mem_product] at hp
    exact ⟨(mem_scn _ _).1 hp.1, (mem_yrs _ _).1 hp.2, rfl⟩
  · rintro ⟨h1, h2, h3⟩
    refine ⟨(t.scenario, t.year), List.mem_product.2 ⟨(mem_scn _ _).2 h1, (mem_yrs _ _).2 h2⟩, ?_⟩
    rw [← h3]

/-- what `normalise` does on the table of totals -/
theorem normalise_totals (mag : Rat → Rat → Rat) (data : List DataRow) (y0 : Int) (hy : FirstYear data y0) :
    (∀ r ∈ data, ∀ r' ∈ data, demandOf mag data r.scenario y0 = demandOf mag data r'.scenario y0) ∧
      (∀ r ∈ data, normalise (totalsTable mag data) = .ok ((totalsTable mag data).map (fun t =>
        ⟨t.scenario, t.year, if demandOf mag data r.scenario y0 = 0 then none else
          some (t.s / demandOf mag data r.scenario y0)⟩))) ∨
    (∃ r ∈ data, ∃ r' ∈ data, demandOf mag data r.scenario y0 ≠ demandOf mag data r'.scenario y0) ∧
      normalise (totalsTable mag data) = .error .value := by
  obtain ⟨⟨r0, hr0, hr0y⟩, hmin⟩ := hy
  have ht0 : (⟨r0.scenario, y0, demandOf mag data r0.scenario y0⟩ : TotalRow) ∈ totalsTable mag data :=
    (totals_mem _ _ _).2 ⟨⟨r0, hr0, rfl⟩, ⟨r0, hr0, hr0y⟩, rfl⟩
  have hne : totalsTable mag data ≠ [] := List.ne_nil_of_mem ht0
  have hm : pyMin ((totalsTable mag data).map (·.year)) = .ok y0 := by
    refine pyMin_eq _ _ (List.mem_map.2 ⟨_, ht0, rfl⟩) ?_
    intro y hy
    rw [List.mem_map] at hy
    obtain ⟨t, ht, rfl⟩ := hy
    obtain ⟨r, hr, hry⟩ := ((totals_mem _ _ _).1 ht).2.1
    have := hmin r hr
    omega
  have hfirst : ∀ x, x ∈ ((totalsTable mag data).filter (fun r => r.year = y0)).map (·.s) ↔
      ∃ r ∈ data, x = demandOf mag data r.scenario y0 := by
    intro x
    rw [List.mem_map]
    constructor
    · rintro ⟨t, ht, rfl⟩
      rw [List.mem_filter] at ht
      obtain ⟨ht, hty⟩ := ht
      have hty : t.year = y0 := by simpa using hty
      obtain ⟨⟨r, hr, hrs⟩, _, h3⟩ := (totals_mem _ _ _).1 ht
      exact ⟨r, hr, by rw [h3, hty, hrs]⟩
    · rintro ⟨r, hr, rfl⟩
      refine ⟨⟨r.scenario, y0, demandOf mag data r.scenario y0⟩, ?_, rfl⟩
      rw [List.mem_filter]
      exact ⟨(totals_mem _ _ _).2 ⟨⟨r, hr, rfl⟩, ⟨r0, hr0, hr0y⟩, rfl⟩, by simp⟩
  by_cases hall : ∀ r ∈ data, ∀ r' ∈ data, demandOf mag data r.scenario y0 = demandOf mag data r'.scenario y0
  · refine Or.inl ⟨hall, ?_⟩
    intro r hr
    have hlen : ¬ (uniqueOf (((totalsTable mag data).filter (fun r => r.year = y0)).map (·.s))).length > 1 := by
      rw [not_lt, unique_length_le]
      intro a ha b hb
      obtain ⟨ra, hra, rfl⟩ := (hfirst a).1 ha
      obtain ⟨rb, hrb, rfl⟩ := (hfirst b).1 hb
      exact hall ra hra rb hrb
    have hb : pyMin (((totalsTable mag data).filter (fun r => r.year = y0)).map (·.s)) =
        .ok (demandOf mag data r.scenario y0) := by
      refine pyMin_eq _ _ ((hfirst _).2 ⟨r, hr, rfl⟩) ?_
      intro x hx
      obtain ⟨r', hr', rfl⟩ := (hfirst x).1 hx
      exact le_of_eq (hall r hr r' hr')
    unfold normalise
    simp only [hne, if_false, bind, Except.bind, hm, hlen, hb, pure, Except.pure]
  · push Not at hall
    obtain ⟨r, hr, r', hr', hd⟩ := hall
    refine Or.inr ⟨⟨r, hr, r', hr', hd⟩, ?_⟩
    have hlen : (uniqueOf (((totalsTable mag data).filter (fun r => r.year = y0)).map (·.s))).length > 1 := by
      by_contra h
      rw [not_lt, unique_length_le] at h
      exact hd (h _ ((hfirst _).2 ⟨r, hr, rfl⟩) _ ((hfirst _).2 ⟨r', hr', rfl⟩))
    unfold normalise
    simp only [hne, if_false, bind, Except.bind, hm, hlen, if_true, throw, throwThe, MonadExceptOf.throw,
      pure, Except.pure]

theorem firstYear_exists (data : List DataRow) (h : data ≠ []) : ∃ y0, FirstYear data y0 := by
  obtain ⟨a, l, rfl⟩ := List.exists_cons_of_ne_nil h
  obtain ⟨h1, h2⟩ := pyMin_fold (l.map (·.year)) a.year
  rw [← List.map_cons (f := DataRow.year)] at h1 h2
  exact ⟨(l.map (·.year)).foldl (fun m x => if x < m then x else m) a.year, List.mem_map.1 h1,
    fun r hr => h2 r.year (List.mem_map.2 ⟨r, hr, rfl⟩)⟩

theorem mapM_all {α β : Type} (f : α → Except PyErr β) (g : α → β) (l : List α) (h : ∀ a ∈ l, f a = .ok (g a)) :
    l.mapM f = .ok (l.map g) := by
  induction l with
  | nil => rfl
  | cons a l ih =>
    rw [List.mapM_cons, h a List.mem_cons_self, ih (fun b hb => h b (List.mem_cons_of_mem _ hb))]
    rfl

theorem theValue_eq (mag : Rat → Rat → Rat) (data : List DataRow) (f : TotalRow → Option Rat) (s y : Int)
    (hs : ∃ r ∈ data, r.scenario = s) (hy : ∃ r ∈ data, r.year = y) :
    theValue ((totalsTable mag data).map (fun t => ⟨t.scenario, t.year, f t⟩)) s y =
      .ok (f ⟨s, y, demandOf mag data s y⟩) := by
  unfold theValue
  rw [totals_eq, List.map_map, List.filter_map, List.map_map]
  have hf : List.filter ((fun r : NormRow => decide (r.year = y ∧ r.scenario = s)) ∘
      (fun t : TotalRow => (⟨t.scenario, t.year, f t⟩ : NormRow)) ∘
        fun p : Int × Int => (⟨p.1, p.2, demandOf mag data p.1 p.2⟩ : TotalRow))
      (uniqueOf (data.map (·.scenario)) ×ˢ uniqueOf (data.map (·.year))) = [(s, y)] := by
    have : ((fun r : NormRow => decide (r.year = y ∧ r.scenario = s)) ∘
      (fun t : TotalRow => (⟨t.scenario, t.year, f t⟩ : NormRow)) ∘
        fun p : Int × Int => (⟨p.1, p.2, demandOf mag data p.1 p.2⟩ : TotalRow)) =
        (fun p => p == (s, y)) := by
      funext p
      obtain ⟨a, b⟩ := p
      show decide (b = y ∧ a = s) = ((a, b) == (s, y))
      rw [Bool.eq_iff_iff, decide_eq_true_iff, beq_iff_eq, Prod.mk.injEq]
      exact and_comm
    rw [this, List.filter_beq, List.count_eq_one_of_mem]
    · rfl
    · exact (unique_nodup _).product (unique_nodup _)
    · exact List.mem_product.2 ⟨(mem_scn _ _).2 hs, (mem_yrs _ _).2 hy⟩
  rw [hf]
  rfl

/-- the sorted distinct years of a table -/
theorem years_sorted (mag : Rat → Rat → Rat) (data : List DataRow) (f : TotalRow → Option Rat) (hd : data ≠ []) :
    ((uniqueOf (((totalsTable mag data).map (fun t => (⟨t.scenario, t.year, f t⟩ : NormRow))).map (·.year))).insertionSort
      (· ≤ ·)).Pairwise (· < ·) ∧
    (∀ y, y ∈ (uniqueOf (((totalsTable mag data).map (fun t => (⟨t.scenario, t.year, f t⟩ : NormRow))).map
      (·.year))).insertionSort (· ≤ ·) ↔ ∃ r ∈ data, r.year = y) ∧
    uniqueOf (((totalsTable mag data).map (fun t => (⟨t.scenario, t.year, f t⟩ : NormRow))).map (·.scenario)) =
      uniqueOf (data.map (·.scenario)) := by
  refine ⟨?_, ?_, ?_⟩
  · have h1 := List.pairwise_insertionSort (· ≤ ·)
      (uniqueOf (((totalsTable mag data).map (fun t => (⟨t.scenario, t.year, f t⟩ : NormRow))).map (·.year)))
    have h2 : (List.insertionSort (· ≤ ·) (uniqueOf (((totalsTable mag data).map
        (fun t => (⟨t.scenario, t.year, f t⟩ : NormRow))).map (·.year)))).Nodup :=
      (List.perm_insertionSort (· ≤ ·) _).nodup_iff.2 (unique_nodup _)
    exact (h1.and h2).imp (fun h => lt_of_le_of_ne h.1 h.2)
  · intro y
    rw [(List.perm_insertionSort (· ≤ ·) _).mem_iff, mem_unique, List.map_map, List.mem_map]
    constructor
    · rintro ⟨t, ht, rfl⟩
      exact ((totals_mem _ _ _).1 ht).2.1
    · rintro ⟨r, hr, rfl⟩
      exact ⟨⟨r.scenario, r.year, demandOf mag data r.scenario r.year⟩,
        (totals_mem _ _ _).2 ⟨⟨r, hr, rfl⟩, ⟨r, hr, rfl⟩, rfl⟩, rfl⟩
  · rw [totals_eq, List.map_map, List.map_map]
    show uniqueOf (List.map _ (List.product _ _)) = _
    unfold List.product
    rw [List.map_flatMap]
    simp only [List.map_map]
    refine unique_blocks (uniqueOf (data.map (·.scenario))) (uniqueOf (data.map (·.year))) ?_ (unique_nodup _)
    obtain ⟨a, l, rfl⟩ := List.exists_cons_of_ne_nil hd
    exact List.ne_nil_of_mem ((mem_yrs _ _).2 ⟨a, List.mem_cons_self, rfl⟩)

/-! ## C43 -/

/-- **C43.** If all scenarios have the same first-year demand, reading succeeds.  The columns are the
scenarios of the table in order of first appearance, the rows its years in ascending order, and each
entry is the demand of the scenario in the year divided by its demand in the first year (not finite when
that is 0). -/
theorem C43_multipliers (mag : Rat → Rat → Rat) (data : List DataRow) (y0 : Int) (hy : FirstYear data y0)
    (heq : ∀ r ∈ data, ∀ r' ∈ data, demandOf mag data r.scenario y0 = demandOf mag data r'.scenario y0) :
    ∃ M, readMultipliers mag data = .ok M ∧ FirstAppearance (data.map (·.scenario)) M.scenarios ∧
      M.years.Pairwise (· < ·) ∧ (∀ y, y ∈ M.years ↔ ∃ r ∈ data, r.year = y) ∧
      M.values.length = M.years.length ∧
      ∀ (i : Nat) (y : Int), M.years[i]? = some y → ∃ row, M.values[i]? = some row ∧
        row.length = M.scenarios.length ∧
        ∀ (j : Nat) (s : Int), M.scenarios[j]? = some s →
          row[j]? = some (if demandOf mag data s y0 = 0 then none
            else some (demandOf mag data s y / demandOf mag data s y0)) := by
  obtain ⟨⟨r0, hr0, hr0y⟩, hmin⟩ := id hy
  rcases normalise_totals mag data y0 hy with ⟨_, hn⟩ | ⟨⟨r, hr, r', hr', hd⟩, _⟩
  swap
  · exact absurd (heq r hr r' hr') hd
  have hn := hn r0 hr0
  have hdata : data ≠ [] := List.ne_nil_of_mem hr0
  obtain ⟨hY1, hY2, hS⟩ := years_sorted mag data (fun t => if demandOf mag data r0.scenario y0 = 0 then none else
          some (t.s / demandOf mag data r0.scenario y0)) hdata
  have hfa := unique_firstAppearance (data.map (·.scenario))
  unfold readMultipliers
  simp only [hn, bind, Except.bind, hS]
  rw [mapM_all _ (fun y => (uniqueOf (data.map (·.scenario))).map (fun s =>
      if demandOf mag data r0.scenario y0 = 0 then none
        else some (demandOf mag data s y / demandOf mag data r0.scenario y0)))]
  swap
  · intro y hy
    refine mapM_all _ _ _ ?_
    intro s hs
    exact theValue_eq mag data (fun t => if demandOf mag data r0.scenario y0 = 0 then none else
          some (t.s / demandOf mag data r0.scenario y0)) s y ((mem_scn _ _).1 hs) ((hY2 y).1 hy)
  refine ⟨_, rfl, hfa, hY1, hY2, by simp, ?_⟩
  intro i y hi
  refine ⟨_, by rw [List.getElem?_map, hi]; rfl, by simp, ?_⟩
  intro j s hj
  rw [List.getElem?_map, hj]
  have hsm : s ∈ uniqueOf (data.map (·.scenario)) := List.mem_of_getElem? hj
  obtain ⟨rs, hrs, hrss⟩ := (mem_scn _ _).1 hsm
  have : demandOf mag data r0.scenario y0 = demandOf mag data s y0 := by
    rw [← hrss]
    exact heq r0 hr0 rs hrs
  rw [this]
  rfl

/-- **C43.** Tables whose first-year demands differ between two scenarios are rejected with ValueError —
in particular a table in which some scenario has no rows in the first year while another has demand. -/
theorem C43_rejected (mag : Rat → Rat → Rat) (data : List DataRow) (y0 : Int) (hy : FirstYear data y0)
    (r r' : DataRow) (hr : r ∈ data) (hr' : r' ∈ data)
    (hd : demandOf mag data r.scenario y0 ≠ demandOf mag data r'.scenario y0) :
    readMultipliers mag data = .error .value := by
  rcases normalise_totals mag data y0 hy with ⟨heq, _⟩ | ⟨_, h⟩
  · exact absurd (heq r hr r' hr') hd
  · unfold readMultipliers
    rw [h]
    rfl

/-- **C43.** The empty table raises KeyError. -/
theorem C43_empty (mag : Rat → Rat → Rat) : readMultipliers mag [] = .error .key := rfl

/-- **C43.** The first-year multipliers are all 1, whenever the first-year demand is not zero. -/
theorem C43_first_year_one (mag : Rat → Rat → Rat) (data : List DataRow) (y0 : Int) (hy : FirstYear data y0)
    (M : Multipliers) (h : readMultipliers mag data = .ok M)
    (hb : ∃ r ∈ data, demandOf mag data r.scenario y0 ≠ 0) :
    M.years.head? = some y0 ∧ ∀ row, M.values.head? = some row → ∀ x ∈ row, x = some 1 := by
  have heq : ∀ r ∈ data, ∀ r' ∈ data, demandOf mag data r.scenario y0 = demandOf mag data r'.scenario y0 := by
    by_contra hne
    push Not at hne
    obtain ⟨r, hr, r', hr', hd⟩ := hne
    rw [C43_rejected mag data y0 hy r r' hr hr' hd] at h
    cases h
  obtain ⟨M', h1, h2, h3, h4, h5, h6⟩ := C43_multipliers mag data y0 hy heq
  rw [h] at h1
  injection h1 with h1
  subst h1
  have hh : M.years.head? = some y0 := by
    have hy0 : y0 ∈ M.years := (h4 y0).2 hy.1
    match hM : M.years, hy0, h3 with
    | a :: l, hy0, h3 =>
      rcases List.mem_cons.1 hy0 with rfl | hl
      · rfl
      · have h7 := List.rel_of_pairwise_cons h3 hl
        obtain ⟨r, hr, hra⟩ := (h4 a).1 (by rw [hM]; exact List.mem_cons_self)
        have := hy.2 r hr
        omega
  refine ⟨hh, ?_⟩
  intro row hrow x hx
  rw [List.head?_eq_getElem?] at hrow hh
  obtain ⟨row', hr1, hr2, hr3⟩ := h6 0 y0 hh
  rw [hrow] at hr1
  injection hr1 with hr1
  subst hr1
  obtain ⟨j, hj⟩ := List.mem_iff_getElem?.1 hx
  have hjl : j < M.scenarios.length := by
    rw [← hr2]
    exact (List.getElem?_eq_some_iff.1 hj).1
  have hs := hr3 j _ (List.getElem?_eq_getElem hjl)
  rw [hj] at hs
  injection hs with hs
  obtain ⟨rs, hrs, hrss⟩ := List.mem_map.1 ((h2.mem _).1 (List.getElem_mem hjl))
  obtain ⟨rb, hrb, hb⟩ := hb
  have hne : demandOf mag data M.scenarios[j] y0 ≠ 0 := by
    rw [← hrss, heq rs hrs rb hrb]
    exact hb
  rw [hs, if_neg hne, div_self hne]

/-- **C43.** The first-year test alone decides: for a non-empty table reading either succeeds or raises
ValueError. -/
theorem C43_only_value_error (mag : Rat → Rat → Rat) (data : List DataRow) (hd : data ≠ []) :
    (∃ M, readMultipliers mag data = .ok M) ∨ readMultipliers mag data = .error .value := by
  obtain ⟨y0, hy⟩ := firstYear_exists data hd
  by_cases heq : ∀ r ∈ data, ∀ r' ∈ data, demandOf mag data r.scenario y0 = demandOf mag data r'.scenario y0
  · obtain ⟨M, h, _⟩ := C43_multipliers mag data y0 hy heq
    exact Or.inl ⟨M, h⟩
  · push Not at heq
    obtain ⟨r, hr, r', hr', hne⟩ := heq
    exact Or.inr (C43_rejected mag data y0 hy r r' hr hr' hne)

/-- everything that is known about a table that was read -/
theorem read_facts (mag : Rat → Rat → Rat) (data : List DataRow) (M : Multipliers)
    (h : readMultipliers mag data = .ok M) : ∃ y0, FirstYear data y0 ∧
      (∀ r ∈ data, ∀ r' ∈ data, demandOf mag data r.scenario y0 = demandOf mag data r'.scenario y0) := by
  have hd : data ≠ [] := by
    rintro rfl
    rw [C43_empty] at h
    cases h
  obtain ⟨y0, hy⟩ := firstYear_exists data hd
  refine ⟨y0, hy, ?_⟩
  by_contra hne
  push Not at hne
  obtain ⟨r, hr, r', hr', hd⟩ := hne
  rw [C43_rejected mag data y0 hy r r' hr hr' hd] at h
  cases h

/-! ## C66 -/

/-- **C66.** Whatever the order of the years in the input table: for a table that the reader accepts,
the list of years of the search is the list of years of the multipliers, level by level, and the year
whose rows are averaged for a node is the year the search uses at the node's level. -/
theorem C66_year_of_node (mag : Rat → Rat → Rat) (data : List DataRow) (M : Multipliers)
    (h : readMultipliers mag data = .ok M) :
    optimisationYears M.years = M.years ∧
    ∀ (node : Cluster) (y : Int) (rows : List (BusRow Rat)),
      nodeBuses data M.scenarios M.years node = .ok (y, rows) →
        (optimisationYears M.years)[node.level]? = some y := by
  obtain ⟨y0, hy, heq⟩ := read_facts mag data M h
  obtain ⟨M', h1, _, h3, _⟩ := C43_multipliers mag data y0 hy heq
  rw [h] at h1
  injection h1 with h1
  subst h1
  have hs : optimisationYears M.years = M.years := by
    unfold optimisationYears
    exact (h3.imp (fun h => le_of_lt h)).insertionSort_eq
  refine ⟨hs, ?_⟩
  intro node y rows hn
  rw [hs]
  unfold nodeBuses yearAt at hn
  simp only [bind, Except.bind] at hn
  split at hn
  · cases hn
  · rename_i scn hscn
    split at hn
    · cases hn
    · rename_i y' hy'
      split at hy'
      · rename_i y'' hy''
        injection hy' with hy'
        injection hn with hn
        injection hn with hn _
        rw [hy'', hy', hn]
      · cases hy'

/-! ## C68 -/

/-- `C36_centroids` for all rows -/
theorem profileCentroids_ok (labels : List (List Nat)) (vals : List (List Rat))
    (hlen : labels.length = vals.length)
    (hl : ∀ (t : Nat) (ls : List Nat) (ds : List Rat), labels[t]? = some ls → vals[t]? = some ds →
      ls.length = ds.length ∧ Contiguous ls) :
    ∃ rows, profileCentroids labels vals = .ok rows ∧ rows.length = vals.length := by
  have hex : ∀ p ∈ labels.zip vals, ∃ c, stepCentroids p.1 p.2 = .ok c := by
    intro p hp
    obtain ⟨t, ht⟩ := List.mem_iff_getElem?.1 hp
    rw [List.getElem?_zip_eq_some] at ht
    obtain ⟨h1, h2⟩ := hl t p.1 p.2 ht.1 ht.2
    obtain ⟨c, hc, _⟩ := C36_centroids p.1 p.2 h1 h2
    exact ⟨c, hc⟩
  have hg : ∀ p ∈ labels.zip vals, stepCentroids p.1 p.2 =
      .ok (match stepCentroids p.1 p.2 with | .ok c => c | .error _ => []) := by
    intro p hp
    obtain ⟨c, hc⟩ := hex p hp
    rw [hc]
  refine ⟨_, mapM_all _ _ _ hg, ?_⟩
  rw [List.length_map, List.length_zip]
  omega

/-- **C68.** From the demand table to the plan.  Let a demand table have a common non-zero first-year
demand and at least two years.  Then the reader accepts it, and whatever groups the clustering forms
(labels 0..k-1 in every year), the centroids, the control graph and the control tree are built without
exception; the search on that tree, with any pool of interventions and any OPF, ends without exception;
and if it records a plan, the plan has for every scenario of the table a row with one node per year, such
that the data of each node were averaged from rows of that year including those of the scenario. -/
theorem C68_demand_table_to_plan (mag : Rat → Rat → Rat) (data : List DataRow) (y0 : Int)
    (hy : FirstYear data y0)
    (heq : ∀ r ∈ data, ∀ r' ∈ data, demandOf mag data r.scenario y0 = demandOf mag data r'.scenario y0)
    (hb : ∃ r ∈ data, demandOf mag data r.scenario y0 ≠ 0) (h2y : ∃ r ∈ data, r.year ≠ y0) :
    ∃ (M : Multipliers) (vals : List (List Rat)), readMultipliers mag data = .ok M ∧
      M.values = vals.map (·.map some) ∧
      ∀ (labels : List (List Nat)), labels.length = M.years.length →
        (∀ ls ∈ labels, ls.length = M.scenarios.length ∧ Contiguous ls) →
        ∃ rows, profileCentroids labels vals = .ok rows ∧
        ∀ (ord : List Nat → List Nat), SetOrder ord → ∀ fuel : Nat, M.years.length ≤ fuel →
        ∃ E data' T, profileGraph rows = .ok (graphNodes rows, E) ∧
          convertTree ord fuel fuel (fun n => (graphNodes rows)[n]?) E = .ok (data', T) ∧
          ∀ (cfg : Cfg), cfg.nbr = succOf T → (∀ n, n ∈ cfg.nodes ↔ (data' n).isSome) →
            cfg.years = optimisationYears M.years → (cfg.pool.map (·.1)).Nodup → cfg.rate ≠ 100 →
            ∃ f b, runSearch cfg fuel = .ok (f, b) ∧
              (b.complete.graphPaths ≠ [] → ∀ (s : Int), (∃ r ∈ data, r.scenario = s) →
                ∃ r ∈ planRows b.complete, r.1.length = M.years.length ∧
                  ∀ (i : Nat) (k : Int) (n : Nat), r.1[i]? = some (k, n) →
                    ∃ c y buses, data' n = some c ∧ M.years[i]? = some y ∧
                      (optimisationYears M.years)[i]? = some y ∧
                      nodeBuses data M.scenarios M.years c = .ok (y, buses) ∧
                      ∀ d ∈ data, d.scenario = s → d.year = y → d.bus ∈ buses.map (·.bus)) := by
  obtain ⟨M, hM, hfa, hyp, hym, hvl, hval⟩ := C43_multipliers mag data y0 hy heq
  obtain ⟨hyh, hone⟩ := C43_first_year_one mag data y0 hy M hM hb
  obtain ⟨hyears, _⟩ := C66_year_of_node mag data M hM
  obtain ⟨rb, hrb, hbne⟩ := hb
  -- all multipliers are finite
  have hfin : ∀ row ∈ M.values, ∀ x ∈ row, ∃ z, x = some z := by
    intro row hrow x hx
    obtain ⟨i, hi⟩ := List.mem_iff_getElem?.1 hrow
    have hil : i < M.years.length := by
      rw [← hvl]
      exact (List.getElem?_eq_some_iff.1 hi).1
    obtain ⟨row', e1, e2, e3⟩ := hval i _ (List.getElem?_eq_getElem hil)
    rw [hi] at e1
    injection e1 with e1
    subst e1
    obtain ⟨j, hj⟩ := List.mem_iff_getElem?.1 hx
    have hjl : j < M.scenarios.length := by
      rw [← e2]
      exact (List.getElem?_eq_some_iff.1 hj).1
    have hs := e3 j _ (List.getElem?_eq_getElem hjl)
    rw [hj] at hs
    injection hs with hs
    obtain ⟨rs, hrs, hrss⟩ := List.mem_map.1 ((hfa.mem _).1 (List.getElem_mem hjl))
    have hne : demandOf mag data M.scenarios[j] y0 ≠ 0 := by
      rw [← hrss, heq rs hrs rb hrb]
      exact hbne
    rw [if_neg hne] at hs
    exact ⟨_, hs⟩
  have hvals : M.values = (M.values.map (·.map (fun o => o.getD 0))).map (·.map some) := by
    rw [List.map_map]
    conv_lhs => rw [← List.map_id M.values]
    apply List.map_congr_left
    intro row hrow
    show row = (row.map (fun o => o.getD 0)).map some
    rw [List.map_map]
    conv_lhs => rw [← List.map_id row]
    apply List.map_congr_left
    intro x hx
    obtain ⟨z, rfl⟩ := hfin row hrow x hx
    rfl
  obtain ⟨vals, hvdef⟩ : ∃ vals, vals = M.values.map (·.map (fun o => o.getD 0)) := ⟨_, rfl⟩
  rw [← hvdef] at hvals
  have hvlen : vals.length = M.years.length := by rw [hvdef, List.length_map, hvl]
  have hvrow : ∀ ds ∈ vals, ds.length = M.scenarios.length := by
    intro ds hds
    rw [hvdef] at hds
    obtain ⟨row, hrow, rfl⟩ := List.mem_map.1 hds
    rw [List.length_map]
    obtain ⟨i, hi⟩ := List.mem_iff_getElem?.1 hrow
    have hil : i < M.years.length := by
      rw [← hvl]
      exact (List.getElem?_eq_some_iff.1 hi).1
    obtain ⟨row', e1, e2, _⟩ := hval i _ (List.getElem?_eq_getElem hil)
    rw [hi] at e1
    injection e1 with e1
    rw [e1, e2]
  have hvfirst : ∀ ds, vals[0]? = some ds → ∀ x ∈ ds, x = 1 := by
    intro ds hds x hx
    rw [hvdef, List.getElem?_map, Option.map_eq_some_iff] at hds
    obtain ⟨row, hrow, rfl⟩ := hds
    obtain ⟨o, ho, rfl⟩ := List.mem_map.1 hx
    rw [hone row (by rw [List.head?_eq_getElem?]; exact hrow) o ho]
    rfl
  refine ⟨M, vals, hM, hvals, ?_⟩
  intro labels hll hlab
  obtain ⟨rows, hrows, hrl⟩ := profileCentroids_ok labels vals (by omega) (by
    intro t ls ds h1 h2
    obtain ⟨g1, g2⟩ := hlab ls (List.mem_of_getElem? h1)
    exact ⟨by rw [g1, hvrow ds (List.mem_of_getElem? h2)], g2⟩)
  refine ⟨rows, hrows, ?_⟩
  intro ord hord fuel hfuel
  -- facts about the rows of centroids
  obtain ⟨_, hget⟩ := mapM_getElem _ _ rows hrows
  have hat : ∀ (t : Nat) (r : List Rat), rows[t]? = some r → ∃ ls ds, labels[t]? = some ls ∧ vals[t]? = some ds ∧
      stepCentroids ls ds = .ok r := by
    intro t r hr
    have ht : t < rows.length := (List.getElem?_eq_some_iff.1 hr).1
    have h1 : labels[t]? = some (labels[t]'(by omega)) := List.getElem?_eq_getElem (by omega)
    have h2 : vals[t]? = some (vals[t]'(by omega)) := List.getElem?_eq_getElem (by omega)
    obtain ⟨b, hb1, hb2⟩ := hget t (labels[t]'(by omega), vals[t]'(by omega)) (by
      rw [List.getElem?_zip_eq_some]
      exact ⟨h1, h2⟩)
    rw [hr] at hb1
    injection hb1 with hb1
    subst hb1
    exact ⟨_, _, h1, h2, hb2⟩
  have hrect : ∀ r ∈ rows, r.length = M.scenarios.length := by
    intro r hr
    obtain ⟨t, ht⟩ := List.mem_iff_getElem?.1 hr
    obtain ⟨ls, ds, g1, g2, g3⟩ := hat t r ht
    have hlen : ls.length = ds.length := by
      rw [(hlab ls (List.mem_of_getElem? g1)).1, hvrow ds (List.mem_of_getElem? g2)]
    rw [(C37_sum_preserved ls ds r hlen g3).1, hvrow ds (List.mem_of_getElem? g2)]
  have hv : ∀ r, rows.head? = some r → ∀ x ∈ r, x = 1 := by
    intro r hr x hx
    rw [List.head?_eq_getElem?] at hr
    obtain ⟨ls, ds, g1, g2, g3⟩ := hat 0 r hr
    have hlen : ls.length = ds.length := by
      rw [(hlab ls (List.mem_of_getElem? g1)).1, hvrow ds (List.mem_of_getElem? g2)]
    obtain ⟨j, hj⟩ := List.mem_iff_getElem?.1 hx
    have hjl : j < ls.length := by
      rw [hlen, ← (C37_sum_preserved ls ds r hlen g3).1]
      exact (List.getElem?_eq_some_iff.1 hj).1
    have := C37_between ls ds r hlen g3 j _ x 1 1 (List.getElem?_eq_getElem hjl) hj (by
      intro v hv
      unfold clusterValues at hv
      obtain ⟨p, hp, rfl⟩ := List.mem_map.1 hv
      have := hvfirst ds g2 p.2 (List.of_mem_zip (List.mem_filter.1 hp).1).2
      rw [this]
      exact ⟨le_refl _, le_refl _⟩)
    exact le_antisymm this.2 this.1
  have hm : 0 < M.scenarios.length := by
    obtain ⟨r, hr, _⟩ := hy.1
    exact List.length_pos_of_mem ((hfa.mem r.scenario).2 (List.mem_map.2 ⟨r, hr, rfl⟩))
  have h2 : 2 ≤ rows.length := by
    rw [hrl, hvlen]
    obtain ⟨r, hr, hry⟩ := h2y
    have a1 := (hym r.year).2 ⟨r, hr, rfl⟩
    have a2 := (hym y0).2 hy.1
    match hY : M.years, a1, a2 with
    | [z], a1, a2 =>
      rw [List.mem_singleton] at a1 a2
      exact absurd (a1.trans a2.symm) hry
    | a :: b :: l, _, _ => simp
  obtain ⟨E, data', T, hE, hT, hrun⟩ := C61_table_to_plan rows M.scenarios.length hm hrect h2 1 hv ord hord fuel
    (by omega)
  obtain ⟨E2, data2, T2, org, hE2, hT2, _, _, hdom, hcl, _⟩ :=
    C34_profile rows M.scenarios.length hm hrect h2 1 hv ord hord fuel fuel (by omega) (by omega)
  rw [hE] at hE2
  injection hE2 with hE2
  injection hE2 with _ hE2
  subst hE2
  rw [hT] at hT2
  injection hT2 with hT2
  injection hT2 with hT21 hT22
  subst hT21
  subst hT22
  refine ⟨E, data', T, hE, hT, ?_⟩
  intro cfg hnbr hnodes hcy hpool hrate
  obtain ⟨f, b, hfb, hplan⟩ := hrun cfg hnbr hnodes (by rw [hcy, hyears, hrl, hvlen]) hpool hrate
  refine ⟨f, b, hfb, ?_⟩
  intro hne s hs
  have hsm : s ∈ M.scenarios := (hfa.mem s).2 (by
    obtain ⟨r, hr, rfl⟩ := hs
    exact List.mem_map.2 ⟨r, hr, rfl⟩)
  obtain ⟨j, hj⟩ := List.mem_iff_getElem?.1 hsm
  have hjl := (List.getElem?_eq_some_iff.1 hj).1
  obtain ⟨r, hr, hrlen, hrn⟩ := hplan hne j hjl
  refine ⟨r, hr, by rw [hrlen, hrl, hvlen], ?_⟩
  intro i k n hin
  obtain ⟨c, hc, hcl', hjc⟩ := hrn i k n hin
  have hil : i < M.years.length := by
    have := (List.getElem?_eq_some_iff.1 hin).1
    omega
  obtain ⟨c', hc1, hc2⟩ := hcl n ((hdom n).2 (by rw [hc]; rfl))
  rw [hc] at hc2
  injection hc2 with hc2
  subst hc2
  obtain ⟨row, e1, e2, _, e3⟩ := (C32_nodes_well_formed rows).1 c (List.mem_of_getElem? hc1)
  have hsc : ∀ x ∈ c.scenarios, x < M.scenarios.length := by
    intro x hx
    have := e3 x hx
    rwa [hrect row (List.mem_of_getElem? e1)] at this
  have hyi : M.years[c.level]? = some (M.years[i]) := by
    rw [hcl']
    exact List.getElem?_eq_getElem hil
  obtain ⟨buses, hbus, _, hbm, _⟩ := C35_bus_averages data M.scenarios M.years c _ hsc hyi
  refine ⟨c, M.years[i], buses, hc, List.getElem?_eq_getElem hil, by
    rw [hyears]; exact List.getElem?_eq_getElem hil, hbus, ?_⟩
  intro d hd hds hdy
  rw [hbm]
  apply List.ne_nil_of_mem (a := d)
  unfold matching
  rw [List.mem_filter]
  refine ⟨hd, ?_⟩
  have : d.scenario ∈ namesOf M.scenarios c.scenarios := by
    unfold namesOf
    rw [List.mem_filterMap]
    exact ⟨j, hjc, by rw [hj, hds]⟩
  simp [this, hdy]

/-! ## Instances -/

/-- two scenarios, two years, one bus, years not in order; apparent power taken as p + q -/
def tableEx : List DataRow :=
  [⟨1, 2030, 7, 6, 2⟩, ⟨1, 2020, 7, 3, 1⟩, ⟨2, 2020, 7, 2, 2⟩, ⟨2, 2030, 7, 2, 4⟩]

example : FirstYear tableEx 2020 := by
  refine ⟨⟨⟨1, 2020, 7, 3, 1⟩, by simp [tableEx], rfl⟩, ?_⟩
  intro r hr
  simp only [tableEx, List.mem_cons, List.not_mem_nil, or_false] at hr
  rcases hr with rfl | rfl | rfl | rfl <;> decide

example : ∀ r ∈ tableEx, ∀ r' ∈ tableEx,
    demandOf (· + ·) tableEx r.scenario 2020 = demandOf (· + ·) tableEx r'.scenario 2020 := by
  decide +kernel

example : readMultipliers (· + ·) tableEx = .ok ⟨[1, 2], [2020, 2030], [[some 1, some 1], [some 2, some (3 / 2)]]⟩ := by
  decide +kernel

example : readMultipliers (· + ·) [⟨1, 2020, 7, 3, 1⟩, ⟨2, 2030, 7, 2, 2⟩] = .error .value := by decide +kernel

example : profileCentroids [[0, 0], [1, 0]] [[1, 1], [2, 3 / 2]] = .ok [[1, 1], [2, 3 / 2]] := by decide +kernel

end Pyensys
