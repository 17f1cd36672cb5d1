import Verif.Props.PlanFactors
import Verif.Props.Report

/-!
# C169-C171: catalogues of interventions, the file with the result, recorded values
-/

namespace Pyensys

/-! ## C169 -/

/-- `v` is the cost of size `z`: the cost at the first position where the catalogue has the size -/
def CatCost (cat cost : List Rat) (z v : Rat) : Prop := ∃ i : Nat, cat[i]? = some z ∧ (∀ j, j < i → cat[j]? ≠ some z) ∧ cost[i]? = some v

theorem firstIdx {α : Type} [DecidableEq α] (cat : List α) (z : α) (i : Nat) :
    ((cat.zipIdx.filter (fun q => q.1 == z)).map (fun q => q.2))[0]? = some i ↔ cat[i]? = some z ∧ ∀ j, j < i → cat[j]? ≠ some z := by
  have hp : (cat.zipIdx.filter (fun q => q.1 == z)).Pairwise (fun x y => x.2 < y.2) :=
    (List.pairwise_iff_getElem.2 (fun i j hi hj hij => by simpa using hij)).filter _
  have hm : ∀ j : Nat, (z, j) ∈ cat.zipIdx.filter (fun q => q.1 == z) ↔ cat[j]? = some z := by
    intro j
    rw [List.mem_filter, List.mem_zipIdx_iff_getElem?]
    simp
  cases h : cat.zipIdx.filter (fun q => q.1 == z) with
  | nil =>
    rw [h] at hm
    simp only [List.map_nil, List.getElem?_nil, reduceCtorEq, false_iff]
    rintro ⟨h1, _⟩
    exact absurd ((hm i).2 h1) (List.not_mem_nil)
  | cons a t =>
    simp only [List.map_cons, List.getElem?_cons_zero, Option.some.injEq]
    have ha : a ∈ cat.zipIdx.filter (fun q => q.1 == z) := by rw [h]; exact List.mem_cons_self ..
    have ha1 : a.1 = z := by simpa using (List.mem_filter.1 ha).2
    have ha2 : cat[a.2]? = some z := by
      have := (List.mem_filter.1 ha).1
      rw [← ha1]
      exact List.mem_zipIdx_iff_getElem?.1 this
    rw [h] at hp hm
    have hfirst : ∀ j, j < a.2 → cat[j]? ≠ some z := by
      intro j hj e
      rcases List.mem_cons.1 ((hm j).2 e) with he | he
      · rw [← he] at hj; simp at hj
      · have := (List.pairwise_cons.1 hp).1 _ he
        simp at this
        omega
    constructor
    · rintro rfl
      exact ⟨ha2, hfirst⟩
    · rintro ⟨h1, h2⟩
      rcases Nat.lt_trichotomy a.2 i with hl | hl | hl
      · exact absurd ha2 (h2 _ hl)
      · exact hl
      · exact absurd h1 (hfirst i hl)

theorem pdCostOf_iff (cat cost : List Rat) (z v : Rat) : pdCostOf cat cost z = .ok v ↔ CatCost cat cost z v := by
  unfold pdCostOf CatCost
  simp only [except_bind_ok, npGet_iff, firstIdx, and_assoc]

/-- a loop that appends what it computes is a map -/
theorem foldlM_snoc {α β : Type} (f : α → Except PyErr β) (l : List α) (acc : List β) :
    l.foldlM (fun acc z => f z >>= fun v => (.ok (acc ++ [v]) : Except PyErr (List β))) acc = l.mapM f >>= fun r => .ok (acc ++ r) := by
  induction l generalizing acc with
  | nil => simp [pure, Except.pure, bind, Except.bind]
  | cons z s ih =>
    rw [List.foldlM_cons, List.mapM_cons]
    cases f z with
    | error e => rfl
    | ok v =>
      show s.foldlM _ (acc ++ [v]) = _
      rw [ih]
      show _ = (s.mapM f >>= fun t => Except.ok (v :: t)) >>= _
      cases s.mapM f with
      | error e => rfl
      | ok r => simp [bind, Except.bind]

/-- the cost of a size for a branch with ratio `t`: 0 is a line -/
def SizeCost (c : PdCat) (t z v : Rat) : Prop := (t = 0 → CatCost c.lines c.lineCost z v) ∧ (t ≠ 0 → CatCost c.trafos c.trafoCost z v)

theorem pdBranchCost_iff (c : PdCat) (tap : List Rat) (k : Nat) (sizes l : List Rat) : pdBranchCost c tap k sizes = .ok l ↔
    l.length = sizes.length ∧ ∀ (j : Nat) (z v : Rat), sizes[j]? = some z → l[j]? = some v → ∃ t, tap[k]? = some t ∧ SizeCost c t z v := by
  have step : ∀ (sizes : List Rat) (acc : List Rat), sizes.foldlM (fun l z => do
      let t ← npGet tap k
      let v ← (if t = 0 then pdCostOf c.lines c.lineCost z else pdCostOf c.trafos c.trafoCost z)
      (.ok (l ++ [v]) : Except PyErr (List Rat))) acc = (sizes.mapM (fun z => do
      let t ← npGet tap k
      let v ← (if t = 0 then pdCostOf c.lines c.lineCost z else pdCostOf c.trafos c.trafoCost z)
      (.ok v : Except PyErr Rat))) >>= fun r => .ok (acc ++ r) := by
    intro sizes acc
    rw [← foldlM_snoc]
    congr 1
    funext l z
    cases npGet tap k with
    | error e => rfl
    | ok t =>
      simp only [bind, Except.bind]
      cases (if t = 0 then pdCostOf c.lines c.lineCost z else pdCostOf c.trafos c.trafoCost z) <;> rfl
  unfold pdBranchCost
  rw [step, except_bind_ok]
  simp only [List.nil_append, Except.ok.injEq, exists_eq_right]
  rw [mapM_ok_iff, forall₂_iff_getElem?]
  refine and_congr (by rw [eq_comm]) ?_
  refine forall_congr' fun j => forall_congr' fun z => forall_congr' fun v => imp_congr_right fun _ => imp_congr_right fun _ => ?_
  simp only [except_bind_ok, npGet_iff, Except.ok.injEq, exists_eq_right]
  refine exists_congr fun t => and_congr_right fun _ => ?_
  unfold SizeCost
  by_cases ht : t = 0
  · simp [ht, pdCostOf_iff]
  · simp [ht, pdCostOf_iff]

/-- **C169**: after the data have been read every size has a cost, whatever the file contains, and lists with as many costs as sizes are kept. -/
theorem C169_lengths_partial (f : Option PdCat) : (readCatalogue f).lines.length = (readCatalogue f).lineCost.length ∧ (readCatalogue f).trafos.length = (readCatalogue f).trafoCost.length ∧
    ∀ c, f = some c → (c.lines.length = c.lineCost.length → (readCatalogue f).lines = c.lines ∧ (readCatalogue f).lineCost = c.lineCost) ∧
      (c.trafos.length = c.trafoCost.length → (readCatalogue f).trafos = c.trafos ∧ (readCatalogue f).trafoCost = c.trafoCost) := by
  cases f with
  | none => exact ⟨by simp [readCatalogue], by simp [readCatalogue], fun c h => by cases h⟩
  | some c =>
    by_cases h1 : c.lines.length = c.lineCost.length <;> by_cases h2 : c.trafos.length = c.trafoCost.length
    all_goals
      refine ⟨by simp [readCatalogue, h1, h2], by simp [readCatalogue, h1, h2], ?_⟩
      rintro _ ⟨⟩
      exact ⟨fun h => by simp [readCatalogue, h1, h2] at h ⊢, fun h => by simp [readCatalogue, h1, h2] at h ⊢⟩

/-- Costs are given exactly if every branch has sizes in the result of the screening, all in the catalogue of its kind with a cost; each size then has the cost of the first place where
that catalogue has it. -/
theorem C169_costs_partial (s : List (Nat × List Rat)) (c : PdCat) (tap : List Rat) (n : Nat) (s' : List (Nat × List Rat)) (costs : List (List Rat)) :
    readScreenOutput (some s) c tap n = .ok (s', costs) ↔ s' = s ∧ costs.length = n ∧ ∀ k, k < n → ∃ sizes l, s.lookup k = some sizes ∧ costs[k]? = some l ∧
      l.length = sizes.length ∧ ∀ (j : Nat) (z v : Rat), sizes[j]? = some z → l[j]? = some v → ∃ t, tap[k]? = some t ∧ SizeCost c t z v := by
  unfold readScreenOutput
  simp only [except_bind_ok, mapM_range_iff, Except.ok.injEq, Prod.mk.injEq]
  have hs : ∀ k l, pdSizesOf s k = .ok l ↔ s.lookup k = some l := by
    intro k l
    unfold pdSizesOf
    cases s.lookup k <;> simp
  constructor
  · rintro ⟨a, ha, b, ⟨h1, h2⟩, rfl, rfl⟩
    subst ha
    refine ⟨rfl, h1, fun k hk => ?_⟩
    obtain ⟨l, hl, sizes, h3, h4⟩ := h2 k hk
    exact ⟨sizes, l, (hs _ _).1 h3, hl, (pdBranchCost_iff _ _ _ _ _).1 h4⟩
  · rintro ⟨rfl, h1, h2⟩
    refine ⟨s', rfl, costs, ⟨h1, fun k hk => ?_⟩, rfl, rfl⟩
    obtain ⟨sizes, l, h3, h4, h5⟩ := h2 k hk
    exact ⟨l, h4, sizes, (hs _ _).2 h3, (pdBranchCost_iff _ _ _ _ _).2 h5⟩

theorem allSizes_eq (c : PdCat) (tap : List Rat) (n : Nat) (hn : n ≤ tap.length) :
    pdAllSizes c tap n = .ok ((List.range n).map (fun k => if tap[k]? = some 0 then c.lines else c.trafos)) := by
  unfold pdAllSizes
  have loop : ∀ (m i : Nat) (s : List (List Rat)), i + m ≤ tap.length → i + m = s.length → (∀ k, i ≤ k → k < i + m → s[k]? = some c.lines) →
      ∃ r, (List.range' i m).foldlM (fun s k => do
        let t ← npGet tap k
        if t ≠ 0 then npSet s k c.trafos else .ok s) s = .ok r ∧ r.length = s.length ∧
        ∀ k, r[k]? = if i ≤ k ∧ k < i + m then some (if tap[k]? = some 0 then c.lines else c.trafos) else s[k]? := by
    intro m
    induction m with
    | zero =>
      intro i s _ _ _
      exact ⟨s, rfl, rfl, fun k => by rw [if_neg (by omega)]⟩
    | succ m ih =>
      intro i s h1 h2 h3
      have ht : tap[i]? = some tap[i] := List.getElem?_eq_getElem (by omega)
      rw [List.range'_succ]
      by_cases h0 : tap[i] = 0
      · obtain ⟨r, hr, hlen, hk⟩ := ih (i + 1) s (by omega) (by omega) (fun k hk1 hk2 => h3 k (by omega) (by omega))
        refine ⟨r, ?_, hlen, ?_⟩
        · rw [List.foldlM_cons, npGet_some ht]
          simp only [bind, Except.bind, h0, ne_eq, not_true, if_false]
          simp only [bind, Except.bind, ne_eq] at hr
          exact hr
        · intro k
          rw [hk k]
          by_cases hki : k = i
          · subst hki
            rw [if_neg (show ¬ (k + 1 ≤ k ∧ k < k + 1 + m) by omega), if_pos (show k ≤ k ∧ k < k + (m + 1) by omega), ht, h0, if_pos rfl]
            exact h3 k (le_refl _) (by omega)
          · by_cases hin : i + 1 ≤ k ∧ k < i + 1 + m
            · rw [if_pos hin, if_pos (show i ≤ k ∧ k < i + (m + 1) by omega)]
            · rw [if_neg hin, if_neg (by omega)]
      · obtain ⟨r, hr, hlen, hk⟩ := ih (i + 1) (s.set i c.trafos) (by omega) (by simp; omega)
          (fun k hk1 hk2 => by rw [List.getElem?_set_ne (by omega)]; exact h3 k (by omega) (by omega))
        refine ⟨r, ?_, by rw [hlen, List.length_set], ?_⟩
        · rw [List.foldlM_cons, npGet_some ht]
          simp only [bind, Except.bind, ne_eq, h0, not_false_eq_true, if_true]
          rw [npSet_ok _ (by omega)]
          simp only [bind, Except.bind, ne_eq] at hr
          exact hr
        · intro k
          rw [hk k]
          by_cases hki : k = i
          · subst hki
            rw [if_neg (show ¬ (k + 1 ≤ k ∧ k < k + 1 + m) by omega), if_pos (show k ≤ k ∧ k < k + (m + 1) by omega), ht, if_neg (by simpa using h0), List.getElem?_set_self (by omega)]
          · by_cases hin : i + 1 ≤ k ∧ k < i + 1 + m
            · rw [if_pos hin, if_pos (show i ≤ k ∧ k < i + (m + 1) by omega)]
            · rw [if_neg hin, if_neg (by omega), List.getElem?_set_ne (by omega)]
  obtain ⟨r, hr, hlen, hk⟩ := loop n 0 (List.replicate n c.lines) (by omega) (by simp) (by
    intro k _ hk
    rw [List.getElem?_replicate, if_pos (by omega)])
  rw [List.range_eq_range', hr, Except.ok.injEq]
  apply List.ext_getElem?
  intro k
  rw [hk k, List.getElem?_map]
  by_cases hkn : k < n
  · rw [if_pos (by omega), List.getElem?_range' hkn]
    simp
  · rw [if_neg (by omega), List.getElem?_eq_none (by simp; omega), List.getElem?_eq_none (by simp; omega)]
    rfl

theorem lookup_zip {α : Type} (l : List α) (m k : Nat) : (((l.zipIdx m).map (fun q => (q.2, q.1))).lookup k) = if m ≤ k then l[k - m]? else none := by
  induction l generalizing m with
  | nil => simp
  | cons a t ih =>
    rw [List.zipIdx_cons, List.map_cons, List.lookup_cons]
    by_cases h : k = m
    · subst h
      simp
    · have : (k == m) = false := by simpa using h
      simp only [this, ih]
      by_cases hm : m + 1 ≤ k
      · rw [if_pos hm, if_pos (by omega), show k - m = (k - (m + 1)) + 1 by omega, List.getElem?_cons_succ]
      · rw [if_neg hm, if_neg (by omega)]

theorem catCost_all {cat cost : List Rat} (hn : cat.Nodup) {j : Nat} {z v : Rat} (hz : cat[j]? = some z) (hv : cost[j]? = some v) : CatCost cat cost z v := by
  refine ⟨j, hz, ?_, hv⟩
  intro i hi e
  obtain ⟨h1, h2⟩ := List.getElem?_eq_some_iff.1 hz
  obtain ⟨h3, h4⟩ := List.getElem?_eq_some_iff.1 e
  exact absurd ((List.Nodup.getElem_inj_iff hn).1 (h4.trans h2.symm)) (by omega)

/-- Without a result of the screening, and if no catalogue has a size twice, every line has all sizes of the catalogue of lines with their costs, and every transformer those of transformers. -/
theorem C169_default_partial (c : PdCat) (tap : List Rat) (n : Nat) (hn : n ≤ tap.length) (h1 : c.lines.length = c.lineCost.length) (h2 : c.trafos.length = c.trafoCost.length)
    (d1 : c.lines.Nodup) (d2 : c.trafos.Nodup) : ∃ s costs, readScreenOutput none c tap n = .ok (s, costs) ∧ costs.length = n ∧
    ∀ (k : Nat) (t : Rat), k < n → tap[k]? = some t → (t = 0 → s.lookup k = some c.lines ∧ costs[k]? = some c.lineCost) ∧
      (t ≠ 0 → s.lookup k = some c.trafos ∧ costs[k]? = some c.trafoCost) := by
  let l := (List.range n).map (fun k => if tap[k]? = some 0 then c.lines else c.trafos)
  let s := l.zipIdx.map (fun q => (q.2, q.1))
  let costs := (List.range n).map (fun k => if tap[k]? = some 0 then c.lineCost else c.trafoCost)
  have hlook : ∀ k, k < n → s.lookup k = some (if tap[k]? = some 0 then c.lines else c.trafos) := by
    intro k hk
    show ((l.zipIdx 0).map (fun q => (q.2, q.1))).lookup k = _
    rw [lookup_zip, if_pos (by omega), Nat.sub_zero]
    show ((List.range n).map _)[k]? = _
    rw [List.getElem?_map, List.getElem?_range hk]
    rfl
  have hcost : ∀ k, k < n → costs[k]? = some (if tap[k]? = some 0 then c.lineCost else c.trafoCost) := by
    intro k hk
    show ((List.range n).map _)[k]? = _
    rw [List.getElem?_map, List.getElem?_range hk]
    rfl
  refine ⟨s, costs, ?_, by simp [costs], ?_⟩
  · have he : readScreenOutput none c tap n = readScreenOutput (some s) c tap n := by
      unfold readScreenOutput
      rw [allSizes_eq c tap n hn]
      rfl
    rw [he, C169_costs_partial]
    refine ⟨rfl, by simp [costs], fun k hk => ⟨_, _, hlook k hk, hcost k hk, ?_, ?_⟩⟩
    · by_cases h : tap[k]? = some 0
      · rw [if_pos h, if_pos h, h1]
      · rw [if_neg h, if_neg h, h2]
    · intro j z v hz hv
      refine ⟨tap[k], List.getElem?_eq_getElem (by omega), fun h => ?_, fun h => ?_⟩
      · have h' : tap[k]? = some 0 := by rw [List.getElem?_eq_getElem (by omega), h]
        rw [if_pos h'] at hz hv
        exact catCost_all d1 hz hv
      · have h' : ¬ tap[k]? = some 0 := by rw [List.getElem?_eq_getElem (by omega)]; simpa using h
        rw [if_neg h'] at hz hv
        exact catCost_all d2 hz hv
  · intro k t hk ht
    rw [hlook k hk, hcost k hk, ht]
    refine ⟨fun h => ?_, fun h => ?_⟩
    · rw [h]; simp
    · have : ¬ (some t = some (0 : Rat)) := by simpa using h
      rw [if_neg this, if_neg this]; exact ⟨rfl, rfl⟩

/-- **C169 fails** if a branch has a size that is not in the catalogue, such as a result of the screening with another catalogue: there are no costs at all. -/
theorem C169_unknown_violated (s : List (Nat × List Rat)) (c : PdCat) (tap : List Rat) (n k : Nat) (sizes : List Rat) (z : Rat) (hk : k < n) (hs : s.lookup k = some sizes)
    (hz : z ∈ sizes) (hc : z ∉ c.lines ∧ z ∉ c.trafos) : ∀ r, readScreenOutput (some s) c tap n ≠ .ok r := by
  rintro ⟨s', costs⟩ h
  obtain ⟨_, _, h2⟩ := (C169_costs_partial s c tap n s' costs).1 h
  obtain ⟨sizes', l, h3, h4, h5, h6⟩ := h2 k hk
  rw [hs, Option.some.injEq] at h3
  subst h3
  obtain ⟨j, hj, rfl⟩ := List.getElem_of_mem hz
  obtain ⟨t, _, h7, h8⟩ := h6 j _ _ (List.getElem?_eq_getElem hj) (List.getElem?_eq_getElem (by omega))
  by_cases ht : t = 0
  · obtain ⟨i, hi, _⟩ := h7 ht
    exact hc.1 (List.mem_of_getElem? hi)
  · obtain ⟨i, hi, _⟩ := h8 ht
    exact hc.2 (List.mem_of_getElem? hi)

/-- **C169 fails** if a catalogue has a size twice: both have the cost of the first. -/
theorem C169_twice_violated : (readScreenOutput none (readCatalogue (some ⟨[10, 10], [], [1, 2], []⟩)) [0] 1).toOption = some ([(0, [10, 10])], [[1, 1]]) := by decide +kernel

theorem C169_witness : (readScreenOutput none (readCatalogue (some ⟨[10, 20], [30], [1, 2], [3]⟩)) [0, 1] 2).toOption = some ([(0, [10, 20]), (1, [30])], [[1, 2], [3]]) ∧
    (readCatalogue none).lines.Nodup ∧ (readCatalogue none).trafos.Nodup ∧
    (readScreenOutput (some [(0, [20])]) (readCatalogue (some ⟨[10, 20], [30], [1, 2], [3]⟩)) [0] 1).toOption = some ([(0, [20])], [[2]]) := by decide +kernel

end Pyensys
