import Verif.Props.PlanResults

/-!
# C170-C171: the file with the result of the investment tool, recorded values
-/

namespace Pyensys

/-! ## C170: specification -/

/-- entry `k` of year `y` -/
def entryAt {α : Type} (a : List (List α)) (y k : Nat) : Option α := (a[y]?).bind (fun r => r[k]?)

/-- the paths that are to be written with their numbers: all, or the first and the last -/
def writtenPaths (g : OjArgs) : List (Nat × Nat) := if g.all = true then (List.range g.noPath).map (fun x => (x, x + 1)) else [(0, 1), (g.noPath - 1, 2)]

/-- what the entry of year `y` on path `p` has to be; `o` is the flexibility before the call -/
structure YearSpec (g : OjArgs) (o : List (List (List Rat))) (p : List Nat) (y k : Nat) (u : List Rat) (q : Nat × OjYear) : Prop where
  node : p[y]? = some k
  flexibility : entryAt o y k = some u
  key : q.1 = 2020 + 10 * y
  flex : q.2.flex.length = u.length ∧ ∀ (i : Nat) (a : Rat), u[i]? = some a → q.2.flex[i]? = some (if -(1 / 10000) ≤ a ∧ a ≤ 1 / 10000 then 0 else a)
  branch : entryAt g.ci y k = some q.2.branch
  noOperation : g.sumCO = 0 → q.2.operation = 0
  operation : g.sumCO ≠ 0 → entryAt g.yearlyCO y k = some q.2.operation

/-- what the entry of path `p` has to be -/
structure ScenSpec (g : OjArgs) (o : List (List (List Rat))) (p : List Nat) (s : OjScen) : Prop where
  branchCost : s.branchCost = g.sumCi
  operation : s.operation = g.sumCO
  total : s.total = s.branchCost + s.flexCost
  flexCost : ∃ l : List Rat, l.length = g.noYear ∧ s.flexCost = l.sum ∧ ∀ y, y < g.noYear → ∃ k v, p[y]? = some k ∧ entryAt g.cflex y k = some v ∧ l[y]? = some v
  years : s.years.length = g.noYear ∧ ∀ y, y < g.noYear → ∃ k u q, s.years[y]? = some q ∧ YearSpec g o p y k u q

/-! ## proofs -/

theorem ojAt_iff {α : Type} (a : List (List α)) (y k : Nat) (v : α) : ojAt a y k = .ok v ↔ entryAt a y k = some v := by
  unfold ojAt entryAt
  simp only [except_bind_ok, npGet_iff]
  cases a[y]? <;> simp

theorem entryAt_iff {α : Type} (a : List (List α)) (y k : Nat) (v : α) : entryAt a y k = some v ↔ ∃ r, a[y]? = some r ∧ r[k]? = some v := by
  unfold entryAt
  rw [Option.bind_eq_some_iff]

theorem ojPut_iff {α : Type} (a : List (List α)) (y k : Nat) (v : α) (r : List (List α)) : ojPut a y k v = .ok r ↔
    ∃ row, a[y]? = some row ∧ k < row.length ∧ r = a.set y (row.set k v) := by
  unfold ojPut
  simp only [except_bind_ok, npGet_iff, npSet_iff]
  constructor
  · rintro ⟨row, h1, row2, ⟨h2, rfl⟩, h3, rfl⟩
    exact ⟨row, h1, h2, rfl⟩
  · rintro ⟨row, h1, h2, rfl⟩
    exact ⟨row, h1, _, ⟨h2, rfl⟩, (List.getElem?_eq_some_iff.1 h1).1, rfl⟩

theorem entryAt_set {α : Type} (a : List (List α)) (row : List α) (y k y' k' : Nat) (v : α) (h : a[y]? = some row) (hk : k < row.length) :
    entryAt (a.set y (row.set k v)) y' k' = if y' = y ∧ k' = k then some v else entryAt a y' k' := by
  have hy := (List.getElem?_eq_some_iff.1 h).1
  unfold entryAt
  by_cases h1 : y' = y
  · subst h1
    rw [List.getElem?_set_self hy, h]
    simp only [Option.bind_some, true_and]
    by_cases h2 : k' = k
    · subst h2
      rw [List.getElem?_set_self hk, if_pos rfl]
    · rw [List.getElem?_set_ne (by omega), if_neg h2]
  · rw [List.getElem?_set_ne (by omega), if_neg (by tauto)]

theorem ojRound_twice (x : Rat) : ojRound (ojRound x) = ojRound x := by
  unfold ojRound
  by_cases h : |x| ≤ 1 / 10000
  · simp only [h, if_true, abs_zero, ite_self]
  · simp only [h, if_false]

theorem round_twice (u : List Rat) : (u.map ojRound).map ojRound = u.map ojRound := by
  rw [List.map_map]
  apply List.map_congr_left
  intro x _
  exact ojRound_twice x

/-- the flexibility during the call: every entry is as before, or rounded -/
def Rounded (o c : List (List (List Rat))) : Prop := ∀ y k v, entryAt c y k = some v → ∃ u, entryAt o y k = some u ∧ (v = u ∨ v = u.map ojRound)

theorem ojPath_iff (g : OjArgs) (xp : Int) (y k : Nat) : ojPath g xp y = .ok k ↔ ∃ p, pyGet g.path xp = .ok p ∧ p[y]? = some k := by
  unfold ojPath
  simp only [except_bind_ok, npGet_iff]

theorem round_spec (u : List Rat) : (u.map ojRound).length = u.length ∧ ∀ (i : Nat) (a : Rat), u[i]? = some a →
    (u.map ojRound)[i]? = some (if -(1 / 10000) ≤ a ∧ a ≤ 1 / 10000 then 0 else a) := by
  refine ⟨by simp, fun i a h => ?_⟩
  rw [List.getElem?_map, h]
  simp only [Option.map_some, ojRound, abs_le]

theorem ojYear_ok (g : OjArgs) (xp : Int) (p : List Nat) (hp : pyGet g.path xp = .ok p) (o : List (List (List Rat))) (s s' : List (List (List Rat)) × List (Nat × OjYear)) (y : Nat)
    (hr : Rounded o s.1) (h : ojYear g xp s y = .ok s') : y < 4 ∧ Rounded o s'.1 ∧ ∃ k u q, s'.2 = s.2 ++ [q] ∧ YearSpec g o p y k u q := by
  unfold ojYear at h
  simp only [except_bind_ok, ojAt_iff, ojPut_iff, npGet_iff, Except.ok.injEq] at h
  obtain ⟨k, hk, old, ho, flex, ⟨row, h1, h2, rfl⟩, key, hkey, op, hop, br, hbr, f, hf, rfl⟩ := h
  rw [ojPath_iff] at hk
  obtain ⟨p', hp', hk⟩ := hk
  rw [hp, Except.ok.injEq] at hp'
  subst hp'
  rw [entryAt_set s.1 row y k y k _ h1 h2, if_pos ⟨rfl, rfl⟩, Option.some.injEq] at hf
  obtain ⟨u, hu, hcase⟩ := hr y k old ho
  have hround : old.map ojRound = u.map ojRound := by
    rcases hcase with rfl | rfl
    · rfl
    · exact round_twice u
  have hy : y < 4 := (List.getElem?_eq_some_iff.1 hkey).1
  refine ⟨hy, ?_, k, u, (key, ⟨op, br, f⟩), rfl, hk, hu, ?_, ?_, hbr, ?_, ?_⟩
  · intro y' k' v hv
    rw [entryAt_set s.1 row y k y' k' _ h1 h2] at hv
    by_cases hc : y' = y ∧ k' = k
    · rw [if_pos hc, Option.some.injEq] at hv
      obtain ⟨rfl, rfl⟩ := hc
      exact ⟨u, hu, .inr (by rw [← hv, hround])⟩
    · rw [if_neg hc] at hv
      exact hr y' k' v hv
  · have : y = 0 ∨ y = 1 ∨ y = 2 ∨ y = 3 := by omega
    rcases this with rfl | rfl | rfl | rfl <;> simp at hkey <;> omega
  · rw [← hf, hround]
    exact round_spec u
  · intro h0
    rw [if_pos h0, Except.ok.injEq] at hop
    exact hop.symm
  · intro h0
    rw [if_neg h0, ojAt_iff] at hop
    exact hop

theorem ojYears_ok (g : OjArgs) (xp : Int) (p : List Nat) (hp : pyGet g.path xp = .ok p) (o : List (List (List Rat))) (n m : Nat) (s s' : List (List (List Rat)) × List (Nat × OjYear))
    (hr : Rounded o s.1) (hm : s.2.length = m) (h : (List.range' m n).foldlM (ojYear g xp) s = .ok s') :
    (n = 0 ∨ m + n ≤ 4) ∧ Rounded o s'.1 ∧ s'.2.length = m + n ∧ (∀ y, y < m → s'.2[y]? = s.2[y]?) ∧
    ∀ y, m ≤ y → y < m + n → ∃ k u q, s'.2[y]? = some q ∧ YearSpec g o p y k u q := by
  induction n generalizing m s with
  | zero =>
    simp only [List.range'_zero, List.foldlM_nil, pure, Except.pure, Except.ok.injEq] at h
    subst h
    exact ⟨.inl rfl, hr, hm, fun _ _ => rfl, fun y h1 h2 => by omega⟩
  | succ n ih =>
    rw [List.range'_succ, List.foldlM_cons, except_bind_ok] at h
    obtain ⟨t, h1, h2⟩ := h
    obtain ⟨hy, hr', k, u, q, he, hq⟩ := ojYear_ok g xp p hp o s t m hr h1
    obtain ⟨i1, i2, i3, i4, i5⟩ := ih (m + 1) t hr' (by rw [he]; simp [hm]) h2
    refine ⟨.inr (by omega), i2, by omega, ?_, ?_⟩
    · intro y hy'
      rw [i4 y (by omega), he, List.getElem?_append_left (by omega)]
    · intro y hy1 hy2
      by_cases hym : y = m
      · subst hym
        refine ⟨k, u, q, ?_, hq⟩
        rw [i4 y (by omega), he, ← hm, List.getElem?_concat_length]
      · exact i5 y (by omega) (by omega)

theorem ojFlexCost_ok (g : OjArgs) (xp : Int) (p : List Nat) (hp : pyGet g.path xp = .ok p) (c : Rat) (h : ojFlexCost g xp = .ok c) :
    ∃ l : List Rat, l.length = g.noYear ∧ c = l.sum ∧ ∀ y, y < g.noYear → ∃ k v, p[y]? = some k ∧ entryAt g.cflex y k = some v ∧ l[y]? = some v := by
  unfold ojFlexCost at h
  simp only [except_bind_ok, mapM_range_iff, Except.ok.injEq, ojAt_iff, ojPath_iff] at h
  obtain ⟨l, ⟨h1, h2⟩, rfl⟩ := h
  refine ⟨l, h1, rfl, fun y hy => ?_⟩
  obtain ⟨v, hv, k, ⟨p', hp', hk⟩, hc⟩ := h2 y hy
  rw [hp, Except.ok.injEq] at hp'
  subst hp'
  exact ⟨k, v, hk, hc, hv⟩

theorem ojScen_ok (g : OjArgs) (hn : 1 ≤ g.noYear) (o : List (List (List Rat))) (s s' : List (List (List Rat)) × List (Nat × OjScen)) (q : Int × Nat) (hr : Rounded o s.1) (h : ojScen g s q = .ok s') :
    g.noYear ≤ 4 ∧ Rounded o s'.1 ∧ ∃ p sc, pyGet g.path q.1 = .ok p ∧ s'.2 = s.2 ++ [(q.2, sc)] ∧ ScenSpec g o p sc := by
  unfold ojScen at h
  simp only [except_bind_ok, Except.ok.injEq] at h
  obtain ⟨c, hc, r, hrr, rfl⟩ := h
  have hp : ∃ p, pyGet g.path q.1 = .ok p := by
    have := hc
    unfold ojFlexCost at this
    simp only [except_bind_ok, mapM_range_iff, ojPath_iff] at this
    obtain ⟨l, ⟨_, h2⟩, _⟩ := this
    obtain ⟨v, _, k, ⟨p, hp, _⟩, _⟩ := h2 0 (by omega)
    exact ⟨p, hp⟩
  obtain ⟨p, hp⟩ := hp
  rw [List.range_eq_range'] at hrr
  obtain ⟨i1, i2, i3, i4, i5⟩ := ojYears_ok g q.1 p hp o g.noYear 0 (s.1, []) r hr rfl hrr
  refine ⟨by omega, i2, p, _, hp, rfl, rfl, rfl, rfl, ojFlexCost_ok g q.1 p hp c hc, ?_, ?_⟩
  · show r.2.length = _
    omega
  · intro y hy
    exact i5 y (by omega) (by omega)

theorem ojScens_ok (g : OjArgs) (hn : 1 ≤ g.noYear) (o : List (List (List Rat))) (l : List (Int × Nat)) (s s' : List (List (List Rat)) × List (Nat × OjScen)) (hr : Rounded o s.1)
    (h : l.foldlM (ojScen g) s = .ok s') : (l = [] ∨ g.noYear ≤ 4) ∧ Rounded o s'.1 ∧
    ∃ r, s'.2 = s.2 ++ r ∧ List.Forall₂ (fun q e => e.1 = q.2 ∧ ∃ p, pyGet g.path q.1 = .ok p ∧ ScenSpec g o p e.2) l r := by
  induction l generalizing s with
  | nil =>
    simp only [List.foldlM_nil, pure, Except.pure, Except.ok.injEq] at h
    subst h
    exact ⟨.inl rfl, hr, [], by simp, .nil⟩
  | cons q t ih =>
    rw [List.foldlM_cons, except_bind_ok] at h
    obtain ⟨u, h1, h2⟩ := h
    obtain ⟨j1, j2, p, sc, j3, j4, j5⟩ := ojScen_ok g hn o s u q hr h1
    obtain ⟨_, i2, r, i3, i4⟩ := ih u j2 h2
    refine ⟨.inr j1, i2, (q.2, sc) :: r, by rw [i3, j4]; simp, .cons ⟨rfl, p, j3, j5⟩ i4⟩

theorem ojPaths_eq (g : OjArgs) (h : 1 ≤ g.noPath) : ojPaths g = (writtenPaths g).map (fun q => ((q.1 : Int), q.2)) := by
  unfold ojPaths writtenPaths
  split
  · simp
  · simp only [List.map_cons, List.map_nil]
    have : ((g.noPath - 1 : Nat) : Int) = (g.noPath : Int) - 1 := by omega
    rw [this]
    rfl

/-- **C170**: whatever is written: one entry for each path, or for the first and the last, with their numbers; the cost of flexibility is the sum along the path, the total the sum of both
investments, the entries of the years are those of the path: keys 2020, 2030, ..., capacities of branches, flexibility with numbers below 0.0001 as zero, yearly operation costs if there is
a total.  The flexibility is that before the call, although the call changes the lists while it writes.  Missing: the operation costs of the paths. -/
theorem C170_content_partial (g : OjArgs) (o c : List (List (List Rat))) (r : List (Nat × OjScen)) (h : outputData g o = .ok (c, r)) (hp : 1 ≤ g.noPath) (hy : 1 ≤ g.noYear) :
    r.map (·.1) = (writtenPaths g).map (·.2) ∧ Rounded o c ∧
    ∀ (j x m : Nat), (writtenPaths g)[j]? = some (x, m) → ∃ sc p, r[j]? = some (m, sc) ∧ g.path[x]? = some p ∧ ScenSpec g o p sc := by
  unfold outputData at h
  rw [ojPaths_eq g hp] at h
  obtain ⟨_, h1, r', h2, h3⟩ := ojScens_ok g hy o _ (o, []) (c, r) (fun y k v hv => ⟨v, hv, .inl rfl⟩) h
  rw [List.nil_append] at h2
  simp only at h2
  subst h2
  rw [forall₂_iff_getElem?] at h3
  obtain ⟨h3, h4⟩ := h3
  rw [List.length_map] at h3
  refine ⟨?_, h1, ?_⟩
  · apply List.ext_getElem?
    intro j
    rw [List.getElem?_map, List.getElem?_map]
    by_cases hj : j < r.length
    · have e1 : ((writtenPaths g).map (fun q => ((q.1 : Int), q.2)))[j]? = some ((((writtenPaths g)[j]'(by omega)).1 : Int), ((writtenPaths g)[j]'(by omega)).2) := by
        rw [List.getElem?_map, List.getElem?_eq_getElem (by omega)]
        rfl
      have := (h4 j _ _ e1 (List.getElem?_eq_getElem hj)).1
      rw [List.getElem?_eq_getElem hj, List.getElem?_eq_getElem (by omega)]
      simp only [Option.map_some, Option.some.injEq]
      exact this
    · rw [List.getElem?_eq_none (by omega), List.getElem?_eq_none (by omega)]
      rfl
  · intro j x m hj
    have hlt := (List.getElem?_eq_some_iff.1 hj).1
    have e1 : ((writtenPaths g).map (fun q => ((q.1 : Int), q.2)))[j]? = some ((x : Int), m) := by
      rw [List.getElem?_map, hj]
      rfl
    have e2 : r[j]? = some (r[j]'(by omega)) := List.getElem?_eq_getElem (by omega)
    obtain ⟨h5, p, h6, h7⟩ := h4 j _ _ e1 e2
    exact ⟨_, p, by rw [e2]; exact congrArg some (Prod.ext h5 rfl), (pyGet_nat_iff _ _ _).1 h6, h7⟩

/-- **C170 fails** for more than four years: nothing is written. -/
theorem C170_years_violated (g : OjArgs) (o : List (List (List Rat))) (hp : 1 ≤ g.noPath) (hy : 5 ≤ g.noYear) : ∀ r, outputData g o ≠ .ok r := by
  rintro ⟨c, r⟩ h
  unfold outputData at h
  obtain ⟨h0, _⟩ := ojScens_ok g (by omega) o _ (o, []) (c, r) (fun y k v hv => ⟨v, hv, .inl rfl⟩) h
  rcases h0 with h0 | h0
  · unfold ojPaths at h0
    split at h0
    · rw [List.map_eq_nil_iff, List.range_eq_nil] at h0
      omega
    · simp at h0
  · omega

/-- **C170 fails** for operation costs: every scenario has the same one, whatever its path, and if it is 0 the operation cost of every year is 0, whatever it is. -/
theorem C170_operation_violated (g : OjArgs) (o c : List (List (List Rat))) (r : List (Nat × OjScen)) (h : outputData g o = .ok (c, r)) (hp : 1 ≤ g.noPath) (hy : 1 ≤ g.noYear) :
    (∀ e ∈ r, e.2.operation = g.sumCO) ∧ (g.sumCO = 0 → ∀ e ∈ r, ∀ q ∈ e.2.years, q.2.operation = 0) := by
  obtain ⟨h1, _, h2⟩ := C170_content_partial g o c r h hp hy
  have hall : ∀ e ∈ r, ∃ p, ScenSpec g o p e.2 := by
    intro e he
    obtain ⟨j, hj, rfl⟩ := List.getElem_of_mem he
    have hlen : r.length = (writtenPaths g).length := by
      have := congrArg List.length h1
      simpa using this
    obtain ⟨sc, p, h3, _, h4⟩ := h2 j _ _ (List.getElem?_eq_getElem (by omega : j < (writtenPaths g).length))
    rw [List.getElem?_eq_getElem hj, Option.some.injEq] at h3
    rw [h3]
    exact ⟨p, h4⟩
  refine ⟨fun e he => (hall e he).elim fun p hp => hp.operation, fun h0 e he q hq => ?_⟩
  obtain ⟨p, hs⟩ := hall e he
  obtain ⟨y, hy', rfl⟩ := List.getElem_of_mem hq
  obtain ⟨k, u, q, h5, h6⟩ := hs.years.2 y (by rw [← hs.years.1]; exact hy')
  rw [List.getElem?_eq_getElem hy', Option.some.injEq] at h5
  rw [h5]
  exact h6.noOperation h0

def exOj : OjArgs := ⟨3, 2, [[0, 0], [0, 1], [0, 2]], 50, [[10], [20, 30, 40]], [[[1, 2]], [[3, 4], [5, 6], [7, 8]]], 100, [[1], [2, 3, 4]], false⟩
def exFlex : List (List (List Rat)) := [[[1 / 100000, 2]], [[0, 1], [3, 3], [-1 / 20000, 4]]]

theorem C170_witness : (outputData exOj exFlex).toOption = some ([[[0, 2]], [[0, 1], [3, 3], [0, 4]]],
    [(1, ⟨103, 100, 3, 50, [(2020, ⟨10, [1, 2], [0, 2]⟩), (2030, ⟨20, [3, 4], [0, 1]⟩)]⟩), (2, ⟨105, 100, 5, 50, [(2020, ⟨10, [1, 2], [0, 2]⟩), (2030, ⟨40, [7, 8], [0, 4]⟩)]⟩)]) := by
  decide +kernel

/-! ## C171 -/

/-- a loop that changes the last element -/
theorem foldlM_last {α β : Type} (step : List α → β → Except PyErr (List α)) (elem : α → β → Except PyErr α) (acc : List α)
    (h : ∀ a x, step (acc ++ [a]) x = elem a x >>= fun b => .ok (acc ++ [b])) (xs : List β) (a : α) :
    xs.foldlM step (acc ++ [a]) = xs.foldlM elem a >>= fun b => .ok (acc ++ [b]) := by
  induction xs generalizing a with
  | nil => rfl
  | cons x t ih =>
    rw [List.foldlM_cons, List.foldlM_cons, h]
    cases elem a x with
    | error e => rfl
    | ok b => exact ih b

theorem pdModify_last {α : Type} (l : List α) (a : α) (k : Nat) (hk : l.length = k) (f : α → Except PyErr α) : pdModify (l ++ [a]) k f = f a >>= fun b => .ok (l ++ [b]) := by
  subst hk
  unfold pdModify
  rw [npGet_some (List.getElem?_concat_length : (l ++ [a])[l.length]? = some a)]
  simp only [bind, Except.bind]
  cases f a with
  | error e => rfl
  | ok b =>
    simp only
    rw [npSet_ok b (by simp)]
    simp

theorem foldl_snoc {α : Type} (l acc : List α) : l.foldl (fun s a => s ++ [a]) acc = acc ++ l := by
  induction l generalizing acc with
  | nil => simp
  | cons a t ih => rw [List.foldl_cons, ih]; simp

theorem pdRecord_eq (val : Nat → Nat → Nat → Except PyErr Rat) (years sce n : Nat) : pdRecord val years sce n =
    (List.range years).mapM (fun y => (List.range (sce ^ y)).mapM (fun s => (List.range n).mapM (fun b => val b y s))) := by
  have inner : ∀ (l : List (List (List Rat))) (r : List (List Rat)) (y s : Nat), l.length = y → r.length = s →
      (do let l ← pdModify (l ++ [r]) y (fun r => .ok (r ++ [[]]))
          (List.range n).foldlM (fun l b => do
            let v ← val b y s
            pdModify l y (fun r => pdModify r s (fun e => .ok (e ++ [v])))) l) =
      ((List.range n).mapM (fun b => val b y s) >>= fun row => .ok (l ++ [r ++ [row]]) : Except PyErr (List (List (List Rat)))) := by
    intro l r y s hl hr
    rw [pdModify_last l r y hl]
    simp only [bind, Except.bind]
    have h1 := foldlM_last (fun (l : List (List (List Rat))) (b : Nat) => do
            let v ← val b y s
            pdModify l y (fun r => pdModify r s (fun e => .ok (e ++ [v])))) (fun (r : List (List Rat)) b => do
            let v ← val b y s
            pdModify r s (fun e => .ok (e ++ [v]))) l (by
      intro a x
      simp only [bind, Except.bind]
      cases val x y s with
      | error e => rfl
      | ok v => exact pdModify_last l a y hl _) (List.range n) (r ++ [[]])
    have h2 := foldlM_last (fun (r : List (List Rat)) b => do
            let v ← val b y s
            pdModify r s (fun e => .ok (e ++ [v]))) (fun (e : List Rat) b => val b y s >>= fun v => .ok (e ++ [v])) r (by
      intro a x
      simp only [bind, Except.bind]
      cases val x y s with
      | error e => rfl
      | ok v => exact pdModify_last r a s hr _) (List.range n) []
    simp only [bind, Except.bind] at h1 h2
    rw [h1, h2]
    have h3 := foldlM_snoc (fun b => val b y s) (List.range n) []
    simp only [bind, Except.bind] at h3
    rw [h3]
    cases (List.range n).mapM (fun b => val b y s) <;> simp
  have year : ∀ (l : List (List (List Rat))) (y : Nat), l.length = y → (List.range (sce ^ y)).foldlM (fun l s => do
      let l ← pdModify l y (fun r => .ok (r ++ [[]]))
      (List.range n).foldlM (fun l b => do
        let v ← val b y s
        pdModify l y (fun r => pdModify r s (fun e => .ok (e ++ [v])))) l) (l ++ [[]]) =
      ((List.range (sce ^ y)).mapM (fun s => (List.range n).mapM (fun b => val b y s)) >>= fun r => .ok (l ++ [r]) : Except PyErr (List (List (List Rat)))) := by
    intro l y hl
    have gen : ∀ (k m : Nat) (r : List (List Rat)), r.length = m → (List.range' m k).foldlM (fun l s => do
        let l ← pdModify l y (fun r => .ok (r ++ [[]]))
        (List.range n).foldlM (fun l b => do
          let v ← val b y s
          pdModify l y (fun r => pdModify r s (fun e => .ok (e ++ [v])))) l) (l ++ [r]) =
        ((List.range' m k).mapM (fun s => (List.range n).mapM (fun b => val b y s)) >>= fun q => .ok (l ++ [r ++ q]) : Except PyErr (List (List (List Rat)))) := by
      intro k
      induction k with
      | zero => intro m r _; simp [pure, Except.pure, bind, Except.bind]
      | succ k ih =>
        intro m r hm
        rw [List.range'_succ, List.foldlM_cons, List.mapM_cons, inner l r y m hl hm]
        cases (List.range n).mapM (fun b => val b y m) with
        | error e => rfl
        | ok row =>
          show (List.range' (m + 1) k).foldlM _ (l ++ [r ++ [row]]) = _
          rw [ih (m + 1) (r ++ [row]) (by simp [hm])]
          show _ = ((List.range' (m + 1) k).mapM (fun s => (List.range n).mapM (fun b => val b y s)) >>= fun t => Except.ok (row :: t)) >>= _
          cases (List.range' (m + 1) k).mapM (fun s => (List.range n).mapM (fun b => val b y s)) <;> simp [bind, Except.bind]
    have := gen (sce ^ y) 0 [] rfl
    rw [← List.range_eq_range'] at this
    rw [this]
    simp
  unfold pdRecord
  have := foldlM_append (fun l y => (List.range (sce ^ y)).foldlM (fun l s => do
      let l ← pdModify l y (fun r => .ok (r ++ [[]]))
      (List.range n).foldlM (fun l b => do
        let v ← val b y s
        pdModify l y (fun r => pdModify r s (fun e => .ok (e ++ [v])))) l) (l ++ [[]]))
    (fun y => (List.range (sce ^ y)).mapM (fun s => (List.range n).mapM (fun b => val b y s))) (fun l r => l ++ [r]) List.length year (by simp) years 0 [] rfl
  rw [← List.range_eq_range'] at this
  rw [this]
  simp only [foldl_snoc, List.nil_append]
  cases List.mapM (m := Except PyErr) _ (List.range years) <;> rfl

/-- **C171**: values are recorded exactly if all of them can be read; the record has one entry for each year, in it one for each of the `sce ^ y` scenarios of the year, and in it the value of
each element in its place. -/
theorem C171_record (val : Nat → Nat → Nat → Except PyErr Rat) (years sce n : Nat) (r : List (List (List Rat))) : pdRecord val years sce n = .ok r ↔
    r.length = years ∧ ∀ y, y < years → ∃ ry, r[y]? = some ry ∧ ry.length = sce ^ y ∧ ∀ s, s < sce ^ y → ∃ rs, ry[s]? = some rs ∧ rs.length = n ∧
      ∀ b, b < n → ∃ v, rs[b]? = some v ∧ val b y s = .ok v := by
  rw [pdRecord_eq]
  simp only [mapM_range_iff]

/-- a start value is recorded for every year, scenario and branch -/
theorem C171_initial (x : Rat) (years sce n : Nat) : ∃ r, pdRecord (fun _ _ _ => .ok x) years sce n = .ok r ∧
    ∀ y s b, y < years → s < sce ^ y → b < n → ((r[y]?).bind (fun q => (q[s]?).bind (fun t => t[b]?))) = some x := by
  obtain ⟨r, hr⟩ : ∃ r, pdRecord (fun _ _ _ => .ok x) years sce n = .ok r := by
    rw [pdRecord_eq]
    exact mapM_total_of _ _ (fun y _ => mapM_total_of _ _ (fun s _ => mapM_total_of _ _ (fun b _ => ⟨x, rfl⟩)))
  refine ⟨r, hr, fun y s b hy hs hb => ?_⟩
  obtain ⟨_, h⟩ := (C171_record _ _ _ _ _).1 hr
  obtain ⟨ry, h1, _, h2⟩ := h y hy
  obtain ⟨rs, h3, _, h4⟩ := h2 s hs
  obtain ⟨v, h5, h6⟩ := h4 b hb
  rw [Except.ok.injEq] at h6
  rw [h1, Option.bind_some, h3, Option.bind_some, h5, h6]

/-- the investment in a branch is the sum of its sizes times what was chosen of them, zero for a branch without sizes -/
theorem C171_invest (sizes : List (Nat × List Rat)) (intev : Nat → List Nat) (ci : Nat → Nat → Nat → Nat → Rat) (b y s : Nat) (l : List Rat) (hl : sizes.lookup b = some l)
    (hi : intev b = List.range l.length) : pdInvest sizes intev ci b y s = .ok ((l.zipIdx.map (fun q => q.1 * ci b q.2 y s)).sum) := by
  unfold pdInvest pdSizesOf
  rw [hl]
  simp only [bind, Except.bind]
  by_cases h : l = []
  · subst h
    simp
  · rw [if_pos h, hi]
    have : (List.range l.length).mapM (fun i => do
        let z ← npGet l i
        (.ok (z * ci b i y s) : Except PyErr Rat)) = .ok (l.zipIdx.map (fun q => q.1 * ci b q.2 y s)) := by
      rw [mapM_range_iff]
      refine ⟨by simp, fun k hk => ⟨l[k] * ci b k y s, ?_, ?_⟩⟩
      · rw [List.getElem?_map, List.getElem?_zipIdx, List.getElem?_eq_getElem hk]
        simp
      · rw [npGet_some (List.getElem?_eq_getElem hk)]
        rfl
    simp only [bind, Except.bind] at this
    rw [this]

theorem C171_witness : (pdRecord (fun b y s => .ok ((100 * y + 10 * s + b : Nat) : Rat)) 2 2 2).toOption = some [[[0, 1]], [[100, 101], [110, 111]]] := by decide +kernel

end Pyensys
