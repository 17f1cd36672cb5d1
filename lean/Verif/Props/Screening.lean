import Verif.Model.Screening
import Verif.Props.AttestOptions
import Mathlib.Data.List.Perm.Basic
import Mathlib.Data.List.NodupEquivFin

/-!
# Properties of the screening of clusters (C47, C48, C79-C82)
-/

namespace Pyensys

/-! ## C47: rounding to the catalogue -/

/-- the smallest size of the catalogue that is at least `x` -/
structure SmallestSize (cat : List Rat) (x y : Rat) : Prop where
  mem : y ∈ cat
  enough : x ≤ y
  least : ∀ i ∈ cat, x ≤ i → y ≤ i

theorem foldl_min_spec (l : List Rat) : ∀ (a : Rat), (l.foldl min a = a ∨ l.foldl min a ∈ l) ∧
    l.foldl min a ≤ a ∧ ∀ i ∈ l, l.foldl min a ≤ i := by
  induction l with
  | nil => intro a; simp
  | cons b l ih =>
    intro a
    obtain ⟨h1, h2, h3⟩ := ih (min a b)
    simp only [List.foldl_cons]
    refine ⟨?_, h2.trans (min_le_left _ _), ?_⟩
    · rcases h1 with h1 | h1
      · rcases min_choice a b with h | h
        · left; rw [h1, h]
        · right; rw [h1, h]; simp
      · right; exact List.mem_cons_of_mem _ h1
    · intro i hi
      rcases List.mem_cons.1 hi with rfl | hi
      · exact h2.trans (min_le_right _ _)
      · exact h3 i hi

/-- **C47.** Rounding up gives `y` exactly when `y` is the smallest size that is at least `x`. -/
theorem C47_round_up (cat : List Rat) (x y : Rat) : roundUp cat x = .ok y ↔ SmallestSize cat x y := by
  unfold roundUp
  have hm : ∀ i, i ∈ cat.filter (fun i => decide (x ≤ i)) ↔ i ∈ cat ∧ x ≤ i := by
    intro i; simp
  constructor
  · intro h
    split at h
    · cases h
    · rename_i i is heq
      rw [heq] at hm
      injection h with h
      obtain ⟨h1, h2, h3⟩ := foldl_min_spec is i
      have hmem : y ∈ i :: is := by
        rw [← h]
        rcases h1 with h1 | h1
        · rw [h1]; simp
        · simp [h1]
      obtain ⟨m1, m2⟩ := (hm y).1 hmem
      refine ⟨m1, m2, ?_⟩
      intro j hj hxj
      rw [← h]
      rcases List.mem_cons.1 ((hm j).2 ⟨hj, hxj⟩) with rfl | hj'
      · exact h2
      · exact h3 j hj'
  · rintro ⟨h1, h2, h3⟩
    split
    · rename_i heq
      rw [heq] at hm
      have := (hm y).2 ⟨h1, h2⟩
      cases this
    · rename_i i is heq
      rw [heq] at hm
      congr 1
      obtain ⟨g1, g2, g3⟩ := foldl_min_spec is i
      apply le_antisymm
      · rcases List.mem_cons.1 ((hm y).2 ⟨h1, h2⟩) with rfl | hj'
        · exact g2
        · exact g3 y hj'
      · have hmem : is.foldl min i ∈ i :: is := by
          rcases g1 with h1 | h1
          · rw [h1]; simp
          · simp [h1]
        obtain ⟨m1, m2⟩ := (hm _).1 hmem
        exact h3 _ m1 m2

/-- **C47.** The only failure is a ValueError, exactly when no size is large enough. -/
theorem C47_too_large (cat : List Rat) (x : Rat) (e : PyErr) :
    roundUp cat x = .error e ↔ e = .value ∧ ∀ i ∈ cat, i < x := by
  unfold roundUp
  have hm : ∀ i, i ∈ cat.filter (fun i => decide (x ≤ i)) ↔ i ∈ cat ∧ x ≤ i := by
    intro i; simp
  split
  · rename_i heq
    rw [heq] at hm
    constructor
    · intro h
      injection h with h
      refine ⟨h.symm, fun i hi => ?_⟩
      by_contra hc
      have := (hm i).2 ⟨hi, not_lt.1 hc⟩
      cases this
    · rintro ⟨rfl, _⟩; rfl
  · rename_i i is heq
    rw [heq] at hm
    constructor
    · intro h; cases h
    · rintro ⟨_, h⟩
      obtain ⟨m1, m2⟩ := (hm i).1 (by simp)
      exact absurd m2 (not_le.2 (h i m1))

/-- what a rounded cluster must be: requirements that are not positive stay, the others become the smallest
sufficient size of their branch's catalogue (lines have tap 0) -/
def RoundedCluster (lineCat trafoCat taps v c : List Rat) : Prop :=
  c.length = min taps.length v.length ∧
  ∀ (k : Nat) (tap x y : Rat), taps[k]? = some tap → v[k]? = some x → c[k]? = some y →
    (x ≤ 0 → y = x) ∧ (0 < x → SmallestSize (if tap = 0 then lineCat else trafoCat) x y)

theorem forall₂_iff_getElem? {α β : Type} (R : α → β → Prop) : ∀ (l : List α) (r : List β),
    List.Forall₂ R l r ↔ l.length = r.length ∧ ∀ (k : Nat) (a : α) (b : β), l[k]? = some a → r[k]? = some b → R a b := by
  intro l
  induction l with
  | nil =>
    intro r
    cases r with
    | nil => simp
    | cons b r => simp
  | cons a l ih =>
    intro r
    cases r with
    | nil => simp
    | cons b r =>
      rw [List.forall₂_cons, ih]
      constructor
      · rintro ⟨h, h1, h2⟩
        refine ⟨by simp [h1], ?_⟩
        intro k x y hx hy
        cases k with
        | zero => simp at hx hy; subst hx hy; exact h
        | succ k => exact h2 k x y (by simpa using hx) (by simpa using hy)
      · rintro ⟨h1, h2⟩
        exact ⟨h2 0 a b rfl rfl, by simpa using h1, fun k x y hx hy => h2 (k + 1) x y (by simpa using hx) (by simpa using hy)⟩

/-- **C47.** A cluster is rounded branch by branch. -/
theorem C47_cluster (lineCat trafoCat taps v c : List Rat) :
    roundCluster lineCat trafoCat taps v = .ok c ↔ RoundedCluster lineCat trafoCat taps v c := by
  unfold roundCluster RoundedCluster
  rw [mapM_ok_iff, forall₂_iff_getElem?, List.length_zip, eq_comm]
  apply and_congr_right
  intro hl
  constructor
  · intro h k tap x y ht hx hy
    have := h k (tap, x) y (by rw [List.getElem?_zip_eq_some]; exact ⟨ht, hx⟩) hy
    simp only at this
    constructor
    · intro h0
      rw [if_neg (not_lt.2 h0)] at this
      injection this with this
      exact this.symm
    · intro h0
      rw [if_pos h0, C47_round_up] at this
      exact this
  · intro h k p y hp hy
    obtain ⟨ht, hx⟩ := List.getElem?_zip_eq_some.1 hp
    obtain ⟨h1, h2⟩ := h k p.1 p.2 y ht hx hy
    by_cases h0 : p.2 > 0
    · rw [if_pos h0, C47_round_up]
      exact h2 h0
    · rw [if_neg h0, h1 (not_lt.1 h0)]

/-- **C47.** Rounding succeeds exactly when every positive requirement has a sufficient size, and never
lowers a requirement. -/
theorem C47_cluster_succeeds (lineCat trafoCat taps v : List Rat) :
    (∃ c, roundCluster lineCat trafoCat taps v = .ok c) ↔
      ∀ (k : Nat) (tap x : Rat), taps[k]? = some tap → v[k]? = some x → 0 < x →
        ∃ i ∈ (if tap = 0 then lineCat else trafoCat), x ≤ i := by
  unfold roundCluster
  constructor
  · rintro ⟨c, hc⟩ k tap x ht hx h0
    rw [mapM_ok_iff, forall₂_iff_getElem?] at hc
    have hk : (taps.zip v)[k]? = some (tap, x) := List.getElem?_zip_eq_some.2 ⟨ht, hx⟩
    have hkl := (List.getElem?_eq_some_iff.1 hk).1
    have := hc.2 k (tap, x) (c[k]'(by omega)) hk (List.getElem?_eq_getElem _)
    simp only at this
    rw [if_pos h0, C47_round_up] at this
    exact ⟨_, this.mem, this.enough⟩
  · intro h
    have : ∀ l : List (Rat × Rat), (∀ p ∈ l, p.2 > 0 → ∃ i ∈ (if p.1 = 0 then lineCat else trafoCat), p.2 ≤ i) →
        ∃ c, l.mapM (fun p => if p.2 > 0 then roundUp (branchCat lineCat trafoCat p.1) p.2 else .ok p.2) = .ok c := by
      intro l
      induction l with
      | nil => intro _; exact ⟨[], rfl⟩
      | cons p l ih =>
        intro hp
        obtain ⟨c, hc⟩ := ih (fun q hq => hp q (by simp [hq]))
        have hone : ∃ y, (if p.2 > 0 then roundUp (branchCat lineCat trafoCat p.1) p.2 else .ok p.2) = .ok y := by
          by_cases h0 : p.2 > 0
          · rw [if_pos h0]
            obtain ⟨i, hi, hpi⟩ := hp p (by simp) h0
            cases hr : roundUp (branchCat lineCat trafoCat p.1) p.2 with
            | ok y => exact ⟨y, rfl⟩
            | error e =>
              have := ((C47_too_large _ _ _).1 hr).2 i hi
              exact absurd hpi (not_le.2 this)
          · rw [if_neg h0]; exact ⟨_, rfl⟩
        obtain ⟨y, hy⟩ := hone
        exact ⟨y :: c, by rw [List.mapM_cons, hy, hc]; rfl⟩
    apply this
    intro p hp h0
    obtain ⟨k, hk⟩ := List.mem_iff_getElem?.1 hp
    obtain ⟨ht, hx⟩ := List.getElem?_zip_eq_some.1 hk
    exact h k p.1 p.2 ht hx h0

example : roundCluster [10, 20, 40] [100, 50] [0, 0, 1, 0] [0, 11, 30, 40] = .ok [0, 20, 50, 40] := by decide +kernel

/-! ## C79: the sequence of screening problems -/

/-- the investments found: for every scenario, the answer of the programme of its year given the sum of the
investments found for the last scenario of each earlier year -/
inductive ScreenRun (solve : Nat → List Rat → List Rat → Except PyErr (List Rat)) :
    Nat → List Rat → List (List (List Rat)) → List (List (List Rat)) → Prop
  | nil (xy : Nat) (prev : List Rat) : ScreenRun solve xy prev [] []
  | cons (xy : Nat) (prev : List Rat) (year : List (List Rat)) (years : List (List (List Rat)))
      (ics : List (List Rat)) (rest : List (List (List Rat))) (last : List Rat)
      (answers : List.Forall₂ (fun m ic => solve xy prev m = .ok ic) year ics)
      (hlast : ics.getLast? = some last)
      (next : ScreenRun solve (xy + 1) (List.zipWith (· + ·) last prev) years rest) :
      ScreenRun solve xy prev (year :: years) (ics :: rest)

theorem screenYear_iff (lineCat trafoCat taps : List Rat) (solve : Nat → List Rat → List Rat → Except PyErr (List Rat))
    (xy : Nat) (prev : List Rat) (ms : List (List Rat)) : ∀ (last : Option (List Rat)) (s : Screened)
    (r : Option (List Rat) × Screened),
    screenYear lineCat trafoCat taps solve xy prev ms last s = .ok r ↔
      ∃ ics cs, List.Forall₂ (fun m ic => solve xy prev m = .ok ic) ms ics ∧
        List.Forall₂ (fun ic c => roundCluster lineCat trafoCat taps ic = .ok c) ics cs ∧
        r.1 = (match ics.getLast? with | some ic => some ic | none => last) ∧
        r.2 = ⟨s.found ++ ics, s.clusters ++ cs⟩ := by
  induction ms with
  | nil =>
    intro last s r
    constructor
    · intro h
      unfold screenYear at h
      injection h with h
      subst h
      exact ⟨[], [], .nil, .nil, rfl, by simp⟩
    · rintro ⟨ics, cs, h1, h2, h3, h4⟩
      cases h1
      cases h2
      unfold screenYear
      obtain ⟨r1, r2⟩ := r
      simp only [List.getLast?_nil, List.append_nil] at h3 h4
      subst h3 h4
      rfl
  | cons m ms ih =>
    intro last s r
    unfold screenYear
    rw [except_bind_ok]
    constructor
    · rintro ⟨ic, hic, h⟩
      obtain ⟨c, hc, h⟩ := except_bind_ok.1 h
      obtain ⟨ics, cs, h1, h2, h3, h4⟩ := (ih _ _ _).1 h
      refine ⟨ic :: ics, c :: cs, .cons hic h1, .cons hc h2, ?_, ?_⟩
      · rw [h3, List.getLast?_cons]
        cases ics.getLast? <;> rfl
      · rw [h4]; simp
    · rintro ⟨ics, cs, h1, h2, h3, h4⟩
      cases h1 with
      | cons hic h1 =>
        cases h2 with
        | cons hc h2 =>
          rename_i ic ics c cs
          refine ⟨ic, hic, except_bind_ok.2 ⟨c, hc, (ih _ _ _).2 ⟨ics, cs, h1, h2, ?_, ?_⟩⟩⟩
          · rw [h3, List.getLast?_cons]
            cases ics.getLast? <;> rfl
          · rw [h4]; simp

theorem forall₂_append_split {α β : Type} {R : α → β → Prop} (a b : List α) : ∀ (c : List β), List.Forall₂ R (a ++ b) c →
    ∃ c1 c2, List.Forall₂ R a c1 ∧ List.Forall₂ R b c2 ∧ c = c1 ++ c2 := by
  induction a with
  | nil => intro c h; exact ⟨[], c, .nil, h, rfl⟩
  | cons x a ih =>
    intro c h
    cases h with
    | cons hx h =>
      obtain ⟨c1, c2, h1, h2, rfl⟩ := ih _ h
      exact ⟨_ :: c1, c2, .cons hx h1, h2, rfl⟩

theorem screenYears_iff (lineCat trafoCat taps : List Rat) (solve : Nat → List Rat → List Rat → Except PyErr (List Rat))
    (years : List (List (List Rat))) (hne : ∀ y ∈ years, y ≠ []) : ∀ (xy : Nat) (prev : List Rat)
    (last : Option (List Rat)) (s s' : Screened),
    screenYears lineCat trafoCat taps solve years xy prev last s = .ok s' ↔
      ∃ found cs, ScreenRun solve xy prev years found ∧
        List.Forall₂ (fun ic c => roundCluster lineCat trafoCat taps ic = .ok c) found.flatten cs ∧
        s' = ⟨s.found ++ found.flatten, s.clusters ++ cs⟩ := by
  induction years with
  | nil =>
    intro xy prev last s s'
    unfold screenYears
    constructor
    · intro h
      injection h with h
      subst h
      exact ⟨[], [], .nil _ _, .nil, by simp⟩
    · rintro ⟨found, cs, h1, h2, rfl⟩
      cases h1
      cases h2
      simp
  | cons year years ih =>
    intro xy prev last s s'
    unfold screenYears
    rw [except_bind_ok]
    have hy := hne year (by simp)
    have ih := ih (fun y hy => hne y (by simp [hy]))
    constructor
    · rintro ⟨r, hr, h⟩
      obtain ⟨ics, cs, h1, h2, h3, h4⟩ := (screenYear_iff _ _ _ _ _ _ _ _ _ _).1 hr
      obtain ⟨lst, hl⟩ : ∃ lst, ics.getLast? = some lst := by
        cases hics : ics.getLast? with
        | some x => exact ⟨x, rfl⟩
        | none =>
          rw [List.getLast?_eq_none_iff] at hics
          subst hics
          cases h1
          exact absurd rfl hy
      rw [hl] at h3
      simp only at h3
      rw [h3] at h
      simp only at h
      obtain ⟨found, cs', g1, g2, g3⟩ := (ih _ _ _ _ _).1 h
      refine ⟨ics :: found, cs ++ cs', .cons _ _ _ _ _ _ lst h1 hl g1, ?_, ?_⟩
      · rw [List.flatten_cons]
        exact List.rel_append h2 g2
      · rw [g3, h4]
        simp
    · rintro ⟨found, cs, h1, h2, rfl⟩
      cases h1 with
      | cons _ _ _ _ ics rest lst answers hl next =>
        rw [List.flatten_cons] at h2
        obtain ⟨cs1, cs2, e1, e2, rfl⟩ : ∃ cs1 cs2, List.Forall₂ (fun ic c => roundCluster lineCat trafoCat taps ic = .ok c) ics cs1 ∧
            List.Forall₂ (fun ic c => roundCluster lineCat trafoCat taps ic = .ok c) rest.flatten cs2 ∧ cs = cs1 ++ cs2 :=
          forall₂_append_split _ _ _ h2
        refine ⟨(some lst, ⟨s.found ++ ics, s.clusters ++ cs1⟩), (screenYear_iff _ _ _ _ _ _ _ _ _ _).2
          ⟨ics, cs1, answers, e1, by rw [hl], rfl⟩, ?_⟩
        simp only
        exact (ih _ _ _ _ _).2 ⟨rest, cs2, next, e2, by simp⟩

/-- **C79.** Screening solves one programme per year and scenario, in order, each with the investments of the
last scenario of every earlier year added up (none in the first year), and rounds each answer to the
catalogue; it succeeds exactly when all these programmes and roundings do. -/
theorem C79_screening_runs (lineCat trafoCat taps : List Rat) (solve : Nat → List Rat → List Rat → Except PyErr (List Rat))
    (multiplier : List (List (List Rat))) (hne : ∀ y ∈ multiplier, y ≠ []) (s : Screened) :
    mainScreening lineCat trafoCat taps solve multiplier = .ok s ↔
      ∃ found, ScreenRun solve 0 (List.replicate taps.length 0) multiplier found ∧
        s.found = found.flatten ∧
        List.Forall₂ (RoundedCluster lineCat trafoCat taps) found.flatten s.clusters := by
  unfold mainScreening
  rw [screenYears_iff lineCat trafoCat taps solve multiplier hne]
  have e : (fun ic c => roundCluster lineCat trafoCat taps ic = .ok c) = RoundedCluster lineCat trafoCat taps := by
    funext ic c
    exact propext (C47_cluster _ _ _ _ _)
  rw [e]
  constructor
  · rintro ⟨found, cs, h1, h2, rfl⟩
    exact ⟨found, h1, by simp, by simpa using h2⟩
  · rintro ⟨found, h1, h2, h3⟩
    refine ⟨found, s.clusters, h1, h3, ?_⟩
    cases s
    simp only at h2
    simp [h2]

theorem screenRun_length (solve : Nat → List Rat → List Rat → Except PyErr (List Rat)) (xy : Nat) (prev : List Rat)
    (years found : List (List (List Rat))) (h : ScreenRun solve xy prev years found) :
    List.Forall₂ (fun y ics => y.length = ics.length) years found := by
  induction h with
  | nil => exact .nil
  | cons xy prev year years ics rest last answers hlast next ih => exact .cons answers.length_eq ih

/-- **C79.** There is one cluster per scenario of every year. -/
theorem C79_one_per_scenario (lineCat trafoCat taps : List Rat) (solve : Nat → List Rat → List Rat → Except PyErr (List Rat))
    (multiplier : List (List (List Rat))) (hne : ∀ y ∈ multiplier, y ≠ []) (s : Screened)
    (h : mainScreening lineCat trafoCat taps solve multiplier = .ok s) :
    s.clusters.length = (multiplier.map (·.length)).sum ∧ s.found.length = (multiplier.map (·.length)).sum := by
  obtain ⟨found, h1, h2, h3⟩ := (C79_screening_runs _ _ _ _ _ hne _).1 h
  have hl := screenRun_length _ _ _ _ _ h1
  have : found.flatten.length = (multiplier.map (·.length)).sum := by
    rw [List.length_flatten]
    clear h1 h2 h3 h hne
    induction hl with
    | nil => rfl
    | cons h _ ih => simp only [List.map_cons, List.sum_cons, ih, h]
  exact ⟨by rw [← h3.length_eq, this], by rw [h2, this]⟩

/-- two years, two scenarios in the second: the investments of the first year are passed on -/
example : mainScreening [10, 20] [] [0, 0] (fun _ prev m => .ok (List.zipWith (fun a b => max 0 (a - b)) m prev))
    [[[5, 0]], [[12, 3], [5, 8]]] = .ok ⟨[[5, 0], [7, 3], [0, 8]], [[10, 0], [10, 10], [0, 10]]⟩ := by decide +kernel

/-- **C79.** Reducing the investments found to the catalogue (whose result is not used) never raises after the
screening itself has succeeded. -/
theorem C79_reduction_never_raises (lineCat trafoCat taps : List Rat)
    (solve : Nat → List Rat → List Rat → Except PyErr (List Rat)) (multiplier : List (List (List Rat)))
    (hne : ∀ y ∈ multiplier, y ≠ []) (s : Screened)
    (h : mainScreening lineCat trafoCat taps solve multiplier = .ok s) :
    ∃ d, reduceDict lineCat trafoCat taps s.found = .ok d ∧ d.length = taps.length := by
  obtain ⟨found, h1, h2, h3⟩ := (C79_screening_runs _ _ _ _ _ hne _).1 h
  rw [← h2] at h3
  have mapM_total : ∀ {α β : Type} (f : α → Except PyErr β) (l : List α), (∀ a ∈ l, ∃ b, f a = .ok b) →
      ∃ r, l.mapM f = .ok r ∧ r.length = l.length := by
    intro α β f l
    induction l with
    | nil => intro _; exact ⟨[], rfl, rfl⟩
    | cons a l ih =>
      intro hl
      obtain ⟨b, hb⟩ := hl a (by simp)
      obtain ⟨r, hr, hlen⟩ := ih (fun x hx => hl x (by simp [hx]))
      exact ⟨b :: r, by rw [List.mapM_cons, hb, hr]; rfl, by simp [hlen]⟩
  have key : ∀ p ∈ taps.zipIdx, ∃ d, reduceBranch (branchCat lineCat trafoCat p.1)
      ((s.found.filterMap (fun ic => ic[p.2]?)).insertionSort (· ≤ ·)) = .ok d := by
    intro p hp
    rw [List.mem_zipIdx_iff_getElem?] at hp
    unfold reduceBranch
    split
    · rename_i hsum
      -- some investment of the branch is positive, so the catalogue has a size for it
      have hmem : ∀ v, v ∈ (s.found.filterMap (fun ic => ic[p.2]?)).insertionSort (· ≤ ·) ↔
          ∃ ic ∈ s.found, ic[p.2]? = some v := by
        intro v
        rw [List.mem_insertionSort, List.mem_filterMap]
      have hround : ∀ v, 0 < v → (∃ ic ∈ s.found, ic[p.2]? = some v) →
          ∃ y, SmallestSize (branchCat lineCat trafoCat p.1) v y := by
        rintro v hv ⟨ic, hic, hiv⟩
        obtain ⟨k, hk⟩ := List.mem_iff_getElem?.1 hic
        rw [forall₂_iff_getElem?] at h3
        have hkl := (List.getElem?_eq_some_iff.1 hk).1
        have hr := h3.2 k ic (s.clusters[k]'(by omega)) hk (List.getElem?_eq_getElem _)
        have l1 := (List.getElem?_eq_some_iff.1 hp).1
        have l2 := (List.getElem?_eq_some_iff.1 hiv).1
        have l3 := hr.1
        exact ⟨_, (hr.2 p.2 p.1 v _ hp hiv (List.getElem?_eq_getElem (by omega))).2 hv⟩
      obtain ⟨u, hu, hu0⟩ : ∃ u ∈ (s.found.filterMap (fun ic => ic[p.2]?)).insertionSort (· ≤ ·), 0 < u := by
        by_contra hc
        push Not at hc
        have hle : ∀ l : List Rat, (∀ u ∈ l, u ≤ 0) → l.sum ≤ 0 := by
          intro l
          induction l with
          | nil => intro _; simp
          | cons a l ih =>
            intro hl
            rw [List.sum_cons]
            have h1 := hl a (by simp)
            have h2 := ih (fun u hu => hl u (by simp [hu]))
            linarith
        exact absurd hsum (not_lt.2 (hle _ hc))
      obtain ⟨yu, hyu⟩ := hround u hu0 ((hmem u).1 hu)
      obtain ⟨r, hr, _⟩ := mapM_total (roundUp (branchCat lineCat trafoCat p.1))
        ((s.found.filterMap (fun ic => ic[p.2]?)).insertionSort (· ≤ ·)) (by
          intro v hv
          cases hrv : roundUp (branchCat lineCat trafoCat p.1) v with
          | ok y => exact ⟨y, rfl⟩
          | error e =>
            exfalso
            have hall := ((C47_too_large _ _ _).1 hrv).2
            by_cases hv0 : 0 < v
            · obtain ⟨y, hy⟩ := hround v hv0 ((hmem v).1 hv)
              exact absurd hy.enough (not_le.2 (hall y hy.mem))
            · have a1 := hall yu hyu.mem
              have a2 := hyu.enough
              linarith)
      rw [hr]
      exact ⟨_, rfl⟩
    · exact ⟨[], rfl⟩
  obtain ⟨d, hd, hl⟩ := mapM_total _ _ key
  exact ⟨d, hd, by rw [hl]; simp⟩

/-! ## C48: distinct clusters, at most `Max_clusters` -/

theorem distinct_spec (l : List (List Rat)) : ∀ (acc : List (List Rat)), acc.Nodup →
    (l.foldl dedupStep acc).Nodup ∧ ∀ c, c ∈ l.foldl dedupStep acc ↔ c ∈ acc ∨ c ∈ l := by
  induction l with
  | nil => intro acc h; exact ⟨h, by simp⟩
  | cons a l ih =>
    intro acc h
    simp only [List.foldl_cons]
    have hd : (dedupStep acc a).Nodup := by
      unfold dedupStep
      split
      · exact h
      · rename_i hn
        rw [List.nodup_append]
        refine ⟨h, by simp, ?_⟩
        intro x hx y hy
        rw [List.mem_singleton] at hy
        subst hy
        rintro rfl
        exact hn hx
    have hm : ∀ c, c ∈ dedupStep acc a ↔ c ∈ acc ∨ c = a := by
      intro c
      unfold dedupStep
      split
      · rename_i hn
        constructor
        · exact .inl
        · rintro (h | rfl)
          · exact h
          · exact hn
      · simp
    obtain ⟨h1, h2⟩ := ih _ hd
    refine ⟨h1, fun c => ?_⟩
    rw [h2, hm]
    simp only [List.mem_cons]
    tauto

theorem carry_perm (l : List (List Rat)) : ∀ a, ((carry a l).1 :: (carry a l).2).Perm (a :: l) := by
  induction l with
  | nil => intro a; exact .refl _
  | cons b bs ih =>
    intro a
    unfold carry
    split
    · exact (List.Perm.swap _ _ _).trans (List.Perm.cons a (ih b))
    · exact (List.Perm.swap _ _ _).trans ((List.Perm.cons b (ih a)).trans (List.Perm.swap _ _ _))

theorem exchangeSort_perm (l : List (List Rat)) : (exchangeSort l).Perm l := by
  induction hn : l.length using Nat.strong_induction_on generalizing l with
  | _ n ih =>
    cases l with
    | nil => unfold exchangeSort; exact .refl _
    | cons a l =>
      unfold exchangeSort
      refine (List.Perm.cons _ (ih (carry a l).2.length ?_ _ rfl)).trans (carry_perm l a)
      rw [← hn, carry_length]
      simp

/-- the choice for one ideal cost: an available place whose cost is nearest to the ideal -/
structure NearestPlace (ideal : Rat) (costs : List Rat) (avail : List Nat) (x : Nat) : Prop where
  mem : x ∈ avail
  near : ∀ x' ∈ avail, |ideal - costs.getD x 0| ≤ |ideal - costs.getD x' 0|

theorem nearestStep_some (ideal : Rat) (costs : List Rat) (p : Rat × Nat) (x : Nat) (c : Rat) (h : costs[x]? = some c) :
    nearestStep ideal costs (some p) x = some (if |ideal - p.1| > |ideal - c| then (c, x) else p) := by
  unfold nearestStep
  rw [h]
  simp only
  split <;> rfl

theorem nearestStep_none (ideal : Rat) (costs : List Rat) (x : Nat) (c : Rat) (h : costs[x]? = some c) :
    nearestStep ideal costs none x = some (c, x) := by
  unfold nearestStep
  rw [h]

theorem nearest_spec (ideal : Rat) (costs : List Rat) (avail : List Nat) (hv : ∀ x ∈ avail, x < costs.length)
    (hne : avail ≠ []) : ∃ p, nearest ideal costs avail = some p ∧ NearestPlace ideal costs avail p.2 := by
  have key : ∀ (l : List Nat) (seen : List Nat) (p : Rat × Nat), (∀ x ∈ l, x < costs.length) → p.2 ∈ seen →
      costs.getD p.2 0 = p.1 → (∀ x' ∈ seen, |ideal - p.1| ≤ |ideal - costs.getD x' 0|) →
      ∃ q, l.foldl (nearestStep ideal costs) (some p) = some q ∧
        q.2 ∈ seen ++ l ∧ costs.getD q.2 0 = q.1 ∧ ∀ x' ∈ seen ++ l, |ideal - q.1| ≤ |ideal - costs.getD x' 0| := by
    intro l
    induction l with
    | nil => intro seen p _ h1 h2 h3; exact ⟨p, rfl, by simpa using h1, h2, by simpa using h3⟩
    | cons x l ih =>
      intro seen p hl h1 h2 h3
      have hx := hl x (by simp)
      have hg : costs[x]? = some costs[x] := List.getElem?_eq_getElem hx
      have hd : costs.getD x 0 = costs[x] := by rw [List.getD_eq_getElem?_getD, hg]; rfl
      rw [List.foldl_cons, nearestStep_some ideal costs p x _ hg]
      have hl' := fun y hy => hl y (List.mem_cons_of_mem _ hy)
      by_cases hlt : |ideal - p.1| > |ideal - costs[x]|
      · rw [if_pos hlt]
        obtain ⟨q, e, m, c, n⟩ := ih (seen ++ [x]) (costs[x], x) hl' (by simp) hd (by
          intro x' hx'
          simp only
          rcases List.mem_append.1 hx' with h | h
          · exact (le_of_lt hlt).trans (h3 x' h)
          · rw [List.mem_singleton] at h; subst h; rw [hd])
        refine ⟨q, e, by simpa using m, c, by simpa using n⟩
      · rw [if_neg hlt]
        obtain ⟨q, e, m, c, n⟩ := ih (seen ++ [x]) p hl' (by simp [h1]) h2 (by
          intro x' hx'
          rcases List.mem_append.1 hx' with h | h
          · exact h3 x' h
          · rw [List.mem_singleton] at h; subst h; rw [hd]; exact not_lt.1 hlt)
        refine ⟨q, e, by simpa using m, c, by simpa using n⟩
  cases avail with
  | nil => exact absurd rfl hne
  | cons x l =>
    have hx := hv x (by simp)
    have hg : costs[x]? = some costs[x] := List.getElem?_eq_getElem hx
    have hd : costs.getD x 0 = costs[x] := by rw [List.getD_eq_getElem?_getD, hg]; rfl
    obtain ⟨q, e, m, c, n⟩ := key l [x] (costs[x], x) (fun y hy => hv y (by simp [hy])) (by simp) hd (by
      intro x' hx'; rw [List.mem_singleton] at hx'; subst hx'; rw [hd])
    refine ⟨q, ?_, ?_, ?_⟩
    · unfold nearest
      rw [List.foldl_cons, nearestStep_none ideal costs x _ hg]
      exact e
    · simpa using m
    · intro x' hx'
      rw [c]
      exact n x' (by simpa using hx')

/-- the choices for a list of ideal costs, one after the other, without repetition -/
inductive GreedyChoice (costs : List Rat) : List Rat → List Nat → List Nat → Prop
  | nil (avail : List Nat) : GreedyChoice costs [] avail []
  | cons (ideal : Rat) (ideals : List Rat) (avail : List Nat) (x : Nat) (xs : List Nat)
      (first : NearestPlace ideal costs avail x)
      (rest : GreedyChoice costs ideals (avail.filter (· ≠ x)) xs) :
      GreedyChoice costs (ideal :: ideals) avail (x :: xs)

theorem select_spec (costs : List Rat) (ideals : List Rat) : ∀ (avail : List Nat), (∀ x ∈ avail, x < costs.length) →
    avail.Nodup → ideals.length ≤ avail.length → GreedyChoice costs ideals avail (selectClusters costs ideals avail) := by
  induction ideals with
  | nil => intro avail _ _ _; exact .nil _
  | cons i is ih =>
    intro avail hv hn hl
    obtain ⟨p, hp, hnp⟩ := nearest_spec i costs avail hv (by rintro rfl; simp at hl)
    unfold selectClusters
    rw [hp]
    refine .cons _ _ _ _ _ hnp (ih _ (fun x hx => hv x (List.mem_of_mem_filter hx)) (hn.filter _) ?_)
    have he : avail.filter (fun x => decide (x ≠ p.2)) = avail.erase p.2 := by
      rw [hn.erase_eq_filter]
      congr 1
      funext x
      by_cases h : x = p.2 <;> simp [h]
    rw [he, List.length_erase_of_mem hnp.mem]
    simp at hl
    omega

theorem greedy_facts (costs : List Rat) (ideals : List Rat) (avail xs : List Nat) (h : GreedyChoice costs ideals avail xs) :
    xs.Nodup ∧ (∀ x ∈ xs, x ∈ avail) ∧ xs.length = ideals.length := by
  induction h with
  | nil => simp
  | cons ideal ideals avail x xs first rest ih =>
    obtain ⟨h1, h2, h3⟩ := ih
    refine ⟨List.nodup_cons.2 ⟨?_, h1⟩, ?_, by simp [h3]⟩
    · intro hx
      have := List.of_mem_filter (h2 x hx)
      simp at this
    · intro y hy
      rcases List.mem_cons.1 hy with rfl | hy
      · exact first.mem
      · exact List.mem_of_mem_filter (h2 y hy)

/-- **C48.** The ideal costs are the multiples of a `k`-th of the cost of the last cluster. -/
theorem C48_ideal_costs (m : Rat) (k : Nat) (hk : 0 < k) :
    linspace (m / k) m k = (List.range k).map (fun i => m * ((i : Rat) + 1) / k) := by
  unfold linspace
  have hk0 : (k : Rat) ≠ 0 := by exact_mod_cast hk.ne'
  split
  · rename_i h1
    subst h1
    simp
  · rename_i h1
    have hk1 : (k : Rat) - 1 ≠ 0 := by
      intro h
      apply h1
      have : (k : Rat) = 1 := by linarith
      exact_mod_cast this
    apply List.map_congr_left
    intro i _
    field_simp
    ring

theorem mapM_pyGet (l : List (List Rat)) (xs : List Nat) (h : ∀ x ∈ xs, x < l.length) :
    xs.mapM (fun (x : Nat) => pyGet l (x : Int)) = .ok (xs.map (fun x => l.getD x [])) := by
  rw [mapM_ok_iff, List.forall₂_map_right_iff, List.forall₂_same]
  intro x hx
  rw [pyGet_nat_iff, List.getD_eq_getElem?_getD, List.getElem?_eq_getElem (h x hx)]
  rfl

/-- what is kept of a list of clusters, in the code's order `sorted`, when there are more than `k`: the `k`
places whose costs are, one after the other, nearest to 1/k, 2/k, ... of the cost of the last cluster -/
def KeptByCost (lineCat lineCost : List Rat) (k : Nat) (sorted out : List (List Rat)) : Prop :=
  ∃ (costs : List Rat) (maxCost : Rat) (xs ys : List Nat), List.Forall₂ (fun c x => clusterCost lineCat lineCost c = .ok x) sorted costs ∧
    costs.getLast? = some maxCost ∧
    GreedyChoice costs ((List.range k).map (fun i => maxCost * ((i : Rat) + 1) / k)) (List.range sorted.length) xs ∧
    ys.Perm xs ∧ ys.Pairwise (· < ·) ∧ out = ys.map (fun x => sorted.getD x [])

theorem limit_ok_iff (lineCat lineCost : List Rat) (m : Int) (sorted out : List (List Rat)) (_hne : sorted ≠ []) :
    limitClusters lineCat lineCost m sorted = .ok out →
      ((sorted.length : Int) ≤ m ∧ out = sorted.filter (fun c => c.any (fun v => v > 0))) ∨
      (∃ k : Nat, m = k ∧ 0 < k ∧ k < sorted.length ∧ KeptByCost lineCat lineCost k sorted out) := by
  unfold limitClusters
  intro h
  split at h
  · rename_i hgt
    right
    obtain ⟨costs, hc, h⟩ := except_bind_ok.1 h
    obtain ⟨mc, hmc, h⟩ := except_bind_ok.1 h
    rw [mapM_ok_iff] at hc
    split at h
    · cases h
    · rename_i h0
      split at h
      · cases h
      · rename_i h1
        obtain ⟨k, rfl⟩ := Int.eq_ofNat_of_zero_le (not_lt.1 h1)
        have hk : 0 < k := by
          rcases Nat.eq_zero_or_pos k with rfl | h
          · exact absurd rfl h0
          · exact h
        simp only [Int.toNat_natCast] at h
        have hlen : k < sorted.length := by omega
        have e : linspace (mc / ((k : Int) : Rat)) mc k = (List.range k).map (fun i => mc * ((i : Rat) + 1) / k) := by
          rw [← C48_ideal_costs mc k hk]
          push_cast
          rfl
        rw [e] at h
        have hg := select_spec costs ((List.range k).map (fun i => mc * ((i : Rat) + 1) / k)) (List.range sorted.length)
          (by intro x hx; rw [List.mem_range] at hx; rw [← hc.length_eq]; exact hx) List.nodup_range (by simp; omega)
        obtain ⟨g1, g2, g3⟩ := greedy_facts _ _ _ _ hg
        refine ⟨k, rfl, hk, hlen, costs, mc, _, (selectClusters costs
          ((List.range k).map (fun i => mc * ((i : Rat) + 1) / k)) (List.range sorted.length)).insertionSort (· ≤ ·),
          hc, ?_, hg, List.perm_insertionSort _ _, ?_, ?_⟩
        · have hsl : (sorted.length : Int) - 1 = ((sorted.length - 1 : Nat) : Int) := by omega
          rw [hsl, pyGet_nat_iff] at hmc
          rw [List.getLast?_eq_getElem?, ← hc.length_eq]
          exact hmc
        · have hp := List.pairwise_insertionSort (· ≤ ·) (selectClusters costs
            ((List.range k).map (fun i => mc * ((i : Rat) + 1) / k)) (List.range sorted.length))
          have hn : ((selectClusters costs ((List.range k).map (fun i => mc * ((i : Rat) + 1) / k))
            (List.range sorted.length)).insertionSort (· ≤ ·)).Nodup := (List.perm_insertionSort _ _).nodup_iff.2 g1
          exact hp.imp₂ (fun a b h1 h2 => lt_of_le_of_ne h1 h2) hn
        · rw [mapM_pyGet _ _ (by
            intro x hx
            rw [List.mem_insertionSort] at hx
            exact List.mem_range.1 (g2 x hx))] at h
          injection h with h
          exact h.symm
  · rename_i hgt
    left
    injection h with h
    exact ⟨not_lt.1 hgt, h.symm⟩

theorem kept_facts (lineCat lineCost : List Rat) (k : Nat) (sorted out : List (List Rat))
    (hn : sorted.Nodup) (h : KeptByCost lineCat lineCost k sorted out) :
    out.Nodup ∧ out.Sublist sorted ∧ out.length = k := by
  obtain ⟨costs, mc, xs, ys, _, _, hg, hperm, hp, rfl⟩ := h
  obtain ⟨g1, g2, g3⟩ := greedy_facts _ _ _ _ hg
  have hlt : ∀ y ∈ ys, y < sorted.length := fun y hy => List.mem_range.1 (g2 y (hperm.mem_iff.1 hy))
  have hsub : (ys.map (fun x => sorted.getD x [])).Sublist sorted := by
    rw [List.sublist_iff_exists_fin_orderEmbedding_get_eq]
    have hmono : ∀ i j : Fin ys.length, i < j → ys[i] < ys[j] := by
      intro i j hij
      exact List.pairwise_iff_getElem.1 hp i.1 j.1 i.2 j.2 hij
    let f : Fin (ys.map (fun x => sorted.getD x [])).length → Fin sorted.length := fun i =>
      ⟨ys[i.1]'(by simpa using i.2), hlt _ (List.getElem_mem _)⟩
    have hf : StrictMono f := by
      intro i j hij
      exact hmono ⟨i.1, by simpa using i.2⟩ ⟨j.1, by simpa using j.2⟩ hij
    refine ⟨OrderEmbedding.ofStrictMono f hf, ?_⟩
    intro i
    simp only [OrderEmbedding.coe_ofStrictMono, List.get_eq_getElem, List.getElem_map]
    rw [List.getD_eq_getElem?_getD, List.getElem?_eq_getElem (hlt _ (List.getElem_mem _))]
    rfl
  refine ⟨hn.sublist hsub, hsub, ?_⟩
  rw [List.length_map, hperm.length_eq, g3]
  simp

/-- the parts of a successful screening -/
theorem screening_parts (pdSum : Rat) (lineCat trafoCat lineCost taps : List Rat) (m : Int)
    (solve : Nat → List Rat → List Rat → Except PyErr (List Rat)) (multiplier : List (List (List Rat)))
    (out : List (List Rat))
    (h : screeningClusters pdSum lineCat trafoCat lineCost taps m solve multiplier = .ok out) :
    ∃ s, mainScreening lineCat trafoCat taps solve multiplier = .ok s ∧ distinctClusters s.clusters ≠ [] ∧
      limitClusters lineCat lineCost m (exchangeSort (distinctClusters s.clusters)) = .ok out := by
  unfold screeningClusters at h
  split at h
  · cases h
  · obtain ⟨s, hs, h⟩ := except_bind_ok.1 h
    obtain ⟨_, _, h⟩ := except_bind_ok.1 h
    obtain ⟨c, hc, h⟩ := except_bind_ok.1 h
    refine ⟨s, hs, ?_, h⟩
    intro hn
    rw [hn] at hc
    cases hc

theorem sorted_facts (l : List (List Rat)) :
    (exchangeSort (distinctClusters l)).Nodup ∧ (∀ c, c ∈ exchangeSort (distinctClusters l) ↔ c ∈ l) ∧
    (exchangeSort (distinctClusters l)).length = l.dedup.length := by
  obtain ⟨h1, h2⟩ := distinct_spec l [] List.nodup_nil
  have hp := exchangeSort_perm (distinctClusters l)
  refine ⟨hp.nodup_iff.2 h1, fun c => ?_, ?_⟩
  · rw [hp.mem_iff]
    have := h2 c
    simpa [distinctClusters] using this
  · rw [hp.length_eq]
    refine ((List.perm_ext_iff_of_nodup h1 l.nodup_dedup).2 ?_).length_eq
    intro c
    rw [h2, List.mem_dedup]
    simp

/-- **C48.** The clusters returned are pairwise distinct clusters of the rounded results, at most
`Max_clusters` of them; if the distinct results are no more than `Max_clusters`, they are exactly the
non-empty ones, otherwise exactly `Max_clusters` are returned. -/
theorem C48_kept (pdSum : Rat) (lineCat trafoCat lineCost taps : List Rat) (m : Int)
    (solve : Nat → List Rat → List Rat → Except PyErr (List Rat)) (multiplier : List (List (List Rat)))
    (out : List (List Rat))
    (h : screeningClusters pdSum lineCat trafoCat lineCost taps m solve multiplier = .ok out) :
    ∃ s, mainScreening lineCat trafoCat taps solve multiplier = .ok s ∧ out.Nodup ∧
      (∀ c ∈ out, c ∈ s.clusters) ∧ (out.length : Int) ≤ m ∧
      ((s.clusters.dedup.length : Int) ≤ m → ∀ c, c ∈ out ↔ c ∈ s.clusters ∧ ∃ v ∈ c, 0 < v) ∧
      (m < (s.clusters.dedup.length : Int) → (out.length : Int) = m) := by
  obtain ⟨s, hs, hne, hl⟩ := screening_parts _ _ _ _ _ _ _ _ _ h
  obtain ⟨f1, f2, f3⟩ := sorted_facts s.clusters
  have hne' : exchangeSort (distinctClusters s.clusters) ≠ [] := by
    intro hc
    have := (exchangeSort_perm (distinctClusters s.clusters)).length_eq
    rw [hc] at this
    exact hne (List.eq_nil_of_length_eq_zero this.symm)
  refine ⟨s, hs, ?_⟩
  rcases limit_ok_iff _ _ _ _ _ hne' hl with ⟨hle, rfl⟩ | ⟨k, rfl, hk, hlt, hkept⟩
  · refine ⟨f1.filter _, ?_, ?_, ?_, ?_⟩
    · intro c hc
      exact (f2 c).1 (List.mem_of_mem_filter hc)
    · have := List.length_filter_le (fun c : List Rat => c.any (fun v => v > 0)) (exchangeSort (distinctClusters s.clusters))
      omega
    · intro _ c
      rw [List.mem_filter, f2]
      simp
    · intro hlt
      rw [f3] at hle
      omega
  · obtain ⟨k1, k2, k3⟩ := kept_facts _ _ _ _ _ f1 hkept
    refine ⟨k1, fun c hc => (f2 c).1 (k2.subset hc), by omega, ?_, fun _ => by omega⟩
    intro hle
    rw [f3] at hlt
    omega

/-! ## C80: spread over the costs -/

/-- **C80.** When there are more distinct clusters than allowed, the ones kept are chosen one after the other
as those whose cost is nearest to 1/k, 2/k, ..., of the cost of the last cluster of the code's order (`k` the
limit), without repetition, and returned in the code's order. -/
theorem C80_selection (pdSum : Rat) (lineCat trafoCat lineCost taps : List Rat) (m : Int)
    (solve : Nat → List Rat → List Rat → Except PyErr (List Rat)) (multiplier : List (List (List Rat)))
    (out : List (List Rat))
    (h : screeningClusters pdSum lineCat trafoCat lineCost taps m solve multiplier = .ok out) (s : Screened)
    (hs : mainScreening lineCat trafoCat taps solve multiplier = .ok s)
    (hm : m < (s.clusters.dedup.length : Int)) :
    ∃ (k : Nat) (sorted : List (List Rat)), m = k ∧ 0 < k ∧ sorted.Nodup ∧ (∀ c, c ∈ sorted ↔ c ∈ s.clusters) ∧
      KeptByCost lineCat lineCost k sorted out := by
  obtain ⟨s', hs', hne, hl⟩ := screening_parts _ _ _ _ _ _ _ _ _ h
  rw [hs] at hs'
  injection hs' with hs'
  subst hs'
  obtain ⟨f1, f2, f3⟩ := sorted_facts s.clusters
  have hne' : exchangeSort (distinctClusters s.clusters) ≠ [] := by
    intro hc
    have := (exchangeSort_perm (distinctClusters s.clusters)).length_eq
    rw [hc] at this
    exact hne (List.eq_nil_of_length_eq_zero this.symm)
  rcases limit_ok_iff _ _ _ _ _ hne' hl with ⟨hle, rfl⟩ | ⟨k, rfl, hk, hlt, hkept⟩
  · rw [f3] at hle
    omega
  · exact ⟨k, _, rfl, hk, f1, f2, hkept⟩

/-! ## C81: order and empty clusters -/

/-- `a` is at most `b` on every branch -/
def AtMost (a b : List Rat) : Prop := List.Forall₂ (· ≤ ·) a b

theorem anyGreater_iff (a b : List Rat) (hl : a.length = b.length) : anyGreater a b = false ↔ AtMost a b := by
  unfold AtMost
  induction a generalizing b with
  | nil =>
    cases b with
    | nil => simp [anyGreater]
    | cons _ _ => simp at hl
  | cons x a ih =>
    cases b with
    | nil => simp at hl
    | cons y b =>
      rw [anyGreater, List.forall₂_cons]
      by_cases h : x > y
      · rw [if_pos h]
        constructor
        · intro hc; cases hc
        · rintro ⟨h1, _⟩; exact absurd h1 (not_le.2 h)
      · rw [if_neg h, ih b (by simpa using hl)]
        exact ⟨fun h' => ⟨not_lt.1 h, h'⟩, fun h' => h'.2⟩

theorem AtMost.trans {a b c : List Rat} (h1 : AtMost a b) (h2 : AtMost b c) : AtMost a c := by
  unfold AtMost at *
  induction h1 generalizing c with
  | nil => exact h2
  | cons h _ ih =>
    cases h2 with
    | cons h' h2 => exact .cons (h.trans h') (ih h2)

theorem AtMost.refl (a : List Rat) : AtMost a a := List.forall₂_refl a

theorem AtMost.length {a b : List Rat} (h : AtMost a b) : a.length = b.length := List.Forall₂.length_eq h

theorem carry_least (l : List (List Rat)) : ∀ a, (∀ x ∈ a :: l, ∀ y ∈ a :: l, AtMost x y ∨ AtMost y x) →
    AtMost (carry a l).1 a ∧ ∀ x ∈ (carry a l).2, AtMost (carry a l).1 x := by
  induction l with
  | nil => intro a _; exact ⟨AtMost.refl a, by simp [carry]⟩
  | cons b bs ih =>
    intro a hc
    have hab := hc a (by simp) b (by simp)
    have hlen : a.length = b.length := by rcases hab with h | h; exact h.length; exact h.length.symm
    unfold carry
    by_cases hg : anyGreater a b = true
    · rw [if_pos hg]
      have hba : AtMost b a := by
        rcases hab with h | h
        · rw [(anyGreater_iff a b hlen).2 h] at hg; cases hg
        · exact h
      obtain ⟨h1, h2⟩ := ih b (fun x hx y hy => hc x (List.mem_cons_of_mem _ hx) y (List.mem_cons_of_mem _ hy))
      refine ⟨h1.trans hba, ?_⟩
      intro x hx
      rcases List.mem_cons.1 hx with rfl | hx
      · exact h1.trans hba
      · exact h2 x hx
    · rw [if_neg hg]
      have hab' : AtMost a b := (anyGreater_iff a b hlen).1 (by simpa using hg)
      obtain ⟨h1, h2⟩ := ih a (by
        intro x hx y hy
        apply hc
        · rcases List.mem_cons.1 hx with rfl | hx
          · simp
          · simp [hx]
        · rcases List.mem_cons.1 hy with rfl | hy
          · simp
          · simp [hy])
      refine ⟨h1, ?_⟩
      intro x hx
      rcases List.mem_cons.1 hx with rfl | hx
      · exact h1.trans hab'
      · exact h2 x hx

theorem exchangeSort_sorted (l : List (List Rat)) (hc : ∀ x ∈ l, ∀ y ∈ l, AtMost x y ∨ AtMost y x) :
    (exchangeSort l).Pairwise AtMost := by
  induction hn : l.length using Nat.strong_induction_on generalizing l with
  | _ n ih =>
    cases l with
    | nil => unfold exchangeSort; exact .nil
    | cons a l =>
      unfold exchangeSort
      have hp := carry_perm l a
      have hsub : ∀ x ∈ (carry a l).2, x ∈ a :: l := fun x hx => hp.mem_iff.1 (by simp [hx])
      refine List.pairwise_cons.2 ⟨?_, ih (carry a l).2.length (by rw [← hn, carry_length]; simp) _
        (fun x hx y hy => hc x (hsub x hx) y (hsub y hy)) rfl⟩
      intro x hx
      exact (carry_least l a hc).2 x ((exchangeSort_perm _).mem_iff.1 hx)

/-- **C81.** If any two of the rounded results are comparable branch by branch, the clusters are returned from
small to large.  (Without this assumption they may not be: `C81_violated_order`.) -/
theorem C81_sorted_partial (pdSum : Rat) (lineCat trafoCat lineCost taps : List Rat) (m : Int)
    (solve : Nat → List Rat → List Rat → Except PyErr (List Rat)) (multiplier : List (List (List Rat)))
    (out : List (List Rat))
    (h : screeningClusters pdSum lineCat trafoCat lineCost taps m solve multiplier = .ok out) (s : Screened)
    (hs : mainScreening lineCat trafoCat taps solve multiplier = .ok s)
    (hc : ∀ x ∈ s.clusters, ∀ y ∈ s.clusters, AtMost x y ∨ AtMost y x) :
    out.Pairwise (fun a b => AtMost a b ∧ a ≠ b) := by
  obtain ⟨s', hs', hne, hl⟩ := screening_parts _ _ _ _ _ _ _ _ _ h
  rw [hs] at hs'
  injection hs' with hs'
  subst hs'
  obtain ⟨f1, f2, f3⟩ := sorted_facts s.clusters
  have hne' : exchangeSort (distinctClusters s.clusters) ≠ [] := by
    intro hc
    have := (exchangeSort_perm (distinctClusters s.clusters)).length_eq
    rw [hc] at this
    exact hne (List.eq_nil_of_length_eq_zero this.symm)
  have hd : ∀ x ∈ distinctClusters s.clusters, x ∈ s.clusters := by
    intro x hx
    exact (f2 x).1 ((exchangeSort_perm _).mem_iff.2 hx)
  have hsort := exchangeSort_sorted (distinctClusters s.clusters) (fun x hx y hy => hc x (hd x hx) y (hd y hy))
  have hboth : (exchangeSort (distinctClusters s.clusters)).Pairwise (fun a b => AtMost a b ∧ a ≠ b) := hsort.and f1
  rcases limit_ok_iff _ _ _ _ _ hne' hl with ⟨_, rfl⟩ | ⟨k, rfl, hk, hlt, hkept⟩
  · exact hboth.filter _
  · exact hboth.sublist (kept_facts _ _ _ _ _ f1 hkept).2.1

/-- the oracle that returns the multipliers, for examples -/
def echo : Nat → List Rat → List Rat → Except PyErr (List Rat) := fun _ _ m => .ok m

/-- **C81.** The order may be wrong: here the last cluster is smaller than the first on every branch. -/
theorem C81_violated_order : screeningClusters 1 [1, 5] [] [1, 5] [0, 0, 0] 10 echo
      [[[1, 0, 0]], [[0, 5, 0], [1, 0, 1]]] = .ok [[1, 0, 1], [0, 5, 0], [1, 0, 0]] ∧
    AtMost [1, 0, 0] [1, 0, 1] := by
  constructor
  · decide +kernel
  · unfold AtMost
    repeat' constructor

/-- **C81.** With that order, the reference cost is not the largest: of the same three clusters at most two are
kept by comparing with halves of the cost of the cheapest. -/
theorem C81_violated_reference : screeningClusters 1 [1, 5] [] [1, 5] [0, 0, 0] 2 echo
      [[[1, 0, 0]], [[0, 5, 0], [1, 0, 1]]] = .ok [[1, 0, 1], [1, 0, 0]] := by
  decide +kernel

/-- **C81.** An empty cluster may be returned when there are more clusters than allowed. -/
theorem C81_violated_empty : screeningClusters 1 [18, 19, 20] [] [18, 19, 20] [0] 3 echo
      [[[0]], [[18], [19]], [[20]]] = .ok [[0], [18], [20]] := by
  decide +kernel

/-! ## C82: when screening succeeds -/

/-- **C82.** If every programme has an answer with one investment per branch, every requirement is covered by the
catalogue of its branch, there is some demand, at least one year and scenario, a positive limit, and all catalogue
sizes of transformers also occur (with costs) in the catalogue of lines, then screening returns clusters. -/
theorem C82_screening_succeeds_partial (pdSum : Rat) (hpd : pdSum ≠ 0) (lineCat trafoCat lineCost taps : List Rat)
    (k : Nat) (hk : 0 < k) (solve : Nat → List Rat → List Rat → Except PyErr (List Rat))
    (multiplier : List (List (List Rat))) (hne : ∀ y ∈ multiplier, y ≠ []) (hm : multiplier ≠ [])
    (hsolve : ∀ xy prev m, ∃ ic, solve xy prev m = .ok ic ∧ ic.length = taps.length ∧
      ∀ (j : Nat) (tap x : Rat), taps[j]? = some tap → ic[j]? = some x → 0 < x →
        ∃ i ∈ (if tap = 0 then lineCat else trafoCat), x ≤ i)
    (hcost : lineCat.length ≤ lineCost.length) (hcat : ∀ x ∈ trafoCat, x ∈ lineCat) :
    ∃ out, screeningClusters pdSum lineCat trafoCat lineCost taps k solve multiplier = .ok out := by
  -- the run
  have hrun : ∀ (years : List (List (List Rat))), (∀ y ∈ years, y ≠ []) → ∀ xy prev,
      ∃ found, ScreenRun solve xy prev years found ∧ ∀ ic ∈ found.flatten, ∃ c, roundCluster lineCat trafoCat taps ic = .ok c := by
    intro years
    induction years with
    | nil => intro _ xy prev; exact ⟨[], .nil _ _, by simp⟩
    | cons y ys ih =>
      intro hys xy prev
      have hans : ∀ l : List (List Rat), ∃ ics, List.Forall₂ (fun m ic => solve xy prev m = .ok ic) l ics ∧
          ∀ ic ∈ ics, ∃ c, roundCluster lineCat trafoCat taps ic = .ok c := by
        intro l
        induction l with
        | nil => exact ⟨[], .nil, by simp⟩
        | cons m l ih =>
          obtain ⟨ics, h1, h2⟩ := ih
          obtain ⟨ic, hic, _, hcov⟩ := hsolve xy prev m
          refine ⟨ic :: ics, .cons hic h1, ?_⟩
          intro x hx
          rcases List.mem_cons.1 hx with rfl | hx
          · exact (C47_cluster_succeeds _ _ _ _).2 hcov
          · exact h2 x hx
      obtain ⟨ics, h1, h2⟩ := hans y
      have hics : ics ≠ [] := by
        rintro rfl
        cases h1
        exact hys [] (by simp) rfl
      obtain ⟨found, g1, g2⟩ := ih (fun y' hy' => hys y' (by simp [hy'])) (xy + 1)
        (List.zipWith (· + ·) (ics.getLast hics) prev)
      refine ⟨ics :: found, .cons _ _ _ _ _ _ _ h1 (List.getLast?_eq_some_getLast hics) g1, ?_⟩
      intro ic hic
      rw [List.flatten_cons, List.mem_append] at hic
      exact hic.elim (h2 ic) (g2 ic)
  obtain ⟨found, hr, hround⟩ := hrun multiplier hne 0 (List.replicate taps.length 0)
  obtain ⟨cs, hcs⟩ : ∃ cs, List.Forall₂ (RoundedCluster lineCat trafoCat taps) found.flatten cs := by
    revert hround
    generalize found.flatten = l
    intro hround
    induction l with
    | nil => exact ⟨[], .nil⟩
    | cons a l ih =>
      obtain ⟨cs, h⟩ := ih (fun x hx => hround x (by simp [hx]))
      obtain ⟨c, hc⟩ := hround a (by simp)
      exact ⟨c :: cs, .cons ((C47_cluster _ _ _ _ _).1 hc) h⟩
  have hs : mainScreening lineCat trafoCat taps solve multiplier = .ok ⟨found.flatten, cs⟩ :=
    (C79_screening_runs _ _ _ _ _ hne _).2 ⟨found, hr, rfl, hcs⟩
  obtain ⟨d, hd, _⟩ := C79_reduction_never_raises _ _ _ _ _ hne _ hs
  have hlen := (C79_one_per_scenario _ _ _ _ _ hne _ hs).1
  have hcne : cs ≠ [] := by
    rintro rfl
    cases multiplier with
    | nil => exact hm rfl
    | cons y ys =>
      have := hne y (by simp)
      have hpos := List.length_pos_of_ne_nil this
      simp at hlen
      omega
  obtain ⟨f1, f2, f3⟩ := sorted_facts cs
  have hdne : distinctClusters cs ≠ [] := by
    intro hc
    obtain ⟨c, hc'⟩ := List.exists_mem_of_ne_nil _ hcne
    have := (exchangeSort_perm _).mem_iff.1 ((f2 c).2 hc')
    rw [hc] at this
    cases this
  obtain ⟨c0, hc0⟩ : ∃ c0, pyGet (distinctClusters cs) 0 = .ok c0 := by
    cases hh : distinctClusters cs with
    | nil => exact absurd hh hdne
    | cons a l => exact ⟨a, rfl⟩
  unfold screeningClusters
  rw [if_neg hpd, hs]
  simp only [bind, Except.bind, hd, hc0]
  -- the costs
  have hcost1 : ∀ c ∈ cs, ∃ x, clusterCost lineCat lineCost c = .ok x := by
    intro c hc
    obtain ⟨j, hj⟩ := List.mem_iff_getElem?.1 hc
    rw [forall₂_iff_getElem?] at hcs
    have hjl := (List.getElem?_eq_some_iff.1 hj).1
    have hrc := hcs.2 j (found.flatten[j]'(by omega)) c (List.getElem?_eq_getElem _) hj
    have hmem : ∀ v ∈ c, 0 < v → v ∈ lineCat := by
      intro v hv hv0
      obtain ⟨i, hi⟩ := List.mem_iff_getElem?.1 hv
      have hil := (List.getElem?_eq_some_iff.1 hi).1
      rw [hrc.1] at hil
      obtain ⟨r1, r2⟩ := hrc.2 i (taps[i]'(by omega)) ((found.flatten[j]'(by omega))[i]'(by omega)) v
        (List.getElem?_eq_getElem _) (List.getElem?_eq_getElem _) hi
      rcases lt_or_ge 0 ((found.flatten[j]'(by omega))[i]'(by omega)) with hx | hx
      · have := (r2 hx).mem
        split at this
        · exact this
        · exact hcat v this
      · rw [r1 hx] at hv0
        exact absurd hv0 (not_lt.2 hx)
    unfold clusterCost
    clear hrc hj hc
    generalize (0 : Rat) = acc
    revert acc
    induction c with
    | nil => intro acc; exact ⟨acc, rfl⟩
    | cons v c ih =>
      intro acc
      have ih := ih (fun w hw => hmem w (by simp [hw]))
      rw [List.foldlM_cons]
      by_cases hv : v > 0
      · have hin := hmem v (by simp) hv
        have hidx : catalogueIndex lineCat v = .ok (lineCat.idxOf v) := by unfold catalogueIndex; rw [if_pos hin]
        have hlt : lineCat.idxOf v < lineCost.length := lt_of_lt_of_le (List.idxOf_lt_length_of_mem hin) hcost
        have hget : pyGet lineCost ((lineCat.idxOf v : Nat) : Int) = .ok lineCost[lineCat.idxOf v] :=
          (pyGet_nat_iff _ _ _).2 (List.getElem?_eq_getElem hlt)
        obtain ⟨x, hx⟩ := ih (acc + lineCost[lineCat.idxOf v])
        refine ⟨x, except_bind_ok.2 ⟨acc + lineCost[lineCat.idxOf v], ?_, hx⟩⟩
        unfold clusterCostStep
        rw [if_pos hv]
        exact except_bind_ok.2 ⟨_, hidx, except_bind_ok.2 ⟨_, hget, rfl⟩⟩
      · obtain ⟨x, hx⟩ := ih acc
        exact ⟨x, except_bind_ok.2 ⟨acc, by unfold clusterCostStep; rw [if_neg hv]; rfl, hx⟩⟩
  unfold limitClusters
  split
  · rename_i hgt
    obtain ⟨costs, hcosts⟩ : ∃ costs, (exchangeSort (distinctClusters cs)).mapM (clusterCost lineCat lineCost) = .ok costs := by
      have : ∀ l : List (List Rat), (∀ c ∈ l, c ∈ cs) → ∃ costs, l.mapM (clusterCost lineCat lineCost) = .ok costs := by
        intro l
        induction l with
        | nil => intro _; exact ⟨[], rfl⟩
        | cons a l ih =>
          intro hl
          obtain ⟨x, hx⟩ := hcost1 a (hl a (by simp))
          obtain ⟨xs, hxs⟩ := ih (fun c hc => hl c (by simp [hc]))
          exact ⟨x :: xs, by rw [List.mapM_cons, hx, hxs]; rfl⟩
      exact this _ (fun c hc => (f2 c).1 hc)
    have hlen2 : (exchangeSort (distinctClusters cs)).length = costs.length := ((mapM_ok_iff _ _ _).1 hcosts).length_eq
    obtain ⟨mc, hmc⟩ : ∃ mc, pyGet costs (((exchangeSort (distinctClusters cs)).length : Int) - 1) = .ok mc := by
      have hsl : ((exchangeSort (distinctClusters cs)).length : Int) - 1 =
          (((exchangeSort (distinctClusters cs)).length - 1 : Nat) : Int) := by omega
      rw [hsl]
      exact ⟨_, (pyGet_nat_iff _ _ _).2 (List.getElem?_eq_getElem (by omega))⟩
    rw [hcosts]
    simp only [bind, Except.bind, hmc]
    rw [if_neg (by omega), if_neg (by omega)]
    have hg := select_spec costs (linspace (mc / ((k : Int) : Rat)) mc k)
      (List.range (exchangeSort (distinctClusters cs)).length)
      (by intro x hx; rw [List.mem_range] at hx; omega) List.nodup_range (by
        have e : linspace (mc / ((k : Int) : Rat)) mc k = (List.range k).map (fun i => mc * ((i : Rat) + 1) / k) := by
          rw [← C48_ideal_costs mc k hk]
          push_cast
          rfl
        rw [e]
        simp
        omega)
    obtain ⟨_, g2, _⟩ := greedy_facts _ _ _ _ hg
    simp only [Int.toNat_natCast]
    rw [mapM_pyGet _ _ (by
      intro x hx
      rw [List.mem_insertionSort] at hx
      exact List.mem_range.1 (g2 x hx))]
    exact ⟨_, rfl⟩
  · exact ⟨_, rfl⟩

/-- **C82.** A transformer size that is not a line size makes the limiting of the clusters raise IndexError,
although every requirement is covered by its catalogue. -/
theorem C82_violated_transformers : screeningClusters 1 [10] [63] [1] [1] 1 echo [[[0]], [[50], [60]]] = .error .index ∧
    screeningClusters 1 [10] [63] [1] [1] 2 echo [[[0]], [[50], [60]]] = .ok [[63]] := by
  decide +kernel

/-- **C82.** A limit of zero clusters raises ZeroDivisionError whenever the clusters have costs. -/
theorem C82_zero_limit_violated : screeningClusters 1 [10] [] [1] [0] 0 echo [[[0]], [[5], [6]]] = .error .zeroDivision := by
  decide +kernel

end Pyensys
