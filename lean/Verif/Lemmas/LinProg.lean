import Mathlib.Tactic.Linarith
import Mathlib.Tactic.Ring
import Mathlib.Tactic.FieldSimp
import Mathlib.Algebra.Order.Field.Rat

/-!
# A linear program that has a point and a bound has a best point

The proof eliminates the variables one by one (Fourier-Motzkin).  Nothing here is about the code: it says what a solver can return.
-/

namespace Pyensys

/-- value of a linear form given by its coefficients -/
def lpEv : List Rat → (Nat → Rat) → Rat
  | [], _ => 0
  | a :: as, x => a * x 0 + lpEv as (fun i => x (i + 1))

/-- a constraint: linear form and constant, their sum is not negative -/
abbrev LpCon := List Rat × Rat

/-- the point meets the constraints -/
def lpSat (l : List LpCon) (x : Nat → Rat) : Prop := ∀ q ∈ l, 0 ≤ lpEv q.1 x + q.2

/-- a value put before the values of the other variables -/
def lpCons (t : Rat) (x : Nat → Rat) : Nat → Rat
  | 0 => t
  | i + 1 => x i

theorem lpEv_cons (a : Rat) (as : List Rat) (t : Rat) (x : Nat → Rat) : lpEv (a :: as) (lpCons t x) = a * t + lpEv as x := rfl

/-- between the largest of some numbers and the smallest of others there is a number -/
theorem exists_between_lists (lo hi : List Rat) (h : ∀ a ∈ lo, ∀ b ∈ hi, a ≤ b) : ∃ t, (∀ a ∈ lo, a ≤ t) ∧ ∀ b ∈ hi, t ≤ b := by
  induction lo with
  | nil =>
    induction hi with
    | nil => exact ⟨0, by simp, by simp⟩
    | cons b bs ih =>
      obtain ⟨t, _, ht⟩ := ih (by simp)
      refine ⟨min t b, by simp, ?_⟩
      intro c hc
      rcases List.mem_cons.1 hc with rfl | hc
      · exact min_le_right _ _
      · exact le_trans (min_le_left _ _) (ht c hc)
  | cons a as ih =>
    obtain ⟨t, h1, h2⟩ := ih (fun c hc b hb => h c (List.mem_cons_of_mem _ hc) b hb)
    refine ⟨max t a, ?_, ?_⟩
    · intro c hc
      rcases List.mem_cons.1 hc with rfl | hc
      · exact le_max_right _ _
      · exact le_trans (h1 c hc) (le_max_left _ _)
    · intro b hb
      exact max_le (h2 b hb) (h a List.mem_cons_self b hb)

/-- sum of a linear form and a multiple of another one -/
def lpComb (s t : Rat) : List Rat → List Rat → List Rat
  | [], bs => bs.map (t * ·)
  | as, [] => as.map (s * ·)
  | a :: as, b :: bs => (s * a + t * b) :: lpComb s t as bs

theorem lpEv_map (s : Rat) (as : List Rat) : ∀ x, lpEv (as.map (s * ·)) x = s * lpEv as x := by
  induction as with
  | nil => intro x; simp [lpEv]
  | cons a as ih => intro x; simp only [List.map_cons, lpEv, ih]; ring

theorem lpEv_comb (s t : Rat) (as : List Rat) : ∀ (bs : List Rat) (x : Nat → Rat), lpEv (lpComb s t as bs) x = s * lpEv as x + t * lpEv bs x := by
  induction as with
  | nil => intro bs x; simp [lpComb, lpEv_map, lpEv]
  | cons a as ih =>
    intro bs x
    cases bs with
    | nil => simp only [lpComb, lpEv_map, lpEv]; ring
    | cons b bs => simp only [lpComb, lpEv, ih]; ring

/-- a constraint split in the coefficient of the first variable and the rest -/
def lpHead (q : LpCon) : Rat := q.1.headD 0

/-- the rest -/
def lpRest (q : LpCon) : LpCon := (q.1.tail, q.2)

theorem lpEv_split (q : LpCon) (t : Rat) (x : Nat → Rat) : lpEv q.1 (lpCons t x) = lpHead q * t + lpEv (lpRest q).1 x := by
  obtain ⟨as, b⟩ := q
  cases as with
  | nil => simp [lpHead, lpRest, lpEv]
  | cons a as => rfl

/-- constraints without the first variable -/
def lpElim (l : List LpCon) : List LpCon :=
  ((l.filter (fun q => lpHead q == 0)).map lpRest) ++
  (l.filter (fun q => decide (0 < lpHead q))).flatMap (fun p => (l.filter (fun q => decide (lpHead q < 0))).map (fun q =>
    (lpComb (-lpHead q) (lpHead p) (lpRest p).1 (lpRest q).1, -lpHead q * (lpRest p).2 + lpHead p * (lpRest q).2)))

theorem lpElim_spec (l : List LpCon) (x : Nat → Rat) : lpSat (lpElim l) x ↔ ∃ t, lpSat l (lpCons t x) := by
  constructor
  · intro h
    obtain ⟨t, h1, h2⟩ := exists_between_lists
      ((l.filter (fun q => decide (0 < lpHead q))).map (fun p => -(lpEv (lpRest p).1 x + p.2) / lpHead p))
      ((l.filter (fun q => decide (lpHead q < 0))).map (fun q => (lpEv (lpRest q).1 x + q.2) / (-lpHead q))) (by
        intro a ha b hb
        obtain ⟨p, hp, rfl⟩ := List.mem_map.1 ha
        obtain ⟨q, hq, rfl⟩ := List.mem_map.1 hb
        have hp' : 0 < lpHead p := by simpa using (List.mem_filter.1 hp).2
        have hq' : lpHead q < 0 := by simpa using (List.mem_filter.1 hq).2
        have := h _ (List.mem_append_right _ (List.mem_flatMap.2 ⟨p, hp, List.mem_map.2 ⟨q, hq, rfl⟩⟩))
        simp only [lpEv_comb] at this
        rw [div_le_div_iff₀ hp' (by linarith)]
        have e1 : (lpRest p).2 = p.2 := rfl
        have e2 : (lpRest q).2 = q.2 := rfl
        rw [e1, e2] at this
        nlinarith)
    refine ⟨t, ?_⟩
    intro q hq
    rw [lpEv_split]
    rcases lt_trichotomy (lpHead q) 0 with hn | hz | hp
    · have := h2 _ (List.mem_map.2 ⟨q, List.mem_filter.2 ⟨hq, by simpa using hn⟩, rfl⟩)
      rw [le_div_iff₀ (by linarith)] at this
      linarith
    · have := h _ (List.mem_append_left _ (List.mem_map.2 ⟨q, List.mem_filter.2 ⟨hq, by simpa using hz⟩, rfl⟩))
      have e : (lpRest q).2 = q.2 := rfl
      rw [e] at this
      rw [hz]
      linarith
    · have := h1 _ (List.mem_map.2 ⟨q, List.mem_filter.2 ⟨hq, by simpa using hp⟩, rfl⟩)
      rw [div_le_iff₀ hp] at this
      linarith
  · rintro ⟨t, h⟩ q hq
    rcases List.mem_append.1 hq with hq | hq
    · obtain ⟨p, hp, rfl⟩ := List.mem_map.1 hq
      obtain ⟨hp1, hp2⟩ := List.mem_filter.1 hp
      have := h p hp1
      rw [lpEv_split, show lpHead p = 0 by simpa using hp2] at this
      have e : (lpRest p).2 = p.2 := rfl
      rw [e]
      linarith
    · obtain ⟨p, hp, hq⟩ := List.mem_flatMap.1 hq
      obtain ⟨q', hq', rfl⟩ := List.mem_map.1 hq
      obtain ⟨hp1, hp2⟩ := List.mem_filter.1 hp
      obtain ⟨hq1, hq2⟩ := List.mem_filter.1 hq'
      have hp2' : 0 < lpHead p := by simpa using hp2
      have hq2' : lpHead q' < 0 := by simpa using hq2
      have a1 := h p hp1
      have a2 := h q' hq1
      rw [lpEv_split] at a1 a2
      simp only [lpEv_comb]
      have e1 : (lpRest p).2 = p.2 := rfl
      have e2 : (lpRest q').2 = q'.2 := rfl
      rw [e1, e2]
      have := add_nonneg (mul_nonneg (show (0 : Rat) ≤ -lpHead q' by linarith) a1) (mul_nonneg (le_of_lt hp2') a2)
      have e : -lpHead q' * (lpHead p * t + lpEv (lpRest p).1 x + p.2) + lpHead p * (lpHead q' * t + lpEv (lpRest q').1 x + q'.2) =
        -lpHead q' * lpEv (lpRest p).1 x + lpHead p * lpEv (lpRest q').1 x + (-lpHead q' * p.2 + lpHead p * q'.2) := by ring
      linarith

/-- values of the first `n` variables put before the others -/
def lpPrefix : Nat → (Nat → Rat) → (Nat → Rat) → Nat → Rat
  | 0, _, y => y
  | n + 1, x, y => lpCons (x 0) (lpPrefix n (fun i => x (i + 1)) y)

theorem lpPrefix_lt (n : Nat) : ∀ (x y : Nat → Rat) (i : Nat), i < n → lpPrefix n x y i = x i := by
  induction n with
  | zero => intro x y i h; omega
  | succ n ih =>
    intro x y i h
    cases i with
    | zero => rfl
    | succ i => exact ih (fun i => x (i + 1)) y i (by omega)

theorem lpPrefix_ge (n : Nat) : ∀ (x y : Nat → Rat) (i : Nat), lpPrefix n x y (n + i) = y i := by
  induction n with
  | zero => intro x y i; simp [lpPrefix]
  | succ n ih =>
    intro x y i
    rw [show n + 1 + i = (n + i) + 1 by omega]
    exact ih (fun i => x (i + 1)) y i

/-- all but the variables from `n` on can be eliminated -/
theorem lpProject (n : Nat) : ∀ l : List LpCon, ∃ l' : List LpCon, ∀ y, lpSat l' y ↔ ∃ x, lpSat l (lpPrefix n x y) := by
  induction n with
  | zero => intro l; exact ⟨l, fun y => ⟨fun h => ⟨fun _ => 0, h⟩, fun ⟨_, h⟩ => h⟩⟩
  | succ n ih =>
    intro l
    obtain ⟨l', hl'⟩ := ih (lpElim l)
    refine ⟨l', fun y => ?_⟩
    rw [hl' y]
    constructor
    · rintro ⟨x, hx⟩
      rw [lpElim_spec] at hx
      obtain ⟨t, ht⟩ := hx
      exact ⟨lpCons t x, ht⟩
    · rintro ⟨x, hx⟩
      refine ⟨fun i => x (i + 1), ?_⟩
      rw [lpElim_spec]
      exact ⟨x 0, hx⟩

theorem lpEv_congr (as : List Rat) : ∀ (x y : Nat → Rat), (∀ i, i < as.length → x i = y i) → lpEv as x = lpEv as y := by
  induction as with
  | nil => intro x y _; rfl
  | cons a as ih =>
    intro x y h
    simp only [lpEv]
    rw [h 0 (by simp), ih _ _ (fun i hi => h (i + 1) (by simpa using hi))]

/-- some number of a list is the largest -/
theorem exists_largest (l : List Rat) (h : l ≠ []) : ∃ t, (∀ b ∈ l, b ≤ t) ∧ t ∈ l := by
  induction l with
  | nil => exact absurd rfl h
  | cons b bs ih =>
    by_cases hb : bs = []
    · subst hb; exact ⟨b, by simp, by simp⟩
    · obtain ⟨t, h1, h2⟩ := ih hb
      rcases le_total t b with h | h
      · refine ⟨b, ?_, by simp⟩
        intro c hc
        rcases List.mem_cons.1 hc with rfl | hc
        · exact le_refl _
        · exact le_trans (h1 c hc) h
      · refine ⟨t, ?_, List.mem_cons_of_mem _ h2⟩
        intro c hc
        rcases List.mem_cons.1 hc with rfl | hc
        · exact h
        · exact h1 c hc

/-- constraints on one variable that some value meets and that bound it from below have a least value -/
theorem lpLeast (l : List LpCon) (z m : Rat) (hz : lpSat l (lpCons z (fun _ => 0))) (hm : ∀ t, lpSat l (lpCons t (fun _ => 0)) → m ≤ t) :
    ∃ t, lpSat l (lpCons t (fun _ => 0)) ∧ ∀ u, lpSat l (lpCons u (fun _ => 0)) → t ≤ u := by
  have e : ∀ (q : LpCon) (t : Rat), lpEv q.1 (lpCons t (fun _ => 0)) = lpHead q * t + lpEv (lpRest q).1 (fun _ => 0) := fun q t => lpEv_split q t _
  -- lower bounds
  let lo := (l.filter (fun q => decide (0 < lpHead q))).map (fun p => -(lpEv (lpRest p).1 (fun _ => 0) + p.2) / lpHead p)
  have hlo : ∀ u, lpSat l (lpCons u (fun _ => 0)) → ∀ a ∈ lo, a ≤ u := by
    intro u hu a ha
    obtain ⟨p, hp, rfl⟩ := List.mem_map.1 ha
    obtain ⟨hp1, hp2⟩ := List.mem_filter.1 hp
    have hp' : 0 < lpHead p := by simpa using hp2
    have := hu p hp1
    rw [e] at this
    rw [div_le_iff₀ hp']
    linarith
  have hsat : ∀ u, u ≤ z → (∀ a ∈ lo, a ≤ u) → lpSat l (lpCons u (fun _ => 0)) := by
    intro u huz hu q hq
    have h0 := hz q hq
    rw [e] at h0 ⊢
    by_cases hp : 0 < lpHead q
    · have := hu _ (List.mem_map.2 ⟨q, List.mem_filter.2 ⟨hq, by simpa using hp⟩, rfl⟩)
      rw [div_le_iff₀ hp] at this
      linarith
    · have : lpHead q * z ≤ lpHead q * u := mul_le_mul_of_nonpos_left huz (not_lt.1 hp)
      linarith
  cases hl : lo with
  | nil =>
    exfalso
    have h1 := hsat (min z (m - 1)) (min_le_left _ _) (by rw [hl]; simp)
    have := hm _ h1
    have := min_le_right z (m - 1)
    linarith
  | cons a as =>
    obtain ⟨t, ht, hmem⟩ := exists_largest lo (by rw [hl]; simp)
    exact ⟨t, hsat t (hlo z hz t hmem) ht, fun u hu => hlo u hu t hmem⟩

theorem lpEv_append (as bs : List Rat) : ∀ x, lpEv (as ++ bs) x = lpEv as x + lpEv bs (fun i => x (as.length + i)) := by
  induction as with
  | nil => intro x; simp [lpEv]
  | cons a as ih =>
    intro x
    simp only [List.cons_append, lpEv, ih, List.length_cons]
    rw [show (fun i => x (as.length + i + 1)) = (fun i => x (as.length + 1 + i)) from funext fun i => by rw [show as.length + i + 1 = as.length + 1 + i by omega]]
    ring

/-- **the best point exists**: constraints and a cost with `n` coefficients each, a point, and a bound of the cost -/
theorem lpOptimum (n : Nat) (l : List LpCon) (hl : ∀ q ∈ l, q.1.length = n) (c : List Rat) (hc : c.length = n) (x0 : Nat → Rat)
    (h0 : lpSat l x0) (m : Rat) (hm : ∀ x, lpSat l x → m ≤ lpEv c x) :
    ∃ x, lpSat l x ∧ ∀ y, lpSat l y → lpEv c x ≤ lpEv c y := by
  -- variable n is the cost
  let L : List LpCon := l ++ [(c.map (fun a => (-1) * a) ++ [1], 0), (c ++ [-1], 0)]
  have hcost : ∀ x t, lpEv (c.map (fun a => (-1) * a) ++ [1]) (lpPrefix n x (lpCons t (fun _ => 0))) = t - lpEv c x := by
    intro x t
    rw [lpEv_append, lpEv_map, lpEv_congr c _ x (fun i hi => lpPrefix_lt n x _ i (by omega))]
    simp only [lpEv, List.length_map, hc, lpPrefix_ge]
    simp [lpCons]
    ring
  have hcost' : ∀ x t, lpEv (c ++ [-1]) (lpPrefix n x (lpCons t (fun _ => 0))) = lpEv c x - t := by
    intro x t
    rw [lpEv_append, lpEv_congr c _ x (fun i hi => lpPrefix_lt n x _ i (by omega))]
    simp only [lpEv, hc, lpPrefix_ge]
    simp [lpCons]
    ring
  have hL : ∀ x t, lpSat L (lpPrefix n x (lpCons t (fun _ => 0))) ↔ lpSat l x ∧ lpEv c x = t := by
    intro x t
    have h1 : lpSat l (lpPrefix n x (lpCons t (fun _ => 0))) ↔ lpSat l x := by
      constructor
      · intro h q hq
        have := h q hq
        rwa [lpEv_congr q.1 _ x (fun i hi => lpPrefix_lt n x _ i (by rw [hl q hq] at hi; exact hi))] at this
      · intro h q hq
        have := h q hq
        rwa [lpEv_congr q.1 _ x (fun i hi => lpPrefix_lt n x _ i (by rw [hl q hq] at hi; exact hi))]
    constructor
    · intro h
      refine ⟨h1.1 (fun q hq => h q (List.mem_append_left _ hq)), ?_⟩
      have a := h (c.map (fun a => (-1) * a) ++ [1], 0) (by simp [L])
      have b := h (c ++ [-1], 0) (by simp [L])
      simp only [hcost, hcost'] at a b
      linarith
    · rintro ⟨h, e⟩ q hq
      rcases List.mem_append.1 hq with hq | hq
      · exact h1.2 h q hq
      · simp only [List.mem_cons, List.not_mem_nil, or_false] at hq
        rcases hq with rfl | rfl
        · simp only [hcost]; linarith
        · simp only [hcost']; linarith
  obtain ⟨l', hl'⟩ := lpProject n L
  obtain ⟨t, ht, hmin⟩ := lpLeast l' (lpEv c x0) m ((hl' _).2 ⟨x0, (hL x0 _).2 ⟨h0, rfl⟩⟩) (by
    intro t ht
    obtain ⟨x, hx⟩ := (hl' _).1 ht
    obtain ⟨h1, h2⟩ := (hL x t).1 hx
    rw [← h2]
    exact hm x h1)
  obtain ⟨x, hx⟩ := (hl' _).1 ht
  obtain ⟨h1, h2⟩ := (hL x t).1 hx
  refine ⟨x, h1, fun y hy => ?_⟩
  rw [h2]
  exact hmin _ ((hl' _).2 ⟨y, (hL y _).2 ⟨hy, rfl⟩⟩)

end Pyensys
