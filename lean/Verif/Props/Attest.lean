import Verif.Model.Attest
import Verif.Props.Multipliers
import Mathlib.Tactic.Linarith
import Mathlib.Tactic.FieldSimp
import Mathlib.Tactic.Ring

/-!
# Properties of the ATTEST preparation (C49, C73-C77)
-/

namespace Pyensys

/-! ## Growth of the scenario tree -/

theorem length_descending (step : Rat) (n : Nat) (a : Rat) : (descending step n a).length = n := by
  induction n generalizing a with
  | zero => rfl
  | succ n ih => simp [descending, ih]

theorem getElem?_descending (step : Rat) (n : Nat) (a : Rat) (j : Nat) (h : j < n) :
    (descending step n a)[j]? = some (a - j * step) := by
  induction n generalizing a j with
  | zero => omega
  | succ n ih =>
    cases j with
    | zero => simp [descending]
    | succ j =>
      simp only [descending, List.getElem?_cons_succ]
      rw [ih (a - step) j (by omega)]
      congr 1
      push_cast
      ring

/-- what one step of growth must produce: from `row` to `row'`, of `n` entries, evenly spaced between the
first entry grown at rate `g0` and the last grown at rate `g1` over `dy` years (rates in percent a year) -/
structure GrownRow (row row' : List Rat) (n : Nat) (dy g0 g1 : Rat) : Prop where
  length : row'.length = n
  ends : ∃ a b, row.head? = some a ∧ row.getLast? = some b ∧
    row'.head? = some (a * (1 + g0 * dy / 100)) ∧ row'.getLast? = some (b * (1 + g1 * dy / 100))
  even : ∀ (j : Nat) (x f l : Rat), row'[j]? = some x → row'.head? = some f → row'.getLast? = some l →
    x = f - j * (f - l) / (n - 1)

theorem pyGet_zero {α : Type} (l : List α) (a : α) : pyGet l 0 = .ok a ↔ l.head? = some a := by
  cases l with
  | nil => simp [pyGet]
  | cons b l => simp [pyGet]

theorem pyGet_last {α : Type} (l : List α) (a : α) : pyGet l (-1) = .ok a ↔ l.getLast? = some a := by
  rcases List.eq_nil_or_concat l with rfl | ⟨l, b, rfl⟩
  · simp [pyGet]
  · have : ¬ ((l.length : Int) < 0) := by omega
    simp [pyGet, this]

theorem two_pow_sub_one_ne (yr : Nat) : ((2 : Rat) ^ (yr + 1) - 1) ≠ 0 := by
  have : (1 : Rat) ≤ 2 ^ yr := one_le_pow₀ (by norm_num)
  rw [pow_succ]
  linarith

theorem growthStep_spec (growth dsr : RateTable) (keys : List String) (k0 : String) (yr : Nat) (prev cur : Int)
    (row : List Rat) (r : List Rat × List Rat) (h : growthStep growth dsr keys k0 yr prev cur row = .ok r) :
    r.2.length = 2 ^ (yr + 1) ∧ ∃ k1 g0 g1 d0 d1, keys[1]? = some k1 ∧ rateAt growth k0 cur = .ok g0 ∧
      rateAt growth k1 cur = .ok g1 ∧ rateAt dsr k0 cur = .ok d0 ∧ rateAt dsr k1 cur = .ok d1 ∧
      GrownRow row r.1 (2 ^ (yr + 1)) ((cur - prev : Int) : Rat) g0 g1 ∧
      r.2.head? = some (1 - d0) ∧ r.2.getLast? = some (1 - d1) ∧
      (∀ (j : Nat) (x : Rat), r.2[j]? = some x → x = (1 - d0) - j * (d1 - d0) / (2 ^ (yr + 1) - 1)) := by
  unfold growthStep at h
  simp only [bind, Except.bind] at h
  cases e1 : pyGet row 0 with
  | error e => rw [e1] at h; cases h
  | ok a =>
  cases e2 : rateAt growth k0 cur with
  | error e => rw [e1, e2] at h; cases h
  | ok g0 =>
  cases e3 : pyGet row (-1) with
  | error e => rw [e1, e2, e3] at h; cases h
  | ok b =>
  cases e4 : secondKey keys with
  | error e => rw [e1, e2, e3, e4] at h; cases h
  | ok k1 =>
  cases e5 : rateAt growth k1 cur with
  | error e => rw [e1, e2, e3, e4] at h; simp only [e5] at h; cases h
  | ok g1 =>
  cases e6 : rateAt dsr k0 cur with
  | error e => rw [e1, e2, e3, e4] at h; simp only [e5, e6] at h; cases h
  | ok d0 =>
  cases e7 : rateAt dsr k1 cur with
  | error e => rw [e1, e2, e3, e4] at h; simp only [e5, e6, e7] at h; cases h
  | ok d1 =>
  rw [e1, e2, e3, e4] at h
  simp only [e5, e6, e7, pure, Except.pure] at h
  injection h with h
  subst h
  have hk : keys[1]? = some k1 := by
    unfold secondKey at e4
    split at e4
    · rename_i k hk
      injection e4 with e4
      rw [hk, e4]
    · cases e4
  have hne := two_pow_sub_one_ne yr
  have hpos : 0 < 2 ^ (yr + 1) := Nat.two_pow_pos _
  have hhead : ∀ s c : Rat, (descending s (2 ^ (yr + 1)) c).head? = some c := by
    intro s c
    rw [List.head?_eq_getElem?, getElem?_descending s _ c 0 hpos]
    simp
  have hlast : ∀ x y : Rat, (descending ((x - y) / (2 ^ (yr + 1) - 1)) (2 ^ (yr + 1)) x).getLast? = some y := by
    intro x y
    rw [List.getLast?_eq_getElem?, length_descending, getElem?_descending _ _ _ _ (by omega)]
    congr 1
    rw [Nat.cast_sub hpos]
    push_cast
    rw [mul_div_cancel₀ _ hne]
    ring
  refine ⟨length_descending _ _ _, k1, g0, g1, d0, d1, hk, rfl, e5, rfl, e7, ?_, hhead _ _, ?_, ?_⟩
  · refine ⟨length_descending _ _ _, ⟨a, b, (pyGet_zero _ _).1 e1, (pyGet_last _ _).1 e3, ?_, ?_⟩, ?_⟩
    · rw [hhead]
      congr 1
      ring
    · rw [hlast]
      congr 1
      ring
    · intro j x f l hx hf hl
      rw [hhead] at hf
      rw [hlast] at hl
      injection hf with hf
      injection hl with hl
      have hj : j < 2 ^ (yr + 1) := by
        rw [← length_descending (((a * (1 + g0 * (((cur - prev : Int) : Rat) / 100))) -
          b * (1 + g1 * (((cur - prev : Int) : Rat) / 100))) / (2 ^ (yr + 1) - 1)) (2 ^ (yr + 1))
          (a * (1 + g0 * (((cur - prev : Int) : Rat) / 100)))]
        exact (List.getElem?_eq_some_iff.1 hx).1
      rw [getElem?_descending _ _ _ _ hj] at hx
      injection hx with hx
      rw [← hx, ← hf, ← hl]
      push_cast
      ring
  · have := hlast (1 - d0) (1 - d1)
    rw [show (1 - d0 - (1 - d1)) = (1 - d0 + d1 - 1) by ring] at this
    exact this
  · intro j x hx
    have hj : j < 2 ^ (yr + 1) := by
      have := (List.getElem?_eq_some_iff.1 hx).1
      rwa [length_descending] at this
    rw [getElem?_descending _ _ _ _ hj] at hx
    injection hx with hx
    rw [← hx]
    ring

theorem growthLoop_spec (growth dsr : RateTable) (keys : List String) (k0 : String) (years : List Int) :
    ∀ (yr : Nat) (prev : Int) (row : List Rat) (rs : List (List Rat) × List (List Rat)),
      growthLoop growth dsr keys k0 yr prev row years = .ok rs →
      rs.1.length = years.length ∧ rs.2.length = years.length ∧
      ∀ (i : Nat) (y0 y1 : Int), (prev :: years)[i]? = some y0 → years[i]? = some y1 →
        ∃ r0 r1 f, (row :: rs.1)[i]? = some r0 ∧ rs.1[i]? = some r1 ∧ rs.2[i]? = some f ∧
          growthStep growth dsr keys k0 (yr + i) y0 y1 r0 = .ok (r1, f) := by
  induction years with
  | nil =>
    intro yr prev row rs h
    injection h with h
    subst h
    exact ⟨rfl, rfl, fun i y0 y1 _ h => by simp at h⟩
  | cons cur rest ih =>
    intro yr prev row rs h
    unfold growthLoop at h
    simp only [bind, Except.bind] at h
    cases e1 : growthStep growth dsr keys k0 yr prev cur row with
    | error e => rw [e1] at h; cases h
    | ok r =>
    rw [e1] at h
    simp only at h
    cases e2 : growthLoop growth dsr keys k0 (yr + 1) cur r.1 rest with
    | error e => rw [e2] at h; cases h
    | ok rs' =>
    rw [e2] at h
    injection h with h
    subst h
    obtain ⟨h1, h2, h3⟩ := ih _ _ _ _ e2
    refine ⟨by simp [h1], by simp [h2], ?_⟩
    intro i y0 y1 hy0 hy1
    cases i with
    | zero =>
      simp only [List.getElem?_cons_zero, Option.some.injEq] at hy0 hy1
      subst hy0
      subst hy1
      exact ⟨row, r.1, r.2, rfl, rfl, rfl, e1⟩
    | succ i =>
      simp only [List.getElem?_cons_succ] at hy0 hy1
      obtain ⟨r0, r1, f, e3, e4, e5, e6⟩ := h3 i y0 y1 hy0 hy1
      refine ⟨r0, r1, f, ?_, ?_, ?_, ?_⟩
      · simpa using e3
      · simpa using e4
      · simpa using e5
      · rw [show yr + (i + 1) = yr + 1 + i by omega]
        exact e6

theorem growthTree_parts (growth dsr : RateTable) (t : GrowthTree) (h : growthTree growth dsr = .ok t) :
    ∃ k0 g0 rest y0 r0 ys d0 rs, growth = (k0, g0) :: rest ∧ g0 = (y0, r0) :: ys ∧ rateAt dsr k0 y0 = .ok d0 ∧
      growthLoop growth dsr (growth.map (·.1)) k0 0 y0 [1 + r0] (ys.map (·.1)) = .ok rs ∧
      t = { years := g0.map (·.1), multiplier := [1 + r0] :: rs.1, flex := [1 - d0] :: rs.2 } := by
  unfold growthTree at h
  split at h
  · cases h
  rename_i k0 g0 rest
  split at h
  · cases h
  rename_i y0 r0 ys
  simp only [bind, Except.bind] at h
  cases e1 : rateAt dsr k0 y0 with
  | error e => rw [e1] at h; cases h
  | ok d0 =>
  rw [e1] at h
  simp only [one_mul] at h
  cases e2 : growthLoop ((k0, (y0, r0) :: ys) :: rest) dsr
      (((k0, (y0, r0) :: ys) :: rest).map (·.1)) k0 0 y0 [1 + r0] (ys.map (·.1)) with
  | error e => rw [e2] at h; cases h
  | ok rs =>
  rw [e2] at h
  injection h with h
  exact ⟨k0, _, rest, y0, r0, ys, d0, rs, rfl, rfl, e1, e2, h.symm⟩

/-- **C49.** The tree of demand factors has one level per year and `2^y` nodes in year number `y`; so has
the tree of flexibility factors. -/
theorem C49_tree_shape (growth dsr : RateTable) (t : GrowthTree) (h : growthTree growth dsr = .ok t) :
    t.multiplier.length = t.years.length ∧ t.flex.length = t.years.length ∧ 0 < t.years.length ∧
      (∀ (y : Nat) (row : List Rat), t.multiplier[y]? = some row → row.length = 2 ^ y) ∧
      (∀ (y : Nat) (row : List Rat), t.flex[y]? = some row → row.length = 2 ^ y) := by
  obtain ⟨k0, g0, rest, y0, r0, ys, d0, rs, hg, hg0, _, hl, rfl⟩ := growthTree_parts growth dsr t h
  obtain ⟨h1, h2, h3⟩ := growthLoop_spec _ _ _ _ _ _ _ _ _ hl
  subst hg0
  refine ⟨by simp [h1], by simp [h2], by simp, ?_, ?_⟩
  · intro y row hr
    cases y with
    | zero =>
      simp only [List.getElem?_cons_zero, Option.some.injEq] at hr
      subst hr
      rfl
    | succ y =>
      simp only [List.getElem?_cons_succ] at hr
      have hy : y < (ys.map (·.1)).length := by
        rw [← h1]
        exact (List.getElem?_eq_some_iff.1 hr).1
      obtain ⟨p, hp⟩ : ∃ p, (y0 :: ys.map (·.1))[y]? = some p :=
        ⟨_, List.getElem?_eq_getElem (by simp at hy ⊢; omega)⟩
      obtain ⟨_, r1, f, _, e2, _, e4⟩ := h3 y p _ hp (List.getElem?_eq_getElem hy)
      rw [hr] at e2
      injection e2 with e2
      subst e2
      obtain ⟨_, _, _, _, _, _, _, _, _, _, _, hgr, _⟩ := growthStep_spec _ _ _ _ _ _ _ _ _ e4
      have := hgr.length
      simpa [Nat.add_comm] using this
  · intro y row hr
    cases y with
    | zero =>
      simp only [List.getElem?_cons_zero, Option.some.injEq] at hr
      subst hr
      rfl
    | succ y =>
      simp only [List.getElem?_cons_succ] at hr
      have hy : y < (ys.map (·.1)).length := by
        rw [← h2]
        exact (List.getElem?_eq_some_iff.1 hr).1
      obtain ⟨p, hp⟩ : ∃ p, (y0 :: ys.map (·.1))[y]? = some p :=
        ⟨_, List.getElem?_eq_getElem (by simp at hy ⊢; omega)⟩
      obtain ⟨_, r1, f, _, _, e3, e4⟩ := h3 y p _ hp (List.getElem?_eq_getElem hy)
      rw [hr] at e3
      injection e3 with e3
      subst e3
      have := (growthStep_spec _ _ _ _ _ _ _ _ _ e4).1
      simpa [Nat.add_comm] using this

/-- **C49.** From each year to the next, the first node grows at the rate of the first economy, the last
node at that of the second economy, and the nodes between are evenly spaced. -/
theorem C49_growth (growth dsr : RateTable) (t : GrowthTree) (h : growthTree growth dsr = .ok t) :
    ∃ k0 g0 rest, growth = (k0, g0) :: rest ∧ t.years = g0.map (·.1) ∧
      (∃ y0 r0, g0.head? = some (y0, r0) ∧ t.multiplier.head? = some [1 + r0]) ∧
      ∀ (y : Nat) (ya yb : Int), t.years[y]? = some ya → t.years[y + 1]? = some yb →
        ∃ k1 g1 rest' row row' ra rb, rest = (k1, g1) :: rest' ∧ t.multiplier[y]? = some row ∧
          t.multiplier[y + 1]? = some row' ∧ rateAt growth k0 yb = .ok ra ∧ rateAt growth k1 yb = .ok rb ∧
          GrownRow row row' (2 ^ (y + 1)) ((yb - ya : Int) : Rat) ra rb := by
  obtain ⟨k0, g0, rest, y0, r0, ys, d0, rs, hg, hg0, _, hl, rfl⟩ := growthTree_parts growth dsr t h
  obtain ⟨h1, h2, h3⟩ := growthLoop_spec _ _ _ _ _ _ _ _ _ hl
  subst hg0
  refine ⟨k0, _, rest, hg, rfl, ⟨y0, r0, rfl, rfl⟩, ?_⟩
  intro y ya yb hya hyb
  simp only [List.map_cons, List.getElem?_cons_succ] at hyb
  obtain ⟨row, row', f, e1, e2, e3, e4⟩ := h3 y ya yb (by simpa using hya) hyb
  obtain ⟨_, k1, ra, rb, _, _, hk, ha, hb, _, _, hgr, _⟩ := growthStep_spec _ _ _ _ _ _ _ _ _ e4
  rw [hg] at hk
  cases rest with
  | nil => simp at hk
  | cons k rest' =>
    simp only [List.map_cons, List.getElem?_cons_succ, List.getElem?_cons_zero, Option.some.injEq] at hk
    refine ⟨k.1, k.2, rest', row, row', ra, rb, rfl, e1, by simpa using e2, ha, by rw [hk]; exact hb, ?_⟩
    have := hgr
    rwa [Nat.zero_add] at this

/-- **C49.** Every node of a year lies between the two economies. -/
theorem C49_between (row row' : List Rat) (n : Nat) (dy g0 g1 : Rat) (hn : 2 ≤ n)
    (h : GrownRow row row' n dy g0 g1) (f l : Rat) (hf : row'.head? = some f) (hl : row'.getLast? = some l)
    (x : Rat) (hx : x ∈ row') : min f l ≤ x ∧ x ≤ max f l := by
  obtain ⟨j, hj⟩ := List.mem_iff_getElem?.1 hx
  have hjn : j < n := by
    have := (List.getElem?_eq_some_iff.1 hj).1
    rwa [h.length] at this
  rw [h.even j x f l hj hf hl]
  have hn' : (1 : Rat) ≤ (n : Rat) - 1 := by
    have : (2 : Rat) ≤ n := by exact_mod_cast hn
    linarith
  have hj1 : (j : Rat) ≤ (n : Rat) - 1 := by
    have : (j : Rat) + 1 ≤ n := by exact_mod_cast hjn
    linarith
  have hj0 : (0 : Rat) ≤ j := Nat.cast_nonneg _
  have hw : 0 ≤ (j : Rat) / (n - 1) ∧ (j : Rat) / (n - 1) ≤ 1 :=
    ⟨by positivity, (div_le_one (by linarith)).2 hj1⟩
  rw [show f - (j : Rat) * (f - l) / (n - 1) = f - (j : Rat) / (n - 1) * (f - l) by ring]
  generalize (j : Rat) / (n - 1) = w at hw
  rcases le_total f l with hfl | hfl
  · rw [min_eq_left hfl, max_eq_right hfl]
    constructor <;> nlinarith
  · rw [min_eq_right hfl, max_eq_left hfl]
    constructor <;> nlinarith

/-- a growth table in the documented format: two economies with the same years -/
def growthExample : RateTable :=
  [("Active", [(2020, 0), (2030, 2), (2040, 3)]), ("Slow", [(2020, 0), (2030, 1), (2040, 1)])]

def dsrExample : RateTable :=
  [("Active", [(2020, 0), (2030, 1/10), (2040, 1/5)]), ("Slow", [(2020, 0), (2030, 0), (2040, 0)])]

/-- non-vacuity: three years, with the seven factors of the tree -/
example : growthTree growthExample dsrExample = .ok {
    years := [2020, 2030, 2040]
    multiplier := [[1], [6/5, 11/10], [39/25, 433/300, 199/150, 121/100]]
    flex := [[1], [9/10, 1], [4/5, 13/15, 14/15, 1]] } := by decide +kernel

theorem rateAt_ok (t : RateTable) (k : String) (y : Int) (h : ∃ r, (k, r) ∈ t)
    (hy : ∀ r, (k, r) ∈ t → y ∈ r.map (·.1)) : ∃ x, rateAt t k y = .ok x := by
  obtain ⟨r, hr⟩ := h
  have hf : ∃ e, t.find? (fun e => e.1 = k) = some e ∧ e ∈ t ∧ e.1 = k := by
    cases hfe : t.find? (fun e => e.1 = k) with
    | none =>
      have := List.find?_eq_none.1 hfe (k, r) hr
      simp at this
    | some e =>
      exact ⟨e, rfl, List.mem_of_find?_eq_some hfe, by simpa using List.find?_some hfe⟩
  obtain ⟨e, he, hm, hk⟩ := hf
  have hye := hy e.2 (by rw [← hk]; exact hm)
  have hg : ∃ e', e.2.find? (fun e => e.1 = y) = some e' := by
    cases hfe : e.2.find? (fun e => e.1 = y) with
    | none =>
      obtain ⟨a, ha, ha'⟩ := List.mem_map.1 hye
      have := List.find?_eq_none.1 hfe a ha
      simp [ha'] at this
    | some e' => exact ⟨e', rfl⟩
  obtain ⟨e', he'⟩ := hg
  refine ⟨e'.2, ?_⟩
  unfold rateAt economyAt
  rw [he]
  simp only [bind, Except.bind]
  rw [he']

theorem growthStep_ok (growth dsr : RateTable) (keys : List String) (k0 k1 : String) (yr : Nat) (prev cur : Int)
    (row : List Rat) (hk : keys[1]? = some k1) (hrow : row ≠ []) (h0 : ∃ x, rateAt growth k0 cur = .ok x)
    (h1 : ∃ x, rateAt growth k1 cur = .ok x) (h2 : ∃ x, rateAt dsr k0 cur = .ok x)
    (h3 : ∃ x, rateAt dsr k1 cur = .ok x) : ∃ r, growthStep growth dsr keys k0 yr prev cur row = .ok r := by
  obtain ⟨g0, e2⟩ := h0
  obtain ⟨g1, e5⟩ := h1
  obtain ⟨d0, e6⟩ := h2
  obtain ⟨d1, e7⟩ := h3
  have e1 := (pyGet_zero row (row.head hrow)).2 (List.head?_eq_some_head hrow)
  have e3 := (pyGet_last row (row.getLast hrow)).2 (List.getLast?_eq_some_getLast hrow)
  have e4 : secondKey keys = .ok k1 := by
    unfold secondKey
    rw [hk]
  unfold growthStep
  simp only [bind, Except.bind, e1, e2, e3, e4, e5, e6, e7]
  exact ⟨_, rfl⟩

/-- **C49.** The factors are computed without exception whenever there are at least two economies and both
tables give a rate for each year of the first economy. -/
theorem C49_complete (growth dsr : RateTable) (k0 k1 : String) (g0 g1 : Rates) (rest : RateTable)
    (hg : growth = (k0, g0) :: (k1, g1) :: rest) (hne : g0 ≠ []) (hd : (growth.map (·.1)).Nodup)
    (hd' : (dsr.map (·.1)).Nodup) (h1 : ∀ y ∈ g0.map (·.1), y ∈ g1.map (·.1))
    (h2 : ∀ k ∈ [k0, k1], ∃ r, (k, r) ∈ dsr ∧ ∀ y ∈ g0.map (·.1), y ∈ r.map (·.1)) :
    ∃ t, growthTree growth dsr = .ok t := by
  have uniq : ∀ (t : RateTable), (t.map (·.1)).Nodup → ∀ k r r', (k, r) ∈ t → (k, r') ∈ t → r = r' := by
    intro t ht k r r' hr hr'
    have := List.inj_on_of_nodup_map ht hr hr' rfl
    injection this
  have hrate : ∀ y ∈ g0.map (·.1), (∃ x, rateAt growth k0 y = .ok x) ∧ (∃ x, rateAt growth k1 y = .ok x) ∧
      (∃ x, rateAt dsr k0 y = .ok x) ∧ (∃ x, rateAt dsr k1 y = .ok x) := by
    intro y hy
    have hm0 : (k0, g0) ∈ growth := by rw [hg]; simp
    have hm1 : (k1, g1) ∈ growth := by rw [hg]; simp
    obtain ⟨r0, hr0, hr0'⟩ := h2 k0 (by simp)
    obtain ⟨r1, hr1, hr1'⟩ := h2 k1 (by simp)
    refine ⟨rateAt_ok _ _ _ ⟨_, hm0⟩ ?_, rateAt_ok _ _ _ ⟨_, hm1⟩ ?_, rateAt_ok _ _ _ ⟨_, hr0⟩ ?_,
      rateAt_ok _ _ _ ⟨_, hr1⟩ ?_⟩
    · intro r hr
      rw [← uniq _ hd _ _ _ hm0 hr]
      exact hy
    · intro r hr
      rw [← uniq _ hd _ _ _ hm1 hr]
      exact h1 y hy
    · intro r hr
      rw [← uniq _ hd' _ _ _ hr0 hr]
      exact hr0' y hy
    · intro r hr
      rw [← uniq _ hd' _ _ _ hr1 hr]
      exact hr1' y hy
  have hkeys : (growth.map (·.1))[1]? = some k1 := by rw [hg]; rfl
  have hloop : ∀ (ys : List Int), (∀ y ∈ ys, y ∈ g0.map (·.1)) → ∀ (yr : Nat) (prev : Int) (row : List Rat),
      row ≠ [] → ∃ rs, growthLoop growth dsr (growth.map (·.1)) k0 yr prev row ys = .ok rs := by
    intro ys
    induction ys with
    | nil => exact fun _ _ _ _ _ => ⟨_, rfl⟩
    | cons y ys ih =>
      intro hys yr prev row hrow
      obtain ⟨a, b, c, d⟩ := hrate y (hys y List.mem_cons_self)
      obtain ⟨r, hr⟩ := growthStep_ok growth dsr _ k0 k1 yr prev y row hkeys hrow a b c d
      have hr1 : r.1 ≠ [] := by
        obtain ⟨_, _, _, _, _, _, _, _, _, _, _, hgr, _⟩ := growthStep_spec _ _ _ _ _ _ _ _ _ hr
        intro h
        have := hgr.length
        rw [h] at this
        have hp := Nat.two_pow_pos (yr + 1)
        simp only [List.length_nil] at this
        omega
      obtain ⟨rs, hrs⟩ := ih (fun z hz => hys z (List.mem_cons_of_mem _ hz)) (yr + 1) y r.1 hr1
      unfold growthLoop
      simp only [bind, Except.bind, hr, hrs]
      exact ⟨_, rfl⟩
  obtain ⟨⟨y0, r0⟩, ys, rfl⟩ := List.exists_cons_of_ne_nil hne
  obtain ⟨d0, hd0⟩ := (hrate y0 (by simp)).2.2.1
  obtain ⟨rs, hrs⟩ := hloop (ys.map (·.1)) (by
    intro y hy
    rw [List.map_cons]
    exact List.mem_cons_of_mem _ hy) 0 y0 [1 * (1 + r0)] (by simp)
  subst hg
  unfold growthTree
  simp only [bind, Except.bind, hd0]
  rw [hrs]
  exact ⟨_, rfl⟩

/-! ## Positions in the scenario tree -/

theorem ceil_pred (n m : Nat) (hm : 0 < m) : ⌈((n : Rat) + 1) / m⌉ - 1 = ((n / m : Nat) : Int) := by
  have hm' : (0 : Rat) < m := by exact_mod_cast hm
  have h1 := Nat.div_add_mod n m
  have h2 := Nat.mod_lt n hm
  generalize n / m = q at h1 ⊢
  generalize n % m = r at h1 h2
  have h : ⌈((n : Rat) + 1) / m⌉ = (q : Int) + 1 := by
    have h3 : ((m * q + r : Nat) : Rat) = n := by rw [h1]
    push_cast at h3
    have h4 : (r : Rat) + 1 ≤ m := by exact_mod_cast h2
    have h5 : (0 : Rat) ≤ (r : Rat) := Nat.cast_nonneg _
    rw [Int.ceil_eq_iff]
    push_cast
    constructor
    · rw [lt_div_iff₀ hm']
      linarith
    · rw [div_le_iff₀ hm']
      linarith
  rw [h]
  ring

/-- **C49.** In year number `y` of `n`, scenario `xs` is at the node obtained from its own number by
dropping the binary digits that are decided in later years. -/
theorem C49_position (n xs y : Nat) (hy : y < n) : treePosition n xs y = ((xs / 2 ^ (n - 1 - y) : Nat) : Int) := by
  rw [← ceil_pred xs (2 ^ (n - 1 - y)) (Nat.two_pow_pos _)]
  unfold treePosition
  congr 2
  rw [show n - 1 = (n - 1 - y) + y by omega, pow_add]
  have : (2 : Rat) ^ y ≠ 0 := by positivity
  have h2 : (2 : Rat) ^ (n - 1 - y) ≠ 0 := by positivity
  rw [show n - 1 - y + y - y = n - 1 - y by omega]
  push_cast
  field_simp

/-- **C49.** The nodes of a scenario form a path in the binary tree: one of the `2^y` nodes in year `y`,
its node in the next year is a child of it, in the last year it is the scenario's own number; and two
scenarios that share a node in some year share it in all earlier years. -/
theorem C49_path (n xs : Nat) (hxs : xs < 2 ^ (n - 1)) :
    (∀ y, y < n → 0 ≤ treePosition n xs y ∧ treePosition n xs y < 2 ^ y) ∧
    (∀ y, y + 1 < n → treePosition n xs y = treePosition n xs (y + 1) / 2) ∧
    (0 < n → treePosition n xs (n - 1) = xs) ∧
    (∀ xs' y y', y' ≤ y → y < n → treePosition n xs y = treePosition n xs' y →
      treePosition n xs y' = treePosition n xs' y') := by
  refine ⟨?_, ?_, ?_, ?_⟩
  · intro y hy
    rw [C49_position n xs y hy]
    refine ⟨Int.natCast_nonneg _, ?_⟩
    have : xs / 2 ^ (n - 1 - y) < 2 ^ y := by
      rw [Nat.div_lt_iff_lt_mul (Nat.two_pow_pos _), ← pow_add, show y + (n - 1 - y) = n - 1 by omega]
      exact hxs
    exact_mod_cast this
  · intro y hy
    rw [C49_position n xs y (by omega), C49_position n xs (y + 1) hy]
    rw [show n - 1 - y = (n - 1 - (y + 1)) + 1 by omega, pow_succ, ← Nat.div_div_eq_div_mul]
    norm_cast
  · intro hn
    rw [C49_position n xs (n - 1) (by omega)]
    simp
  · intro xs' y y' h1 h2 h3
    rw [C49_position n xs y h2, C49_position n xs' y h2] at h3
    rw [C49_position n xs y' (by omega), C49_position n xs' y' (by omega)]
    rw [show n - 1 - y' = (n - 1 - y) + (y - y') by omega, pow_add, ← Nat.div_div_eq_div_mul,
      ← Nat.div_div_eq_div_mul]
    have := Int.natCast_inj.1 h3
    rw [this]

/-- non-vacuity: scenario 5 of 8 in four years -/
example : (List.range 4).map (treePosition 4 5) = [0, 1, 2, 5] := by decide +kernel

/-! ## The demand table -/

/-- the factor of scenario `xs` in year number `y` of `n`: that of its node in the tree -/
def factorOf (multiplier : List (List Rat)) (n xs y : Nat) : Rat :=
  (multiplier.getD y []).getD (xs / 2 ^ (n - 1 - y)) 0

/-- the rows of one scenario and one year -/
def blockOf (pd qd : List Rat) (multiplier : List (List Rat)) (n xs : Nat) (y : Int × Nat) : List DataRow :=
  (demandBuses pd).map (fun (xb : Nat) => ⟨(xs : Int) + 1, y.1, (xb : Int),
    pd.getD xb 0 * factorOf multiplier n xs y.2, qd.getD xb 0 * factorOf multiplier n xs y.2⟩)

/-- the shape of the tree of factors, as produced by the growth (C49) -/
structure TreeShaped (multiplier : List (List Rat)) (n : Nat) : Prop where
  pos : 0 < n
  years : multiplier.length = n
  nodes : ∀ (y : Nat) (row : List Rat), multiplier[y]? = some row → row.length = 2 ^ y

theorem mem_demandBuses (pd : List Rat) (xb : Nat) : xb ∈ demandBuses pd ↔ ∃ p, pd[xb]? = some p ∧ p ≠ 0 := by
  unfold demandBuses
  simp only [List.mem_map, List.mem_filter, Prod.exists, List.mem_zipIdx_iff_getElem?]
  constructor
  · rintro ⟨a, b, ⟨h1, h2⟩, rfl⟩
    exact ⟨a, h1, by simpa using h2⟩
  · rintro ⟨p, h1, h2⟩
    exact ⟨p, xb, ⟨h1, by simpa using h2⟩, rfl⟩

theorem nodup_demandBuses (pd : List Rat) : (demandBuses pd).Nodup := by
  unfold demandBuses
  have h : (pd.zipIdx.map (·.2)).Nodup := by
    rw [show pd.zipIdx.map (·.2) = List.range' 0 pd.length by simp]
    exact List.nodup_range'
  exact h.sublist (List.filter_sublist.map _)

theorem pyGet_nat' {α : Type} (l : List α) (n : Nat) (a : α) (h : l[n]? = some a) : pyGet l (n : Int) = .ok a := by
  unfold pyGet
  simp only [Int.not_lt.2 (Int.natCast_nonneg n), if_false, Int.toNat_natCast, h]

theorem demandRows_eq (pd qd : List Rat) (multiplier : List (List Rat)) (n xs y : Nat) (yr : Int)
    (ht : TreeShaped multiplier n) (hq : qd.length = pd.length) (hxs : xs < 2 ^ (n - 1)) (hy : y < n) :
    demandRows pd qd multiplier n xs y yr = .ok (blockOf pd qd multiplier n xs (yr, y)) := by
  unfold demandRows blockOf
  refine mapM_all _ _ _ ?_
  intro xb hxb
  obtain ⟨p, hp, _⟩ := (mem_demandBuses pd xb).1 hxb
  have hxbl : xb < qd.length := by
    rw [hq]
    exact (List.getElem?_eq_some_iff.1 hp).1
  have hyl : y < multiplier.length := by rw [ht.years]; exact hy
  have hrow := List.getElem?_eq_getElem hyl
  have hlen := ht.nodes y _ hrow
  have hpos : xs / 2 ^ (n - 1 - y) < (multiplier[y]).length := by
    rw [hlen, Nat.div_lt_iff_lt_mul (Nat.two_pow_pos _), ← pow_add, show y + (n - 1 - y) = n - 1 by omega]
    exact hxs
  rw [C49_position n xs y hy]
  simp only [bind, Except.bind, pyGet_nat' _ _ _ hp, pyGet_nat' _ _ _ hrow,
    pyGet_nat' _ _ _ (List.getElem?_eq_getElem hpos), pyGet_nat' _ _ _ (List.getElem?_eq_getElem hxbl)]
  simp only [pure, Except.pure, factorOf, List.getD_eq_getElem?_getD, hp, hrow, List.getElem?_eq_getElem hxbl,
    Option.getD_some, List.getElem?_eq_getElem hpos]

theorem chosen_eq (multiplier : List (List Rat)) (n : Nat) (scenarios : List Nat) (ht : TreeShaped multiplier n) :
    chosenScenarios multiplier n scenarios =
      .ok (if scenarios = [] then List.range (2 ^ (n - 1)) else scenarios) := by
  have hp := ht.pos
  have hyl : n - 1 < multiplier.length := by rw [ht.years]; omega
  unfold chosenScenarios
  rw [show ((n : Int) - 1) = ((n - 1 : Nat) : Int) by omega]
  simp only [bind, Except.bind, pyGet_nat' _ _ _ (List.getElem?_eq_getElem hyl)]
  rw [ht.nodes (n - 1) _ (List.getElem?_eq_getElem hyl)]
  rfl

/-- the scenarios of the table: the given ones or all -/
def tableScenarios (n : Nat) (scenarios : List Nat) : List Nat :=
  if scenarios = [] then List.range (2 ^ (n - 1)) else scenarios

theorem demandTable_eq (pd qd : List Rat) (multiplier : List (List Rat)) (yrs : List Int) (scenarios : List Nat)
    (ht : TreeShaped multiplier yrs.length) (hq : qd.length = pd.length)
    (hs : ∀ xs ∈ scenarios, xs < 2 ^ (yrs.length - 1)) :
    demandTable pd qd multiplier yrs scenarios = .ok ((tableScenarios yrs.length scenarios).flatMap (fun xs =>
      yrs.zipIdx.flatMap (blockOf pd qd multiplier yrs.length xs))) := by
  unfold demandTable
  rw [chosen_eq _ _ _ ht]
  simp only [bind, Except.bind]
  have hss : ∀ xs ∈ tableScenarios yrs.length scenarios, xs < 2 ^ (yrs.length - 1) := by
    intro xs hxs
    unfold tableScenarios at hxs
    split at hxs
    · exact List.mem_range.1 hxs
    · exact hs xs hxs
  have h : (tableScenarios yrs.length scenarios).mapM (fun xs => yrs.zipIdx.mapM (fun y =>
      demandRows pd qd multiplier yrs.length xs y.2 y.1)) =
      .ok ((tableScenarios yrs.length scenarios).map (fun xs => yrs.zipIdx.map (blockOf pd qd multiplier yrs.length xs))) := by
    refine mapM_all _ _ _ ?_
    intro xs hxs
    refine mapM_all _ _ _ ?_
    intro y hy
    have hy' := List.mem_zipIdx_iff_getElem?.1 hy
    exact demandRows_eq pd qd multiplier _ xs y.2 y.1 ht hq (hss xs hxs) (List.getElem?_eq_some_iff.1 hy').1
  unfold tableScenarios at h
  rw [h]
  simp only [pure, Except.pure, tableScenarios]
  congr 1
  rw [List.flatMap_def, List.flatten_flatten, List.map_map]
  congr 2

/-- what a row of the demand table must be: scenario `xs` (1-based in the table) has in each year, at each
bus with demand, the demand of the case file times the factor of the scenario's node in that year -/
def IsDemandRow (pd qd : List Rat) (multiplier : List (List Rat)) (yrs : List Int) (xs : Nat) (r : DataRow) : Prop :=
  ∃ (y : Nat) (yr : Int) (xb : Nat) (row : List Rat) (m p q : Rat),
    yrs[y]? = some yr ∧ multiplier[y]? = some row ∧ row[xs / 2 ^ (yrs.length - 1 - y)]? = some m ∧
    pd[xb]? = some p ∧ p ≠ 0 ∧ qd[xb]? = some q ∧
    r = { scenario := (xs : Int) + 1, year := yr, bus := xb, p := p * m, q := q * m }

theorem mem_blocks (pd qd : List Rat) (multiplier : List (List Rat)) (yrs : List Int) (xs : Nat)
    (ht : TreeShaped multiplier yrs.length) (hq : qd.length = pd.length) (hxs : xs < 2 ^ (yrs.length - 1))
    (r : DataRow) : r ∈ yrs.zipIdx.flatMap (blockOf pd qd multiplier yrs.length xs) ↔
      IsDemandRow pd qd multiplier yrs xs r := by
  have key : ∀ (y : Nat) (yr : Int), yrs[y]? = some yr → ∃ row m, multiplier[y]? = some row ∧
      row[xs / 2 ^ (yrs.length - 1 - y)]? = some m ∧ factorOf multiplier yrs.length xs y = m := by
    intro y yr hy
    have hyl : y < yrs.length := (List.getElem?_eq_some_iff.1 hy).1
    have hyl' : y < multiplier.length := by rw [ht.years]; exact hyl
    have hrow := List.getElem?_eq_getElem hyl'
    have hpos : xs / 2 ^ (yrs.length - 1 - y) < (multiplier[y]).length := by
      rw [ht.nodes y _ hrow, Nat.div_lt_iff_lt_mul (Nat.two_pow_pos _), ← pow_add,
        show y + (yrs.length - 1 - y) = yrs.length - 1 by omega]
      exact hxs
    refine ⟨_, _, hrow, List.getElem?_eq_getElem hpos, ?_⟩
    simp only [factorOf, List.getD_eq_getElem?_getD, hrow, Option.getD_some, List.getElem?_eq_getElem hpos]
  simp only [List.mem_flatMap, Prod.exists, List.mem_zipIdx_iff_getElem?, blockOf, List.mem_map, IsDemandRow]
  constructor
  · rintro ⟨yr, y, hy, xb, hxb, rfl⟩
    obtain ⟨row, m, h1, h2, h3⟩ := key y yr hy
    obtain ⟨p, hp, hp0⟩ := (mem_demandBuses pd xb).1 hxb
    have hql : xb < qd.length := by rw [hq]; exact (List.getElem?_eq_some_iff.1 hp).1
    refine ⟨y, yr, xb, row, m, p, qd[xb], hy, h1, h2, hp, hp0, List.getElem?_eq_getElem hql, ?_⟩
    simp only [h3, List.getD_eq_getElem?_getD, hp, List.getElem?_eq_getElem hql, Option.getD_some]
  · rintro ⟨y, yr, xb, row, m, p, q, hy, h1, h2, hp, hp0, hqq, rfl⟩
    obtain ⟨row', m', h1', h2', h3'⟩ := key y yr hy
    rw [h1] at h1'
    injection h1' with h1'
    subst h1'
    rw [h2] at h2'
    injection h2' with h2'
    subst h2'
    refine ⟨yr, y, hy, xb, (mem_demandBuses pd xb).2 ⟨p, hp, hp0⟩, ?_⟩
    simp only [h3', List.getD_eq_getElem?_getD, hp, hqq, Option.getD_some]

/-- **C73.** The demand table of the document is built without exception for every tree of factors and all
scenarios of the tree; its rows are exactly the demands of the chosen scenarios along their paths in the
tree, and no scenario, year and bus occurs twice. -/
theorem C73_demand_table (pd qd : List Rat) (multiplier : List (List Rat)) (yrs : List Int) (scenarios : List Nat)
    (ht : TreeShaped multiplier yrs.length) (hq : qd.length = pd.length)
    (hs : ∀ xs ∈ scenarios, xs < 2 ^ (yrs.length - 1)) :
    ∃ data, demandTable pd qd multiplier yrs scenarios = .ok data ∧
      (∀ r, r ∈ data ↔ ∃ xs, (scenarios = [] ∧ xs < 2 ^ (yrs.length - 1) ∨ xs ∈ scenarios) ∧
        IsDemandRow pd qd multiplier yrs xs r) ∧
      (yrs.Nodup → scenarios.Nodup → data.Pairwise (fun a b =>
        ¬ (a.scenario = b.scenario ∧ a.year = b.year ∧ a.bus = b.bus))) := by
  have hss : ∀ xs ∈ tableScenarios yrs.length scenarios, xs < 2 ^ (yrs.length - 1) := by
    intro xs hxs
    unfold tableScenarios at hxs
    split at hxs
    · exact List.mem_range.1 hxs
    · exact hs xs hxs
  refine ⟨_, demandTable_eq pd qd multiplier yrs scenarios ht hq hs, ?_, ?_⟩
  · intro r
    rw [List.mem_flatMap]
    constructor
    · rintro ⟨xs, hxs, hr⟩
      refine ⟨xs, ?_, (mem_blocks pd qd multiplier yrs xs ht hq (hss xs hxs) r).1 hr⟩
      unfold tableScenarios at hxs
      split at hxs
      · rename_i he
        exact Or.inl ⟨he, List.mem_range.1 hxs⟩
      · exact Or.inr hxs
    · rintro ⟨xs, hxs, hr⟩
      have hm : xs ∈ tableScenarios yrs.length scenarios := by
        unfold tableScenarios
        rcases hxs with ⟨he, hlt⟩ | hxs
        · rw [if_pos he]
          exact List.mem_range.2 hlt
        · rw [if_neg (List.ne_nil_of_mem hxs)]
          exact hxs
      exact ⟨xs, hm, (mem_blocks pd qd multiplier yrs xs ht hq (hss xs hm) r).2 hr⟩
  · intro hyn hsn
    have hsn' : (tableScenarios yrs.length scenarios).Nodup := by
      unfold tableScenarios
      split
      · exact List.nodup_range
      · exact hsn
    rw [List.pairwise_flatMap]
    constructor
    · intro xs hxs
      rw [List.pairwise_flatMap]
      constructor
      · intro y hy
        unfold blockOf
        rw [List.pairwise_map]
        refine (nodup_demandBuses pd).imp ?_
        rintro a b hab ⟨_, _, h⟩
        simp only at h
        exact hab (by omega)
      · have hyn' : (yrs.zipIdx.map (·.1)).Nodup := by simpa using hyn
        rw [List.Nodup, List.pairwise_map] at hyn'
        refine hyn'.imp ?_
        intro a b hab r1 h1 r2 h2
        simp only [blockOf, List.mem_map] at h1 h2
        obtain ⟨_, _, rfl⟩ := h1
        obtain ⟨_, _, rfl⟩ := h2
        rintro ⟨_, h, _⟩
        exact hab h
    · refine hsn'.imp ?_
      intro a b hab r1 h1 r2 h2
      simp only [List.mem_flatMap, blockOf, List.mem_map] at h1 h2
      obtain ⟨_, _, _, _, rfl⟩ := h1
      obtain ⟨_, _, _, _, rfl⟩ := h2
      rintro ⟨h, _, _⟩
      simp only at h
      exact hab (by omega)

/-- non-vacuity: two years, one bus without demand, all scenarios -/
example : demandTable [10, 0, 4] [1, 5, 2] [[1], [2, 3]] [2020, 2030] [] = .ok
    [⟨1, 2020, 0, 10, 1⟩, ⟨1, 2020, 2, 4, 2⟩, ⟨1, 2030, 0, 20, 2⟩, ⟨1, 2030, 2, 8, 4⟩,
     ⟨2, 2020, 0, 10, 1⟩, ⟨2, 2020, 2, 4, 2⟩, ⟨2, 2030, 0, 30, 3⟩, ⟨2, 2030, 2, 12, 6⟩] := by decide +kernel

/-! ## From the case file to a plan -/

theorem flatMap_single {α β : Type} (l : List α) (f : α → List β) (a : α) (hn : l.Nodup) (ha : a ∈ l)
    (h : ∀ b ∈ l, b ≠ a → f b = []) : l.flatMap f = f a := by
  induction l with
  | nil => cases ha
  | cons b l ih =>
    rw [List.flatMap_cons]
    rw [List.nodup_cons] at hn
    by_cases hb : b = a
    · subst hb
      have : l.flatMap f = [] := by
        rw [List.flatMap_eq_nil_iff]
        intro c hc
        exact h c (List.mem_cons_of_mem _ hc) (fun e => hn.1 (e ▸ hc))
      rw [this, List.append_nil]
    · rw [h b List.mem_cons_self hb, List.nil_append]
      exact ih hn.2 (by rcases List.mem_cons.1 ha with e | e; exact absurd e.symm hb; exact e)
        (fun c hc => h c (List.mem_cons_of_mem _ hc))

theorem filter_block (pd qd : List Rat) (multiplier : List (List Rat)) (n xs : Nat) (y : Int × Nat) (s yr : Int) :
    (blockOf pd qd multiplier n xs y).filter (fun r => r.scenario = s ∧ r.year = yr) =
      if (xs : Int) + 1 = s ∧ y.1 = yr then blockOf pd qd multiplier n xs y else [] := by
  unfold blockOf
  split
  · rename_i h
    rw [List.filter_eq_self]
    intro r hr
    obtain ⟨_, _, rfl⟩ := List.mem_map.1 hr
    simpa using h
  · rename_i h
    rw [List.filter_eq_nil_iff]
    intro r hr
    obtain ⟨_, _, rfl⟩ := List.mem_map.1 hr
    simpa using h

theorem demand_of_table (mag : Rat → Rat → Rat) (pd qd : List Rat) (multiplier : List (List Rat)) (yrs : List Int)
    (ss : List Nat) (hs : ss.Nodup) (hy : yrs.Nodup) (xs : Nat) (hxs : xs ∈ ss) (y : Nat) (yr : Int)
    (hyr : yrs[y]? = some yr) :
    demandOf mag (ss.flatMap (fun xs => yrs.zipIdx.flatMap (blockOf pd qd multiplier yrs.length xs))) (xs + 1) yr =
      ((demandBuses pd).map (fun xb => mag (pd.getD xb 0 * factorOf multiplier yrs.length xs y)
        (qd.getD xb 0 * factorOf multiplier yrs.length xs y))).sum := by
  have hyn : yrs.zipIdx.Nodup := by
    have : (yrs.zipIdx.map (·.1)).Nodup := by simpa using hy
    exact this.of_map _
  unfold demandOf
  rw [List.filter_flatMap, flatMap_single ss _ xs hs hxs]
  · rw [List.filter_flatMap, flatMap_single yrs.zipIdx _ (yr, y) hyn (List.mem_zipIdx_iff_getElem?.2 hyr)]
    · rw [filter_block, if_pos ⟨rfl, rfl⟩]
      unfold blockOf
      rw [List.map_map]
      rfl
    · intro b hb hne
      rw [filter_block, if_neg]
      rintro ⟨_, h⟩
      have hb' := List.mem_zipIdx_iff_getElem?.1 hb
      apply hne
      have : b.2 = y := by
        have h1 := (List.getElem?_eq_some_iff.1 hb')
        have h2 := (List.getElem?_eq_some_iff.1 hyr)
        obtain ⟨l1, e1⟩ := h1
        obtain ⟨l2, e2⟩ := h2
        exact (List.Nodup.getElem_inj_iff hy).1 (by rw [e1, e2, h])
      exact Prod.ext h this
  · intro b hb hne
    rw [List.filter_flatMap, List.flatMap_eq_nil_iff]
    intro y' hy'
    rw [filter_block, if_neg]
    rintro ⟨h, _⟩
    exact hne (by omega)

/-- **C74.** The demand table of the document has what the reader asks for: the first year is the earliest,
all scenarios have the same demand then, and it is not zero. -/
theorem C74_document_is_readable (mag : Rat → Rat → Rat) (hmag : ∀ p q, p ≠ 0 → 0 < mag p q) (pd qd : List Rat)
    (multiplier : List (List Rat)) (yrs : List Int) (scenarios : List Nat)
    (ht : TreeShaped multiplier yrs.length) (hq : qd.length = pd.length)
    (hs : ∀ xs ∈ scenarios, xs < 2 ^ (yrs.length - 1)) (hsn : scenarios.Nodup) (hy : yrs.Pairwise (· < ·))
    (h2 : 2 ≤ yrs.length) (hp : ∃ p ∈ pd, p ≠ 0) (hm : multiplier.head? ≠ some [0]) :
    ∃ data y0, demandTable pd qd multiplier yrs scenarios = .ok data ∧ yrs.head? = some y0 ∧ FirstYear data y0 ∧
      (∀ r ∈ data, ∀ r' ∈ data, demandOf mag data r.scenario y0 = demandOf mag data r'.scenario y0) ∧
      (∃ r ∈ data, demandOf mag data r.scenario y0 ≠ 0) ∧ (∃ r ∈ data, r.year ≠ y0) := by
  have hyn : yrs.Nodup := hy.imp (fun h => ne_of_lt h)
  have heq := demandTable_eq pd qd multiplier yrs scenarios ht hq hs
  generalize hss : tableScenarios yrs.length scenarios = ss at heq
  have hsn' : ss.Nodup := by
    rw [← hss]
    unfold tableScenarios
    split
    · exact List.nodup_range
    · exact hsn
  have hssb : ∀ xs ∈ ss, xs < 2 ^ (yrs.length - 1) := by
    intro xs hxs
    rw [← hss] at hxs
    unfold tableScenarios at hxs
    split at hxs
    · exact List.mem_range.1 hxs
    · exact hs xs hxs
  have hsne : ∃ xs, xs ∈ ss := by
    rw [← hss]
    unfold tableScenarios
    split
    · exact ⟨0, List.mem_range.2 (Nat.two_pow_pos _)⟩
    · rename_i h
      exact List.exists_mem_of_ne_nil _ h
  obtain ⟨y0, y1, ys, rfl⟩ : ∃ y0 y1 ys, yrs = y0 :: y1 :: ys := by
    match yrs, h2 with
    | a :: b :: l, _ => exact ⟨a, b, l, rfl⟩
  obtain ⟨p, hpm, hp0⟩ := hp
  obtain ⟨xb, hxb⟩ := List.mem_iff_getElem?.1 hpm
  have hbus : xb ∈ demandBuses pd := (mem_demandBuses pd xb).2 ⟨p, hxb, hp0⟩
  -- membership
  have hmem : ∀ r, r ∈ ss.flatMap (fun xs => (y0 :: y1 :: ys).zipIdx.flatMap
      (blockOf pd qd multiplier (y0 :: y1 :: ys).length xs)) ↔
      ∃ xs ∈ ss, IsDemandRow pd qd multiplier (y0 :: y1 :: ys) xs r := by
    intro r
    rw [List.mem_flatMap]
    constructor
    · rintro ⟨xs, hxs, hr⟩
      exact ⟨xs, hxs, (mem_blocks pd qd multiplier _ xs ht hq (hssb xs hxs) r).1 hr⟩
    · rintro ⟨xs, hxs, hr⟩
      exact ⟨xs, hxs, (mem_blocks pd qd multiplier _ xs ht hq (hssb xs hxs) r).2 hr⟩
  have hblock : ∀ xs ∈ ss, ∀ (y : Nat) (yr : Int), (y0 :: y1 :: ys)[y]? = some yr →
      ∃ r ∈ ss.flatMap (fun xs => (y0 :: y1 :: ys).zipIdx.flatMap
        (blockOf pd qd multiplier (y0 :: y1 :: ys).length xs)), r.scenario = (xs : Int) + 1 ∧ r.year = yr := by
    intro xs hxs y yr hyr
    refine ⟨⟨(xs : Int) + 1, yr, (xb : Int), _, _⟩, List.mem_flatMap.2 ⟨xs, hxs, List.mem_flatMap.2
      ⟨(yr, y), List.mem_zipIdx_iff_getElem?.2 hyr, List.mem_map.2 ⟨xb, hbus, rfl⟩⟩⟩, rfl, rfl⟩
  -- the factor of the first year
  obtain ⟨m, hm0⟩ : ∃ m, multiplier.head? = some [m] := by
    cases hml : multiplier with
    | nil =>
      have := ht.years
      rw [hml] at this
      simp at this
    | cons row rest =>
      have := ht.nodes 0 row (by rw [hml]; rfl)
      obtain ⟨a, rfl⟩ := List.length_eq_one_iff.1 (by simpa using this)
      exact ⟨a, rfl⟩
  have hmne : m ≠ 0 := by
    rintro rfl
    exact hm hm0
  have hfac : ∀ xs ∈ ss, factorOf multiplier (y0 :: y1 :: ys).length xs 0 = m := by
    intro xs hxs
    have h1 := hssb xs hxs
    unfold factorOf
    rw [List.head?_eq_getElem?] at hm0
    simp only [List.getD_eq_getElem?_getD, hm0, Option.getD_some]
    rw [Nat.sub_zero, Nat.div_eq_of_lt h1]
    rfl
  have hdem : ∀ xs ∈ ss, demandOf mag (ss.flatMap (fun xs => (y0 :: y1 :: ys).zipIdx.flatMap
      (blockOf pd qd multiplier (y0 :: y1 :: ys).length xs))) (xs + 1) y0 =
      ((demandBuses pd).map (fun xb => mag (pd.getD xb 0 * m) (qd.getD xb 0 * m))).sum := by
    intro xs hxs
    rw [demand_of_table mag pd qd multiplier _ ss hsn' hyn xs hxs 0 y0 rfl, hfac xs hxs]
  have hpos : 0 < ((demandBuses pd).map (fun xb => mag (pd.getD xb 0 * m) (qd.getD xb 0 * m))).sum := by
    refine List.sum_pos _ ?_ ?_
    · intro x hx
      obtain ⟨b, hb, rfl⟩ := List.mem_map.1 hx
      obtain ⟨p', hp', hp0'⟩ := (mem_demandBuses pd b).1 hb
      apply hmag
      rw [List.getD_eq_getElem?_getD, hp', Option.getD_some]
      exact mul_ne_zero hp0' hmne
    · intro h
      rw [List.map_eq_nil_iff] at h
      rw [h] at hbus
      cases hbus
  obtain ⟨xs0, hxs0⟩ := hsne
  refine ⟨_, y0, heq, rfl, ⟨?_, ?_⟩, ?_, ?_, ?_⟩
  · obtain ⟨r, hr, _, h⟩ := hblock xs0 hxs0 0 y0 rfl
    exact ⟨r, hr, h⟩
  · intro r hr
    obtain ⟨xs, _, y, yr, _, _, _, _, _, hyr, _, _, _, _, _, rfl⟩ := (hmem r).1 hr
    simp only
    rw [List.pairwise_cons] at hy
    rcases List.mem_cons.1 (List.mem_of_getElem? hyr) with h | h
    · exact le_of_eq h.symm
    · exact le_of_lt (hy.1 yr h)
  · intro r hr r' hr'
    obtain ⟨xs, hxs, _, _, _, _, _, _, _, _, _, _, _, _, _, rfl⟩ := (hmem r).1 hr
    obtain ⟨xs', hxs', _, _, _, _, _, _, _, _, _, _, _, _, _, rfl⟩ := (hmem r').1 hr'
    simp only
    rw [hdem xs hxs, hdem xs' hxs']
  · obtain ⟨r, hr, h1, _⟩ := hblock xs0 hxs0 0 y0 rfl
    refine ⟨r, hr, ?_⟩
    rw [h1, hdem xs0 hxs0]
    exact ne_of_gt hpos
  · obtain ⟨r, hr, _, h⟩ := hblock xs0 hxs0 1 y1 rfl
    refine ⟨r, hr, ?_⟩
    rw [h]
    rw [List.pairwise_cons] at hy
    exact ne_of_gt (hy.1 y1 (by simp))

/-- **C74.** From growth rates to a plan: for every growth table that yields factors for at least two
increasing years (with a first-year factor other than zero) and every case with some demand, the document
is built, the reader accepts its table, and whatever groups the clustering forms, the control tree is built
and the search finishes; a recorded plan has, for every chosen scenario, one row with one node per year
whose data were averaged from rows of that year including the scenario's own. -/
theorem C74_document_to_plan (mag : Rat → Rat → Rat) (hmag : ∀ p q, p ≠ 0 → 0 < mag p q) (pd qd : List Rat)
    (growth dsr : RateTable) (t : GrowthTree) (hg : growthTree growth dsr = .ok t) (scenarios : List Nat)
    (hq : qd.length = pd.length) (hs : ∀ xs ∈ scenarios, xs < 2 ^ (t.years.length - 1)) (hsn : scenarios.Nodup)
    (hy : t.years.Pairwise (· < ·)) (h2 : 2 ≤ t.years.length) (hp : ∃ p ∈ pd, p ≠ 0)
    (hm : t.multiplier.head? ≠ some [0]) :
    ∃ (data : List DataRow) (M : Multipliers) (vals : List (List Rat)),
      demandTable pd qd t.multiplier t.years scenarios = .ok data ∧ readMultipliers mag data = .ok M ∧
      M.values = vals.map (·.map some) ∧
      ∀ (labels : List (List Nat)), labels.length = M.years.length →
        (∀ ls ∈ labels, ls.length = M.scenarios.length ∧ Contiguous ls) →
        ∃ rows, profileCentroids labels vals = .ok rows ∧
        ∀ (ord : List Nat → List Nat), SetOrder ord → ∀ fuel : Nat, M.years.length ≤ fuel →
        ∃ E data' T, profileGraph rows = .ok (graphNodes rows, E) ∧
          convertTree ord fuel fuel (fun n => (graphNodes rows)[n]?) E = .ok (data', T) ∧
          ∀ (cfg : Cfg), cfg.nbr = succOf T → (∀ n, n ∈ cfg.nodes ↔ (data' n).isSome) →
            cfg.years = optimisationYears M.years → (cfg.pool.map (·.1)).Nodup → cfg.rate ≠ 100 →
            ∃ f b, runSearch cfg fuel = .ok (f, b) ∧
              (b.complete.graphPaths ≠ [] → ∀ xs : Nat,
                (scenarios = [] ∧ xs < 2 ^ (t.years.length - 1) ∨ xs ∈ scenarios) →
                ∃ r ∈ planRows b.complete, r.1.length = M.years.length ∧
                  ∀ (i : Nat) (k : Int) (n : Nat), r.1[i]? = some (k, n) →
                    ∃ c y buses, data' n = some c ∧ M.years[i]? = some y ∧
                      (optimisationYears M.years)[i]? = some y ∧
                      nodeBuses data M.scenarios M.years c = .ok (y, buses) ∧
                      ∀ d ∈ data, d.scenario = (xs : Int) + 1 → d.year = y → d.bus ∈ buses.map (·.bus)) := by
  obtain ⟨s1, s2, s3, s4, s5⟩ := C49_tree_shape growth dsr t hg
  have ht : TreeShaped t.multiplier t.years.length := ⟨s3, s1, s4⟩
  obtain ⟨data, y0, hd, _, h1, h3, h4, h5⟩ :=
    C74_document_is_readable mag hmag pd qd t.multiplier t.years scenarios ht hq hs hsn hy h2 hp hm
  obtain ⟨data', hd', hmem, _⟩ := C73_demand_table pd qd t.multiplier t.years scenarios ht hq hs
  rw [hd] at hd'
  injection hd' with hd'
  subst hd'
  obtain ⟨M, vals, hM, hv, hrest⟩ := C68_demand_table_to_plan mag data y0 h1 h3 h4 h5
  refine ⟨data, M, vals, hd, hM, hv, ?_⟩
  intro labels hl hls
  obtain ⟨rows, hr, hrest⟩ := hrest labels hl hls
  refine ⟨rows, hr, ?_⟩
  intro ord ho fuel hf
  obtain ⟨E, data', T, e1, e2, hrest⟩ := hrest ord ho fuel hf
  refine ⟨E, data', T, e1, e2, ?_⟩
  intro cfg c1 c2 c3 c4 c5
  obtain ⟨f, b, hrun, hrest⟩ := hrest cfg c1 c2 c3 c4 c5
  refine ⟨f, b, hrun, ?_⟩
  intro hb xs hxs
  refine hrest hb ((xs : Int) + 1) ?_
  have hxlt : xs < 2 ^ (t.years.length - 1) := by
    rcases hxs with ⟨_, h⟩ | h
    · exact h
    · exact hs xs h
  obtain ⟨p, hpm, hp0⟩ := hp
  obtain ⟨xb, hxb⟩ := List.mem_iff_getElem?.1 hpm
  have hbus : xb ∈ demandBuses pd := (mem_demandBuses pd xb).2 ⟨p, hxb, hp0⟩
  have hy0 : t.years[0]? = some (t.years[0]'s3) := List.getElem?_eq_getElem s3
  have hrow : (⟨(xs : Int) + 1, t.years[0]'s3, (xb : Int), pd.getD xb 0 * factorOf t.multiplier t.years.length xs 0,
      qd.getD xb 0 * factorOf t.multiplier t.years.length xs 0⟩ : DataRow) ∈
      t.years.zipIdx.flatMap (blockOf pd qd t.multiplier t.years.length xs) :=
    List.mem_flatMap.2 ⟨(t.years[0]'s3, 0), List.mem_zipIdx_iff_getElem?.2 hy0, List.mem_map.2 ⟨xb, hbus, rfl⟩⟩
  exact ⟨_, (hmem _).2 ⟨xs, hxs, (mem_blocks pd qd t.multiplier t.years xs ht hq hxlt _).1 hrow⟩, rfl⟩

end Pyensys
