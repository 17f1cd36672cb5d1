import Verif.Model.MonteCarlo
import Verif.Props.AttestOptions
import Verif.Props.Multipliers
import Mathlib.Tactic.Ring
import Mathlib.Tactic.Linarith

/-!
# Monte Carlo simulation (C54, C100)
-/

namespace Pyensys

/-! ## C54: status of the elements -/

/-- **C54.** The sampled times are never negative, and only the draw 0 raises. -/
theorem C54_times_partial (mean u : ℝ) (hm : 0 ≤ mean) (h0 : 0 ≤ u) (h1 : u < 1) :
    (u = 0 → sampleTime mean u = .error .value) ∧ (u ≠ 0 → ∃ t, sampleTime mean u = .ok t ∧ 0 ≤ t) := by
  constructor
  · rintro rfl
    simp [sampleTime]
  · intro hu
    have hpos : 0 < u := lt_of_le_of_ne h0 (Ne.symm hu)
    refine ⟨⌊-mean * Real.log u⌋, by unfold sampleTime; rw [if_neg (not_le.2 hpos)], ?_⟩
    rw [Int.floor_nonneg]
    have := Real.log_nonpos h0 h1.le
    nlinarith

theorem mcFill_spec (total v : Nat) : ∀ (n : Nat) (row : List Nat) (c : Nat), row.length = total → c ≤ total →
    (mcFill total v n (row, c)).2 = min (c + n) total ∧ (mcFill total v n (row, c)).1.length = total ∧
    ∀ x, (mcFill total v n (row, c)).1[x]? = if c ≤ x ∧ x < c + n ∧ x < total then some v else row[x]? := by
  intro n
  induction n with
  | zero =>
    intro row c h1 h2
    refine ⟨by simp only [mcFill]; omega, h1, fun x => ?_⟩
    rw [if_neg (by omega)]
    rfl
  | succ n ih =>
    intro row c h1 h2
    unfold mcFill
    simp only
    by_cases hc : c < total
    · rw [if_pos hc]
      obtain ⟨i1, i2, i3⟩ := ih (row.set c v) (c + 1) (by simpa using h1) (by omega)
      refine ⟨by rw [i1]; omega, i2, fun x => ?_⟩
      rw [i3]
      by_cases hx : x = c
      · subst hx
        rw [if_neg (by omega), if_pos (by omega), List.getElem?_set_self (by omega)]
      · rw [List.getElem?_set_ne (by omega)]
        by_cases hh : c ≤ x ∧ x < c + (n + 1) ∧ x < total
        · rw [if_pos hh, if_pos (by omega)]
        · rw [if_neg hh, if_neg (by omega)]
    · rw [if_neg hc]
      obtain ⟨i1, i2, i3⟩ := ih row c h1 h2
      refine ⟨by rw [i1]; omega, i2, fun x => ?_⟩
      rw [i3, if_neg (by omega), if_neg (by omega)]

/-- the status at a time, if up and down periods of the sampled lengths alternate -/
def statusAt (up down t : Nat) : Nat := if t % (up + down) < up then 1 else 0

theorem mcLoop_spec (total : Nat) (a b : Nat) (ha : 0 < a) (hb : 0 < b) : ∀ (fuel c : Nat) (row : List Nat), total - c < fuel →
    row.length = total → c ≤ total → (c < total → c % (a + b) = 0) → (∀ x, x < c → row[x]? = some (statusAt a b x)) →
    ∃ r, mcLoop total a b fuel (row, c) = .ok r ∧ r.length = total ∧ ∀ x, x < total → r[x]? = some (statusAt a b x) := by
  intro fuel
  induction fuel with
  | zero => intro c row h; omega
  | succ fuel ih =>
    intro c row hf hl hc hmod hrow
    unfold mcLoop
    simp only
    by_cases hlt : c < total
    · rw [if_pos hlt]
      have hup : mcUp total (a : Int) (row, c) = mcFill total 1 a (row, c) := by
        unfold mcUp
        rw [if_neg (by omega), Int.toNat_natCast]
      obtain ⟨u1, u2, u3⟩ := mcFill_spec total 1 a row c hl hc
      rw [hup]
      obtain ⟨s, hs⟩ : ∃ s, s = mcFill total 1 a (row, c) := ⟨_, rfl⟩
      rw [← hs] at u1 u2 u3 ⊢
      obtain ⟨r1, c1⟩ := s
      simp only at u1 u2 u3
      have hdown : mcDown total (b : Int) (r1, c1) = mcFill total 0 b (r1, c1) := by
        unfold mcDown
        rw [if_neg (by omega), Int.toNat_natCast]
      rw [hdown]
      obtain ⟨d1, d2, d3⟩ := mcFill_spec total 0 b r1 c1 u2 (by omega)
      obtain ⟨s2, hs2⟩ : ∃ s, s = mcFill total 0 b (r1, c1) := ⟨_, rfl⟩
      rw [← hs2] at d1 d2 d3 ⊢
      obtain ⟨r2, c2⟩ := s2
      simp only at d1 d2 d3
      have hm0 := hmod hlt
      refine ih c2 r2 (by omega) d2 (by omega) ?_ ?_
      · intro h
        have : c2 = c + (a + b) := by omega
        rw [this, Nat.add_mod_right]
        exact hm0
      · intro x hx
        rw [d3 x, u3 x]
        by_cases hxc : x < c
        · rw [if_neg (by omega), if_neg (by omega)]
          exact hrow x hxc
        · have hmodx : x % (a + b) = x - c := by
            obtain ⟨q, hq⟩ : ∃ q, c = (a + b) * q := Nat.dvd_of_mod_eq_zero hm0
            have : x = (a + b) * q + (x - c) := by omega
            rw [this, Nat.mul_add_mod, ← hq, Nat.mod_eq_of_lt (by omega)]
            omega
          unfold statusAt
          rw [hmodx]
          by_cases hxa : x < c + a
          · rw [if_neg (by omega), if_pos (by omega), if_pos (by omega)]
          · rw [if_pos (by omega), if_neg (by omega)]
    · rw [if_neg hlt]
      exact ⟨row, rfl, hl, fun x hx => hrow x (by omega)⟩

/-- **C54.** For all positive times to failure and to recover and every horizon, the loop ends, and the element is up in
the first `TTF` of every `TTF+TTR` steps and down in the others. -/
theorem C54_row_partial (total fuel : Nat) (ttf ttr : Int) (h1 : 0 < ttf) (h2 : 0 < ttr) (hf : total < fuel) :
    ∃ r, mcRow fuel total (ttf, ttr) = .ok r ∧ r.length = total ∧
      ∀ t : Nat, t < total → r[t]? = some (if (t : Int) % (ttf + ttr) < ttf then 1 else 0) := by
  obtain ⟨a, rfl⟩ := Int.eq_ofNat_of_zero_le h1.le
  obtain ⟨b, rfl⟩ := Int.eq_ofNat_of_zero_le h2.le
  obtain ⟨r, r1, r2, r3⟩ := mcLoop_spec total a b (by omega) (by omega) fuel 0 (List.replicate total 0) (by omega) (by simp)
    (by omega) (by simp) (by intro x hx; omega)
  refine ⟨r, r1, r2, fun t ht => ?_⟩
  rw [r3 t ht]
  unfold statusAt
  congr 1
  have : ((t : Int) % ((a : Int) + b) < a) ↔ t % (a + b) < a := by
    rw [← Nat.cast_add, ← Int.natCast_mod]
    omega
  simp only [this]

theorem replicate_fill (total v n : Nat) (row : List Nat) : mcFill total v n (row, total) = (row, total) := by
  induction n with
  | zero => rfl
  | succ n ih =>
    unfold mcFill
    simp only [lt_irrefl, if_false]
    exact ih

/-- **C54.** If one of the times is zero (and none negative), the element is up all the time. -/
theorem C54_zero_partial (total fuel : Nat) (ttf ttr : Int) (h : ttf = 0 ∨ ttr = 0) (hf : total < fuel) :
    mcRow fuel total (ttf, ttr) = .ok (List.replicate total 1) := by
  unfold mcRow
  obtain ⟨f, rfl⟩ : ∃ f, fuel = f + 1 := ⟨fuel - 1, by omega⟩
  unfold mcLoop
  simp only
  by_cases ht : 0 < total
  · rw [if_pos ht]
    have hs : mcDown total ttr (mcUp total ttf (List.replicate total 0, 0)) = (List.replicate total 1, total) := by
      rcases h with rfl | rfl
      · unfold mcUp mcDown
        rw [if_pos rfl, replicate_fill]
        split <;> rfl
      · unfold mcDown
        rw [if_pos rfl]
    rw [hs]
    obtain ⟨f', rfl⟩ : ∃ f', f = f' + 1 := ⟨f - 1, by omega⟩
    unfold mcLoop
    simp
  · rw [if_neg ht]
    have : total = 0 := by omega
    subst this
    rfl

/-- **C54 fails** for an element that fails at once: it is up all the time, although its time to recover is positive. -/
theorem C54_zero_violated : mcRow 5 4 (0, 3) = .ok [1, 1, 1, 1] := by decide +kernel

/-- **C54.** With two negative times (a negative mean) the loop never ends. -/
theorem C54_negative_violated (total : Nat) (ttf ttr : Int) (h1 : ttf < 0) (h2 : ttr < 0) (ht : 0 < total) :
    ∀ fuel, mcRow fuel total (ttf, ttr) = .error .recursion := by
  have hstep : ∀ s, mcDown total ttr (mcUp total ttf s) = s := by
    intro s
    unfold mcUp mcDown
    rw [if_neg (by omega), if_neg (by omega), show ttf.toNat = 0 by omega, show ttr.toNat = 0 by omega]
    rfl
  intro fuel
  unfold mcRow
  induction fuel with
  | zero => rfl
  | succ fuel ih =>
    unfold mcLoop
    simp only [hstep]
    rw [if_pos ht]
    exact ih

theorem sum_le_one : ∀ (l : List Nat), (∀ a ∈ l, a = 0 ∨ a = 1) → (l.sum = l.length ↔ ∀ a ∈ l, a = 1) ∧ l.sum ≤ l.length := by
  intro l
  induction l with
  | nil => simp
  | cons a l ih =>
    intro h
    obtain ⟨i1, i2⟩ := ih (fun b hb => h b (by simp [hb]))
    rw [List.sum_cons, List.length_cons]
    have ha := h a (by simp)
    constructor
    · constructor
      · intro e
        have e1 : a = 1 := by omega
        have e2 : l.sum = l.length := by omega
        intro b hb
        rcases List.mem_cons.1 hb with rfl | hb
        · exact e1
        · exact i1.1 e2 b hb
      · intro e
        have := i1.2 (fun b hb => e b (by simp [hb]))
        have := e a (by simp)
        omega
    · omega

/-- rows of nonnegative times consist of ones and zeros -/
theorem mcRow_01 (total fuel : Nat) (t : Int × Int) (h1 : 0 ≤ t.1) (h2 : 0 ≤ t.2) (hf : total < fuel) :
    ∃ r, mcRow fuel total t = .ok r ∧ r.length = total ∧ ∀ a ∈ r, a = 0 ∨ a = 1 := by
  obtain ⟨a, b⟩ := t
  simp only at h1 h2
  by_cases h : a = 0 ∨ b = 0
  · refine ⟨_, C54_zero_partial total fuel a b h hf, by simp, ?_⟩
    intro x hx
    rw [List.mem_replicate] at hx
    omega
  · obtain ⟨r, r1, r2, r3⟩ := C54_row_partial total fuel a b (by omega) (by omega) hf
    refine ⟨r, r1, r2, ?_⟩
    intro x hx
    obtain ⟨i, hi⟩ := List.mem_iff_getElem?.1 hx
    have hlt := (List.getElem?_eq_some_iff.1 hi).1
    rw [r3 i (by omega), Option.some.injEq] at hi
    rw [← hi]
    split <;> simp

/-- rows of the status matrix: one for each element, in order -/
structure StatusRows (fuel total : Nat) (times : List (Int × Int)) (rows : List (List Nat)) : Prop where
  len : rows.length = times.length
  row : ∀ (i : Nat) (t : Int × Int), times[i]? = some t → ∃ r, rows[i]? = some r ∧ mcRow fuel total t = .ok r ∧ r.length = total ∧
    ∀ a ∈ r, a = 0 ∨ a = 1

theorem rows_spec (fuel total : Nat) (hf : total < fuel) (times : List (Int × Int)) (h : ∀ t ∈ times, 0 ≤ t.1 ∧ 0 ≤ t.2) :
    ∃ rows, times.mapM (mcRow fuel total) = .ok rows ∧ StatusRows fuel total times rows := by
  classical
  refine ⟨times.map (fun t => ((mcRow fuel total t).toOption.getD [])), ?_, by simp, ?_⟩
  · apply mapM_all
    intro t ht
    obtain ⟨r, r1, _⟩ := mcRow_01 total fuel t (h t ht).1 (h t ht).2 hf
    rw [r1]
    rfl
  · intro i t ht
    have hm := List.mem_of_getElem? ht
    obtain ⟨r, r1, r2, r3⟩ := mcRow_01 total fuel t (h t hm).1 (h t hm).2 hf
    refine ⟨r, ?_, r1, r2, r3⟩
    rw [List.getElem?_map, ht, Option.map_some, r1]
    rfl

theorem column_iff {fuel total : Nat} {times : List (Int × Int)} {rows : List (List Nat)} (h : StatusRows fuel total times rows) {t : Nat}
    (ht : t < total) : mcColumn rows t = times.length ↔ ∀ r ∈ rows, r[t]? = some 1 := by
  have hrow : ∀ r ∈ rows, ∃ v, r[t]? = some v ∧ (v = 0 ∨ v = 1) := by
    intro r hr
    obtain ⟨i, hi⟩ := List.mem_iff_getElem?.1 hr
    have hlt := (List.getElem?_eq_some_iff.1 hi).1
    obtain ⟨r', r1, _, r3, r4⟩ := h.row i _ (List.getElem?_eq_getElem (show i < times.length by rw [← h.len]; exact hlt))
    rw [hi, Option.some.injEq] at r1
    subst r1
    have : t < r.length := by omega
    exact ⟨r[t], List.getElem?_eq_getElem this, r4 _ (List.getElem_mem this)⟩
  have hs := (sum_le_one (rows.map (fun r => r.getD t 0)) (by
    intro a ha
    obtain ⟨r, hr, rfl⟩ := List.mem_map.1 ha
    obtain ⟨v, v1, v2⟩ := hrow r hr
    simp [v1, v2])).1
  unfold mcColumn
  rw [← h.len]
  rw [List.length_map] at hs
  rw [hs]
  constructor
  · intro hh r hr
    obtain ⟨v, v1, v2⟩ := hrow r hr
    have := hh _ (List.mem_map_of_mem hr)
    simp only [List.getD_eq_getElem?_getD, v1, Option.getD_some] at this
    rw [v1, this]
  · intro hh a ha
    obtain ⟨r, hr, rfl⟩ := List.mem_map.1 ha
    simp [hh r hr]

/-- **C54.** For all non-negative times the matrices exist, with one row for each element in order; and an hour is intact
exactly if all lines and generators are up. -/
theorem C54_matrix_partial (fuel total : Nat) (lines gens : List (Int × Int)) (hf : total < fuel) (h1 : ∀ t ∈ lines, 0 ≤ t.1 ∧ 0 ≤ t.2)
    (h2 : ∀ t ∈ gens, 0 ≤ t.1 ∧ 0 ≤ t.2) : ∃ st, mcMatrix fuel total lines gens = .ok st ∧
      StatusRows fuel total lines st.lines ∧ StatusRows fuel total gens st.gens ∧ st.intact.length = total ∧
      ∀ t, t < total → ∃ v, st.intact[t]? = some v ∧ (v = 0 ∨ v = 1) ∧
        (v = 1 ↔ (∀ r ∈ st.lines, r[t]? = some 1) ∧ ∀ r ∈ st.gens, r[t]? = some 1) := by
  obtain ⟨l, l1, l2⟩ := rows_spec fuel total hf lines h1
  obtain ⟨g, g1, g2⟩ := rows_spec fuel total hf gens h2
  refine ⟨_, by unfold mcMatrix; rw [l1, g1]; rfl, l2, g2, by simp, ?_⟩
  intro t ht
  simp only
  rw [List.getElem?_map, List.getElem?_range ht, Option.map_some]
  refine ⟨_, rfl, by split <;> simp, ?_⟩
  rw [← column_iff l2 ht, ← column_iff g2 ht]
  split <;> simp_all

/-! ## C100: the hours of the simulation -/

theorem mcIntact_spec (solve : McModel → McSolve) (demand : List Rat) : ∀ (n x : Nat) (m : McModel), x + n ≤ demand.length →
    ∃ r, mcIntact solve demand n x m = .ok r ∧ r.1.length = n ∧ r.2.gens = m.gens ∧ r.2.lines = m.lines ∧
      ∀ i, i < n → ∃ d, demand[x + i]? = some d ∧ r.1[i]? = some (mcStore (solve ⟨d, m.gens, m.lines⟩)) := by
  intro n
  induction n with
  | zero => intro x m _; exact ⟨_, rfl, rfl, rfl, rfl, by intro i hi; omega⟩
  | succ n ih =>
    intro x m h
    have hx : x < demand.length := by omega
    obtain ⟨r, r1, r2, r3, r4, r5⟩ := ih (x + 1) ⟨demand[x], m.gens, m.lines⟩ (by omega)
    refine ⟨(mcStore (solve ⟨demand[x], m.gens, m.lines⟩) :: r.1, r.2), ?_, by simp [r2], r3, r4, ?_⟩
    · unfold mcIntact
      have := (pyGet_nat_iff demand x demand[x]).2 (List.getElem?_eq_getElem hx)
      simp only [this, bind, Except.bind, r1]
      rfl
    · intro i hi
      cases i with
      | zero => exact ⟨demand[x], List.getElem?_eq_getElem hx, rfl⟩
      | succ i =>
        obtain ⟨d, d1, d2⟩ := r5 i (by omega)
        exact ⟨d, by rw [← d1]; congr 1; omega, by simpa using d2⟩

/-- which elements are up at a time -/
def upAt (rows : List (List Nat)) (t : Nat) : List Bool := rows.map (fun r => !(r.getD t 0 == 0))

theorem upAt_all {rows : List (List Nat)} {t : Nat} (h : ∀ r ∈ rows, r[t]? = some 1) : upAt rows t = List.replicate rows.length true := by
  unfold upAt
  rw [List.eq_replicate_iff]
  refine ⟨by simp, ?_⟩
  intro b hb
  obtain ⟨r, hr, rfl⟩ := List.mem_map.1 hb
  simp [h r hr]

/-- a status whose intact hours are those in which everything is up -/
structure StatusOk (total nl ng : Nat) (st : McStatus) : Prop where
  lines : st.lines.length = nl
  gens : st.gens.length = ng
  intact : ∀ t, t < total → ∃ v, st.intact[t]? = some v ∧ (v = 0 ∨ v = 1) ∧
    (v = 1 ↔ (∀ r ∈ st.lines, r[t]? = some 1) ∧ ∀ r ∈ st.gens, r[t]? = some 1)

theorem mcSteps_spec (solve : McModel → McSolve) (demand : List Rat) (intact : List McHour) (st : McStatus) (total nl ng : Nat)
    (hst : StatusOk total nl ng st)
    (hi : ∀ t, t < total → ∃ d, demand[t]? = some d ∧
      intact[t]? = some (mcStore (solve ⟨d, List.replicate ng true, List.replicate nl true⟩))) :
    ∀ (n x : Nat) (m : McModel), x + n ≤ total → ∃ r, mcSteps solve demand intact st n x m = .ok r ∧ r.1.length = n ∧
      ∀ i, i < n → ∃ d, demand[x + i]? = some d ∧
        r.1[i]? = some (mcStore (solve ⟨d, upAt st.gens (x + i), upAt st.lines (x + i)⟩)) := by
  intro n
  induction n with
  | zero => intro x m _; exact ⟨_, rfl, rfl, by intro i hi; omega⟩
  | succ n ih =>
    intro x m hx
    obtain ⟨v, v1, v2, v3⟩ := hst.intact x (by omega)
    obtain ⟨d, d1, d2⟩ := hi x (by omega)
    have hstep : ∃ m', mcStep solve demand intact st x m = .ok (mcStore (solve ⟨d, upAt st.gens x, upAt st.lines x⟩), m') := by
      unfold mcStep
      simp only [(pyGet_nat_iff demand x d).2 d1, (pyGet_nat_iff st.intact x v).2 v1, bind, Except.bind]
      by_cases h0 : v = 0
      · rw [if_pos h0]
        exact ⟨_, rfl⟩
      · rw [if_neg h0]
        obtain ⟨a1, a2⟩ := v3.1 (by omega)
        simp only [(pyGet_nat_iff intact x _).2 d2]
        refine ⟨⟨d, m.gens, m.lines⟩, ?_⟩
        rw [upAt_all a1, upAt_all a2, hst.lines, hst.gens]
        rfl
    obtain ⟨m', hm'⟩ := hstep
    obtain ⟨r, r1, r2, r3⟩ := ih (x + 1) m' (by omega)
    refine ⟨(mcStore (solve ⟨d, upAt st.gens x, upAt st.lines x⟩) :: r.1, r.2), ?_, by simp [r2], ?_⟩
    · unfold mcSteps
      simp only [hm', bind, Except.bind, r1]
      rfl
    · intro i hin
      cases i with
      | zero => exact ⟨d, d1, rfl⟩
      | succ i =>
        obtain ⟨e, e1, e2⟩ := r3 i (by omega)
        have : x + (i + 1) = x + 1 + i := by omega
        rw [this]
        exact ⟨e, e1, by simpa using e2⟩

theorem mcIterations_spec (solve : McModel → McSolve) (demand : List Rat) (intact : List McHour) (total nl ng : Nat)
    (hi : ∀ t, t < total → ∃ d, demand[t]? = some d ∧
      intact[t]? = some (mcStore (solve ⟨d, List.replicate ng true, List.replicate nl true⟩))) :
    ∀ (sts : List McStatus) (m : McModel), (∀ st ∈ sts, StatusOk total nl ng st) → ∃ out,
      mcIterations solve demand intact total sts m = .ok out ∧ out.length = sts.length * total ∧
      ∀ (k t : Nat) (st : McStatus), sts[k]? = some st → t < total → ∃ d, demand[t]? = some d ∧
        out[k * total + t]? = some (mcStore (solve ⟨d, upAt st.gens t, upAt st.lines t⟩)) := by
  intro sts
  induction sts with
  | nil => intro m _; exact ⟨[], rfl, by simp, by intro k t st h; simp at h⟩
  | cons s sts ih =>
    intro m hs
    obtain ⟨r, r1, r2, r3⟩ := mcSteps_spec solve demand intact s total nl ng (hs s (by simp)) hi total 0 m (by omega)
    obtain ⟨out, o1, o2, o3⟩ := ih r.2 (fun st h => hs st (by simp [h]))
    refine ⟨r.1 ++ out, ?_, ?_, ?_⟩
    · unfold mcIterations
      simp only [r1, bind, Except.bind, o1]
      rfl
    · rw [List.length_append, r2, o2, List.length_cons]; ring
    · intro k t st hk ht
      cases k with
      | zero =>
        simp only [List.getElem?_cons_zero, Option.some.injEq] at hk
        subst hk
        obtain ⟨d, d1, d2⟩ := r3 t ht
        rw [Nat.zero_add] at d1 d2
        refine ⟨d, d1, ?_⟩
        rw [Nat.zero_mul, Nat.zero_add, List.getElem?_append_left (by omega)]
        exact d2
      | succ k =>
        simp only [List.getElem?_cons_succ] at hk
        obtain ⟨d, d1, d2⟩ := o3 k t st hk ht
        refine ⟨d, d1, ?_⟩
        have e : (k + 1) * total + t = total + (k * total + t) := by ring
        rw [List.getElem?_append_right (by rw [r2, e]; omega), r2, e, Nat.add_sub_cancel_left]
        exact d2

/-- **C100.** For every optimisation model, demand, number of iterations and sampled times: the simulation ends, and the
result of hour `t` of iteration `k` is that of a single optimisation with the demand of the hour and exactly the elements
that are up in it, whatever was optimised before — the results for the intact system are only reused when everything is
up. -/
theorem C100_hours_partial (solve : McModel → McSolve) (demand : List Rat) (fuel total nl ng : Nat)
    (times : List (List (Int × Int) × List (Int × Int))) (d0 : Rat) (hf : total < fuel) (hd : total ≤ demand.length)
    (hn : ∀ t ∈ times, t.1.length = nl ∧ t.2.length = ng)
    (hp : ∀ t ∈ times, (∀ x ∈ t.1, 0 ≤ x.1 ∧ 0 ≤ x.2) ∧ ∀ x ∈ t.2, 0 ≤ x.1 ∧ 0 ≤ x.2) :
    ∃ out, runMonteCarlo solve demand fuel total times ⟨d0, List.replicate ng true, List.replicate nl true⟩ = .ok out ∧
      out.length = times.length * total ∧
      ∀ (k t : Nat) (ts : List (Int × Int) × List (Int × Int)), times[k]? = some ts → t < total → ∃ d lines gens,
        demand[t]? = some d ∧ StatusRows fuel total ts.1 lines ∧ StatusRows fuel total ts.2 gens ∧
        out[k * total + t]? = some (mcStore (solve ⟨d, upAt gens t, upAt lines t⟩)) := by
  classical
  obtain ⟨r, r1, r2, r3, r4, r5⟩ := mcIntact_spec solve demand total 0 ⟨d0, List.replicate ng true, List.replicate nl true⟩ (by omega)
  have hm : ∀ t ∈ times, ∃ st, mcMatrix fuel total t.1 t.2 = .ok st ∧ StatusRows fuel total t.1 st.lines ∧
      StatusRows fuel total t.2 st.gens ∧ StatusOk total nl ng st := by
    intro t ht
    obtain ⟨st, s1, s2, s3, s4, s5⟩ := C54_matrix_partial fuel total t.1 t.2 hf (hp t ht).1 (hp t ht).2
    refine ⟨st, s1, s2, s3, ?_, ?_, s5⟩
    · rw [s2.len]; exact (hn t ht).1
    · rw [s3.len]; exact (hn t ht).2
  let g : List (Int × Int) × List (Int × Int) → McStatus := fun t => (mcMatrix fuel total t.1 t.2).toOption.getD ⟨[], [], []⟩
  have hg : ∀ t ∈ times, mcMatrix fuel total t.1 t.2 = .ok (g t) := by
    intro t ht
    obtain ⟨st, s1, _⟩ := hm t ht
    change _ = Except.ok ((mcMatrix fuel total t.1 t.2).toOption.getD _)
    rw [s1]
    rfl
  have hsts := mapM_all (fun t : List (Int × Int) × List (Int × Int) => mcMatrix fuel total t.1 t.2) g times hg
  obtain ⟨out, o1, o2, o3⟩ := mcIterations_spec solve demand r.1 total nl ng (by
      intro t ht
      obtain ⟨d, d1, d2⟩ := r5 t ht
      rw [Nat.zero_add] at d1
      exact ⟨d, d1, d2⟩) (times.map g) r.2 (by
      intro st hst
      obtain ⟨t, ht, rfl⟩ := List.mem_map.1 hst
      obtain ⟨st, s1, _, _, s4⟩ := hm t ht
      have := hg t ht
      rw [s1, Except.ok.injEq] at this
      rw [← this]
      exact s4)
  refine ⟨out, ?_, by simpa using o2, ?_⟩
  · unfold runMonteCarlo
    simp only [r1, bind, Except.bind]
    rw [hsts]
    exact o1
  · intro k t ts hk ht
    have hmem := List.mem_of_getElem? hk
    obtain ⟨st, s1, s2, s3, s4⟩ := hm ts hmem
    have e := hg ts hmem
    rw [s1, Except.ok.injEq] at e
    obtain ⟨d, d1, d2⟩ := o3 k t (g ts) (by rw [List.getElem?_map, hk]; rfl) ht
    rw [← e] at d2
    exact ⟨d, st.lines, st.gens, d1, s2, s3, d2⟩

/-- **C100 fails** in the expectation that an hour that cannot be served shows as curtailment: nothing is stored for it. -/
theorem C100_infeasible_violated (r : McSolve) (h : r.feasible = false) : (mcStore r).curtailed = 0 ∧ (mcStore r).thermal = 0 := by
  simp [mcStore, h]

/-- a simulation of two hours and one iteration: line up then down, generator always up -/
example : runMonteCarlo (fun m => ⟨true, if m.lines = [true] then 0 else m.demand, 0, m.demand⟩) [5, 7] 3 2 [([(1, 2)], [(4, 1)])]
    ⟨1, [true], [true]⟩ = .ok [⟨5, 0, 0⟩, ⟨7, 7, 0⟩] := by decide +kernel

end Pyensys
