import Verif.Model.CostCurve
import Verif.Props.AttestOptions
import Mathlib.Analysis.Convex.Slope
import Mathlib.Tactic.FieldSimp
import Mathlib.Tactic.Ring
import Mathlib.Tactic.Linarith

/-!
# Generation cost curves (C55) and the objective of the network engine (C102)
-/

namespace Pyensys

/-! ## Specification -/

/-- the cost polynomial of MATPOWER, coefficient of the highest power first (Horner's scheme) -/
def gcPoly (coeffs : List Rat) (p : Rat) : Rat := coeffs.foldl (fun a c => a * p + c) 0

/-- the step between two break points: one third of the capacity (the capacity when the first coefficient is zero) if
the user gives no steps, else the only step given, else the step of this generator -/
def IsStep (d : GenCostData) (max : Rat) (pieces : List Rat) (xNo : Nat) (delta : Rat) : Prop :=
  (pieces = [] ∧ ∃ c0, d.cost[0]? = some c0 ∧ delta = (if c0 = 0 then max else max / 3)) ∨
  pieces = [delta] ∨
  (2 ≤ pieces.length ∧ pieces[xNo]? = some delta)

/-- the line `l` of the table gives the cost `y` to an output of `p` MW (`p / base` per unit) -/
def LineGives (l : Rat × Rat) (base p y : Rat) : Prop := p / base * l.1 + l.2 = y

/-- the height at `p` of the straight line through `(a, fa)` and `(b, fb)` -/
def chordAt (a fa b fb p : Rat) : Rat := fa + (p - a) * ((fb - fa) / (b - a))

/-! ## Lemmas -/

theorem gcPoly_snoc (l : List Rat) (c p : Rat) : gcPoly (l ++ [c]) p = gcPoly l p * p + c := by
  simp [gcPoly, List.foldl_append]

theorem take_succ_getElem (l : List Rat) (n : Nat) (h : n < l.length) : l.take (n + 1) = l.take n ++ [l[n]] := by
  simp

theorem gcLoop_eq (cost : List Rat) (xv : Rat) : ∀ (n x : Nat) (y : Rat), n ≤ cost.length →
    gcLoop cost xv n x (n : Int) y = .ok (y + xv ^ x * gcPoly (cost.take n) xv)
  | 0, x, y, _ => by simp [gcLoop, gcPoly]
  | n + 1, x, y, h => by
      have hn : n < cost.length := h
      have e : pyGet cost (((n + 1 : Nat) : Int) - 1) = .ok cost[n] := by
        rw [show (((n + 1 : Nat) : Int) - 1) = (n : Int) from by push_cast; ring]
        exact (pyGet_nat_iff _ _ _).2 (List.getElem?_eq_getElem hn)
      unfold gcLoop
      rw [e]
      show gcLoop cost xv n (x + 1) (((n + 1 : Nat) : Int) - 1) (y + cost[n] * xv ^ x) = _
      rw [show (((n + 1 : Nat) : Int) - 1) = (n : Int) from by push_cast; ring]
      rw [gcLoop_eq cost xv n (x + 1) _ (by omega), take_succ_getElem _ _ hn, gcPoly_snoc]
      congr 1
      rw [pow_succ]; ring

theorem gcValue_eq (d : GenCostData) (xv : Rat) (h1 : 1 ≤ d.ncost) (h2 : d.ncost ≤ d.cost.length) :
    gcValue d xv = .ok (gcPoly (d.cost.take d.ncost) xv) := by
  obtain ⟨n, hn⟩ : ∃ n, d.ncost = n + 1 := ⟨d.ncost - 1, by omega⟩
  unfold gcValue
  rw [hn]
  have e : pyGet d.cost (((n + 1 : Nat) : Int) - 1) = .ok d.cost[n] := by
    rw [show (((n + 1 : Nat) : Int) - 1) = (n : Int) from by push_cast; ring]
    exact (pyGet_nat_iff _ _ _).2 (List.getElem?_eq_getElem (by omega))
  rw [e]
  show gcLoop d.cost xv (n + 1 - 1) 1 (((n + 1 : Nat) : Int) - 1) d.cost[n] = _
  rw [show (((n + 1 : Nat) : Int) - 1) = (n : Int) from by push_cast; ring, Nat.add_sub_cancel,
    gcLoop_eq _ _ n 1 _ (by omega), take_succ_getElem _ _ (by omega), gcPoly_snoc]
  congr 1
  ring

theorem gcPoints_eq (d : GenCostData) (delta : Rat) (h1 : 1 ≤ d.ncost) (h2 : d.ncost ≤ d.cost.length) :
    ∀ (n : Nat) (aux : Rat), ∃ pts : List (Rat × Rat), gcPoints d delta n aux = .ok pts ∧ pts.length = n ∧
      ∀ k < n, pts[k]? = some (aux + k * delta, gcPoly (d.cost.take d.ncost) (aux + k * delta))
  | 0, aux => ⟨[], rfl, rfl, by intro k hk; omega⟩
  | n + 1, aux => by
      obtain ⟨pts, e, hl, hk⟩ := gcPoints_eq d delta h1 h2 n (aux + delta)
      refine ⟨(aux, gcPoly (d.cost.take d.ncost) aux) :: pts, ?_, by simp [hl], ?_⟩
      · unfold gcPoints
        rw [gcValue_eq d aux h1 h2, e]; rfl
      · intro k hkn
        cases k with
        | zero => simp
        | succ k =>
          rw [List.getElem?_cons_succ, hk k (by omega)]
          have : aux + delta + (k : Rat) * delta = aux + ((k + 1 : Nat) : Rat) * delta := by push_cast; ring
          rw [this]

theorem gcStep_eq {d : GenCostData} {max : Rat} {pieces : List Rat} {xNo : Nat} {delta : Rat}
    (h : IsStep d max pieces xNo delta) : gcStep d max pieces xNo = .ok delta := by
  rcases h with ⟨rfl, c0, h0, rfl⟩ | rfl | ⟨hl, hx⟩
  · unfold gcStep
    rw [show pyGet d.cost 0 = .ok c0 from (pyGet_nat_iff d.cost 0 c0).2 h0]
    simp only [bind, Except.bind]
    by_cases hc : c0 = 0 <;> simp [hc]
  · rfl
  · unfold gcStep
    match pieces, hl with
    | a :: b :: l, _ => exact (pyGet_nat_iff _ _ _).2 hx

theorem gcLines_get (base : Rat) (pts : List (Rat × Rat)) (k : Nat) (a b : Rat × Rat) (ha : pts[k]? = some a)
    (hb : pts[k + 1]? = some b) : (gcLines base pts)[k]? = some (gcLine base a b) := by
  unfold gcLines
  rw [List.getElem?_zipWith, ha, List.getElem?_tail, hb]

theorem gcLines_length (base : Rat) (pts : List (Rat × Rat)) : (gcLines base pts).length = pts.length - 1 := by
  unfold gcLines
  rw [List.length_zipWith, List.length_tail]
  omega

theorem gcLine_some (base : Rat) (a b : Rat × Rat) (h : a.1 ≠ b.1) :
    gcLine base a b = some ((b.2 - a.2) / (b.1 - a.1) * base, a.2 - a.1 * ((b.2 - a.2) / (b.1 - a.1))) := by
  unfold gcLine
  rw [if_neg (by intro h0; exact h (by linarith))]

/-- the value of a line of the table at `p` MW is the chord through its two points -/
theorem lineGives_chord (base : Rat) (hb : base ≠ 0) (a b : Rat × Rat) (p : Rat) :
    LineGives ((b.2 - a.2) / (b.1 - a.1) * base, a.2 - a.1 * ((b.2 - a.2) / (b.1 - a.1))) base p
      (chordAt a.1 a.2 b.1 b.2 p) := by
  unfold LineGives chordAt
  show p / base * ((b.2 - a.2) / (b.1 - a.1) * base) + (a.2 - a.1 * ((b.2 - a.2) / (b.1 - a.1))) = _
  rw [show p / base * ((b.2 - a.2) / (b.1 - a.1) * base) = p * ((b.2 - a.2) / (b.1 - a.1)) from by field_simp]
  ring

theorem chordAt_left (a fa b fb : Rat) : chordAt a fa b fb a = fa := by simp [chordAt]

theorem chordAt_right (a fa b fb : Rat) (h : a ≠ b) : chordAt a fa b fb b = fb := by
  unfold chordAt
  have : b - a ≠ 0 := fun h0 => h (by linarith)
  field_simp
  ring

/-- what the table of a polynomial cost is -/
theorem setCostCurve_poly {d : GenCostData} {max min base delta : Rat} {pieces : List Rat} {xNo : Nat}
    (hm : d.model ≠ 1) (h1 : 1 ≤ d.ncost) (h2 : d.ncost ≤ d.cost.length) (hd : IsStep d max pieces xNo delta)
    (hpos : 0 < delta) (hmax : 0 ≤ max) :
    ∃ L : List (Option (Rat × Rat)), setCostCurve d max min pieces xNo base = .ok L ∧ L.length = ⌊max / delta⌋.toNat ∧
      ∀ k < ⌊max / delta⌋.toNat, L[k]? = some (gcLine base
        (min + k * delta, gcPoly (d.cost.take d.ncost) (min + k * delta))
        (min + (k + 1 : Nat) * delta, gcPoly (d.cost.take d.ncost) (min + (k + 1 : Nat) * delta))) := by
  obtain ⟨pts, e, hl, hk⟩ := gcPoints_eq d delta h1 h2 (⌊max / delta⌋.toNat + 1) min
  refine ⟨gcLines base pts, ?_, by rw [gcLines_length, hl]; omega, ?_⟩
  · unfold setCostCurve
    rw [if_neg hm, gcStep_eq hd]
    simp only [bind, Except.bind]
    rw [if_neg (ne_of_gt hpos), if_neg (by
      rw [not_lt]; exact Int.floor_nonneg.2 (div_nonneg hmax hpos.le)), e]
  · intro k hkn
    exact gcLines_get base pts k _ _ (hk k (by omega)) (hk (k + 1) (by omega))

/-- among lines with growing slopes through consecutive points, the highest at `p` is the one whose segment contains `p` -/
theorem lines_max (xs ys : Nat → Rat) (n k : Nat) (hk : k < n) (hx : ∀ i < n, xs i < xs (i + 1))
    (hs : ∀ i, i + 1 < n → (ys (i + 1) - ys i) / (xs (i + 1) - xs i) ≤ (ys (i + 2) - ys (i + 1)) / (xs (i + 2) - xs (i + 1)))
    (p : Rat) (h1 : xs k ≤ p ∨ k = 0) (h2 : p ≤ xs (k + 1) ∨ k + 1 = n) (j : Nat) (hj : j < n) :
    chordAt (xs j) (ys j) (xs (j + 1)) (ys (j + 1)) p ≤ chordAt (xs k) (ys k) (xs (k + 1)) (ys (k + 1)) p := by
  have mono : ∀ i m, i ≤ m → m ≤ n → xs i ≤ xs m := by
    intro i m him
    induction m with
    | zero => intro _; rw [Nat.le_zero.1 him]
    | succ m ih =>
      intro hm
      rcases Nat.lt_or_ge i (m + 1) with h | h
      · exact le_trans (ih (by omega) (by omega)) (hx m (by omega)).le
      · rw [show i = m + 1 by omega]
  have step : ∀ i, i + 1 < n → chordAt (xs (i + 1)) (ys (i + 1)) (xs (i + 2)) (ys (i + 2)) p -
      chordAt (xs i) (ys i) (xs (i + 1)) (ys (i + 1)) p = (p - xs (i + 1)) *
        ((ys (i + 2) - ys (i + 1)) / (xs (i + 2) - xs (i + 1)) - (ys (i + 1) - ys i) / (xs (i + 1) - xs i)) := by
    intro i hi
    unfold chordAt
    have h0 : xs (i + 1) - xs i ≠ 0 := by have := hx i (by omega); intro h; linarith
    have e : ys i = ys (i + 1) - (xs (i + 1) - xs i) * ((ys (i + 1) - ys i) / (xs (i + 1) - xs i)) := by
      field_simp; ring
    generalize (ys (i + 2) - ys (i + 1)) / (xs (i + 2) - xs (i + 1)) = s2 at *
    generalize (ys (i + 1) - ys i) / (xs (i + 1) - xs i) = s1 at *
    rw [e]; ring
  rcases Nat.lt_or_ge j k with hjk | hjk
  · -- climb up to k
    have up : ∀ m, j ≤ m → m ≤ k → chordAt (xs j) (ys j) (xs (j + 1)) (ys (j + 1)) p ≤
        chordAt (xs m) (ys m) (xs (m + 1)) (ys (m + 1)) p := by
      intro m hjm
      induction m with
      | zero => intro _; rw [Nat.le_zero.1 hjm]
      | succ m ih =>
        intro hmk
        rcases Nat.lt_or_ge j (m + 1) with h | h
        · refine le_trans (ih (by omega) (by omega)) ?_
          have := step m (by omega)
          have hp : xs (m + 1) ≤ p := by
            rcases h1 with h1 | h1
            · exact le_trans (mono (m + 1) k hmk (by omega)) h1
            · omega
          have := mul_nonneg (sub_nonneg.2 hp) (sub_nonneg.2 (hs m (by omega)))
          show _ ≤ chordAt (xs (m + 1)) (ys (m + 1)) (xs (m + 2)) (ys (m + 2)) p
          linarith
        · rw [show j = m + 1 by omega]
    exact up k hjk.le (le_refl _)
  · have down : ∀ m, k ≤ m → m < n → chordAt (xs m) (ys m) (xs (m + 1)) (ys (m + 1)) p ≤
        chordAt (xs k) (ys k) (xs (k + 1)) (ys (k + 1)) p := by
      intro m hkm
      induction m with
      | zero => intro _; rw [Nat.le_zero.1 hkm]
      | succ m ih =>
        intro hmn
        rcases Nat.lt_or_ge k (m + 1) with h | h
        · refine le_trans ?_ (ih (by omega) (by omega))
          have := step m (by omega)
          have hp : p ≤ xs (m + 1) := by
            rcases h2 with h2 | h2
            · exact le_trans h2 (mono (k + 1) (m + 1) (by omega) (by omega))
            · omega
          have := mul_nonneg (sub_nonneg.2 hp) (sub_nonneg.2 (hs m (by omega)))
          show chordAt (xs (m + 1)) (ys (m + 1)) (xs (m + 2)) (ys (m + 2)) p ≤ _
          linarith
        · rw [show k = m + 1 by omega]
    exact down j hjk hj

/-- the constraints of a table whose rows are lines through consecutive points -/
theorem costOk_iff (L : List (Option (Rat × Rat))) (base : Rat) (hb : base ≠ 0) (xs ys : Nat → Rat) (n : Nat)
    (hn : L.length = n) (hx : ∀ i < n, xs i < xs (i + 1))
    (hL : ∀ k < n, L[k]? = some (gcLine base (xs k, ys k) (xs (k + 1), ys (k + 1)))) (np : Nat) (hnp : n ≤ np)
    (c p w : Rat) (hw : 0 < w) :
    CostOk L np c (p / base) w ↔ 0 ≤ c ∧ ∀ j < n, w * chordAt (xs j) (ys j) (xs (j + 1)) (ys (j + 1)) p ≤ c := by
  unfold CostOk
  have key : ∀ j < n, (gcRule L j c (p / base) w ↔ w * chordAt (xs j) (ys j) (xs (j + 1)) (ys (j + 1)) p ≤ c) := by
    intro j hj
    unfold gcRule
    rw [hL j hj, gcLine_some _ _ _ (ne_of_lt (hx j hj))]
    show c / w ≥ _ ↔ _
    have := lineGives_chord base hb (xs j, ys j) (xs (j + 1), ys (j + 1)) p
    unfold LineGives at this
    rw [this, ge_iff_le, le_div_iff₀ hw, mul_comm]
  constructor
  · rintro ⟨h0, h⟩
    exact ⟨h0, fun j hj => (key j hj).1 (h j (by omega))⟩
  · rintro ⟨h0, h⟩
    refine ⟨h0, fun j hj => ?_⟩
    rcases Nat.lt_or_ge j n with hjn | hjn
    · exact (key j hjn).2 (h j hjn)
    · unfold gcRule
      rw [List.getElem?_eq_none (by omega)]
      trivial

/-! ## C55: piece-wise cost curves -/

/-- **C55**.  The table of a polynomial cost has `⌊Max/Δ⌋` lines, and line `k` gives the cost of the polynomial at the
consecutive break points `Min + k·Δ` and `Min + (k+1)·Δ`. -/
theorem C55_break_points_partial (d : GenCostData) (max min base delta : Rat) (pieces : List Rat) (xNo : Nat)
    (hm : d.model ≠ 1) (h1 : 1 ≤ d.ncost) (h2 : d.ncost ≤ d.cost.length) (hd : IsStep d max pieces xNo delta)
    (hpos : 0 < delta) (hmax : 0 ≤ max) (hb : base ≠ 0) :
    ∃ L : List (Option (Rat × Rat)), setCostCurve d max min pieces xNo base = .ok L ∧ L.length = ⌊max / delta⌋.toNat ∧
      ∀ k < L.length, ∃ l : Rat × Rat, L[k]? = some (some l) ∧
        LineGives l base (min + k * delta) (gcPoly (d.cost.take d.ncost) (min + k * delta)) ∧
        LineGives l base (min + (k + 1 : Nat) * delta)
          (gcPoly (d.cost.take d.ncost) (min + (k + 1 : Nat) * delta)) := by
  obtain ⟨L, e, hl, hk⟩ := setCostCurve_poly (min := min) (base := base) hm h1 h2 hd hpos hmax
  refine ⟨L, e, hl, fun k hkL => ?_⟩
  have hne : min + (k : Rat) * delta ≠ min + ((k + 1 : Nat) : Rat) * delta := by
    push_cast; intro h; nlinarith
  have hk' := hk k (by omega)
  rw [gcLine_some _ _ _ hne] at hk'
  refine ⟨_, hk', ?_, ?_⟩
  · have := lineGives_chord base hb (min + (k : Rat) * delta, gcPoly (d.cost.take d.ncost) (min + k * delta))
      (min + (k + 1 : Nat) * delta, gcPoly (d.cost.take d.ncost) (min + (k + 1 : Nat) * delta)) (min + k * delta)
    rw [chordAt_left] at this
    exact this
  · have := lineGives_chord base hb (min + (k : Rat) * delta, gcPoly (d.cost.take d.ncost) (min + k * delta))
      (min + (k + 1 : Nat) * delta, gcPoly (d.cost.take d.ncost) (min + (k + 1 : Nat) * delta)) (min + (k + 1 : Nat) * delta)
    rw [chordAt_right _ _ _ _ hne] at this
    exact this

/-- slopes of a convex function over equidistant points -/
theorem convex_slopes (f : Rat → Rat) (min delta : Rat) (n : Nat) (hpos : 0 < delta)
    (hf : ConvexOn ℚ (Set.Icc min (min + n * delta)) f) (i : Nat) (hi : i + 1 < n) :
    (f (min + (i + 1 : Nat) * delta) - f (min + i * delta)) / ((min + (i + 1 : Nat) * delta) - (min + i * delta)) ≤
    (f (min + (i + 2 : Nat) * delta) - f (min + (i + 1 : Nat) * delta)) /
      ((min + (i + 2 : Nat) * delta) - (min + (i + 1 : Nat) * delta)) := by
  have hi' : ((i + 2 : Nat) : Rat) ≤ n := by exact_mod_cast hi
  have h0 : (0 : Rat) ≤ i := Nat.cast_nonneg i
  apply hf.slope_mono_adjacent
  · refine ⟨by nlinarith, ?_⟩
    push_cast at hi'
    nlinarith
  · refine ⟨by push_cast; nlinarith, ?_⟩
    nlinarith
  · push_cast; linarith
  · push_cast; linarith

/-- **C55**.  For a convex polynomial cost and an output within the break points, the admissible costs of a period of
weight `w` are exactly those from `w` times the broken line through the break points on, and that line is nowhere below
the polynomial. -/
theorem C55_convex_partial (d : GenCostData) (max min base delta : Rat) (pieces : List Rat) (xNo : Nat)
    (hm : d.model ≠ 1) (h1 : 1 ≤ d.ncost) (h2 : d.ncost ≤ d.cost.length) (hd : IsStep d max pieces xNo delta)
    (hpos : 0 < delta) (hmax : 0 ≤ max) (hb : base ≠ 0) (L : List (Option (Rat × Rat)))
    (h : setCostCurve d max min pieces xNo base = .ok L)
    (hf : ConvexOn ℚ (Set.Icc min (min + L.length * delta)) (gcPoly (d.cost.take d.ncost)))
    (k : Nat) (hk : k < L.length) (p : Rat) (hp : min + k * delta ≤ p ∧ p ≤ min + (k + 1 : Nat) * delta)
    (np : Nat) (hnp : L.length ≤ np) (c w : Rat) (hw : 0 < w) :
    (CostOk L np c (p / base) w ↔ 0 ≤ c ∧ w * chordAt (min + k * delta) (gcPoly (d.cost.take d.ncost) (min + k * delta))
        (min + (k + 1 : Nat) * delta) (gcPoly (d.cost.take d.ncost) (min + (k + 1 : Nat) * delta)) p ≤ c) ∧
    gcPoly (d.cost.take d.ncost) p ≤ chordAt (min + k * delta) (gcPoly (d.cost.take d.ncost) (min + k * delta))
        (min + (k + 1 : Nat) * delta) (gcPoly (d.cost.take d.ncost) (min + (k + 1 : Nat) * delta)) p := by
  obtain ⟨L', e, hl, hL⟩ := setCostCurve_poly (min := min) (base := base) hm h1 h2 hd hpos hmax
  rw [h, Except.ok.injEq] at e
  subst e
  rw [← hl] at hL
  generalize gcPoly (d.cost.take d.ncost) = f at *
  have hx : ∀ i < L.length, min + (i : Rat) * delta < min + ((i + 1 : Nat) : Rat) * delta := by
    intro i _; push_cast; linarith
  refine ⟨?_, ?_⟩
  · rw [costOk_iff L base hb (fun i => min + (i : Rat) * delta) (fun i => f (min + (i : Rat) * delta)) L.length rfl hx hL
      np hnp c p w hw]
    refine and_congr_right fun _ => ⟨fun h => h k hk, fun h j hj => ?_⟩
    refine le_trans ?_ h
    refine mul_le_mul_of_nonneg_left ?_ hw.le
    exact lines_max (fun i => min + (i : Rat) * delta) (fun i => f (min + (i : Rat) * delta)) L.length k hk hx
      (fun i hi => convex_slopes f min delta L.length hpos hf i hi) p (Or.inl hp.1) (Or.inl hp.2) j hj
  · -- convexity between the two break points
    have hkn : ((k + 1 : Nat) : Rat) ≤ L.length := by exact_mod_cast hk
    have h0 : (0 : Rat) ≤ k := Nat.cast_nonneg k
    set a := min + (k : Rat) * delta with ha
    set b := min + ((k + 1 : Nat) : Rat) * delta with hbdef
    have hab : b - a = delta := by rw [ha, hbdef]; push_cast; ring
    have hain : a ∈ Set.Icc min (min + L.length * delta) := by
      refine ⟨by rw [ha]; nlinarith, ?_⟩
      rw [ha]; push_cast at hkn; nlinarith
    have hbin : b ∈ Set.Icc min (min + L.length * delta) := by
      refine ⟨by rw [hbdef]; push_cast; nlinarith, ?_⟩
      rw [hbdef]; nlinarith
    have hc := hf.2 hain hbin (show (0 : Rat) ≤ (b - p) / delta from div_nonneg (by linarith [hp.2]) hpos.le) (show (0 : Rat) ≤ (p - a) / delta from div_nonneg (by linarith [hp.1]) hpos.le)
      (by rw [← add_div, div_eq_one_iff_eq (ne_of_gt hpos)]; linarith)
    simp only [smul_eq_mul] at hc
    have hpe : (b - p) / delta * a + (p - a) / delta * b = p := by
      rw [div_mul_eq_mul_div, div_mul_eq_mul_div, ← add_div, div_eq_iff (ne_of_gt hpos), ← hab]; ring
    rw [hpe] at hc
    refine le_trans hc (le_of_eq ?_)
    unfold chordAt
    rw [hab]
    have : b = delta + a := by linarith
    rw [this]
    field_simp
    ring

/-- **C55**.  For a convex polynomial cost the admissible costs at a break point are exactly those from `w` times the
cost of the polynomial on. -/
theorem C55_exact_partial (d : GenCostData) (max min base delta : Rat) (pieces : List Rat) (xNo : Nat)
    (hm : d.model ≠ 1) (h1 : 1 ≤ d.ncost) (h2 : d.ncost ≤ d.cost.length) (hd : IsStep d max pieces xNo delta)
    (hpos : 0 < delta) (hmax : 0 ≤ max) (hb : base ≠ 0) (L : List (Option (Rat × Rat)))
    (h : setCostCurve d max min pieces xNo base = .ok L)
    (hf : ConvexOn ℚ (Set.Icc min (min + L.length * delta)) (gcPoly (d.cost.take d.ncost)))
    (hL : 0 < L.length) (k : Nat) (hk : k ≤ L.length)
    (np : Nat) (hnp : L.length ≤ np) (c w : Rat) (hw : 0 < w) :
    CostOk L np c ((min + k * delta) / base) w ↔
      0 ≤ c ∧ w * gcPoly (d.cost.take d.ncost) (min + k * delta) ≤ c := by
  rcases Nat.lt_or_ge k L.length with hkl | hkl
  · have := (C55_convex_partial d max min base delta pieces xNo hm h1 h2 hd hpos hmax hb L h hf k hkl (min + k * delta)
      ⟨le_refl _, by push_cast; linarith⟩ np hnp c w hw).1
    rw [chordAt_left] at this
    exact this
  · obtain ⟨m, hm'⟩ : ∃ m, L.length = m + 1 := ⟨L.length - 1, by omega⟩
    have hkm : k = m + 1 := by omega
    subst hkm
    have := (C55_convex_partial d max min base delta pieces xNo hm h1 h2 hd hpos hmax hb L h hf m (by omega)
      (min + (m + 1 : Nat) * delta) ⟨by push_cast; linarith, le_refl _⟩ np hnp c w hw).1
    rw [chordAt_right _ _ _ _ (by push_cast; intro h; nlinarith)] at this
    exact this

theorem gcPoly_quadratic (a b c p : Rat) : gcPoly [a, b, c] p = a * p ^ 2 + b * p + c := by
  unfold gcPoly; simp only [List.foldl]; ring

/-- chord of a quadratic polynomial -/
theorem gcChord_quadratic (a b c x y p : Rat) (h : x ≠ y) :
    chordAt x (gcPoly [a, b, c] x) y (gcPoly [a, b, c] y) p - gcPoly [a, b, c] p = a * (p - x) * (y - p) := by
  simp only [gcPoly_quadratic]
  unfold chordAt
  have : (a * y ^ 2 + b * y + c - (a * x ^ 2 + b * x + c)) / (y - x) = a * (x + y) + b := by
    have h0 : y - x ≠ 0 := fun h' => h (by linarith)
    rw [div_eq_iff h0]; ring
  rw [this]; ring

theorem quadratic_convex (a b c : Rat) (ha : 0 ≤ a) (s : Set Rat) (hs : Convex ℚ s) : ConvexOn ℚ s (gcPoly [a, b, c]) := by
  refine ⟨hs, ?_⟩
  intro x _ y _ u v hu hv huv
  simp only [smul_eq_mul, gcPoly_quadratic]
  have hv' : v = 1 - u := by linarith
  subst hv'
  have : u * (a * x ^ 2 + b * x + c) + (1 - u) * (a * y ^ 2 + b * y + c) -
      (a * (u * x + (1 - u) * y) ^ 2 + b * (u * x + (1 - u) * y) + c) = a * (u * (1 - u)) * (x - y) ^ 2 := by ring
  have h2 : 0 ≤ a * (u * (1 - u)) * (x - y) ^ 2 :=
    mul_nonneg (mul_nonneg ha (mul_nonneg hu hv)) (sq_nonneg _)
  linarith

/-- **C55**.  For a quadratic cost with non-negative leading coefficient `a`, the smallest admissible cost of an output
within the break points is at least the quadratic cost and exceeds it by at most `a·Δ²/4` (times the weight). -/
theorem C55_quadratic_partial (a b c0 : Rat) (ha : 0 ≤ a) (model : Int) (hm : model ≠ 1) (max min base delta : Rat) (pieces : List Rat) (xNo : Nat)
    (hd : IsStep ⟨model, 3, [a, b, c0]⟩ max pieces xNo delta)
    (hpos : 0 < delta) (hmax : 0 ≤ max) (hb : base ≠ 0) (L : List (Option (Rat × Rat)))
    (h : setCostCurve ⟨model, 3, [a, b, c0]⟩ max min pieces xNo base = .ok L)
    (p : Rat) (hL : 0 < L.length) (hp : min ≤ p ∧ p ≤ min + L.length * delta)
    (np : Nat) (hnp : L.length ≤ np) (w : Rat) (hw : 0 < w) (hc : 0 ≤ a * p ^ 2 + b * p + c0) :
    ∃ least : Rat, (∀ c, CostOk L np c (p / base) w ↔ least ≤ c) ∧ w * (a * p ^ 2 + b * p + c0) ≤ least ∧
      least ≤ w * (a * p ^ 2 + b * p + c0 + a * delta ^ 2 / 4) := by
  -- the segment of p
  obtain ⟨k, hk, hkp⟩ : ∃ k < L.length, min + (k : Rat) * delta ≤ p ∧ p ≤ min + ((k + 1 : Nat) : Rat) * delta := by
    have : ∀ n : Nat, 0 < n → p ≤ min + n * delta → ∃ k < n, min + (k : Rat) * delta ≤ p ∧ p ≤ min + ((k + 1 : Nat) : Rat) * delta := by
      intro n
      induction n with
      | zero => intro h; omega
      | succ n ih =>
        intro _ hpn
        by_cases h : min + (n : Rat) * delta ≤ p
        · exact ⟨n, by omega, h, hpn⟩
        · have hn : 0 < n := by
            rcases Nat.eq_zero_or_pos n with rfl | h'
            · exfalso; apply h; simpa using hp.1
            · exact h'
          obtain ⟨k, h1, h2⟩ := ih hn (by linarith)
          exact ⟨k, by omega, h2⟩
    exact this _ hL hp.2
  have hconv := quadratic_convex a b c0 ha (Set.Icc min (min + L.length * delta)) (convex_Icc _ _)
  have main := fun c => C55_convex_partial ⟨model, 3, [a, b, c0]⟩ max min base delta pieces xNo hm (by simp) (by simp) hd hpos hmax hb L h
    hconv k hk p hkp np hnp c w hw
  simp only [show List.take 3 [a, b, c0] = [a, b, c0] from rfl] at main
  have hch := gcChord_quadratic a b c0 (min + k * delta) (min + ((k + 1 : Nat) : Rat) * delta) p (by push_cast; intro h; nlinarith)
  set ch := chordAt (min + k * delta) (gcPoly [a, b, c0] (min + k * delta)) (min + ((k + 1 : Nat) : Rat) * delta)
    (gcPoly [a, b, c0] (min + ((k + 1 : Nat) : Rat) * delta)) p with hchdef
  rw [gcPoly_quadratic] at hch
  have e1 : 0 ≤ a * (p - (min + k * delta)) * (min + ((k + 1 : Nat) : Rat) * delta - p) :=
    mul_nonneg (mul_nonneg ha (by linarith [hkp.1])) (by linarith [hkp.2])
  have e2 : a * (p - (min + k * delta)) * (min + ((k + 1 : Nat) : Rat) * delta - p) ≤ a * delta ^ 2 / 4 := by
    have : (p - (min + k * delta)) * (min + ((k + 1 : Nat) : Rat) * delta - p) ≤ delta ^ 2 / 4 := by
      have hs := sq_nonneg ((p - (min + k * delta)) - (min + ((k + 1 : Nat) : Rat) * delta - p))
      have hsum : (p - (min + k * delta)) + (min + ((k + 1 : Nat) : Rat) * delta - p) = delta := by push_cast; ring
      generalize (p - (min + k * delta)) = u at *
      generalize (min + ((k + 1 : Nat) : Rat) * delta - p) = v at *
      rw [← hsum]; nlinarith
    calc _ = a * ((p - (min + k * delta)) * (min + ((k + 1 : Nat) : Rat) * delta - p)) := by ring
      _ ≤ a * (delta ^ 2 / 4) := mul_le_mul_of_nonneg_left this ha
      _ = _ := by ring
  refine ⟨w * ch, fun c => ?_, ?_, ?_⟩
  · rw [(main c).1]
    refine ⟨fun h => h.2, fun h => ⟨le_trans ?_ h, h⟩⟩
    refine mul_nonneg hw.le ?_
    linarith
  · exact mul_le_mul_of_nonneg_left (by linarith) hw.le
  · exact mul_le_mul_of_nonneg_left (by linarith) hw.le

/-- **C55**, violated.  The break points end at `Min + ⌊Max/Δ⌋·Δ`: for a strictly convex quadratic cost, beyond that
output (e.g. between it and the capacity) a cost below that of the polynomial is admissible. -/
theorem C55_range_violated (a b c0 : Rat) (ha : 0 < a) (model : Int) (hm : model ≠ 1) (max min base delta : Rat) (pieces : List Rat) (xNo : Nat)
    (hd : IsStep ⟨model, 3, [a, b, c0]⟩ max pieces xNo delta)
    (hpos : 0 < delta) (hmax : 0 ≤ max) (hb : base ≠ 0)
    (p : Rat) (hp : min + ⌊max / delta⌋.toNat * delta < p) (np : Nat) (w : Rat) (hw : 0 < w)
    (hc : 0 < a * p ^ 2 + b * p + c0) :
    ∃ (L : List (Option (Rat × Rat))) (c : Rat), setCostCurve ⟨model, 3, [a, b, c0]⟩ max min pieces xNo base = .ok L ∧
      (L.length ≤ np → CostOk L np c (p / base) w) ∧ c < w * (a * p ^ 2 + b * p + c0) := by
  obtain ⟨L, e, hl, hL⟩ := setCostCurve_poly (d := ⟨model, 3, [a, b, c0]⟩) (min := min) (base := base) hm (by simp) (by simp) hd hpos hmax
  rw [← hl] at hL hp
  simp only [show List.take 3 [a, b, c0] = [a, b, c0] from rfl] at hL
  have hx : ∀ i < L.length, min + (i : Rat) * delta < min + ((i + 1 : Nat) : Rat) * delta := by
    intro i _; push_cast; linarith
  -- every line is below the cost at p
  have hlt : ∀ j < L.length, chordAt (min + (j : Rat) * delta) (gcPoly [a, b, c0] (min + (j : Rat) * delta))
      (min + ((j + 1 : Nat) : Rat) * delta) (gcPoly [a, b, c0] (min + ((j + 1 : Nat) : Rat) * delta)) p < a * p ^ 2 + b * p + c0 := by
    intro j hj
    have hq := gcChord_quadratic a b c0 (min + j * delta) (min + ((j + 1 : Nat) : Rat) * delta) p (ne_of_lt (hx j hj))
    rw [gcPoly_quadratic (p := p)] at hq
    have hj' : ((j + 1 : Nat) : Rat) ≤ L.length := by exact_mod_cast hj
    have h1 : min + ((j + 1 : Nat) : Rat) * delta < p := lt_of_le_of_lt (by nlinarith) hp
    have h2 := hx j hj
    have : 0 < a * (p - (min + j * delta)) * (p - (min + ((j + 1 : Nat) : Rat) * delta)) :=
      mul_pos (mul_pos ha (by linarith)) (by linarith)
    have h3 : a * (p - (min + j * delta)) * (min + ((j + 1 : Nat) : Rat) * delta - p) = -(a * (p - (min + j * delta)) * (p - (min + ((j + 1 : Nat) : Rat) * delta))) := by ring
    linarith
  -- a bound over finitely many lines
  have : ∀ n ≤ L.length, ∃ m : Rat, 0 ≤ m ∧ m < a * p ^ 2 + b * p + c0 ∧ ∀ j < n, chordAt (min + (j : Rat) * delta) (gcPoly [a, b, c0] (min + (j : Rat) * delta))
      (min + ((j + 1 : Nat) : Rat) * delta) (gcPoly [a, b, c0] (min + ((j + 1 : Nat) : Rat) * delta)) p ≤ m := by
    intro n
    induction n with
    | zero => intro _; exact ⟨0, le_refl _, hc, by intro j hj; omega⟩
    | succ n ih =>
      intro hn
      obtain ⟨m, m0, m1, m2⟩ := ih (by omega)
      refine ⟨Max.max m (chordAt (min + (n : Rat) * delta) (gcPoly [a, b, c0] (min + (n : Rat) * delta))
        (min + ((n + 1 : Nat) : Rat) * delta) (gcPoly [a, b, c0] (min + ((n + 1 : Nat) : Rat) * delta)) p), le_trans m0 (le_max_left _ _),
        max_lt m1 (hlt n (by omega)), fun j hj => ?_⟩
      rcases Nat.lt_or_ge j n with h | h
      · exact le_trans (m2 j h) (le_max_left _ _)
      · rw [show j = n by omega]; exact le_max_right _ _
  obtain ⟨m, m0, m1, m2⟩ := this L.length (le_refl _)
  refine ⟨L, w * m, e, fun hnp => ?_, mul_lt_mul_of_pos_left m1 hw⟩
  rw [costOk_iff L base hb (fun i => min + (i : Rat) * delta) (fun i => gcPoly [a, b, c0] (min + (i : Rat) * delta)) L.length rfl hx hL np hnp _ p w hw]
  exact ⟨mul_nonneg hw.le m0, fun j hj => mul_le_mul_of_nonneg_left (m2 j hj) hw.le⟩

/-- **C55**, violated.  A step larger than the capacity gives no lines: any output is admissible at no cost. -/
theorem C55_free_violated (d : GenCostData) (max min base delta : Rat) (pieces : List Rat) (xNo : Nat)
    (hm : d.model ≠ 1) (h1 : 1 ≤ d.ncost) (h2 : d.ncost ≤ d.cost.length) (hd : IsStep d max pieces xNo delta)
    (hmax : 0 ≤ max) (hlt : max < delta) :
    setCostCurve d max min pieces xNo base = .ok [] ∧ ∀ np gen w, CostOk [] np 0 gen w := by
  obtain ⟨L, e, hl, _⟩ := setCostCurve_poly (min := min) (base := base) hm h1 h2 hd (by linarith) hmax
  have : ⌊max / delta⌋ = 0 := by
    rw [Int.floor_eq_zero_iff]
    exact ⟨div_nonneg hmax (by linarith), (div_lt_one (by linarith)).2 hlt⟩
  rw [this] at hl
  have : L = [] := List.length_eq_zero_iff.1 (by simpa using hl)
  subst this
  refine ⟨e, fun np gen w => ⟨le_refl _, fun xc _ => ?_⟩⟩
  simp [gcRule]

/-- **C55**, violated.  A generator without capacity and a polynomial cost raises unless steps are given. -/
theorem C55_no_capacity_violated (d : GenCostData) (min base : Rat) (xNo : Nat) (hm : d.model ≠ 1) (h0 : d.cost ≠ []) :
    setCostCurve d 0 min [] xNo base = .error .zeroDivision := by
  obtain ⟨c0, hc⟩ : ∃ c0, d.cost[0]? = some c0 := by
    cases hcost : d.cost with
    | nil => exact absurd hcost h0
    | cons a l => exact ⟨a, rfl⟩
  have := gcStep_eq (d := d) (max := 0) (pieces := []) (xNo := xNo) (delta := 0) (Or.inl ⟨rfl, c0, hc, by by_cases h : c0 = 0 <;> simp [h]⟩)
  unfold setCostCurve
  rw [if_neg hm, this]
  simp [bind, Except.bind]

/-- **C55**, violated.  For a strictly concave quadratic cost with at least two lines, no cost as low as that of the
polynomial is admissible at the first break point. -/
theorem C55_concave_violated (a b c0 : Rat) (ha : a < 0) (model : Int) (hm : model ≠ 1) (max min base delta : Rat) (pieces : List Rat) (xNo : Nat)
    (hd : IsStep ⟨model, 3, [a, b, c0]⟩ max pieces xNo delta)
    (hpos : 0 < delta) (hmax : 0 ≤ max) (hb : base ≠ 0) (L : List (Option (Rat × Rat)))
    (h : setCostCurve ⟨model, 3, [a, b, c0]⟩ max min pieces xNo base = .ok L) (hL : 2 ≤ L.length)
    (np : Nat) (hnp : L.length ≤ np) (c w : Rat) (hw : 0 < w)
    (hc : CostOk L np c (min / base) w) :
    w * (a * min ^ 2 + b * min + c0) < c := by
  obtain ⟨L', e, hl, hk⟩ := setCostCurve_poly (d := ⟨model, 3, [a, b, c0]⟩) (min := min) (base := base) hm (by simp) (by simp) hd hpos hmax
  rw [h, Except.ok.injEq] at e
  subst e
  rw [← hl] at hk
  simp only [show List.take 3 [a, b, c0] = [a, b, c0] from rfl] at hk
  have hx : ∀ i < L.length, min + (i : Rat) * delta < min + ((i + 1 : Nat) : Rat) * delta := by
    intro i _; push_cast; linarith
  rw [costOk_iff L base hb (fun i => min + (i : Rat) * delta) (fun i => gcPoly [a, b, c0] (min + (i : Rat) * delta)) L.length rfl hx hk np hnp _ _ w hw] at hc
  have := hc.2 1 (by omega)
  refine lt_of_lt_of_le ?_ this
  refine mul_lt_mul_of_pos_left ?_ hw
  have hq := gcChord_quadratic a b c0 (min + ((1 : Nat) : Rat) * delta) (min + ((2 : Nat) : Rat) * delta) min (by push_cast; intro h; nlinarith)
  rw [gcPoly_quadratic (p := min)] at hq
  have h3 : a * (min - (min + ((1 : Nat) : Rat) * delta)) * (min + ((2 : Nat) : Rat) * delta - min) = -2 * a * delta ^ 2 := by push_cast; ring
  have : 0 < -2 * a * delta ^ 2 := mul_pos (by linarith) (pow_pos hpos 2)
  show _ < chordAt (min + ((1 : Nat) : Rat) * delta) (gcPoly [a, b, c0] (min + ((1 : Nat) : Rat) * delta))
    (min + ((2 : Nat) : Rat) * delta) (gcPoly [a, b, c0] (min + ((2 : Nat) : Rat) * delta)) min
  linarith

/-- the points read from the list of a piece-wise linear cost -/
theorem pwPoints_eq (cost : List Rat) (xs ys : Nat → Rat) : ∀ (n xp : Nat), (∀ i < n, cost[xp + 2 * i]? = some (xs i) ∧ cost[xp + 2 * i + 1]? = some (ys i)) →
    ∃ pts : List (Rat × Rat), pwPoints cost n xp = .ok pts ∧ pts.length = n ∧ ∀ k < n, pts[k]? = some (xs k, ys k)
  | 0, xp, _ => ⟨[], rfl, rfl, by intro k hk; omega⟩
  | n + 1, xp, h => by
      obtain ⟨pts, e, hl, hk⟩ := pwPoints_eq cost (fun i => xs (i + 1)) (fun i => ys (i + 1)) n (xp + 2) (by
        intro i hi
        have := h (i + 1) (by omega)
        rwa [show xp + 2 * (i + 1) = xp + 2 + 2 * i by ring] at this)
      obtain ⟨h0, h1⟩ := h 0 (by omega)
      refine ⟨(xs 0, ys 0) :: pts, ?_, by simp [hl], ?_⟩
      · unfold pwPoints
        rw [(pyGet_nat_iff cost xp _).2 (by simpa using h0), (pyGet_nat_iff cost (xp + 1) _).2 (by simpa using h1), e]; rfl
      · intro k hkn
        cases k with
        | zero => simp
        | succ k => rw [List.getElem?_cons_succ, hk k (by omega)]

/-- **C55**.  For a piece-wise linear cost with `n + 1` points of growing output the table has `n` lines, and line `k`
gives the costs of points `k` and `k + 1`; if the slopes do not decrease, the admissible costs of an output between two
consecutive points are exactly those from `w` times the broken line on. -/
theorem C55_piecewise_partial (cost : List Rat) (n : Nat) (xs ys : Nat → Rat)
    (hpts : ∀ i < n + 1, cost[2 * i]? = some (xs i) ∧ cost[2 * i + 1]? = some (ys i)) (hx : ∀ i < n, xs i < xs (i + 1))
    (max min base : Rat) (pieces : List Rat) (xNo : Nat) (hb : base ≠ 0) :
    ∃ L : List (Option (Rat × Rat)), setCostCurve ⟨1, n + 1, cost⟩ max min pieces xNo base = .ok L ∧ L.length = n ∧
      (∀ k < n, ∃ l : Rat × Rat, L[k]? = some (some l) ∧ LineGives l base (xs k) (ys k) ∧
        LineGives l base (xs (k + 1)) (ys (k + 1))) ∧
      ((∀ i, i + 1 < n → (ys (i + 1) - ys i) / (xs (i + 1) - xs i) ≤ (ys (i + 2) - ys (i + 1)) / (xs (i + 2) - xs (i + 1))) →
        ∀ k < n, ∀ p, xs k ≤ p → p ≤ xs (k + 1) → ∀ np, n ≤ np → ∀ c w, 0 < w →
          (CostOk L np c (p / base) w ↔ 0 ≤ c ∧ w * chordAt (xs k) (ys k) (xs (k + 1)) (ys (k + 1)) p ≤ c)) := by
  obtain ⟨pts, e, hl, hk⟩ := pwPoints_eq cost xs ys (n + 1) 0 (by simpa using hpts)
  have hL : ∀ k < n, (gcLines base pts)[k]? = some (gcLine base (xs k, ys k) (xs (k + 1), ys (k + 1))) :=
    fun k hkn => gcLines_get base pts k _ _ (hk k (by omega)) (hk (k + 1) (by omega))
  have hlen : (gcLines base pts).length = n := by rw [gcLines_length, hl]; omega
  refine ⟨gcLines base pts, ?_, hlen, ?_, ?_⟩
  · unfold setCostCurve
    rw [if_pos rfl, e]
    simp [bind, Except.bind]
  · intro k hkn
    have h1 := hL k hkn
    rw [gcLine_some _ _ _ (ne_of_lt (hx k hkn))] at h1
    refine ⟨_, h1, ?_, ?_⟩
    · have := lineGives_chord base hb (xs k, ys k) (xs (k + 1), ys (k + 1)) (xs k)
      rwa [show chordAt (xs k, ys k).1 (xs k, ys k).2 (xs (k + 1), ys (k + 1)).1 (xs (k + 1), ys (k + 1)).2 (xs k) = ys k from chordAt_left _ _ _ _] at this
    · have := lineGives_chord base hb (xs k, ys k) (xs (k + 1), ys (k + 1)) (xs (k + 1))
      rwa [show chordAt (xs k, ys k).1 (xs k, ys k).2 (xs (k + 1), ys (k + 1)).1 (xs (k + 1), ys (k + 1)).2 (xs (k + 1)) = ys (k + 1) from
        chordAt_right _ _ _ _ (ne_of_lt (hx k hkn))] at this
  · intro hs k hkn p hp1 hp2 np hnp c w hw
    rw [costOk_iff _ base hb xs ys n hlen hx hL np hnp c p w hw]
    refine and_congr_right fun _ => ⟨fun h => h k hkn, fun h j hj => le_trans (mul_le_mul_of_nonneg_left ?_ hw.le) h⟩
    exact lines_max xs ys n k hkn hx hs p (Or.inl hp1) (Or.inl hp2) j hj

/-- **C55**.  A hydropower or RES unit of cost `c` per MWh costs at least `w·c·P` for an output of `P` MW, and no more is
required of a non-negative cost. -/
theorem C55_unit_partial (cu max min base : Rat) (pieces : List Rat) (xNo : Nat) (hb : base ≠ 0) :
    ∃ L : List (Option (Rat × Rat)), setCostCurve (unitCost cu) max min pieces xNo base = .ok L ∧ L.length = 1 ∧
      ∀ np, 1 ≤ np → ∀ p c w, 0 < w → (CostOk L np c (p / base) w ↔ 0 ≤ c ∧ w * (cu * p) ≤ c) := by
  refine ⟨gcLines base [(0, 0), (1, cu)], rfl, rfl, fun np hnp p c w hw => ?_⟩
  have h := costOk_iff (gcLines base [(0, 0), (1, cu)]) base hb (fun i => (i : Rat)) (fun i => if i = 0 then 0 else cu) 1 rfl
    (by intro i hi; simp) (by intro k hk; obtain rfl : k = 0 := by omega
                              simp [gcLines]) np hnp c p w hw
  rw [h]
  refine and_congr_right fun _ => ⟨fun h => ?_, fun h j hj => ?_⟩
  · have := h 0 (by omega)
    simp only [chordAt] at this
    norm_num at this
    linarith
  · obtain rfl : j = 0 := by omega
    simp only [chordAt]
    norm_num
    linarith

/-! ## C102: the objective -/

theorem gcSum_sub (l : List Nat) (f g : Nat → Rat) : (l.map f).sum - (l.map g).sum = (l.map (fun x => f x - g x)).sum := by
  induction l with
  | nil => simp
  | cons a l ih => simp only [List.map_cons, List.sum_cons]; rw [← ih]; ring

theorem sum_map_mul' (l : List Nat) (f : Nat → Rat) (c : Rat) : c * (l.map f).sum = (l.map (fun x => c * f x)).sum := by
  induction l with
  | nil => simp
  | cons a l ih => simp only [List.map_cons, List.sum_cons]; rw [← ih]; ring

theorem gcSum_add (l : List Nat) (f g : Nat → Rat) : (l.map f).sum + (l.map g).sum = (l.map (fun x => f x + g x)).sum := by
  induction l with
  | nil => simp
  | cons a l ih => simp only [List.map_cons, List.sum_cons]; rw [← ih]; ring

theorem sum_comm' (l1 l2 : List Nat) (f : Nat → Nat → Rat) :
    (l1.map (fun a => (l2.map (fun b => f a b)).sum)).sum = (l2.map (fun b => (l1.map (fun a => f a b)).sum)).sum := by
  induction l1 with
  | nil => simp
  | cons a l ih =>
    simp only [List.map_cons, List.sum_cons]
    rw [ih, gcSum_add]

/-- the objective the user expects: every period counts with its weight; `hourly g t` is the cost of generator `g` in
period `t` per unit of weight -/
def expectedObjective (noGen noFea noPump noTime : Nat) (w : Nat → Rat) (value : Nat → Rat) (base : Rat)
    (hourly fea pump : Nat → Nat → Rat) : Rat :=
  ((List.range noTime).map (fun t => w t *
    (((List.range noGen).map (fun g => hourly g t)).sum + 1000000 * ((List.range noFea).map (fun f => fea f t)).sum
      - ((List.range noPump).map (fun k => value k * base * pump (k + 1) t)).sum))).sum

/-- **C102**.  The objective is the weighted sum over the periods of the cost variables, of the curtailment at the penalty
price and of minus the value of pumping. -/
theorem C102_objective_partial (noGen noFea noPump noTime : Nat) (w value : Nat → Rat) (base : Rat) (gcost fea pump : Nat → Nat → Rat) :
    networkObjective noGen noFea noPump noTime w value base gcost fea pump =
      expectedObjective noGen noFea noPump noTime w value base gcost fea pump := by
  unfold networkObjective expectedObjective
  have e : ((List.range noPump).map (fun xdl => value xdl * base * ((List.range noTime).map (fun xt => pump (xdl + 1) xt * w xt)).sum)).sum
      = ((List.range noTime).map (fun t => w t * ((List.range noPump).map (fun k => value k * base * pump (k + 1) t)).sum)).sum := by
    simp only [sum_map_mul']
    rw [sum_comm']
    congr 1
    refine List.map_congr_left fun t _ => ?_
    congr 1
    refine List.map_congr_left fun k _ => ?_
    ring
  rw [e, gcSum_sub]
  congr 1
  refine List.map_congr_left fun t _ => ?_
  ring

/-- **C102**, violated.  The cost variables already carry the weight of the period (C55_convex_partial: the smallest admissible
cost is `w` times the hourly cost), so the objective counts generation costs with the square of the weight: it exceeds
the expected objective by `Σ w·(w-1)·hourly cost`. -/
theorem C102_weights_violated (noGen noFea noPump noTime : Nat) (w value : Nat → Rat) (base : Rat)
    (hourly gcost fea pump : Nat → Nat → Rat) (hg : ∀ g < noGen, ∀ t < noTime, gcost g t = w t * hourly g t) :
    networkObjective noGen noFea noPump noTime w value base gcost fea pump =
      expectedObjective noGen noFea noPump noTime w value base hourly fea pump +
        ((List.range noTime).map (fun t => w t * (w t - 1) * ((List.range noGen).map (fun g => hourly g t)).sum)).sum := by
  rw [C102_objective_partial]
  unfold expectedObjective
  rw [gcSum_add]
  congr 1
  refine List.map_congr_left fun t ht => ?_
  have : ((List.range noGen).map (fun g => gcost g t)).sum = w t * ((List.range noGen).map (fun g => hourly g t)).sum := by
    rw [sum_map_mul']
    congr 1
    exact List.map_congr_left fun g hgm => hg g (List.mem_range.1 hgm) t (List.mem_range.1 ht)
  rw [this]; ring

/-- **C102**.  With all weights one the objective is the expected one. -/
theorem C102_unit_weights_partial (noGen noFea noPump noTime : Nat) (w value : Nat → Rat) (base : Rat)
    (hourly gcost fea pump : Nat → Nat → Rat) (hw : ∀ t < noTime, w t = 1) (hg : ∀ g < noGen, ∀ t < noTime, gcost g t = w t * hourly g t) :
    networkObjective noGen noFea noPump noTime w value base gcost fea pump =
      expectedObjective noGen noFea noPump noTime w value base hourly fea pump := by
  rw [C102_weights_violated noGen noFea noPump noTime w value base hourly gcost fea pump hg]
  have : ((List.range noTime).map (fun t => w t * (w t - 1) * ((List.range noGen).map (fun g => hourly g t)).sum)).sum = 0 := by
    rw [List.map_congr_left (g := fun _ => (0 : Rat)) (fun t ht => by rw [hw t (List.mem_range.1 ht)]; ring)]
    simp
  rw [this, add_zero]

/-! ## Examples: the hypotheses are met -/

/-- a quadratic cost over 0-90 MW in steps of 30 for a 100 MW unit: the range up to 100 MW is not covered -/
example : IsStep ⟨2, 3, [1/10, 20, 100]⟩ 100 [30] 0 30 ∧ ⌊(100 : Rat) / 30⌋.toNat = 3 ∧
    setCostCurve ⟨2, 3, [1/10, 20, 100]⟩ 100 0 [30] 0 100 =
      .ok [some (2300, 100), some (2900, -80), some (3500, -440)] := by
  refine ⟨Or.inr (Or.inl rfl), by decide +kernel, by decide +kernel⟩

/-- a concave cost, and a piece-wise linear one -/
example : (setCostCurve ⟨2, 3, [-1/10, 20, 100]⟩ 90 0 [] 0 100).toOption.isSome ∧
    setCostCurve ⟨1, 3, [0, 0, 10, 100, 20, 400]⟩ 20 0 [] 0 10 = .ok [some (100, 0), some (300, -200)] := by
  decide +kernel

end Pyensys
