import Verif.Model.EngineCost
import Verif.Props.CostCurve
import Verif.Props.EngineData
import Verif.Lemmas.Engine

/-!
# The generation cost of the compiled engine (C201)
-/

namespace Pyensys

/-! ## Specification -/

/-- the costs that the rows of a generator admit for an output `p` in per unit: `slope · p − cost ≤ bound` for each piece, and the cost is not negative -/
def CCostOk (slopes bounds : List Rat) (p c : Rat) : Prop :=
  0 ≤ c ∧ ∀ (i : Nat) (s u : Rat), slopes[i]? = some s → bounds[i]? = some u → s * p - c ≤ u

/-- a cost that is given as a polynomial, or as points, with a number of pieces, not yet linearised -/
structure CCost (info : CInfo) (model n : Nat) (cs : List Rat) : Prop where
  model : (cGetChar info.chars "model".toList).value = .int model
  pieces : (cGetChar info.chars "pieces".toList).value = .int n
  coeffs : (cGetChar info.chars "coefficients".toList).values = cs.map .dbl
  noSlopes : cHas info.chars "slopes".toList = false
  noIntercepts : cHas info.chars "y_intercepts".toList = false

/-- the entry with its lines, as the engine keeps it -/
def cWithLines (info : CInfo) (L : List (Rat × Rat)) : CInfo := ⟨(cLineChars L).foldl (fun l c => cSetChar l c true) info.chars, info.value⟩

/-! ## Lemmas -/

theorem gcPoly_cons (c : Rat) (l : List Rat) (x : Rat) : gcPoly (c :: l) x = c * x ^ l.length + gcPoly l x := by
  have key : ∀ (l : List Rat) (a : Rat), l.foldl (fun a c => a * x + c) a = a * x ^ l.length + l.foldl (fun a c => a * x + c) 0 := by
    intro l
    induction l with
    | nil => intro a; simp
    | cons d l ih =>
      intro a
      rw [List.foldl_cons, List.foldl_cons, ih, ih (0 * x + d), List.length_cons, pow_succ]
      ring
  unfold gcPoly
  rw [List.foldl_cons, key]
  ring

theorem cPolyAt_eq (x : Rat) (cs : List Rat) : cPolyAt x (cs.map .dbl) = .ok (gcPoly cs x) := by
  induction cs with
  | nil => rfl
  | cons c cs ih =>
    rw [List.map_cons, cPolyAt, ih, gcPoly_cons, List.length_map]
    rfl

theorem cSteps_eq (base step : Rat) (cs : List Rat) : ∀ (n : Nat) (x : Rat),
    cSteps base step (cs.map .dbl) n x = .ok ((List.range n).map (fun k : Nat => (x + k * step, CVal.dbl (gcPoly cs ((x + k * step) * base))))) := by
  intro n
  induction n with
  | zero => intro x; rfl
  | succ n ih =>
    intro x
    rw [cSteps, cPolyAt_eq, ih, List.range_succ_eq_map, List.map_cons, List.map_map]
    show Except.ok _ = _
    congr 2
    · simp
    · apply List.map_congr_left
      intro k _
      simp only [Function.comp_apply, Nat.succ_eq_add_one]
      push_cast
      ring_nf

/-- the lines of points with numbers, increasing or not -/
theorem cLines_eq (xs ys : Nat → Rat) : ∀ (n k : Nat), cLines ((List.range' k (n + 1)).map (fun k => (xs k, CVal.dbl (ys k)))) =
    .ok ((List.range' k n).map (fun k =>
      let s := if xs (k + 1) - xs k ≠ 0 then (ys (k + 1) - ys k) / (xs (k + 1) - xs k) else 0
      (s, ys k - xs k * s))) := by
  intro n
  induction n with
  | zero => intro k; rfl
  | succ n ih =>
    intro k
    have e1 : List.range' k (n + 1 + 1) = k :: List.range' (k + 1) (n + 1) := rfl
    have e2 : List.range' (k + 1) (n + 1) = (k + 1) :: List.range' (k + 2) n := rfl
    have h := ih (k + 1)
    rw [e2, List.map_cons] at h
    rw [e1, e2, List.map_cons, List.map_cons, cLines, h]
    have hs : cSlope (xs k, CVal.dbl (ys k)) (xs (k + 1), CVal.dbl (ys (k + 1))) = .ok (if xs (k + 1) - xs k ≠ 0 then (ys (k + 1) - ys k) / (xs (k + 1) - xs k) else 0) := by
      unfold cSlope
      dsimp only
      split <;> rfl
    rw [hs]
    rfl

theorem cSetChar_new {l : List CChar} {c : CChar} (vec : Bool) (h : cHas l c.name = false) : cSetChar l c vec = l ++ [c] := by
  induction l with
  | nil => rfl
  | cons e l ih =>
    unfold cHas at h
    rw [List.any_cons, Bool.or_eq_false_iff] at h
    rw [cSetChar, if_neg (of_decide_eq_false h.1), ih h.2]
    rfl

theorem cHas_append (l l' : List CChar) (n : Tok) : cHas (l ++ l') n = (cHas l n || cHas l' n) := by
  unfold cHas; rw [List.any_append]

theorem cGetChar_append (l l' : List CChar) (n : Tok) : cGetChar (l ++ l') n = if cHas l n = true then cGetChar l n else cGetChar l' n := by
  unfold cGetChar cHas
  rw [List.find?_append]
  induction l with
  | nil => rfl
  | cons e l ih =>
    rw [List.find?_cons, List.any_cons]
    by_cases h : e.name = n
    · simp [h]
    · simp only [h, decide_false, Bool.false_or]
      exact ih

theorem cWithLines_chars {info : CInfo} (L : List (Rat × Rat)) (h1 : cHas info.chars "slopes".toList = false) (h2 : cHas info.chars "y_intercepts".toList = false) :
    (cWithLines info L).chars = info.chars ++ cLineChars L := by
  unfold cWithLines cLineChars
  dsimp only [List.foldl_cons, List.foldl_nil]
  have e := @cSetChar_new info.chars ⟨"slopes".toList, cNA, L.map (fun l => .dbl l.1)⟩ true h1
  rw [e, cSetChar_new true, List.append_assoc]
  · rfl
  · rw [cHas_append]
    show (cHas info.chars "y_intercepts".toList || _) = _
    rw [h2]
    rfl

theorem cHas_of_int {l : List CChar} {n : Tok} {i : Int} (h : (cGetChar l n).value = .int i) : cHas l n = true := by
  by_contra hc
  rw [Bool.not_eq_true] at hc
  have : l.find? (fun c => decide (c.name = n)) = none := by
    rw [List.find?_eq_none]
    intro c hcm hcn
    unfold cHas at hc
    rw [List.any_eq_false] at hc
    exact hc c hcm hcn
  unfold cGetChar at h
  rw [this] at h
  cases h

/-- what the rows of a linearised cost are -/
theorem cRows_eq {info : CInfo} {m n : Nat} {cs : List Rat} (hi : CCost info m n cs) (L : List (Rat × Rat)) (hL : n ≤ L.length) :
    cRowSlopes (cWithLines info L) = .ok ((L.take n).map (·.1)) ∧ cRowBounds (cWithLines info L) = .ok ((L.take n).map (fun l => -l.2)) := by
  have hc := cWithLines_chars L hi.noSlopes hi.noIntercepts
  have hp : (cGetChar (cWithLines info L).chars "pieces".toList).value = .int n := by
    rw [hc, cGetChar_append, if_pos (cHas_of_int hi.pieces), hi.pieces]
  have hs : (cGetChar (cWithLines info L).chars "slopes".toList).values = L.map (fun l => .dbl l.1) := by
    rw [hc, cGetChar_append, hi.noSlopes]
    rfl
  have hy : (cGetChar (cWithLines info L).chars "y_intercepts".toList).values = L.map (fun l => .dbl l.2) := by
    rw [hc, cGetChar_append, hi.noIntercepts]
    unfold cGetChar cLineChars
    rfl
  have e : L.take n = (List.range n).map (fun i : Nat => L[i]?.getD (0, 0)) := by
    apply List.ext_getElem?
    intro i
    by_cases hi : i < n
    · have hiL : i < L.length := by omega
      simp [hi, hiL]
    · simp [hi]
  constructor
  · unfold cRowSlopes
    rw [hp, hs, e, List.map_map]
    refine mapE_all _ _ _ ?_
    intro i hi
    have hiL : i < L.length := by have := List.mem_range.1 hi; simp at this; omega
    unfold cVecAt
    simp only [List.getElem?_map, List.getElem?_eq_getElem hiL, Option.map_some, Function.comp_apply, Option.getD_some]
    rfl
  · unfold cRowBounds
    rw [hp, hy, e, List.map_map]
    refine mapE_all _ _ _ ?_
    intro i hi
    have hiL : i < L.length := by have := List.mem_range.1 hi; simp at this; omega
    unfold cVecAt
    simp only [List.getElem?_map, List.getElem?_eq_getElem hiL, Option.map_some, Function.comp_apply, Option.getD_some]
    rfl


/-- the line through two points, as slope and intercept -/
def cLine (xs ys : Nat → Rat) (k : Nat) : Rat × Rat :=
  let s := if xs (k + 1) - xs k ≠ 0 then (ys (k + 1) - ys k) / (xs (k + 1) - xs k) else 0
  (s, ys k - xs k * s)

theorem cLine_chord (xs ys : Nat → Rat) (k : Nat) (h : xs k < xs (k + 1)) (p : Rat) :
    (cLine xs ys k).1 * p + (cLine xs ys k).2 = chordAt (xs k) (ys k) (xs (k + 1)) (ys (k + 1)) p := by
  unfold cLine chordAt
  dsimp only
  rw [if_pos (by intro h0; linarith)]
  ring

theorem chordAt_scale (a fa b fb p base : Rat) (hb : base ≠ 0) : chordAt (a * base) fa (b * base) fb (p * base) = chordAt a fa b fb p := by
  unfold chordAt
  rw [← sub_mul, ← sub_mul]
  by_cases h : b - a = 0
  · rw [h]; simp
  · field_simp

/-- rows through consecutive points: what they say together -/
theorem cCostOk_lines (xs ys : Nat → Rat) (n : Nat) (hx : ∀ i < n, xs i < xs (i + 1)) (p c : Rat) :
    CCostOk (((List.range n).map (cLine xs ys)).map (·.1)) (((List.range n).map (cLine xs ys)).map (fun l => -l.2)) p c ↔
      0 ≤ c ∧ ∀ i < n, chordAt (xs i) (ys i) (xs (i + 1)) (ys (i + 1)) p ≤ c := by
  unfold CCostOk
  constructor
  · rintro ⟨h0, h⟩
    refine ⟨h0, fun i hi => ?_⟩
    have := h i (cLine xs ys i).1 (-(cLine xs ys i).2) (by simp [hi]) (by simp [hi])
    rw [← cLine_chord xs ys i (hx i hi)]
    linarith
  · rintro ⟨h0, h⟩
    refine ⟨h0, fun i s u hs hu => ?_⟩
    have hi : i < n := by
      have := (List.getElem?_eq_some_iff.1 hs).1
      simpa using this
    simp [hi] at hs hu
    have := h i hi
    rw [← cLine_chord xs ys i (hx i hi)] at this
    rw [← hs, ← hu]
    linarith

theorem cLinearise_poly {info : CInfo} {n : Nat} {cs : List Rat} (hi : CCost info 2 n cs) (base max min : Rat) :
    cLinearise info base max min = .ok ((List.range n).map (cLine (fun k => min + k * (max / n)) (fun k => gcPoly cs ((min + k * (max / n)) * base)))) := by
  have e : cBreakpoints info base max min = .ok ((List.range (n + 1)).map (fun k : Nat => (min + k * (max / n), CVal.dbl (gcPoly cs ((min + k * (max / n)) * base))))) := by
    unfold cBreakpoints
    rw [hi.model, hi.pieces, hi.coeffs]
    show cSteps base (max / ((n : Int) : Rat)) (cs.map .dbl) ((n : Int) + 1).toNat min = _
    rw [show ((n : Int) + 1).toNat = n + 1 from by omega, cSteps_eq]
    norm_cast
  unfold cLinearise
  rw [e]
  have hne : (List.range (n + 1)).map (fun k : Nat => (min + k * (max / n), CVal.dbl (gcPoly cs ((min + k * (max / n)) * base)))) ≠ [] := by simp
  show (if _ = [] then _ else _) = _
  rw [if_neg hne, List.range_eq_range', List.range_eq_range']
  exact cLines_eq (fun k => min + k * (max / n)) (fun k => gcPoly cs ((min + k * (max / n)) * base)) n 0

/-- **C201.** The break points of a polynomial cost are `pieces + 1` equidistant outputs from the smallest output on with steps of `max / pieces`, and the cost there is that of the polynomial at the output in MW; each piece gives the row of the line through two of them. -/
theorem C201_points_partial (info : CInfo) (n : Nat) (cs : List Rat) (hi : CCost info 2 n cs) (base max min : Rat) (hmax : 0 < max) :
    ∃ L sl ub, cLinearise info base max min = .ok L ∧ cRowSlopes (cWithLines info L) = .ok sl ∧ cRowBounds (cWithLines info L) = .ok ub ∧
      sl.length = n ∧ ub.length = n ∧ ∀ k < n, ∃ s u, sl[k]? = some s ∧ ub[k]? = some u ∧
        s * (min + k * (max / n)) - gcPoly cs ((min + k * (max / n)) * base) = u ∧
        s * (min + (k + 1) * (max / n)) - gcPoly cs ((min + (k + 1) * (max / n)) * base) = u := by
  refine ⟨_, _, _, cLinearise_poly hi base max min, (cRows_eq hi _ (by simp)).1, (cRows_eq hi _ (by simp)).2, by simp, by simp, ?_⟩
  intro k hk
  have hn : (0 : Rat) < n := by exact_mod_cast (show 0 < n by omega)
  have hd : 0 < max / n := div_pos hmax hn
  let xs : Nat → Rat := fun k => min + k * (max / n)
  let ys : Nat → Rat := fun k => gcPoly cs ((min + k * (max / n)) * base)
  have hlt : xs k < xs (k + 1) := by simp only [xs]; push_cast; linarith
  refine ⟨(cLine xs ys k).1, -(cLine xs ys k).2, by simp [hk, xs, ys], by simp [hk, xs, ys], ?_, ?_⟩
  · have := cLine_chord xs ys k hlt (xs k)
    rw [chordAt_left] at this
    simp only [xs, ys] at this ⊢
    linarith
  · have := cLine_chord xs ys k hlt (xs (k + 1))
    rw [chordAt_right _ _ _ _ (ne_of_lt hlt)] at this
    simp only [xs, ys] at this ⊢
    push_cast at this ⊢
    linarith

/-- **C201.** For a convex polynomial cost, the costs admitted for an output within the break points are those from the broken line through them on; that line is nowhere below the polynomial. -/
theorem C201_convex_partial (info : CInfo) (n : Nat) (cs : List Rat) (hi : CCost info 2 n cs) (base max min : Rat) (hb : 0 < base) (hmax : 0 < max)
    (hf : ConvexOn ℚ (Set.Icc (min * base) (min * base + n * (max / n * base))) (gcPoly cs)) :
    ∃ L sl ub, cLinearise info base max min = .ok L ∧ cRowSlopes (cWithLines info L) = .ok sl ∧ cRowBounds (cWithLines info L) = .ok ub ∧
      ∀ k < n, ∀ p c, min + k * (max / n) ≤ p → p ≤ min + (k + 1 : Nat) * (max / n) →
        (CCostOk sl ub p c ↔ 0 ≤ c ∧ chordAt (min * base + k * (max / n * base)) (gcPoly cs (min * base + k * (max / n * base)))
          (min * base + (k + 1 : Nat) * (max / n * base)) (gcPoly cs (min * base + (k + 1 : Nat) * (max / n * base))) (p * base) ≤ c) := by
  refine ⟨_, _, _, cLinearise_poly hi base max min, (cRows_eq hi _ (by simp)).1, (cRows_eq hi _ (by simp)).2, ?_⟩
  intro k hk p c h1 h2
  have hn : (0 : Rat) < n := by exact_mod_cast (show 0 < n by omega)
  have hd : 0 < max / n := div_pos hmax hn
  let xs : Nat → Rat := fun k => min + k * (max / n)
  let ys : Nat → Rat := fun k => gcPoly cs ((min + k * (max / n)) * base)
  let zs : Nat → Rat := fun k => min * base + k * (max / n * base)
  have hxz : ∀ i, xs i * base = zs i := by intro i; simp only [xs, zs]; ring
  have hyz : ∀ i, ys i = gcPoly cs (zs i) := by intro i; simp only [ys, ← hxz]; rfl
  have hlt : ∀ i < n, xs i < xs (i + 1) := by intro i _; simp only [xs]; push_cast; linarith
  rw [List.take_of_length_le (by simp)]
  rw [show (fun k : Nat => min + (k : Rat) * (max / n)) = xs from rfl, show (fun k : Nat => gcPoly cs ((min + (k : Rat) * (max / n)) * base)) = ys from rfl]
  rw [cCostOk_lines xs ys n hlt]
  have ech : ∀ i, chordAt (xs i) (ys i) (xs (i + 1)) (ys (i + 1)) p = chordAt (zs i) (gcPoly cs (zs i)) (zs (i + 1)) (gcPoly cs (zs (i + 1))) (p * base) := by
    intro i
    rw [← hyz, ← hyz, ← hxz, ← hxz, chordAt_scale _ _ _ _ _ _ (ne_of_gt hb)]
  have hz : ∀ i < n, zs i < zs (i + 1) := by
    intro i hi
    rw [← hxz, ← hxz]
    exact mul_lt_mul_of_pos_right (hlt i hi) hb
  have hmaxl := lines_max zs (fun i => gcPoly cs (zs i)) n k hk hz (fun i hi => convex_slopes (gcPoly cs) (min * base) (max / n * base) n (mul_pos hd hb) hf i hi)
    (p * base) (Or.inl (by rw [← hxz]; exact mul_le_mul_of_nonneg_right h1 hb.le)) (Or.inl (by rw [← hxz]; exact mul_le_mul_of_nonneg_right h2 hb.le))
  constructor
  · rintro ⟨h0, h⟩
    exact ⟨h0, (ech k) ▸ h k hk⟩
  · rintro ⟨h0, h⟩
    refine ⟨h0, fun i hi => ?_⟩
    rw [ech]
    exact le_trans (hmaxl i hi) h

/-- **C201.** For a quadratic cost with a leading coefficient that is not negative, the smallest cost admitted for an output within the break points is at least the quadratic cost of the output in MW and exceeds it by at most `a · Δ² / 4`, where `Δ` is the step in MW. -/
theorem C201_quadratic_partial (info : CInfo) (n : Nat) (a b c0 : Rat) (ha : 0 ≤ a) (hi : CCost info 2 n [a, b, c0]) (hn : 1 ≤ n) (base max min : Rat) (hb : 0 < base) (hmax : 0 < max) :
    ∃ L sl ub, cLinearise info base max min = .ok L ∧ cRowSlopes (cWithLines info L) = .ok sl ∧ cRowBounds (cWithLines info L) = .ok ub ∧
      ∀ p, min ≤ p → p ≤ min + max → 0 ≤ a * (p * base) ^ 2 + b * (p * base) + c0 →
        ∃ least, (∀ c, CCostOk sl ub p c ↔ least ≤ c) ∧ a * (p * base) ^ 2 + b * (p * base) + c0 ≤ least ∧
          least ≤ a * (p * base) ^ 2 + b * (p * base) + c0 + a * (max / n * base) ^ 2 / 4 := by
  obtain ⟨L, sl, ub, h1, h2, h3, h4⟩ := C201_convex_partial info n [a, b, c0] hi base max min hb hmax (quadratic_convex a b c0 ha _ (convex_Icc _ _))
  refine ⟨L, sl, ub, h1, h2, h3, ?_⟩
  intro p hp1 hp2 hc
  have hn' : (0 : Rat) < n := by exact_mod_cast hn
  have hd : 0 < max / n := div_pos hmax hn'
  obtain ⟨k, hk, hkp⟩ : ∃ k < n, min + (k : Rat) * (max / n) ≤ p ∧ p ≤ min + ((k + 1 : Nat) : Rat) * (max / n) := by
    have : ∀ m : Nat, 0 < m → p ≤ min + m * (max / n) → ∃ k < m, min + (k : Rat) * (max / n) ≤ p ∧ p ≤ min + ((k + 1 : Nat) : Rat) * (max / n) := by
      intro m
      induction m with
      | zero => intro h; omega
      | succ m ih =>
        intro _ hpm
        by_cases h : min + (m : Rat) * (max / n) ≤ p
        · exact ⟨m, by omega, h, hpm⟩
        · have hm : 0 < m := by
            rcases Nat.eq_zero_or_pos m with rfl | h'
            · exfalso; apply h; simpa using hp1
            · exact h'
          obtain ⟨k, h1, h2⟩ := ih hm (by linarith)
          exact ⟨k, by omega, h2⟩
    refine this n hn ?_
    rw [show (n : Rat) * (max / n) = max from by field_simp]
    exact hp2
  have main := fun c => h4 k hk p c hkp.1 hkp.2
  have hne : min * base + (k : Rat) * (max / n * base) ≠ min * base + ((k + 1 : Nat) : Rat) * (max / n * base) := by
    push_cast
    intro h
    have := mul_pos hd hb
    linarith
  have hch := gcChord_quadratic a b c0 (min * base + k * (max / n * base)) (min * base + ((k + 1 : Nat) : Rat) * (max / n * base)) (p * base) hne
  set ch := chordAt (min * base + k * (max / n * base)) (gcPoly [a, b, c0] (min * base + k * (max / n * base))) (min * base + ((k + 1 : Nat) : Rat) * (max / n * base))
    (gcPoly [a, b, c0] (min * base + ((k + 1 : Nat) : Rat) * (max / n * base))) (p * base) with hchdef
  rw [gcPoly_quadratic] at hch
  have u0 : 0 ≤ p * base - (min * base + k * (max / n * base)) := by
    rw [show p * base - (min * base + k * (max / n * base)) = (p - (min + k * (max / n))) * base from by ring]
    exact mul_nonneg (by linarith [hkp.1]) hb.le
  have v0 : 0 ≤ min * base + ((k + 1 : Nat) : Rat) * (max / n * base) - p * base := by
    rw [show min * base + ((k + 1 : Nat) : Rat) * (max / n * base) - p * base = (min + ((k + 1 : Nat) : Rat) * (max / n) - p) * base from by ring]
    exact mul_nonneg (by linarith [hkp.2]) hb.le
  have hsum : (p * base - (min * base + k * (max / n * base))) + (min * base + ((k + 1 : Nat) : Rat) * (max / n * base) - p * base) = max / n * base := by push_cast; ring
  generalize p * base - (min * base + k * (max / n * base)) = u at *
  generalize min * base + ((k + 1 : Nat) : Rat) * (max / n * base) - p * base = v at *
  have e1 : 0 ≤ a * u * v := mul_nonneg (mul_nonneg ha u0) v0
  have e2 : a * u * v ≤ a * (max / n * base) ^ 2 / 4 := by
    rw [← hsum]
    have : 0 ≤ a * (u - v) ^ 2 := mul_nonneg ha (sq_nonneg _)
    nlinarith
  refine ⟨ch, fun c => ?_, by linarith, by linarith⟩
  rw [main c]
  exact ⟨fun h => h.2, fun h => ⟨by linarith, h⟩⟩

/-- **C201**, violated. The last break point is `min + max`, not `max`: with a negative smallest output (a load that can be controlled, a battery) and a strictly convex quadratic cost, the largest output is admitted at less than its cost. -/
theorem C201_range_violated (info : CInfo) (n : Nat) (a b c0 : Rat) (ha : 0 < a) (hi : CCost info 2 n [a, b, c0]) (hn : 1 ≤ n) (base max min : Rat) (hb : 0 < base) (hmax : 0 < max) (hmin : min < 0)
    (hc : 0 < a * (max * base) ^ 2 + b * (max * base) + c0) :
    ∃ L sl ub, cLinearise info base max min = .ok L ∧ cRowSlopes (cWithLines info L) = .ok sl ∧ cRowBounds (cWithLines info L) = .ok ub ∧
      ∃ c, CCostOk sl ub max c ∧ c < a * (max * base) ^ 2 + b * (max * base) + c0 := by
  refine ⟨_, _, _, cLinearise_poly hi base max min, (cRows_eq hi _ (by simp)).1, (cRows_eq hi _ (by simp)).2, ?_⟩
  have hn' : (0 : Rat) < n := by exact_mod_cast hn
  have hd : 0 < max / n := div_pos hmax hn'
  let xs : Nat → Rat := fun k => min + k * (max / n)
  let ys : Nat → Rat := fun k => gcPoly [a, b, c0] ((min + k * (max / n)) * base)
  have hlt : ∀ i < n, xs i < xs (i + 1) := by intro i _; simp only [xs]; push_cast; linarith
  have hle : ∀ i ≤ n, xs i < max := by
    intro i hi
    simp only [xs]
    have : (i : Rat) ≤ n := by exact_mod_cast hi
    have h2 : (i : Rat) * (max / n) ≤ n * (max / n) := mul_le_mul_of_nonneg_right this hd.le
    rw [show (n : Rat) * (max / n) = max from by field_simp] at h2
    linarith
  rw [List.take_of_length_le (by simp)]
  rw [show (fun k : Nat => min + (k : Rat) * (max / n)) = xs from rfl, show (fun k : Nat => gcPoly [a, b, c0] ((min + (k : Rat) * (max / n)) * base)) = ys from rfl]
  have hch : ∀ i < n, chordAt (xs i) (ys i) (xs (i + 1)) (ys (i + 1)) max < a * (max * base) ^ 2 + b * (max * base) + c0 := by
    intro i hi
    rw [← chordAt_scale _ _ _ _ _ base (ne_of_gt hb)]
    have := gcChord_quadratic a b c0 (xs i * base) (xs (i + 1) * base) (max * base) (ne_of_lt (mul_lt_mul_of_pos_right (hlt i hi) hb))
    rw [gcPoly_quadratic a b c0 (max * base)] at this
    have h1 : 0 < max * base - xs i * base := by
      rw [← sub_mul]; exact mul_pos (by linarith [hle i (by omega)]) hb
    have h2 : 0 < max * base - xs (i + 1) * base := by
      rw [← sub_mul]; exact mul_pos (by linarith [hle (i + 1) (by omega)]) hb
    have h3 := mul_pos (mul_pos ha h1) h2
    have e : chordAt (xs i * base) (ys i) (xs (i + 1) * base) (ys (i + 1)) (max * base) =
        chordAt (xs i * base) (gcPoly [a, b, c0] (xs i * base)) (xs (i + 1) * base) (gcPoly [a, b, c0] (xs (i + 1) * base)) (max * base) := rfl
    rw [e]
    nlinarith
  have key : ∀ (m : Nat) (f : Nat → Rat) (t : Rat), 0 < t → (∀ i < m, f i < t) → ∃ c, 0 ≤ c ∧ c < t ∧ ∀ i < m, f i ≤ c := by
    intro m
    induction m with
    | zero => intro f t ht _; exact ⟨0, le_refl _, ht, by intro i hi; omega⟩
    | succ m ih =>
      intro f t ht h
      obtain ⟨c, h1, h2, h3⟩ := ih f t ht (fun i hi => h i (by omega))
      refine ⟨Max.max c (f m), le_max_of_le_left h1, max_lt h2 (h m (by omega)), ?_⟩
      intro i hi
      rcases Nat.lt_succ_iff_lt_or_eq.1 hi with hi | rfl
      · exact le_max_of_le_left (h3 i hi)
      · exact le_max_right _ _
  obtain ⟨c, g1, g2, g3⟩ := key n _ _ hc hch
  exact ⟨c, (cCostOk_lines xs ys n hlt max c).2 ⟨g1, g3⟩, g2⟩


/-! ## Costs that are given as points -/

/-- the coefficients of points: output in MW and cost, one after the other -/
def cFlat (pts : List (Rat × Rat)) : List Rat := pts.flatMap (fun q => [q.1, q.2])

theorem cPairs_eq (base : Rat) (pts : List (Rat × Rat)) : cPairs base ((cFlat pts).map .dbl) = .ok (pts.map (fun q => (q.1 / base, CVal.dbl q.2))) := by
  induction pts with
  | nil => rfl
  | cons q l ih =>
    have e : (cFlat (q :: l)).map CVal.dbl = .dbl q.1 :: .dbl q.2 :: (cFlat l).map .dbl := rfl
    rw [e, cPairs, ih]
    rfl

theorem cLinearise_points {info : CInfo} {n m : Nat} {pts : List (Rat × Rat)} (hi : CCost info 1 n (cFlat pts)) (hm : pts.length = m + 1) (base max min : Rat) :
    cLinearise info base max min = .ok ((List.range m).map (cLine (fun k => (pts[k]?.getD (0, 0)).1 / base) (fun k => (pts[k]?.getD (0, 0)).2))) := by
  have e : cBreakpoints info base max min = .ok ((List.range (m + 1)).map (fun k : Nat => ((pts[k]?.getD (0, 0)).1 / base, CVal.dbl (pts[k]?.getD (0, 0)).2))) := by
    unfold cBreakpoints
    rw [hi.model, hi.coeffs]
    show cPairs base ((cFlat pts).map .dbl) = _
    rw [cPairs_eq]
    congr 1
    apply List.ext_getElem?
    intro k
    by_cases hk : k < m + 1
    · have hk' : k < pts.length := by omega
      simp [hk, hk']
    · simp [hk, hm]
  unfold cLinearise
  rw [e]
  have hne : (List.range (m + 1)).map (fun k : Nat => ((pts[k]?.getD (0, 0)).1 / base, CVal.dbl (pts[k]?.getD (0, 0)).2)) ≠ [] := by simp
  show (if _ = [] then _ else _) = _
  rw [if_neg hne, List.range_eq_range', List.range_eq_range']
  exact cLines_eq (fun k => (pts[k]?.getD (0, 0)).1 / base) (fun k => (pts[k]?.getD (0, 0)).2) m 0

/-- **C201.** For a cost that is given as points with increasing outputs and increasing slopes and with as many pieces as there are lines, the costs admitted for an output within the points are those from the broken line through the points on. -/
theorem C201_given_partial (info : CInfo) (n : Nat) (pts : List (Rat × Rat)) (hi : CCost info 1 n (cFlat pts)) (hl : pts.length = n + 1) (base max min : Rat) (hb : 0 < base)
    (hx : ∀ i a b, pts[i]? = some a → pts[i + 1]? = some b → a.1 < b.1)
    (hs : ∀ i a b c, pts[i]? = some a → pts[i + 1]? = some b → pts[i + 2]? = some c → (b.2 - a.2) / (b.1 - a.1) ≤ (c.2 - b.2) / (c.1 - b.1)) :
    ∃ L sl ub, cLinearise info base max min = .ok L ∧ cRowSlopes (cWithLines info L) = .ok sl ∧ cRowBounds (cWithLines info L) = .ok ub ∧
      ∀ k a b, pts[k]? = some a → pts[k + 1]? = some b → ∀ p c, a.1 ≤ p * base → p * base ≤ b.1 →
        (CCostOk sl ub p c ↔ 0 ≤ c ∧ chordAt a.1 a.2 b.1 b.2 (p * base) ≤ c) := by
  have hlin := cLinearise_points hi hl base max min
  refine ⟨_, _, _, hlin, (cRows_eq hi _ (by simp)).1, (cRows_eq hi _ (by simp)).2, ?_⟩
  intro k a b hka hkb p c h1 h2
  have hk : k < n := by have := (List.getElem?_eq_some_iff.1 hkb).1; omega
  let zs : Nat → Rat := fun k => (pts[k]?.getD (0, 0)).1
  let xs : Nat → Rat := fun k => (pts[k]?.getD (0, 0)).1 / base
  let ys : Nat → Rat := fun k => (pts[k]?.getD (0, 0)).2
  have hxz : ∀ i, xs i * base = zs i := by intro i; simp only [xs, zs]; field_simp
  have hp : ∀ i ≤ n, ∃ q, pts[i]? = some q ∧ zs i = q.1 ∧ ys i = q.2 := by
    intro i hi
    have hil : i < pts.length := by omega
    exact ⟨pts[i], List.getElem?_eq_getElem hil, by simp [zs, hil], by simp [ys, hil]⟩
  have hz : ∀ i < n, zs i < zs (i + 1) := by
    intro i hi
    obtain ⟨q, e1, e2, _⟩ := hp i (by omega)
    obtain ⟨r, f1, f2, _⟩ := hp (i + 1) (by omega)
    rw [e2, f2]
    exact hx i q r e1 f1
  have hlt : ∀ i < n, xs i < xs (i + 1) := by
    intro i hi
    exact div_lt_div_of_pos_right (hz i hi) hb
  rw [List.take_of_length_le (by simp)]
  rw [show (fun k : Nat => (pts[k]?.getD (0, 0)).1 / base) = xs from rfl, show (fun k : Nat => (pts[k]?.getD (0, 0)).2) = ys from rfl]
  rw [cCostOk_lines xs ys n hlt]
  have ech : ∀ i, chordAt (xs i) (ys i) (xs (i + 1)) (ys (i + 1)) p = chordAt (zs i) (ys i) (zs (i + 1)) (ys (i + 1)) (p * base) := by
    intro i
    rw [← hxz, ← hxz, chordAt_scale _ _ _ _ _ _ (ne_of_gt hb)]
  have ea : zs k = a.1 ∧ ys k = a.2 := by simp [zs, ys, hka]
  have eb : zs (k + 1) = b.1 ∧ ys (k + 1) = b.2 := by simp [zs, ys, hkb]
  have hmaxl := lines_max zs ys n k hk hz (by
    intro i hi
    obtain ⟨q, e1, e2, e3⟩ := hp i (by omega)
    obtain ⟨r, f1, f2, f3⟩ := hp (i + 1) (by omega)
    obtain ⟨t, g1, g2, g3⟩ := hp (i + 2) (by omega)
    rw [e2, e3, f2, f3, g2, g3]
    exact hs i q r t e1 f1 g1) (p * base) (Or.inl (by rw [ea.1]; exact h1)) (Or.inl (by rw [eb.1]; exact h2))
  have hck : chordAt (xs k) (ys k) (xs (k + 1)) (ys (k + 1)) p = chordAt a.1 a.2 b.1 b.2 (p * base) := by
    rw [ech k, ea.1, ea.2, eb.1, eb.2]
  constructor
  · rintro ⟨h0, h⟩
    exact ⟨h0, hck ▸ h k hk⟩
  · rintro ⟨h0, h⟩
    refine ⟨h0, fun i hi => ?_⟩
    rw [ech]
    have := hmaxl i hi
    rw [ea.1, ea.2, eb.1, eb.2] at this
    exact le_trans this h

/-- **C201**, violated. With more pieces than lines between the given points the engine reads beyond the end of its vectors. -/
theorem C201_pieces_violated (info : CInfo) (n m : Nat) (pts : List (Rat × Rat)) (hi : CCost info 1 n (cFlat pts)) (hl : pts.length = m + 1) (hn : m < n) (base max min : Rat) :
    ∃ L, cLinearise info base max min = .ok L ∧ cRowBounds (cWithLines info L) = .error .undefined := by
  refine ⟨_, cLinearise_points hi hl base max min, ?_⟩
  generalize hL : (List.range m).map (cLine (fun k => (pts[k]?.getD (0, 0)).1 / base) (fun k => (pts[k]?.getD (0, 0)).2)) = L
  have hlen : L.length = m := by rw [← hL]; simp
  have hc := cWithLines_chars L hi.noSlopes hi.noIntercepts
  have hp : (cGetChar (cWithLines info L).chars "pieces".toList).value = .int n := by
    rw [hc, cGetChar_append, if_pos (cHas_of_int hi.pieces), hi.pieces]
  have hy : (cGetChar (cWithLines info L).chars "y_intercepts".toList).values = L.map (fun l => .dbl l.2) := by
    rw [hc, cGetChar_append, hi.noIntercepts]
    unfold cGetChar cLineChars
    rfl
  unfold cRowBounds
  rw [hp, hy]
  show (List.range n).mapM _ = _
  have hr : List.range n = List.range m ++ List.range' m (n - m) := by
    have := @List.range'_append 0 m (n - m) 1
    rw [List.range_eq_range', List.range_eq_range', show List.range' 0 n = List.range' 0 (m + (n - m)) from by congr 1; omega, ← this]
    simp
  have hr2 : List.range' m (n - m) = m :: List.range' (m + 1) (n - m - 1) := by
    obtain ⟨d, hd⟩ : ∃ d, n - m = d + 1 := ⟨n - m - 1, by omega⟩
    rw [hd]; rfl
  rw [hr, hr2, List.mapM_append]
  have h1 : (List.range m).mapM (fun k => do
      let z ← cVecAt (L.map (fun l : Rat × Rat => CVal.dbl l.2)) k
      Except.ok (-z)) = .ok ((List.range m).map (fun k : Nat => -(L[k]?.getD (0, 0)).2)) := by
    refine mapE_all _ _ _ ?_
    intro i hi
    have hiL : i < L.length := by have := List.mem_range.1 hi; omega
    unfold cVecAt
    simp only [List.getElem?_map, List.getElem?_eq_getElem hiL, Option.map_some, Option.getD_some]
    rfl
  rw [h1, List.mapM_cons]
  have h2 : cVecAt (L.map (fun l => CVal.dbl l.2)) m = .error .undefined := by
    unfold cVecAt
    rw [List.getElem?_eq_none (by simp [hlen])]
  simp only [bind, Except.bind]
  rw [h2]

/-! ## Witness -/

/-- a generator of 100 MW with the cost 0.02 P² + 20 P + 5 in four pieces -/
def cExCost : CInfo := ⟨[⟨"ID".toList, .str "g1".toList, []⟩, ⟨"name".toList, .str "cost function".toList, []⟩, ⟨"model".toList, .int 2, []⟩, ⟨"pieces".toList, .int 4, []⟩,
  ⟨"coefficients".toList, cNA, [.dbl (1/50), .dbl 20, .dbl 5]⟩], .bool true⟩

theorem C201_witness : CCost cExCost 2 4 [1/50, 20, 5] ∧ (cLinearise cExCost 100 1 0).toOption = some [(2050, 5), (2150, -20), (2250, -70), (2350, -145)] ∧
    (∃ sl ub, cRowSlopes (cWithLines cExCost [(2050, 5), (2150, -20), (2250, -70), (2350, -145)]) = .ok sl ∧
      cRowBounds (cWithLines cExCost [(2050, 5), (2150, -20), (2250, -70), (2350, -145)]) = .ok ub ∧ sl = [2050, 2150, 2250, 2350] ∧ ub = [-5, 20, 70, 145]) := by
  have h : CCost cExCost 2 4 [1/50, 20, 5] := by constructor <;> decide +kernel
  refine ⟨h, by decide +kernel, _, _, (cRows_eq h _ (by decide)).1, (cRows_eq h _ (by decide)).2, by decide +kernel, by decide +kernel⟩

end Pyensys
