import Verif.Model.SavedResults
import Verif.Props.GlpkResults
import Verif.Props.GlpkCoupledMore

/-!
# C192, C193: the rows that are saved after a run with GLPK

The totals are stated with the plan `s` (per unit) that GLPK found: limits, balances and costs of `s` are those of C149 and C153.
-/

namespace Pyensys

/-! ## specification -/

/-- sum of `f 0, ..., f (n - 1)` -/
def upTo (n : Nat) (f : Nat → Rat) : Rat := ((List.range n).map f).sum

/-- what a saved row says: `s` is the plan, `lcs` the curtailment of the system in the economic dispatch -/
structure SrIs (c : GnCase) (s : GnSol) (lcs : Rat) (i j : Nat) (r : SrRow) : Prop where
  time : r.time = j
  generation : r.generation = c.base * upTo c.conv.length (s.conv i j)
  hydropower : r.hydropower = c.base * upTo c.hydro.length (s.hydro i j)
  res : r.res = c.base * upTo c.res.length (s.res i j)
  pump : r.pump = c.base * upTo c.pumps.length (s.pump i j)
  /-- buses that are not isolated: demand times profile -/
  demand : r.demand = c.base * ((c.buses.filter (fun b => decide (b.type ≠ 4))).map (fun b => b.demand * gnMult c b i j)).sum
  /-- all states of the network together -/
  loss : r.loss = if c.opf = true ∧ c.lossPieces ≠ none then c.base * upTo (c.cont + 1) (fun k => upTo c.branches.length (s.loss i j k)) else 0
  curtailment : r.curtailment = if c.feas = true then
    (if c.opf = true then c.base * upTo (c.cont + 1) (fun k => upTo c.buses.length (s.lc i j k)) else c.base * lcs) else 0
  spill : r.spill = 0
  /-- without a table of the curtailment, the sum of the renewable generation -/
  genCur : r.genCur = if c.opf = true ∧ c.feas = true then c.base * upTo (c.cont + 1) (fun k => upTo c.buses.length (s.gc i j k)) else r.res
  resCols : r.resCols = (List.range c.res.length).map (fun n => c.base * s.res i j n)
  hydroCols : r.hydroCols = (List.range c.hydro.length).map (fun n => c.base * s.hydro i j n)

/-- a table with the given rows for every instance and period -/
def SrTable (c : GnCase) (rows : List (List SrRow)) (P : Nat → Nat → SrRow → Prop) : Prop :=
  rows.length = c.insts ∧ ∀ (i : Nat) (l : List SrRow), rows[i]? = some l → l.length = c.periods ∧ ∀ (j : Nat) (r : SrRow), l[j]? = some r → P i j r

/-! ## sums -/

theorem upTo_mul (n : Nat) (f : Nat → Rat) (b : Rat) : upTo n (fun e => f e * b) = b * upTo n f := by
  unfold upTo
  induction List.range n with
  | nil => simp
  | cons a l ih => simp only [List.map_cons, List.sum_cons, ih]; ring

theorem upTo_congr {n : Nat} {f g : Nat → Rat} (h : ∀ e, e < n → f e = g e) : upTo n f = upTo n g := by
  unfold upTo
  congr 1
  exact List.map_congr_left (fun e he => h e (List.mem_range.1 he))

theorem srSum_ok {α : Type} (l : List α) (f : α → Except PyErr Rat) (g : α → Rat) (a : Rat) (h : ∀ e ∈ l, f e = .ok (g e)) : srSum l f a = .ok (a + (l.map g).sum) := by
  unfold srSum
  induction l generalizing a with
  | nil => simp [pure, Except.pure]
  | cons e l ih =>
    have e0 : srStep f a e = .ok (a + g e) := by
      unfold srStep
      simp only [h e (by simp), bind, Except.bind]
    rw [List.foldlM_cons, e0]
    show List.foldlM (srStep f) (a + g e) l = _
    rw [ih _ (fun e he => h e (by simp [he]))]
    simp only [List.map_cons, List.sum_cons, add_assoc]

theorem srPairs_sum (a b : Nat) (f : Nat → Nat → Rat) : ((srPairs a b).map (fun q => f q.1 q.2)).sum = upTo a (fun k => upTo b (f k)) := by
  unfold srPairs upTo
  induction List.range a with
  | nil => simp
  | cons k l ih =>
    simp only [List.flatMap_cons, List.map_append, List.sum_append, List.map_cons, List.sum_cons, ih, List.map_map]
    rfl

theorem mem_srPairs {a b : Nat} {q : Nat × Nat} : q ∈ srPairs a b ↔ q.1 < a ∧ q.2 < b := by
  unfold srPairs
  simp only [List.mem_flatMap, List.mem_map, List.mem_range]
  constructor
  · rintro ⟨k, hk, n, hn, rfl⟩; exact ⟨hk, hn⟩
  · rintro ⟨h1, h2⟩; exact ⟨q.1, h1, q.2, h2, rfl⟩

theorem srAt3_of {t : Option (List (List (List Rat)))} {i j n : Nat} {v : Rat} (h : tab3 t i j n = some v) : srAt3 t i j n = .ok v := by
  unfold srAt3
  cases t with
  | none => simp [tab3] at h
  | some t =>
    have h' : ((t[i]?).bind (fun (r : List (List Rat)) => r[j]?)).bind (fun (r : List Rat) => r[n]?) = some v := h
    simp only [h']

theorem srAt4_of {t : Option (List (List (List (List Rat))))} {i j k n : Nat} {v : Rat} (h : tab4 t i j k n = some v) : srAt4 t i j k n = .ok v := by
  unfold srAt4
  cases t with
  | none => simp [tab4] at h
  | some t =>
    have h' : (((t[i]?).bind (fun (r : List (List (List Rat))) => r[j]?)).bind (fun (r : List (List Rat)) => r[k]?)).bind (fun (r : List Rat) => r[n]?) = some v := h
    simp only [h']

theorem srUnits_ok {t : Option (List (List (List Rat)))} {n i j : Nat} {b : Rat} {f : Nat → Rat} (h : ∀ e, e < n → tab3 t i j e = some (f e * b)) :
    srUnits t n i j = .ok (b * upTo n f) := by
  unfold srUnits
  cases t with
  | none =>
    have : n = 0 := by
      by_contra h0
      have := h 0 (by omega)
      simp [tab3] at this
    subst this
    simp [upTo]
  | some t =>
    simp only
    rw [srSum_ok _ _ (fun e => f e * b) _ (fun e he => srAt3_of (h e (List.mem_range.1 he))), zero_add]
    exact congrArg _ (upTo_mul n f b)

theorem srCols_ok {t : Option (List (List (List Rat)))} {n i j : Nat} {b : Rat} {f : Nat → Rat} (h : ∀ e, e < n → tab3 t i j e = some (f e * b)) :
    srCols t n i j = .ok ((List.range n).map (fun e => b * f e)) := by
  unfold srCols
  cases t with
  | none =>
    have : n = 0 := by
      by_contra h0
      have := h 0 (by omega)
      simp [tab3] at this
    subst this
    simp
  | some t =>
    simp only
    refine mapM_range_ok _ _ _ (fun e he => ?_)
    rw [srAt3_of (h e he), mul_comm]

theorem srStates_ok {t : Option (List (List (List (List Rat))))} {a n i j : Nat} {b : Rat} {f : Nat → Nat → Rat} (h : ∀ k e, k < a → e < n → tab4 t i j k e = some (f k e * b)) :
    srSum (srPairs a n) (fun q => srAt4 t i j q.1 q.2) 0 = .ok (b * upTo a (fun k => upTo n (f k))) := by
  rw [srSum_ok _ _ (fun q => f q.1 q.2 * b) _ (fun q hq => srAt4_of (h _ _ (mem_srPairs.1 hq).1 (mem_srPairs.1 hq).2)), zero_add,
    srPairs_sum a n (fun k e => f k e * b)]
  rw [upTo_congr (fun k _ => (upTo_mul n (f k) b).trans (mul_comm _ _)), upTo_mul]

/-! ## what is read -/

/-- the tables hold the plan, in MW -/
structure SrHolds (c : GnCase) (s : GnSol) (lcs : Nat → Nat → Rat) (T : SrTables) : Prop where
  thermal : ∀ i j n, i < c.insts → j < c.periods → n < c.conv.length → tab3 T.thermal i j n = some (s.conv i j n * c.base)
  res : ∀ i j n, i < c.insts → j < c.periods → n < c.res.length → tab3 T.res i j n = some (s.res i j n * c.base)
  hydro : ∀ i j n, i < c.insts → j < c.periods → n < c.hydro.length → tab3 T.hydro i j n = some (s.hydro i j n * c.base)
  pumps : ∀ i j n, i < c.insts → j < c.periods → n < c.pumps.length → tab3 T.pumps i j n = some (s.pump i j n * c.base)
  nodes : c.opf = true → c.feas = true → ∀ i j k n, i < c.insts → j < c.periods → k < c.cont + 1 → n < c.buses.length →
    tab4 T.lc i j k n = some (s.lc i j k n * c.base) ∧ tab4 T.gc i j k n = some (s.gc i j k n * c.base)
  noNodes : ¬ (c.opf = true ∧ c.feas = true) → T.lc = none ∧ T.gc = none
  hasNodes : c.opf = true → c.feas = true → T.lc ≠ none ∧ T.gc ≠ none
  system : c.opf = false → c.feas = true → ∃ t, T.lcs = some t ∧ ∀ i j, i < c.insts → j < c.periods → (t[i]?).bind (fun (r : List Rat) => r[j]?) = some (lcs i j * c.base)
  noSystem : c.feas = false → T.lcs = none
  flow : c.opf = true → ∀ i j k n, i < c.insts → j < c.periods → k < c.cont + 1 → n < c.branches.length → tab4 T.flow i j k n = some (s.flow i j k n * c.base)
  loss : c.opf = true → c.lossPieces ≠ none → ∀ i j k n, i < c.insts → j < c.periods → k < c.cont + 1 → n < c.branches.length → tab4 T.loss i j k n = some (s.loss i j k n * c.base)

theorem grIf_some {α : Type} {t : Except PyErr α} {r : Option α} (h : grIf true t = .ok r) : r ≠ none := by
  unfold grIf at h
  rw [if_pos rfl, except_bind_ok] at h
  obtain ⟨a, _, h⟩ := h
  rw [Except.ok.injEq] at h
  subst h
  simp

theorem gnHas_lcs {c : GnCase} (hopf : c.opf = false) (hf : c.feas = true) {p : GProb} (hp : ∀ g ∈ gnCols c, g ∈ p.cols) {i j : Nat} (hi : i < c.insts) (hj : j < c.periods) :
    p.has ((.lcs, [i, j]), 0) := by
  refine ⟨[.lower 0], hp _ ?_, by simp⟩
  unfold gnCols
  rw [if_neg (by simp [hopf])]
  refine List.mem_append_right _ (List.mem_flatMap.2 ⟨(i, j), mem_gnTimes.2 ⟨hi, hj⟩, ?_⟩)
  unfold gnEdCols
  rw [if_pos hf]
  simp

theorem srRead_ok {c : GnCase} {p : GProb} (hn : (p.cols.map (·.1)).Nodup) (hc : ∀ g ∈ gnCols c, g ∈ p.cols) (x : Nat → Rat) :
    ∃ T, srRead c p x = .ok T ∧ SrHolds c (gnSol p x) (fun i j => p.val x (.lcs, [i, j]) 0) T := by
  have U := fun i j hi hj => gnHas_units (c := c) (p := p) hc (i := i) (j := j) hi hj
  have N := fun (hopf : c.opf = true) i j k hi hj hk => gnHas_net (c := c) hopf (p := p) hc (i := i) (j := j) (k := k) hi hj hk
  obtain ⟨t1, a1, _, _, v1⟩ := grIf_times (c := c) (x := x) hn c.conv.length .thermal c.base (fun i j hi hj e he => ((U i j hi hj).1 e he).1)
  obtain ⟨t2, a2, _, _, v2⟩ := grIf_times (c := c) (x := x) hn c.res.length .resGen c.base (fun i j hi hj e he => ((U i j hi hj).2.1 e he).1)
  obtain ⟨t3, a3, _, _, v3⟩ := grIf_times (c := c) (x := x) hn c.hydro.length .hydroGen c.base (fun i j hi hj e he => ((U i j hi hj).2.2.1 e he).1)
  obtain ⟨t4, a4, _, _, v4⟩ := grIf_times (c := c) (x := x) hn c.pumps.length .pumps c.base (fun i j hi hj e he => (U i j hi hj).2.2.2 e he)
  obtain ⟨t5, a5, b5, v5⟩ := grIf_states (c := c) (x := x) hn (c.opf && c.feas) c.buses.length .lc c.base
    (fun h i j k hi hj hk e he => (((N (by simp at h; exact h.1) i j k hi hj hk).2 e he).2 (by simp at h; exact h.2)).1)
  obtain ⟨t6, a6, b6, v6⟩ := grIf_states (c := c) (x := x) hn (c.opf && c.feas) c.buses.length .gc c.base
    (fun h i j k hi hj hk e he => (((N (by simp at h; exact h.1) i j k hi hj hk).2 e he).2 (by simp at h; exact h.2)).2)
  obtain ⟨t7, a7, b7, v7⟩ := grIf_states (c := c) (x := x) hn c.opf c.branches.length .flow c.base (fun h i j k hi hj hk e he => ((N h i j k hi hj hk).1 e he).1)
  obtain ⟨t8, a8, b8, v8⟩ := grIf_states (c := c) (x := x) hn (c.opf && c.lossPieces.isSome) c.branches.length .loss c.base
    (fun h i j k hi hj hk e he => ((N (by simp at h; exact h.1) i j k hi hj hk).1 e he).2 (by simp at h; intro h0; rw [h0] at h; simp at h))
  have h9 : ∃ t9, grLcs c p x = .ok t9 ∧ (c.opf = false → c.feas = true → ∃ t, t9 = some t ∧ ∀ i j, i < c.insts → j < c.periods →
      (t[i]?).bind (fun (r : List Rat) => r[j]?) = some (p.val x (.lcs, [i, j]) 0 * c.base)) ∧ (c.feas = false → t9 = none) := by
    unfold grLcs
    by_cases hb : (!c.opf && c.feas) = true
    · rw [Bool.and_eq_true] at hb
      have ho : c.opf = false := by simpa using hb.1
      have e := grTimes_ok (c := c) (f := fun i j => do
          let v ← gPrim p x (.lcs, [i, j]) 0
          (.ok (v * c.base) : Except PyErr Rat)) (g := fun i j => p.val x (.lcs, [i, j]) 0 * c.base) (fun i j hi hj => by
        simp only [gPrim_has hn (gnHas_lcs ho hb.2 hc hi hj), bind, Except.bind])
      rw [ho, hb.2, e]
      refine ⟨some _, rfl, fun _ _ => ⟨_, rfl, fun i j hi hj => ?_⟩, fun h => by simp at h⟩
      simp [hi, hj]
    · refine ⟨none, ?_, fun h1 h2 => by simp [h1, h2] at hb, fun _ => rfl⟩
      unfold grIf
      rw [if_neg hb]
  obtain ⟨t9, a9, b9, c9⟩ := h9
  refine ⟨⟨t1, t2, t3, t4, t5, t9, t6, t7, t8⟩, ?_, ⟨v1, v2, v3, v4, ?_, ?_, ?_, b9, c9, ?_, ?_⟩⟩
  · have e1 : grThermal c p x = .ok t1 := a1
    have e2 : grRes c p x = .ok t2 := a2
    have e3 : grHydro c p x = .ok t3 := a3
    have e4 : grPumps c p x = .ok t4 := a4
    have e5 : grLc c p x = .ok t5 := a5
    have e6 : grGc c p x = .ok t6 := a6
    have e7 : grFlow c p x = .ok t7 := a7
    have e8 : grLoss c p x = .ok t8 := a8
    unfold srRead
    simp only [e1, e2, e3, e4, e5, a9, e6, e7, e8, bind, Except.bind]
  · intro h1 h2 i j k n hi hj hk hn'
    have hb : (c.opf && c.feas) = true := by simp [h1, h2]
    exact ⟨(v5 hb).2 i j k n hi hj (by omega) hn', (v6 hb).2 i j k n hi hj (by omega) hn'⟩
  · intro h
    have hb : (c.opf && c.feas) = false := by
      rw [Bool.eq_false_iff]
      intro h'
      rw [Bool.and_eq_true] at h'
      exact h h'
    exact ⟨b5 hb, b6 hb⟩
  · intro h1 h2
    rw [h1, h2] at a5 a6
    exact ⟨grIf_some a5, grIf_some a6⟩
  · intro h i j k n hi hj hk hn'
    exact (v7 h).2 i j k n hi hj (by omega) hn'
  · intro h1 h2 i j k n hi hj hk hn'
    exact (v8 (by simp [h1, Option.isSome_iff_ne_none.2 h2])).2 i j k n hi hj (by omega) hn'

/-! ## C192 -/

theorem srDemands_eq (c : GnCase) (i j : Nat) : srDemands c i j = c.base * ((c.buses.filter (fun b => decide (b.type ≠ 4))).map (fun b => b.demand * gnMult c b i j)).sum := by
  unfold srDemands
  have e : (fun b : GnBus => !(b.type == 4)) = (fun b : GnBus => decide (b.type ≠ 4)) := by
    funext b
    by_cases h : b.type = 4 <;> simp [h]
  rw [e]
  induction c.buses.filter (fun b => decide (b.type ≠ 4)) with
  | nil => simp
  | cons b l ih =>
    simp only [List.map_cons, List.sum_cons, ih, srDemand]
    ring

/-- losses are known: they are modelled, or none are given as a percentage -/
def SrKnown (c : GnCase) : Prop := c.opf = true → c.lossPieces ≠ none ∨ c.loss = none

theorem srLosses_ok {c : GnCase} {s : GnSol} {lcs : Nat → Nat → Rat} {T : SrTables} (hT : SrHolds c s lcs T) (hk : SrKnown c) (junk : Nat → Nat → Nat → Nat → Rat) :
    ∃ L, srLosses c T junk = .ok L ∧ ∀ i j, i < c.insts → j < c.periods → srLossSum c L i j =
      .ok (if c.opf = true ∧ c.lossPieces ≠ none then c.base * upTo (c.cont + 1) (fun k => upTo c.branches.length (s.loss i j k)) else 0) := by
  unfold srLosses
  by_cases ho : c.opf = true
  · by_cases hl : c.lossPieces = none
    · have h0 : c.loss = none := (hk ho).resolve_left (fun h => h hl)
      rw [if_neg (by simp [hl]), if_neg (by simp [h0])]
      refine ⟨_, rfl, fun i j _ _ => ?_⟩
      unfold srLossSum
      rw [if_neg (by simp [hl, h0]), if_neg (by simp [hl])]
    · rw [if_pos ⟨ho, Option.isSome_iff_ne_none.2 hl⟩]
      refine ⟨_, rfl, fun i j hi hj => ?_⟩
      unfold srLossSum
      rw [if_pos (Or.inl (Option.isSome_iff_ne_none.2 hl)), if_pos ⟨ho, hl⟩]
      exact srStates_ok (fun k e hk he => hT.loss ho hl i j k e hi hj hk he)
  · rw [if_neg (fun h => ho h.1), if_neg (fun h => ho h.1)]
    refine ⟨_, rfl, fun i j hi hj => ?_⟩
    rw [if_neg (fun h => ho h.1)]
    unfold srLossSum
    split
    · have := srStates_ok (t := some (List.replicate c.insts (List.replicate c.periods (List.replicate (c.cont + 1) (List.replicate c.branches.length (0 : Rat))))))
        (a := c.cont + 1) (n := c.branches.length) (i := i) (j := j) (b := 0) (f := fun _ _ => 0) (fun k e hk he => by
          simp only [tab4, Option.bind_some, List.getElem?_replicate, hi, hj, hk, he, if_true, mul_zero])
      rw [this, zero_mul]
    · rfl

theorem srRow_ok {c : GnCase} {s : GnSol} {lcs : Nat → Nat → Rat} {T : SrTables} (hT : SrHolds c s lcs T) {L : Option (List (List (List (List Rat))))} {i j : Nat}
    (hi : i < c.insts) (hj : j < c.periods) (hL : srLossSum c L i j =
      .ok (if c.opf = true ∧ c.lossPieces ≠ none then c.base * upTo (c.cont + 1) (fun k => upTo c.branches.length (s.loss i j k)) else 0)) :
    ∃ r, srRow c T L i j = .ok r ∧ SrIs c s (lcs i j) i j r := by
  have h1 := srUnits_ok (fun e he => hT.thermal i j e hi hj he)
  have h2 := srUnits_ok (fun e he => hT.hydro i j e hi hj he)
  have h3 := srUnits_ok (fun e he => hT.res i j e hi hj he)
  have h4 := srUnits_ok (fun e he => hT.pumps i j e hi hj he)
  have h5 := srCols_ok (fun e he => hT.res i j e hi hj he)
  have h6 := srCols_ok (fun e he => hT.hydro i j e hi hj he)
  have h7 : srGenCur c T i j (c.base * upTo c.res.length (s.res i j)) =
      .ok (if c.opf = true ∧ c.feas = true then c.base * upTo (c.cont + 1) (fun k => upTo c.buses.length (s.gc i j k)) else c.base * upTo c.res.length (s.res i j)) := by
    unfold srGenCur
    by_cases hb : c.opf = true ∧ c.feas = true
    · rw [if_pos hb]
      have hne := (hT.hasNodes hb.1 hb.2).2
      cases hg : T.gc with
      | none => exact absurd hg hne
      | some t =>
        simp only
        rw [← hg]
        exact srStates_ok (fun k e hk he => (hT.nodes hb.1 hb.2 i j k e hi hj hk he).2)
    · rw [if_neg hb, (hT.noNodes hb).2]
  have h8 : srCurtailed c T i j = .ok (if c.feas = true then
      (if c.opf = true then c.base * upTo (c.cont + 1) (fun k => upTo c.buses.length (s.lc i j k)) else c.base * lcs i j) else 0) := by
    unfold srCurtailed
    by_cases ho : c.opf = true
    · rw [if_pos ho]
      by_cases hf : c.feas = true
      · rw [if_pos hf, if_pos ho]
        have hne := (hT.hasNodes ho hf).1
        cases hg : T.lc with
        | none => exact absurd hg hne
        | some t =>
          simp only
          rw [← hg]
          exact srStates_ok (fun k e hk he => (hT.nodes ho hf i j k e hi hj hk he).1)
      · rw [if_neg hf, (hT.noNodes (fun h => hf h.2)).1]
    · rw [if_neg ho]
      by_cases hf : c.feas = true
      · obtain ⟨t, ht, hv⟩ := hT.system (by simpa using ho) hf
        rw [if_pos hf, if_neg ho, ht]
        simp only [hv i j hi hj, zero_add, mul_comm]
      · rw [if_neg hf, hT.noSystem (by simpa using hf)]
  unfold srRow
  simp only [h1, h2, h3, h4, h5, h6, h7, h8, hL, bind, Except.bind]
  exact ⟨_, rfl, ⟨rfl, rfl, rfl, rfl, rfl, srDemands_eq c i j, rfl, rfl, rfl, rfl, rfl, rfl⟩⟩

theorem mapM_range_exists {α : Type} (f : Nat → Except PyErr α) (P : Nat → α → Prop) (n : Nat) (h : ∀ i, i < n → ∃ a, f i = .ok a ∧ P i a) :
    ∃ r, (List.range n).mapM f = .ok r ∧ r.length = n ∧ ∀ (i : Nat) (a : α), r[i]? = some a → P i a := by
  classical
  by_cases hn : n = 0
  · subst hn
    exact ⟨[], rfl, rfl, by simp⟩
  · have : Nonempty α := (h 0 (by omega)).elim (fun a _ => ⟨a⟩)
    refine ⟨(List.range n).map (fun i => if hi : i < n then (h i hi).choose else Classical.choice this), ?_, by simp, ?_⟩
    · refine mapM_range_ok f _ n (fun i hi => ?_)
      rw [dif_pos hi]
      exact (h i hi).choose_spec.1
    · intro i a ha
      have hi : i < n := by
        have := (List.getElem?_eq_some_iff.1 ha).1
        simpa using this
      rw [List.getElem?_map, List.getElem?_range hi, Option.map_some, Option.some.injEq] at ha
      rw [dif_pos hi] at ha
      rw [← ha]
      exact (h i hi).choose_spec.2

theorem srSave_ok {c : GnCase} {p : GProb} (hn : (p.cols.map (·.1)).Nodup) (hc : ∀ g ∈ gnCols c, g ∈ p.cols) (hk : SrKnown c) (x : Nat → Rat)
    (junk : Nat → Nat → Nat → Nat → Rat) :
    ∃ rows, srSave c p x junk = .ok rows ∧ SrTable c rows (fun i j r => SrIs c (gnSol p x) (p.val x (.lcs, [i, j]) 0) i j r) := by
  obtain ⟨T, h1, hT⟩ := srRead_ok hn hc x
  obtain ⟨L, h2, hL⟩ := srLosses_ok hT hk junk
  unfold srSave
  simp only [h1, h2, bind, Except.bind]
  unfold grTimes
  obtain ⟨rows, h3, h4, h5⟩ := mapM_range_exists (fun (i : Nat) => (List.range c.periods).mapM (fun (j : Nat) => srRow c T L i j))
    (fun i l => l.length = c.periods ∧ ∀ (j : Nat) (r : SrRow), l[j]? = some r → SrIs c (gnSol p x) (p.val x (.lcs, [i, j]) 0) i j r) c.insts
    (fun i hi => by
      obtain ⟨l, g1, g2, g3⟩ := mapM_range_exists (fun (j : Nat) => srRow c T L i j) (fun j r => SrIs c (gnSol p x) (p.val x (.lcs, [i, j]) 0) i j r) c.periods
        (fun j hj => srRow_ok hT hi hj (hL i j hi hj))
      exact ⟨l, g1, g2, g3⟩)
  exact ⟨rows, h3, h4, h5⟩

/-- **C192.** After a run of the network model, one table is saved for each instance and one row for each period, and its columns are the totals of the plan that GLPK found: generation
by kind, pumps, demand of the buses that are not isolated, losses and curtailments - those of all states of the network together. -/
theorem C192_network_partial {c : GnCase} {p : GProb} {lp : GLp} (hr : gnRun c = .ok (p, lp)) (hk : SrKnown c) (x : Nat → Rat) (junk : Nat → Nat → Nat → Nat → Rat) :
    ∃ rows, srSave c p x junk = .ok rows ∧ SrTable c rows (fun i j r => SrIs c (gnSol p x) (p.val x (.lcs, [i, j]) 0) i j r) := by
  obtain ⟨_, _, hp, hb, _⟩ := gnRun_parts hr
  exact srSave_ok ((gBuild_iff p lp).1 hb).colKeys (by rw [hp]; exact fun g hg => hg) hk x junk

/-- **C192.** The same after a run of the coupled model, with power flows or economic dispatch. -/
theorem C192_coupled_partial {d : GxData} {t : EnTree} (ht : GeTree d.en t) {p : GProb} {lp : GLp} (hr : gxRun d = .ok (p, lp)) (hk : SrKnown d.net) (x : Nat → Rat)
    (junk : Nat → Nat → Nat → Nat → Rat) :
    ∃ rows, srSave d.net p x junk = .ok rows ∧ SrTable d.net rows (fun i j r => SrIs d.net (gnSol p x) (p.val x (.lcs, [i, j]) 0) i j r) := by
  obtain ⟨nodes, w, _, _, _, hp, hb, _⟩ := gxRun_parts ht hr
  exact srSave_ok ((gBuild_iff p lp).1 hb).colKeys (by rw [hp]; exact fun g hg => List.mem_append_right _ hg) hk x junk

/-- **C192 fails** if curtailment is off (or in the economic dispatch): the column of the curtailed generation holds the renewable generation. -/
theorem C192_gen_cur_violated {c : GnCase} {s : GnSol} {lcs : Rat} {i j : Nat} {r : SrRow} (h : SrIs c s lcs i j r) (hf : c.feas = false ∨ c.opf = false) :
    r.genCur = c.base * upTo c.res.length (s.res i j) := by
  rw [h.genCur, if_neg (by rintro ⟨h1, h2⟩; rcases hf with hf | hf <;> simp_all), h.res]

theorem srSum_total {α : Type} {l : List α} {f : α → Except PyErr Rat} {a r : Rat} (h : srSum l f a = .ok r) : ∀ e ∈ l, ∃ v, f e = .ok v := by
  unfold srSum at h
  induction l generalizing a with
  | nil => simp
  | cons e l ih =>
    rw [List.foldlM_cons, except_bind_ok] at h
    obtain ⟨b, h1, h2⟩ := h
    unfold srStep at h1
    rw [except_bind_ok] at h1
    obtain ⟨v, h1, _⟩ := h1
    intro e' he'
    rw [List.mem_cons] at he'
    rcases he' with rfl | he'
    · exact ⟨v, h1⟩
    · exact ih h2 e' he'

theorem mapM_range_error {α : Type} (f : Nat → Except PyErr α) (n : Nat) (e : PyErr) (hn : 0 < n) (h : f 0 = .error e) : (List.range n).mapM f = .error e := by
  obtain ⟨m, rfl⟩ : ∃ m, n = m + 1 := ⟨n - 1, by omega⟩
  rw [List.range_succ_eq_map, List.mapM_cons, h]
  rfl

/-- **C192 fails** with a percentage of losses: if there is any unit, nothing is saved and nothing is printed (NameError). -/
theorem C192_percentage_violated {c : GnCase} {p : GProb} {lp : GLp} (hr : gnRun c = .ok (p, lp)) (hl : c.lossPieces = none) (h0 : c.loss ≠ none) (ht : 0 < c.insts ∧ 0 < c.periods)
    (hu : c.conv ≠ [] ∨ c.res ≠ [] ∨ c.hydro ≠ []) (x : Nat → Rat) (junk : Nat → Nat → Nat → Nat → Rat) :
    srSave c p x junk = .error .name ∧ srPrint c p x junk = .error .name := by
  obtain ⟨ho, _, hp, hb, _⟩ := gnRun_parts hr
  obtain ⟨T, h1, hT⟩ := srRead_ok ((gBuild_iff p lp).1 hb).colKeys (show ∀ g ∈ gnCols c, g ∈ p.cols by rw [hp]; exact fun g hg => hg) x
  have e : srFullLoss c T 0 0 = .error .name := by
    unfold srFullLoss
    rw [srSum_ok _ _ (fun e => (gnSol p x).conv 0 0 e * c.base) _ (fun e he => srAt3_of (hT.thermal 0 0 e ht.1 ht.2 (List.mem_range.1 he)))]
    simp only [bind, Except.bind]
    rw [srSum_ok _ _ (fun e => (gnSol p x).res 0 0 e * c.base) _ (fun e he => srAt3_of (hT.res 0 0 e ht.1 ht.2 (List.mem_range.1 he)))]
    simp only
    rw [srSum_ok _ _ (fun e => (gnSol p x).hydro 0 0 e * c.base) _ (fun e he => srAt3_of (hT.hydro 0 0 e ht.1 ht.2 (List.mem_range.1 he)))]
    simp only
    rw [if_pos]
    rcases hu with h | h | h
    · exact .inl (List.length_pos_of_ne_nil h)
    · exact .inr (.inl (List.length_pos_of_ne_nil h))
    · exact .inr (.inr (List.length_pos_of_ne_nil h))
  have e2 : srLosses c T junk = .error .name := by
    unfold srLosses
    rw [if_neg (by simp [hl]), if_pos ⟨ho, Option.isSome_iff_ne_none.2 h0⟩]
    unfold grTimes
    rw [mapM_range_error _ _ .name ht.1]
    · rfl
    · refine mapM_range_error _ _ .name ht.2 ?_
      unfold srShare
      rw [e]
      rfl
  unfold srSave srPrint
  simp only [h1, e2, bind, Except.bind, and_self]

/-- **C192 fails** for detailed results: with a directory, they are never saved. -/
theorem C192_detailed_violated : srDetailed true = .error .attribute ∧ srDetailed false = .ok () := ⟨rfl, rfl⟩

/-! ## C193 -/

theorem zipIdx_sum {α : Type} (l : List α) (f : Nat → Rat) : (l.zipIdx.map (fun u => f u.2)).sum = upTo l.length f := by
  unfold upTo
  congr 1
  rw [show (fun u : α × Nat => f u.2) = f ∘ Prod.snd from rfl, ← List.map_map, List.zipIdx_map_snd, List.range_eq_range']

theorem upTo_add (n : Nat) (f g : Nat → Rat) : upTo n (fun e => f e + g e) = upTo n f + upTo n g := by
  unfold upTo
  induction List.range n with
  | nil => simp
  | cons a l ih => simp only [List.map_cons, List.sum_cons, ih]; ring

theorem upTo_const (n : Nat) (a : Rat) : upTo n (fun _ => a) = n * a := by
  unfold upTo
  rw [List.map_const', List.sum_replicate, List.length_range, nsmul_eq_mul]

/-- a network where the totals can be compared: consistent, without isolated buses, and pumps have no negative limit -/
structure SrPlain (c : GnCase) : Prop where
  sound : GnSound c
  live : ∀ b ∈ c.buses, b.type ≠ 4
  pumps : ∀ q ∈ c.pumps, 0 ≤ q.1 / c.base

theorem srState_balance {c : GnCase} {s : GnSol} {i j k : Nat} (hp : SrPlain c) (hu : GnUnits c s i j) (h : GnNet c s i j k) :
    upTo c.conv.length (s.conv i j) + upTo c.res.length (s.res i j) + upTo c.hydro.length (s.hydro i j) +
      (if c.feas = true then upTo c.buses.length (s.lc i j k) - upTo c.buses.length (s.gc i j k) else 0) =
    (c.buses.map (fun b => gnDemand c b i j)).sum + gnLossTotal c s i j k + c.buses.length * upTo c.pumps.length (s.pump i j) := by
  have ht := C149_total_partial h hp.sound
  have hl : gnLive c = c.buses.zipIdx := by
    unfold gnLive
    rw [List.filter_eq_self]
    intro b hb
    have := hp.live b.1 (mem_fst_zipIdx hb)
    simpa using this
  have hq : gnPumped c s i j = upTo c.pumps.length (s.pump i j) := by
    unfold gnPumped
    rw [← zipIdx_sum]
    congr 1
    apply List.map_congr_left
    intro q hq
    split
    · rfl
    · rename_i hn
      have h1 := hu.pump q.2 q.1 (mem_zipIdx_iff'.1 hq)
      have h2 := hp.pumps q.1 (mem_fst_zipIdx hq)
      linarith [h1.1, h1.2]
  rw [hl, hq, zipIdx_sum, zipIdx_sum, zipIdx_sum, List.length_zipIdx] at ht
  have e1 : (c.buses.zipIdx.map (fun b => gnDemand c b.1 i j)).sum = (c.buses.map (fun b => gnDemand c b i j)).sum := by
    rw [show (fun b : GnBus × Nat => gnDemand c b.1 i j) = (fun b => gnDemand c b i j) ∘ Prod.fst from rfl, ← List.map_map, List.zipIdx_map_fst]
  have e2 : (c.buses.zipIdx.map (fun b => if c.feas = true then s.lc i j k b.2 - s.gc i j k b.2 else 0)).sum =
      if c.feas = true then upTo c.buses.length (s.lc i j k) - upTo c.buses.length (s.gc i j k) else 0 := by
    by_cases hf : c.feas = true
    · simp only [hf, if_true]
      rw [zipIdx_sum c.buses (fun n => s.lc i j k n - s.gc i j k n), sub_eq_add_neg, ← neg_one_mul, ← upTo_mul, ← upTo_add]
      exact upTo_congr (fun n _ => by ring)
    · simp [hf]
  rw [e1, e2] at ht
  exact ht

/-- the factor of the demand in the balances -/
def srFactor (c : GnCase) : Rat := match c.loss with | none => 1 | some l => 1 + l

theorem srDemand_balance (c : GnCase) (h : ∀ b ∈ c.buses, b.type ≠ 4) (i j : Nat) : (c.buses.map (fun b => gnDemand c b i j)).sum =
    srFactor c * ((c.buses.filter (fun b => decide (b.type ≠ 4))).map (fun b => b.demand * gnMult c b i j)).sum := by
  rw [List.filter_eq_self.2 (fun b hb => by simpa using h b hb)]
  induction c.buses with
  | nil => simp
  | cons b l ih =>
    simp only [List.map_cons, List.sum_cons, ih, mul_add]
    congr 1
    unfold gnDemand srFactor
    split <;> rename_i e <;> simp only [e] <;> ring

/-- losses that are given for the branches, which count if losses are not modelled -/
def srGiven (c : GnCase) : Rat := if c.lossPieces = none then (c.branches.map (fun b => b.loss)).sum else 0

/-- **C193.** What a saved row means for the balance of the system with power flows: the columns of generation count once for each of the `cont + 1` states of the network, curtailments
and losses are already the sum of all states; the pumps count once for each bus, the demand is increased by the percentage of losses, and losses that are given for branches are not in
the row. -/
theorem C193_balance_partial {c : GnCase} (hp : SrPlain c) (hb : c.base ≠ 0) (ho : c.opf = true) {s : GnSol} {i j : Nat} (hu : GnUnits c s i j) (h : ∀ k, k ≤ c.cont → GnNet c s i j k)
    {lcs : Rat} {r : SrRow} (hr : SrIs c s lcs i j r) :
    ((c.cont : Rat) + 1) * (r.generation + r.res + r.hydropower) + r.curtailment - (if c.feas = true then r.genCur else 0) =
      ((c.cont : Rat) + 1) * (srFactor c * r.demand + c.buses.length * r.pump + srGiven c) + r.loss := by
  have hs : ∀ k, k < c.cont + 1 → c.base * (upTo c.conv.length (s.conv i j) + upTo c.res.length (s.res i j) + upTo c.hydro.length (s.hydro i j)) +
      (if c.feas = true then c.base * upTo c.buses.length (s.lc i j k) - c.base * upTo c.buses.length (s.gc i j k) else 0) =
      srFactor c * r.demand + c.buses.length * r.pump + srGiven c + (if c.lossPieces ≠ none then c.base * upTo c.branches.length (s.loss i j k) else 0) := by
    intro k hk
    have := congrArg (fun v => c.base * v) (srState_balance hp hu (h k (by omega)))
    simp only [srDemand_balance c hp.live] at this
    rw [hr.demand, hr.pump]
    have e1 : (if c.feas = true then c.base * upTo c.buses.length (s.lc i j k) - c.base * upTo c.buses.length (s.gc i j k) else 0) =
        c.base * (if c.feas = true then upTo c.buses.length (s.lc i j k) - upTo c.buses.length (s.gc i j k) else 0) := by
      split
      · ring
      · ring
    have e2 : c.base * gnLossTotal c s i j k = srGiven c + (if c.lossPieces ≠ none then c.base * upTo c.branches.length (s.loss i j k) else 0) := by
      unfold gnLossTotal srGiven
      cases hl : c.lossPieces with
      | some ps => simp [zipIdx_sum]
      | none =>
        simp only [ne_eq, not_true_eq_false, if_false, if_true, add_zero]
        induction c.branches with
        | nil => simp
        | cons b l ih =>
          simp only [List.map_cons, List.sum_cons, mul_add, ih]
          rw [mul_div_cancel₀ _ hb]
    rw [e1]
    linarith
  have hsum := upTo_congr hs
  rw [upTo_add, upTo_add, upTo_const, upTo_const] at hsum
  rw [hr.generation, hr.hydropower, hr.res, hr.curtailment, hr.genCur, hr.loss]
  push_cast at hsum
  have e3 : upTo (c.cont + 1) (fun k => if c.feas = true then c.base * upTo c.buses.length (s.lc i j k) - c.base * upTo c.buses.length (s.gc i j k) else 0) =
      (if c.feas = true then c.base * upTo (c.cont + 1) (fun k => upTo c.buses.length (s.lc i j k)) - c.base * upTo (c.cont + 1) (fun k => upTo c.buses.length (s.gc i j k)) else 0) := by
    by_cases hf : c.feas = true
    · simp only [hf, if_true]
      rw [sub_eq_add_neg, ← upTo_mul, ← neg_one_mul, ← upTo_mul, ← upTo_mul (c.cont + 1), ← upTo_add]
      exact upTo_congr (fun k _ => by ring)
    · simp only [hf, if_false, Bool.false_eq_true, upTo_const, mul_zero]
  have e4 : upTo (c.cont + 1) (fun k => if c.lossPieces ≠ none then c.base * upTo c.branches.length (s.loss i j k) else 0) =
      (if c.opf = true ∧ c.lossPieces ≠ none then c.base * upTo (c.cont + 1) (fun k => upTo c.branches.length (s.loss i j k)) else 0) := by
    by_cases hl : c.lossPieces ≠ none
    · simp only [hl, ho, and_self, if_true, not_false_eq_true, ne_eq]
      rw [← upTo_mul]
      exact upTo_congr (fun k _ => by ring)
    · simp only [hl, and_false, if_false, upTo_const, mul_zero]
  rw [e3, e4] at hsum
  by_cases hf : c.feas = true
  · simp only [hf, ho, and_self, if_true] at hsum ⊢
    linarith
  · simp only [hf, if_false, Bool.false_eq_true] at hsum ⊢
    linarith

/-- **C193.** The balance of every saved row: after a run of the network model with curtailment, without contingencies, pumps, isolated buses, given losses and percentage of losses, what
the row says is generated and curtailed covers the demand, the losses and the curtailed generation. -/
theorem C193_network_partial {c : GnCase} {p : GProb} {lp : GLp} (hr : gnRun c = .ok (p, lp)) (hw : GnOut c) (hp : SrPlain c) (hb : c.base ≠ 0) (hf : c.feas = true) (h0 : c.cont = 0)
    (hq : c.pumps = []) (hl : c.loss = none) (hg : ∀ b ∈ c.branches, b.loss = 0) (x : Nat → Rat) (hx : GFeasible lp x) (junk : Nat → Nat → Nat → Nat → Rat) :
    ∃ rows, srSave c p x junk = .ok rows ∧ SrTable c rows (fun _ _ r => r.generation + r.hydropower + r.res + r.curtailment = r.demand + r.loss + r.genCur) := by
  obtain ⟨ho, _⟩ := gnRun_parts hr
  have hrules := (C149_plans_partial hr hw x).1 hx
  obtain ⟨rows, h1, h2, h3⟩ := C192_network_partial hr (fun _ => .inr hl) x junk
  refine ⟨rows, h1, h2, fun i l hi => ⟨(h3 i l hi).1, fun j r hj => ?_⟩⟩
  have hi' : i < c.insts := by rw [← h2]; exact (List.getElem?_eq_some_iff.1 hi).1
  have hj' : j < c.periods := by rw [← (h3 i l hi).1]; exact (List.getElem?_eq_some_iff.1 hj).1
  have hs := (h3 i l hi).2 j r hj
  have := C193_balance_partial hp hb ho (hrules.units i j hi' hj') (fun k hk => hrules.net i j k hi' hj' hk) hs
  have e1 : srGiven c = 0 := by
    unfold srGiven
    split
    · have : c.branches.map (fun b => b.loss) = c.branches.map (fun _ => 0) := List.map_congr_left (fun b hb => hg b hb)
      rw [this, List.map_const', List.sum_replicate, nsmul_zero]
    · rfl
  have e2 : r.pump = 0 := by rw [hs.pump, hq]; simp [upTo]
  have e3 : srFactor c = 1 := by unfold srFactor; rw [hl]
  rw [e1, e2, e3, h0, if_pos hf] at this
  push_cast at this
  linarith

/-- **C193.** The same in the coupled model with economic dispatch, where there are no renewable units in the balance and the curtailed generation `gcs` is not saved. -/
theorem C193_dispatch_partial {c : GnCase} {p : GProb} {x : Nat → Rat} {i j : Nat} (h : GxSystem c p x i j) (hl : c.loss = none) (hlive : ∀ b ∈ c.buses, b.type ≠ 4)
    (ho : c.opf = false) {r : SrRow} (hr : SrIs c (gnSol p x) (p.val x (.lcs, [i, j]) 0) i j r) :
    r.generation + r.hydropower + r.curtailment - (if c.feas = true then c.base * p.val x (.gcs, [i, j]) 0 else 0) = r.demand + r.pump := by
  have hb := congrArg (fun v => c.base * v) h.balance
  have e := srDemand_balance c hlive i j
  have e3 : srFactor c = 1 := by unfold srFactor; rw [hl]
  rw [e3, one_mul] at e
  simp only [e] at hb
  rw [hr.generation, hr.hydropower, hr.curtailment, hr.demand, hr.pump]
  show c.base * upTo _ _ + _ + _ - _ = _ + _
  unfold upTo
  by_cases hf : c.feas = true
  · simp only [hf, ho, if_true, Bool.false_eq_true, if_false] at hb ⊢
    linarith
  · simp only [hf, if_false, Bool.false_eq_true] at hb ⊢
    linarith

end Pyensys
