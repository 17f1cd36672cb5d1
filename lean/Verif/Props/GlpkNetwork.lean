import Verif.Props.GlpkEnergy

/-!
# C149-C152: the optimal power flow that is written for GLPK
-/

namespace Pyensys

/-! ## specification -/

/-- a plan: output and cost of each unit and consumption of each pump in an instance and period; flow and losses of each branch,
curtailed demand, curtailed generation and angle of each bus in an instance, period and contingency (0: intact) -/
structure GnSol where
  conv : Nat → Nat → Nat → Rat
  res : Nat → Nat → Nat → Rat
  hydro : Nat → Nat → Nat → Rat
  convC : Nat → Nat → Nat → Rat
  resC : Nat → Nat → Nat → Rat
  hydroC : Nat → Nat → Nat → Rat
  pump : Nat → Nat → Nat → Rat
  flow : Nat → Nat → Nat → Nat → Rat
  loss : Nat → Nat → Nat → Nat → Rat
  lc : Nat → Nat → Nat → Nat → Rat
  gc : Nat → Nat → Nat → Nat → Rat
  angle : Nat → Nat → Nat → Nat → Rat

/-- the plan that is read from the values of GLPK -/
def gnSol (p : GProb) (x : Nat → Rat) : GnSol where
  conv i j := p.val x (.thermal, [i, j])
  res i j := p.val x (.resGen, [i, j])
  hydro i j := p.val x (.hydroGen, [i, j])
  convC i j := p.val x (.thermalCG, [i, j])
  resC i j := p.val x (.resCG, [i, j])
  hydroC i j := p.val x (.hydroCG, [i, j])
  pump i j := p.val x (.pumps, [i, j])
  flow i j k := p.val x (.flow, [i, j, k])
  loss i j k := p.val x (.loss, [i, j, k])
  lc i j k := p.val x (.lc, [i, j, k])
  gc i j k := p.val x (.gc, [i, j, k])
  angle i j k := p.val x (.angle, [i, j, k])

/-- the limits and costs of the units and pumps in one instance and period -/
structure GnUnits (c : GnCase) (s : GnSol) (i j : Nat) : Prop where
  conv : ∀ (n : Nat) (u : GnUnit), c.conv[n]? = some u →
    (gnActive c u = true → u.min ≤ s.conv i j n ∧ s.conv i j n ≤ u.max) ∧ (gnActive c u = false → s.conv i j n = 0)
  res : ∀ (n : Nat) (u : GnRes), c.res[n]? = some u → u.min ≤ s.res i j n ∧ s.res i j n ≤ gnResMax c u i j
  hydro : ∀ (n : Nat) (u : GnUnit), c.hydro[n]? = some u → u.min ≤ s.hydro i j n ∧ s.hydro i j n ≤ u.max
  pump : ∀ (n : Nat) (q : Rat × Rat), c.pumps[n]? = some q → 0 ≤ s.pump i j n ∧ s.pump i j n ≤ q.1 / c.base
  costs : (∀ n, n < c.conv.length → 0 ≤ s.convC i j n) ∧ (∀ n, n < c.res.length → 0 ≤ s.resC i j n) ∧
    ∀ n, n < c.hydro.length → 0 ≤ s.hydroC i j n

/-- the pieces of the costs in one instance and period: the cost is for all hours of the period -/
structure GnCosts (c : GnCase) (s : GnSol) (i j : Nat) : Prop where
  conv : ∀ (n : Nat) (u : GnUnit), c.conv[n]? = some u → ∀ q ∈ u.pieces, gnHours c j * (q.1 * s.conv i j n + q.2) ≤ s.convC i j n
  res : ∀ (n : Nat) (u : GnRes), c.res[n]? = some u → ∀ q ∈ u.pieces, gnHours c j * (q.1 * s.res i j n + q.2) ≤ s.resC i j n
  hydro : ∀ (n : Nat) (u : GnUnit), c.hydro[n]? = some u → ∀ q ∈ u.pieces, gnHours c j * (q.1 * s.hydro i j n + q.2) ≤ s.hydroC i j n

/-- the limits of branches and buses in one instance, period and contingency -/
structure GnLimits (c : GnCase) (s : GnSol) (i j k : Nat) : Prop where
  flow : ∀ (n : Nat) (b : GnBranch), c.branches[n]? = some b →
    (b.on k = true → 0 < b.rate → -b.rate ≤ s.flow i j k n ∧ s.flow i j k n ≤ b.rate) ∧
    (b.on k = false ∨ b.rate ≤ 0 → s.flow i j k n = 0)
  loss : c.lossPieces ≠ none → ∀ (n : Nat) (b : GnBranch), c.branches[n]? = some b →
    (b.on k = true → 0 ≤ s.loss i j k n) ∧ (b.on k = false → s.loss i j k n = 0)
  lc : c.feas = true → ∀ (n : Nat) (b : GnBus), c.buses[n]? = some b →
    (0 < b.demand → 0 ≤ s.lc i j k n ∧ s.lc i j k n ≤ b.demand * gnMult c b i j) ∧ (b.demand ≤ 0 → s.lc i j k n = 0)
  gc : c.feas = true → ∀ (n : Nat) (b : GnBus), c.buses[n]? = some b →
    (gnHasGen c b = true → 0 ≤ s.gc i j k n) ∧ (gnHasGen c b = false → s.gc i j k n = 0)
  angle : ∀ (n : Nat) (b : GnBus), c.buses[n]? = some b → b.type = 3 → s.angle i j k n = 0

/-- what the units at a bus give -/
def gnGenAt (c : GnCase) (s : GnSol) (i j : Nat) (n : Int) : Rat :=
  (c.conv.zipIdx.map (fun u => if u.1.bus = n then s.conv i j u.2 else 0)).sum +
  (c.res.zipIdx.map (fun u => if u.1.bus = n then s.res i j u.2 else 0)).sum +
  (c.hydro.zipIdx.map (fun u => if u.1.bus = n then s.hydro i j u.2 else 0)).sum

/-- what the branches bring to a bus -/
def gnNetFlow (c : GnCase) (s : GnSol) (i j k : Nat) (n : Int) : Rat :=
  (c.branches.zipIdx.map (fun b => if b.1.tbus = n then s.flow i j k b.2 else 0)).sum -
  (c.branches.zipIdx.map (fun b => if b.1.fbus = n then s.flow i j k b.2 else 0)).sum

/-- the losses that a bus bears: half of those of each branch that ends at it -/
def gnLossAt (c : GnCase) (s : GnSol) (i j k : Nat) (n : Int) : Rat :=
  match c.lossPieces with
  | some _ => (c.branches.zipIdx.map (fun b => if b.1.fbus = n ∨ b.1.tbus = n then s.loss i j k b.2 / 2 else 0)).sum
  | none => gnNonTech c n

/-- consumption of all pumps that can be used -/
def gnPumped (c : GnCase) (s : GnSol) (i j : Nat) : Rat :=
  (c.pumps.zipIdx.map (fun q => if 0 < q.1.1 / c.base then s.pump i j q.2 else 0)).sum

/-- the balance of the bus at position `n` -/
def GnBalance (c : GnCase) (s : GnSol) (i j k n : Nat) (b : GnBus) : Prop :=
  gnGenAt c s i j b.number + gnNetFlow c s i j k b.number + (if c.feas = true then s.lc i j k n - s.gc i j k n else 0) =
    gnDemand c b i j + gnLossAt c s i j k b.number + gnPumped c s i j

/-- the rules of the network in one instance, period and contingency -/
structure GnNet (c : GnCase) (s : GnSol) (i j k : Nat) : Prop where
  balance : ∀ (n : Nat) (b : GnBus), c.buses[n]? = some b → b.type ≠ 4 → GnBalance c s i j k n b
  law : ∀ (n : Nat) (b : GnBranch), c.branches[n]? = some b → b.on k = true →
    s.flow i j k n = (s.angle i j k b.fpos - s.angle i j k b.tpos) / b.x
  losses : ∀ ps, c.lossPieces = some ps → ∀ (n : Nat) (b : GnBranch), c.branches[n]? = some b → b.on k = true → ∀ a ∈ ps,
    (a.1 + a.2 * s.flow i j k n) * b.r ≤ s.loss i j k n ∧ (a.1 - a.2 * s.flow i j k n) * b.r ≤ s.loss i j k n

/-- the rules of the optimal power flow -/
structure GnRules (c : GnCase) (s : GnSol) : Prop where
  units : ∀ i j, i < c.insts → j < c.periods → GnUnits c s i j
  costs : ∀ i j, i < c.insts → j < c.periods → GnCosts c s i j
  limits : ∀ i j k, i < c.insts → j < c.periods → k ≤ c.cont → GnLimits c s i j k
  net : ∀ i j k, i < c.insts → j < c.periods → k ≤ c.cont → GnNet c s i j k

/-! ## rows and columns say this -/

theorem gUnitBnd_holds (a b v : Rat) : (gUnitBnd a b).holds v ↔ a ≤ v ∧ v ≤ b := by
  unfold gUnitBnd
  split
  · rfl
  · rename_i h
    rw [not_not] at h
    subst h
    simp only [GBnd.holds]
    exact ⟨fun h => by subst h; exact ⟨le_refl _, le_refl _⟩, fun h => le_antisymm h.2 h.1⟩

theorem mem_gnTimes {c : GnCase} {q : Nat × Nat} : q ∈ gnTimes c ↔ q.1 < c.insts ∧ q.2 < c.periods := by
  unfold gnTimes
  simp only [List.mem_flatMap, List.mem_map, List.mem_range]
  constructor
  · rintro ⟨i, hi, j, hj, rfl⟩; exact ⟨hi, hj⟩
  · rintro ⟨h1, h2⟩; exact ⟨q.1, h1, q.2, h2, rfl⟩

theorem mem_gnStates {c : GnCase} {q : Nat × Nat × Nat} : q ∈ gnStates c ↔ q.1 < c.insts ∧ q.2.1 < c.periods ∧ q.2.2 ≤ c.cont := by
  unfold gnStates
  simp only [List.mem_flatMap, List.mem_map, List.mem_range, mem_gnTimes]
  constructor
  · rintro ⟨a, ⟨h1, h2⟩, k, hk, rfl⟩; exact ⟨h1, h2, by simp only; omega⟩
  · rintro ⟨h1, h2, h3⟩; exact ⟨(q.1, q.2.1), ⟨h1, h2⟩, q.2.2, by omega, rfl⟩

/-- bounds of a group hold for the values -/
def GColsHold (p : GProb) (x : Nat → Rat) (cols : List (GKey × List GBnd)) : Prop :=
  ∀ g ∈ cols, ∀ (off : Nat) (b : GBnd), g.2[off]? = some b → b.holds (p.val x g.1 off)

theorem gColsHold_append {p : GProb} {x : Nat → Rat} {a b : List (GKey × List GBnd)} :
    GColsHold p x (a ++ b) ↔ GColsHold p x a ∧ GColsHold p x b := by
  unfold GColsHold
  simp only [List.mem_append]
  exact ⟨fun h => ⟨fun g hg => h g (.inl hg), fun g hg => h g (.inr hg)⟩, fun h g hg => hg.elim (h.1 g) (h.2 g)⟩

theorem gColsHold_flatMap {α : Type} {p : GProb} {x : Nat → Rat} {l : List α} {f : α → List (GKey × List GBnd)} :
    GColsHold p x (l.flatMap f) ↔ ∀ a ∈ l, GColsHold p x (f a) := by
  unfold GColsHold
  simp only [List.mem_flatMap]
  exact ⟨fun h a ha g hg => h g ⟨a, ha, hg⟩, fun h g ⟨a, ha, hg⟩ => h a ha g hg⟩

theorem gColsHold_one {α : Type} {p : GProb} {x : Nat → Rat} {k : GKey} {l : List α} {f : α → GBnd} :
    GColsHold p x [(k, l.map f)] ↔ ∀ (n : Nat) (u : α), l[n]? = some u → (f u).holds (p.val x k n) := by
  unfold GColsHold
  simp only [List.mem_cons, List.not_mem_nil, or_false, forall_eq, List.getElem?_map, Option.map_eq_some_iff]
  exact ⟨fun h n u hu => h n (f u) ⟨u, hu, rfl⟩, fun h n b ⟨u, hu, hb⟩ => hb ▸ h n u hu⟩

theorem gColsHold_some {α : Type} {p : GProb} {x : Nat → Rat} {k : GKey} {l : List α} {f : α → GBnd} :
    GColsHold p x (gSome k (l.map f)) ↔ ∀ (n : Nat) (u : α), l[n]? = some u → (f u).holds (p.val x k n) := by
  unfold gSome
  split
  · rename_i h
    have : l = [] := List.map_eq_nil_iff.1 h
    subst this
    simp [GColsHold]
  · exact gColsHold_one

theorem gnCommon_holds (c : GnCase) (p : GProb) (x : Nat → Rat) (i j : Nat) :
    GColsHold p x (gnCommon c i j) ↔ GnUnits c (gnSol p x) i j := by
  unfold gnCommon
  simp only [gColsHold_append, gColsHold_some]
  have hcost : ∀ {α : Type} (l : List α) (f : Nat → Rat), (∀ (n : Nat) (u : α), l[n]? = some u → (GBnd.lower 0).holds (f n)) ↔
      ∀ n, n < l.length → 0 ≤ f n := by
    intro α l f
    constructor
    · intro h n hn
      exact h n _ (List.getElem?_eq_getElem hn)
    · intro h n u hu
      exact h n (List.getElem?_eq_some_iff.1 hu).1
  rw [hcost, hcost, hcost]
  constructor
  · rintro ⟨⟨⟨⟨⟨⟨h1, h2⟩, h3⟩, h4⟩, h5⟩, h6⟩, h7⟩
    refine ⟨?_, ?_, ?_, ?_, h4, h5, h6⟩
    · intro n u hu
      have := h1 n u hu
      refine ⟨fun ha => ?_, fun ha => ?_⟩
      · rw [if_pos ha, gUnitBnd_holds] at this; exact this
      · rw [if_neg (by simp [ha])] at this; exact this
    · intro n u hu
      exact (gUnitBnd_holds _ _ _).1 (h2 n u hu)
    · intro n u hu
      exact (gUnitBnd_holds _ _ _).1 (h3 n u hu)
    · intro n q hq
      have := h7 n q hq
      split at this
      · exact this
      · rename_i h0
        rw [not_not] at h0
        simp only [GBnd.holds] at this
        rw [h0]
        exact ⟨le_of_eq this.symm, le_of_eq this⟩
  · intro h
    refine ⟨⟨⟨⟨⟨⟨?_, ?_⟩, ?_⟩, h.costs.1⟩, h.costs.2.1⟩, h.costs.2.2⟩, ?_⟩
    · intro n u hu
      by_cases ha : gnActive c u = true
      · rw [if_pos ha, gUnitBnd_holds]; exact (h.conv n u hu).1 ha
      · rw [if_neg ha]; exact (h.conv n u hu).2 (by simpa using ha)
    · intro n u hu
      exact (gUnitBnd_holds _ _ _).2 (h.res n u hu)
    · intro n u hu
      exact (gUnitBnd_holds _ _ _).2 (h.hydro n u hu)
    · intro n q hq
      have := h.pump n q hq
      split
      · exact this
      · rename_i h0
        rw [not_not] at h0
        rw [h0] at this
        exact le_antisymm this.2 this.1

theorem gnOpfCols_holds (c : GnCase) (p : GProb) (x : Nat → Rat) (i j k : Nat) :
    GColsHold p x (gnOpfCols c i j k) ↔ GnLimits c (gnSol p x) i j k := by
  unfold gnOpfCols
  simp only [gColsHold_append, gColsHold_one]
  have hl : GColsHold p x (gnLossCols c i j k) ↔ (c.lossPieces ≠ none → ∀ (n : Nat) (b : GnBranch), c.branches[n]? = some b →
    (b.on k = true → 0 ≤ (gnSol p x).loss i j k n) ∧ (b.on k = false → (gnSol p x).loss i j k n = 0)) := by
    unfold gnLossCols
    cases c.lossPieces with
    | none => simp [GColsHold]
    | some ps =>
      simp only [gColsHold_one, ne_eq, reduceCtorEq, not_false_eq_true, forall_const]
      refine forall_congr' fun n => forall_congr' fun b => imp_congr_right fun _ => ?_
      by_cases ho : b.on k = true
      · simp only [ho, if_true, true_imp_iff, Bool.true_eq_false, false_imp_iff, and_true]; rfl
      · have ho' : b.on k = false := by simpa using ho
        simp only [ho', Bool.false_eq_true, if_false, false_imp_iff, true_imp_iff, true_and]; rfl
  have hf : GColsHold p x (if c.feas = true then
      [((.lc, [i, j, k]), c.buses.map (fun b => if 0 < b.demand then GBnd.bounded 0 (b.demand * gnMult c b i j) else .fixed 0)),
       ((.gc, [i, j, k]), c.buses.map (fun b => if gnHasGen c b = true then GBnd.lower 0 else .fixed 0))]
     else []) ↔ (c.feas = true → ∀ (n : Nat) (b : GnBus), c.buses[n]? = some b →
    (0 < b.demand → 0 ≤ (gnSol p x).lc i j k n ∧ (gnSol p x).lc i j k n ≤ b.demand * gnMult c b i j) ∧
      (b.demand ≤ 0 → (gnSol p x).lc i j k n = 0)) ∧ (c.feas = true → ∀ (n : Nat) (b : GnBus), c.buses[n]? = some b →
    (gnHasGen c b = true → 0 ≤ (gnSol p x).gc i j k n) ∧ (gnHasGen c b = false → (gnSol p x).gc i j k n = 0)) := by
    by_cases hf : c.feas = true
    · simp only [hf, if_true, true_imp_iff]
      rw [← List.singleton_append, gColsHold_append, gColsHold_one, gColsHold_one]
      refine and_congr ?_ ?_ <;> refine forall_congr' fun n => forall_congr' fun b => imp_congr_right fun _ => ?_
      · by_cases ho : 0 < b.demand
        · simp only [ho, if_true, true_imp_iff, not_le.2 ho, false_imp_iff, and_true]; rfl
        · simp only [ho, if_false, false_imp_iff, not_lt.1 ho, true_imp_iff, true_and]; rfl
      · by_cases ho : gnHasGen c b = true
        · simp only [ho, if_true, true_imp_iff, Bool.true_eq_false, false_imp_iff, and_true]; rfl
        · have ho' : gnHasGen c b = false := by simpa using ho
          simp only [ho', Bool.false_eq_true, if_false, false_imp_iff, true_imp_iff, true_and]; rfl
    · simp [hf, GColsHold]
  have hfl : (∀ (n : Nat) (b : GnBranch), c.branches[n]? = some b → (if b.on k = true ∧ 0 < b.rate then GBnd.bounded (-b.rate) b.rate
      else if b.on k = true ∧ b.rate = 100 then .free else .fixed 0).holds (p.val x (.flow, [i, j, k]) n)) ↔
      ∀ (n : Nat) (b : GnBranch), c.branches[n]? = some b →
      (b.on k = true → 0 < b.rate → -b.rate ≤ (gnSol p x).flow i j k n ∧ (gnSol p x).flow i j k n ≤ b.rate) ∧
      (b.on k = false ∨ b.rate ≤ 0 → (gnSol p x).flow i j k n = 0) := by
    refine forall_congr' fun n => forall_congr' fun b => imp_congr_right fun _ => ?_
    by_cases h1 : b.on k = true ∧ 0 < b.rate
    · rw [if_pos h1]
      simp only [h1, true_imp_iff, Bool.true_eq_false, not_le.2 h1.2, or_self, false_imp_iff, and_true]
      rfl
    · rw [if_neg h1, if_neg (by rintro ⟨a, e⟩; exact h1 ⟨a, by rw [e]; norm_num⟩)]
      have h2 : b.on k = false ∨ b.rate ≤ 0 := by
        by_cases ho : b.on k = true
        · exact .inr (not_lt.1 (fun h => h1 ⟨ho, h⟩))
        · exact .inl (by simpa using ho)
      simp only [h2, true_imp_iff]
      constructor
      · intro h
        exact ⟨fun a b => absurd ⟨a, b⟩ h1, h⟩
      · intro h
        exact h.2
  have hang : (∀ (n : Nat) (b : GnBus), c.buses[n]? = some b → (if b.type ≠ 3 then GBnd.free else .fixed 0).holds
      (p.val x (.angle, [i, j, k]) n)) ↔ ∀ (n : Nat) (b : GnBus), c.buses[n]? = some b → b.type = 3 → (gnSol p x).angle i j k n = 0 := by
    refine forall_congr' fun n => forall_congr' fun b => imp_congr_right fun _ => ?_
    by_cases h3 : b.type = 3
    · simp only [h3, ne_eq, not_true, if_false, true_imp_iff]; rfl
    · simp only [h3, ne_eq, not_false_eq_true, if_true, false_imp_iff, iff_true]; trivial
  rw [hl, hf, hfl, hang]
  constructor
  · rintro ⟨⟨⟨h1, h2⟩, h3, h4⟩, h5⟩
    exact ⟨h1, h2, h3, h4, h5⟩
  · intro h
    exact ⟨⟨⟨h.flow, h.loss⟩, h.lc, h.gc⟩, h.angle⟩

/-- the rows hold for the values -/
def GRowsHold (p : GProb) (x : Nat → Rat) (rows : List GRows) : Prop := ∀ g ∈ rows, ∀ r ∈ g.rows, r.bnd.holds (p.rowVal x r)

theorem gRowsHold_append {p : GProb} {x : Nat → Rat} {a b : List GRows} :
    GRowsHold p x (a ++ b) ↔ GRowsHold p x a ∧ GRowsHold p x b := by
  unfold GRowsHold
  simp only [List.mem_append]
  exact ⟨fun h => ⟨fun g hg => h g (.inl hg), fun g hg => h g (.inr hg)⟩, fun h g hg => hg.elim (h.1 g) (h.2 g)⟩

theorem gRowsHold_flatMap {α : Type} {p : GProb} {x : Nat → Rat} {l : List α} {f : α → List GRows} :
    GRowsHold p x (l.flatMap f) ↔ ∀ a ∈ l, GRowsHold p x (f a) := by
  unfold GRowsHold
  simp only [List.mem_flatMap]
  exact ⟨fun h a ha g hg => h g ⟨a, ha, hg⟩, fun h g ⟨a, ha, hg⟩ => h a ha g hg⟩

theorem gRowsHold_map {α : Type} {p : GProb} {x : Nat → Rat} {l : List α} {f : α → GRows} :
    GRowsHold p x (l.map f) ↔ ∀ a ∈ l, ∀ r ∈ (f a).rows, r.bnd.holds (p.rowVal x r) := by
  unfold GRowsHold
  simp only [List.mem_map]
  exact ⟨fun h a ha => h _ ⟨a, ha, rfl⟩, fun h g ⟨a, ha, hg⟩ => hg ▸ h a ha⟩

theorem mem_zipIdx_iff' {α : Type} {l : List α} {q : α × Nat} : q ∈ l.zipIdx ↔ l[q.2]? = some q.1 := by
  obtain ⟨a, n⟩ := q
  rw [List.mem_zipIdx_iff_getElem?]

theorem forall_zipIdx {α : Type} {l : List α} {P : α → Nat → Prop} : (∀ q ∈ l.zipIdx, P q.1 q.2) ↔ ∀ (n : Nat) (a : α), l[n]? = some a → P a n := by
  constructor
  · intro h n a ha
    exact h (a, n) (mem_zipIdx_iff'.2 ha)
  · intro h q hq
    exact h q.2 q.1 (mem_zipIdx_iff'.1 hq)

theorem gnPieces_holds (p : GProb) (x : Nat → Rat) (rt cg gen : GTag) (h : Rat) (i j k : Nat) (pieces : List (Rat × Rat)) :
    (∀ r ∈ (gnPieces rt cg gen h i j k pieces).rows, r.bnd.holds (p.rowVal x r)) ↔
      ∀ q ∈ pieces, h * (q.1 * p.val x (gen, [i, j]) k + q.2) ≤ p.val x (cg, [i, j]) k := by
  unfold gnPieces
  simp only [List.forall_mem_map, GBnd.holds, GProb.rowVal, List.map_cons, List.map_nil, List.sum_cons, List.sum_nil]
  constructor
  · intro hh q hq
    obtain ⟨n, hn⟩ := List.mem_iff_getElem?.1 hq
    have := hh (q, n) (mem_zipIdx_iff'.2 hn)
    simp only at this
    linarith
  · intro hh q hq
    have := hh q.1 (List.mem_of_getElem? (mem_zipIdx_iff'.1 hq))
    linarith

theorem gnPwc_holds (c : GnCase) (p : GProb) (x : Nat → Rat) :
    GRowsHold p x (gnPwc c) ↔ ∀ i j, i < c.insts → j < c.periods → GnCosts c (gnSol p x) i j := by
  unfold gnPwc
  simp only [gRowsHold_flatMap, gRowsHold_append, gRowsHold_map, gnPieces_holds]
  constructor
  · intro h i j hi hj
    obtain ⟨⟨h1, h2⟩, h3⟩ := h (i, j) (mem_gnTimes.2 ⟨hi, hj⟩)
    exact ⟨fun n u hu => h1 (u, n) (mem_zipIdx_iff'.2 hu), fun n u hu => h2 (u, n) (mem_zipIdx_iff'.2 hu),
      fun n u hu => h3 (u, n) (mem_zipIdx_iff'.2 hu)⟩
  · intro h q hq
    have := mem_gnTimes.1 hq
    have hh := h q.1 q.2 this.1 this.2
    exact ⟨⟨fun u hu => hh.conv u.2 u.1 (mem_zipIdx_iff'.1 hu), fun u hu => hh.res u.2 u.1 (mem_zipIdx_iff'.1 hu)⟩,
      fun u hu => hh.hydro u.2 u.1 (mem_zipIdx_iff'.1 hu)⟩

/-- sum of the terms of a row -/
def gTermSum (p : GProb) (x : Nat → Rat) (ts : List (GCol × Rat)) : Rat := (ts.map (fun t => t.2 * p.val x t.1.1 t.1.2)).sum

theorem gTermSum_append (p : GProb) (x : Nat → Rat) (a b : List (GCol × Rat)) : gTermSum p x (a ++ b) = gTermSum p x a + gTermSum p x b := by
  simp [gTermSum]

theorem gTermSum_flatMap {α : Type} (p : GProb) (x : Nat → Rat) (l : List α) (f : α → List (GCol × Rat)) :
    gTermSum p x (l.flatMap f) = (l.map (fun a => gTermSum p x (f a))).sum := by
  induction l with
  | nil => rfl
  | cons a l ih => rw [List.flatMap_cons, gTermSum_append, ih]; simp

theorem sum_filter_if {α : Type} (l : List α) (q : α → Bool) (f : α → Rat) : ((l.filter q).map f).sum = (l.map (fun a => if q a = true then f a else 0)).sum := by
  induction l with
  | nil => rfl
  | cons a l ih =>
    by_cases h : q a = true
    · simp [h, ih]
    · simp [h, ih]

theorem gnAt_sum {α : Type} (p : GProb) (x : Nat → Rat) (bus : α → Int) (n : Int) (tag : GTag) (i j : Nat) (l : List α) :
    gTermSum p x (gnAt bus n tag i j l) = (l.zipIdx.map (fun u => if bus u.1 = n then p.val x (tag, [i, j]) u.2 else 0)).sum := by
  unfold gTermSum gnAt
  rw [List.map_map, sum_filter_if]
  congr 1
  apply List.map_congr_left
  intro u _
  simp

theorem gnFlow_sum (c : GnCase) (p : GProb) (x : Nat → Rat) (n : Int) (i j k : Nat) :
    gTermSum p x (c.branches.zipIdx.flatMap (gnFlowTerms n i j k)) = gnNetFlow c (gnSol p x) i j k n := by
  rw [gTermSum_flatMap]
  unfold gnNetFlow
  induction c.branches.zipIdx with
  | nil => simp
  | cons b l ih =>
    rw [List.map_cons, List.sum_cons, ih]
    simp only [List.map_cons, List.sum_cons]
    have : gTermSum p x (gnFlowTerms n i j k b) = (if b.1.tbus = n then (gnSol p x).flow i j k b.2 else 0) -
        (if b.1.fbus = n then (gnSol p x).flow i j k b.2 else 0) := by
      unfold gnFlowTerms gTermSum
      by_cases h1 : b.1.fbus = n <;> by_cases h2 : b.1.tbus = n <;> simp [h1, h2, gnSol]
    rw [this]
    ring

theorem gnLoss_sum (c : GnCase) (p : GProb) (x : Nat → Rat) (n : Int) (i j k : Nat) :
    gTermSum p x (gnLossPart c n i j k).1 - (gnLossPart c n i j k).2 = -gnLossAt c (gnSol p x) i j k n := by
  unfold gnLossPart gnLossAt
  cases c.lossPieces with
  | none => simp [gTermSum]
  | some ps =>
    simp only
    rw [gTermSum_flatMap]
    induction c.branches.zipIdx with
    | nil => simp
    | cons b l ih =>
      simp only [List.map_cons, List.sum_cons]
      have : gTermSum p x (gnLossTerms n i j k b) = -(if b.1.fbus = n ∨ b.1.tbus = n then (gnSol p x).loss i j k b.2 / 2 else 0) := by
        unfold gnLossTerms gTermSum
        by_cases h1 : b.1.fbus = n ∨ b.1.tbus = n
        · simp only [h1, if_true, List.map_cons, List.map_nil, List.sum_cons, List.sum_nil, gnSol]
          ring
        · simp [h1]
      rw [this]
      linarith

theorem gnBalanceRow_holds (c : GnCase) (p : GProb) (x : Nat → Rat) (i j k : Nat) (b : GnBus × Nat) :
    (gnBalanceRow c i j k b).bnd.holds (p.rowVal x (gnBalanceRow c i j k b)) ↔ GnBalance c (gnSol p x) i j k b.2 b.1 := by
  have hrow : p.rowVal x (gnBalanceRow c i j k b) = gTermSum p x (gnBalanceRow c i j k b).terms := rfl
  rw [hrow]
  unfold gnBalanceRow
  simp only [gTermSum_append, gnAt_sum, gnFlow_sum, GBnd.holds]
  have hp : gTermSum p x ((c.pumps.zipIdx.filter (fun q => decide (0 < q.1.1 / c.base))).map (fun q => (((GTag.pumps, [i, j]), q.2), (-1 : Rat)))) =
      -gnPumped c (gnSol p x) i j := by
    unfold gTermSum gnPumped
    rw [List.map_map, sum_filter_if]
    induction c.pumps.zipIdx with
    | nil => simp
    | cons q l ih =>
      simp only [List.map_cons, List.sum_cons, ih]
      by_cases h : 0 < q.1.1 / c.base <;> simp [h, gnSol] <;> ring
  have hl := gnLoss_sum c p x b.1.number i j k
  have hc : gTermSum p x (if c.feas = true then [(((GTag.lc, [i, j, k]), b.2), (1 : Rat)), (((.gc, [i, j, k]), b.2), -1)] else []) =
      (if c.feas = true then (gnSol p x).lc i j k b.2 - (gnSol p x).gc i j k b.2 else 0) := by
    by_cases h : c.feas = true
    · simp only [h, if_true, gTermSum, List.map_cons, List.map_nil, List.sum_cons, List.sum_nil, gnSol]; ring
    · simp [h, gTermSum]
  rw [hp, hc]
  unfold GnBalance gnGenAt
  constructor
  · intro h
    simp only [gnSol] at *
    linarith
  · intro h
    simp only [gnSol] at *
    linarith

theorem gnFlowRow_holds (p : GProb) (x : Nat → Rat) (i j k : Nat) (b : (GnBranch × Nat) × Nat) :
    (gnFlowRow i j k b).bnd.holds (p.rowVal x (gnFlowRow i j k b)) ↔
      (gnSol p x).flow i j k b.1.2 = ((gnSol p x).angle i j k b.1.1.fpos - (gnSol p x).angle i j k b.1.1.tpos) / b.1.1.x := by
  simp only [gnFlowRow, GBnd.holds, GProb.rowVal, List.map_cons, List.map_nil, List.sum_cons, List.sum_nil, gnSol]
  have e1 : ∀ a : Rat, -1 / b.1.1.x * a = -(a / b.1.1.x) := fun a => by ring
  have e2 : ∀ a : Rat, 1 / b.1.1.x * a = a / b.1.1.x := fun a => by ring
  rw [e1, e2, sub_div]
  constructor <;> intro h <;> linarith

theorem gnLosses_holds (c : GnCase) (p : GProb) (x : Nat → Rat) (rt : GTag) (sign : Rat) (ps : List (Rat × Rat)) :
    GRowsHold p x (gnLosses c rt sign ps) ↔ ∀ i j k, i < c.insts → j < c.periods → k ≤ c.cont → ∀ (n : Nat) (b : GnBranch),
      c.branches[n]? = some b → b.on k = true → ∀ a ∈ ps, (a.1 - sign * a.2 * (gnSol p x).flow i j k n) * b.r ≤ (gnSol p x).loss i j k n := by
  unfold gnLosses
  simp only [gRowsHold_flatMap, gRowsHold_map, List.forall_mem_map, GBnd.holds, GProb.rowVal, List.map_cons, List.map_nil, List.sum_cons,
    List.sum_nil]
  constructor
  · intro h i j k hi hj hk n b hb ho a ha
    obtain ⟨m, hm⟩ := List.mem_iff_getElem?.1 ha
    have := h (i, j, k) (mem_gnStates.2 ⟨hi, hj, hk⟩) (b, n) (List.mem_filter.2 ⟨mem_zipIdx_iff'.2 hb, ho⟩) (a, m) (mem_zipIdx_iff'.2 hm)
    simp only [gnSol] at this ⊢
    linarith
  · intro h q hq b hb a ha
    have hq' := mem_gnStates.1 hq
    rw [List.mem_filter] at hb
    have := h q.1 q.2.1 q.2.2 hq'.1 hq'.2.1 hq'.2.2 b.2 b.1 (mem_zipIdx_iff'.1 hb.1) hb.2 a.1 (List.mem_of_getElem? (mem_zipIdx_iff'.1 ha))
    simp only [gnSol] at this ⊢
    linarith

theorem gnOpfRows_holds (c : GnCase) (p : GProb) (x : Nat → Rat) :
    GRowsHold p x (gnOpfRows c) ↔ ∀ i j k, i < c.insts → j < c.periods → k ≤ c.cont → GnNet c (gnSol p x) i j k := by
  unfold gnOpfRows
  rw [gRowsHold_append, gRowsHold_append]
  have hb : GRowsHold p x (gnBalance c) ↔ ∀ i j k, i < c.insts → j < c.periods → k ≤ c.cont → ∀ (n : Nat) (b : GnBus),
      c.buses[n]? = some b → b.type ≠ 4 → GnBalance c (gnSol p x) i j k n b := by
    unfold gnBalance
    simp only [gRowsHold_map, List.forall_mem_map, gnBalanceRow_holds]
    constructor
    · intro h i j k hi hj hk n b hb ht
      exact h (i, j, k) (mem_gnStates.2 ⟨hi, hj, hk⟩) (b, n) (List.mem_filter.2 ⟨mem_zipIdx_iff'.2 hb, by simpa using ht⟩)
    · intro h q hq b hb
      have hq' := mem_gnStates.1 hq
      rw [List.mem_filter] at hb
      exact h q.1 q.2.1 q.2.2 hq'.1 hq'.2.1 hq'.2.2 b.2 b.1 (mem_zipIdx_iff'.1 hb.1) (by simpa using hb.2)
  have hf : GRowsHold p x (gnFlows c) ↔ ∀ i j k, i < c.insts → j < c.periods → k ≤ c.cont → ∀ (n : Nat) (b : GnBranch),
      c.branches[n]? = some b → b.on k = true →
      (gnSol p x).flow i j k n = ((gnSol p x).angle i j k b.fpos - (gnSol p x).angle i j k b.tpos) / b.x := by
    unfold gnFlows
    simp only [gRowsHold_map, List.forall_mem_map, gnFlowRow_holds]
    constructor
    · intro h i j k hi hj hk n b hb ho
      have hm : (b, n) ∈ c.branches.zipIdx.filter (fun b => b.1.on k) := List.mem_filter.2 ⟨mem_zipIdx_iff'.2 hb, ho⟩
      obtain ⟨m, hm⟩ := List.mem_iff_getElem?.1 hm
      exact h (i, j, k) (mem_gnStates.2 ⟨hi, hj, hk⟩) ((b, n), m) (mem_zipIdx_iff'.2 hm)
    · intro h q hq b hb
      have hq' := mem_gnStates.1 hq
      have hm := List.mem_of_getElem? (mem_zipIdx_iff'.1 hb)
      rw [List.mem_filter] at hm
      exact h q.1 q.2.1 q.2.2 hq'.1 hq'.2.1 hq'.2.2 b.1.2 b.1.1 (mem_zipIdx_iff'.1 hm.1) hm.2
  have hl : GRowsHold p x (gnLossRows c) ↔ ∀ i j k, i < c.insts → j < c.periods → k ≤ c.cont → ∀ ps, c.lossPieces = some ps →
      ∀ (n : Nat) (b : GnBranch), c.branches[n]? = some b → b.on k = true → ∀ a ∈ ps,
      (a.1 + a.2 * (gnSol p x).flow i j k n) * b.r ≤ (gnSol p x).loss i j k n ∧
      (a.1 - a.2 * (gnSol p x).flow i j k n) * b.r ≤ (gnSol p x).loss i j k n := by
    unfold gnLossRows
    cases c.lossPieces with
    | none => simp [GRowsHold]
    | some ps =>
      simp only [gRowsHold_append, gnLosses_holds, Option.some.injEq, forall_eq']
      constructor
      · rintro ⟨h1, h2⟩ i j k hi hj hk n b hb ho a ha
        have a1 := h1 i j k hi hj hk n b hb ho a ha
        have a2 := h2 i j k hi hj hk n b hb ho a ha
        exact ⟨by linarith, by linarith⟩
      · intro h
        refine ⟨fun i j k hi hj hk n b hb ho a ha => ?_, fun i j k hi hj hk n b hb ho a ha => ?_⟩
        · have := (h i j k hi hj hk n b hb ho a ha).1
          linarith
        · have := (h i j k hi hj hk n b hb ho a ha).2
          linarith
  rw [hb, hf, hl]
  constructor
  · rintro ⟨⟨h1, h2⟩, h3⟩ i j k hi hj hk
    exact ⟨h1 i j k hi hj hk, h2 i j k hi hj hk, h3 i j k hi hj hk⟩
  · intro h
    exact ⟨⟨fun i j k hi hj hk => (h i j k hi hj hk).balance, fun i j k hi hj hk => (h i j k hi hj hk).law⟩,
      fun i j k hi hj hk => (h i j k hi hj hk).losses⟩

theorem gnCols_holds (c : GnCase) (hopf : c.opf = true) (p : GProb) (x : Nat → Rat) :
    GColsHold p x (gnCols c) ↔ (∀ i j, i < c.insts → j < c.periods → GnUnits c (gnSol p x) i j) ∧
      ∀ i j k, i < c.insts → j < c.periods → k ≤ c.cont → GnLimits c (gnSol p x) i j k := by
  unfold gnCols
  rw [if_pos hopf, gColsHold_append, gColsHold_flatMap, gColsHold_flatMap]
  simp only [gnCommon_holds, gnOpfCols_holds]
  refine and_congr ?_ ?_
  · exact ⟨fun h i j hi hj => h (i, j) (mem_gnTimes.2 ⟨hi, hj⟩), fun h q hq => h _ _ (mem_gnTimes.1 hq).1 (mem_gnTimes.1 hq).2⟩
  · exact ⟨fun h i j k hi hj hk => h (i, j, k) (mem_gnStates.2 ⟨hi, hj, hk⟩),
      fun h q hq => h _ _ _ (mem_gnStates.1 hq).1 (mem_gnStates.1 hq).2.1 (mem_gnStates.1 hq).2.2⟩

/-! ## the rows fit -/

/-- after each contingency at least one branch is out of service -/
def GnOut (c : GnCase) : Prop := ∀ k, 1 ≤ k → k ≤ c.cont → ∃ b ∈ c.branches, b.on k = false

theorem zipIdx_snd_nodup {α : Type} (l : List α) (q : α × Nat → Bool) : ((l.zipIdx.filter q).map (·.2)).Nodup := by
  have : (l.zipIdx.map (·.2)).Nodup := by
    rw [List.zipIdx_map_snd]
    exact List.nodup_range' 
  exact this.sublist ((List.filter_sublist).map _)

theorem zipIdx_fits {α : Type} (l : List α) (f : α × Nat → GRow) (hf : ∀ q, (f q).off = q.2) :
    (∀ r ∈ l.zipIdx.map f, r.off < l.length) ∧ ((l.zipIdx.map f).map (·.off)).Nodup := by
  constructor
  · intro r hr
    obtain ⟨q, hq, rfl⟩ := List.mem_map.1 hr
    rw [hf]
    exact (List.getElem?_eq_some_iff.1 (mem_zipIdx_iff'.1 hq)).1
  · rw [List.map_map]
    have := zipIdx_snd_nodup l (fun _ => true)
    rw [List.filter_true] at this
    rw [show ((fun r : GRow => r.off) ∘ f) = (fun q => q.2) from funext hf]
    exact this

theorem gFits_append {a b : List GRows} (ha : GFits a) (hb : GFits b) : GFits (a ++ b) := by
  intro g hg
  rcases List.mem_append.1 hg with h | h
  · exact ha g h
  · exact hb g h

theorem gnPwc_fits (c : GnCase) : GFits (gnPwc c) := by
  intro g hg
  unfold gnPwc at hg
  simp only [List.mem_flatMap, List.mem_append, List.mem_map] at hg
  obtain ⟨q, _, (⟨u, _, rfl⟩ | ⟨u, _, rfl⟩) | ⟨u, _, rfl⟩⟩ := hg <;> exact zipIdx_fits _ _ (fun _ => rfl)

theorem on_count {c : GnCase} {k : Nat} (h : ∃ b ∈ c.branches, b.on k = false) :
    (c.branches.zipIdx.filter (fun b => b.1.on k)).length ≤ c.branches.length - 1 := by
  obtain ⟨b, hb, ho⟩ := h
  obtain ⟨n, hn⟩ := List.mem_iff_getElem?.1 hb
  have h1 := List.length_eq_length_filter_add (l := c.branches.zipIdx) (fun b => b.1.on k)
  rw [List.length_zipIdx] at h1
  have h2 : 0 < (c.branches.zipIdx.filter (fun b => !(b.1.on k))).length :=
    List.length_pos_of_mem (a := (b, n)) (List.mem_filter.2 ⟨mem_zipIdx_iff'.2 hn, by simp [ho]⟩)
  omega

theorem gnOpfRows_fits {c : GnCase} (ho : GnOut c) : GFits (gnOpfRows c) := by
  unfold gnOpfRows
  refine gFits_append (gFits_append ?_ ?_) ?_
  · intro g hg
    unfold gnBalance at hg
    obtain ⟨q, _, rfl⟩ := List.mem_map.1 hg
    constructor
    · intro r hr
      obtain ⟨b, hb, rfl⟩ := List.mem_map.1 hr
      exact (List.getElem?_eq_some_iff.1 (mem_zipIdx_iff'.1 (List.mem_filter.1 hb).1)).1
    · rw [List.map_map]
      exact zipIdx_snd_nodup c.buses _
  · intro g hg
    unfold gnFlows at hg
    obtain ⟨q, hq, rfl⟩ := List.mem_map.1 hg
    have hq' := mem_gnStates.1 hq
    obtain ⟨h1, h2⟩ := zipIdx_fits (c.branches.zipIdx.filter (fun b => b.1.on q.2.2)) (gnFlowRow q.1 q.2.1 q.2.2) (fun _ => rfl)
    refine ⟨fun r hr => lt_of_lt_of_le (h1 r hr) ?_, h2⟩
    simp only
    split
    · have := List.length_filter_le (fun b : GnBranch × Nat => b.1.on q.2.2) c.branches.zipIdx
      rwa [List.length_zipIdx] at this
    · exact on_count (ho q.2.2 (by omega) hq'.2.2)
  · intro g hg
    unfold gnLossRows at hg
    split at hg
    · unfold gnLosses at hg
      simp only [List.mem_append, List.mem_flatMap, List.mem_map] at hg
      rcases hg with ⟨q, _, b, _, rfl⟩ | ⟨q, _, b, _, rfl⟩ <;> exact zipIdx_fits _ _ (fun _ => rfl)
    · simp at hg

theorem gnRun_parts {c : GnCase} {p : GProb} {lp : GLp} (hr : gnRun c = .ok (p, lp)) : c.opf = true ∧ gnInit c = .ok () ∧
    p = ⟨gnCols c, gnPwc c ++ gnOpfRows c, gnObj c (fun _ => 1) 100000000⟩ ∧ gBuild p = .ok lp ∧ gSimplex lp = .ok () := by
  unfold gnRun at hr
  simp only [except_bind_ok] at hr
  obtain ⟨u, h0, p', h1, lp', h2, u2, h3, h4⟩ := hr
  simp only [Except.ok.injEq, Prod.mk.injEq] at h4
  obtain ⟨rfl, rfl⟩ := h4
  unfold gnProb at h1
  split at h1
  · rename_i ho
    simp only [Except.ok.injEq] at h1
    exact ⟨ho, h0, h1.symm, h2, h3⟩
  · simp at h1

/-- **C149.** What GLPK is asked: whenever the optimal power flow is built without an error and a branch is out of
service after each contingency, the points of the linear program are exactly the plans that obey the rules: limits of units and
branches, costs, balance of each bus, flow law and losses, in every instance, period and contingency. -/
theorem C149_plans_partial {c : GnCase} {p : GProb} {lp : GLp} (hr : gnRun c = .ok (p, lp)) (ho : GnOut c) (x : Nat → Rat) :
    GFeasible lp x ↔ GnRules c (gnSol p x) := by
  obtain ⟨hopf, _, hp, hb, _⟩ := gnRun_parts hr
  have hfit : GFits p.rows := by
    rw [hp]
    exact gFits_append (gnPwc_fits c) (gnOpfRows_fits ho)
  rw [gFeasible_iff hb hfit x]
  have h1 : GNamed p x ↔ GColsHold p x p.cols ∧ GRowsHold p x p.rows := ⟨fun h => ⟨h.cols, h.rows⟩, fun h => ⟨h.1, h.2⟩⟩
  rw [h1]
  have e1 : p.cols = gnCols c := by rw [hp]
  have e2 : p.rows = gnPwc c ++ gnOpfRows c := by rw [hp]
  rw [e1, e2, gRowsHold_append, gnCols_holds c hopf, gnPwc_holds, gnOpfRows_holds]
  constructor
  · rintro ⟨⟨h1, h2⟩, h3, h4⟩
    exact ⟨h1, h3, h2, h4⟩
  · intro h
    exact ⟨⟨h.units, h.limits⟩, h.costs, h.net⟩

/-! ## C149: totals -/

theorem sum_unique {α : Type} (key : α → Int) (n : Int) (v : Rat) : ∀ (l : List α), (l.map key).Nodup → n ∈ l.map key →
    (l.map (fun b => if n = key b then v else 0)).sum = v := by
  intro l
  induction l with
  | nil => intro _ h; simp at h
  | cons a l ih =>
    intro hn hm
    rw [List.map_cons, List.nodup_cons] at hn
    rw [List.map_cons, List.sum_cons]
    by_cases h : n = key a
    · rw [if_pos h]
      have : (l.map (fun b => if n = key b then v else 0)).sum = 0 := by
        apply List.sum_eq_zero
        intro y hy
        obtain ⟨b, hb, rfl⟩ := List.mem_map.1 hy
        rw [if_neg]
        intro e
        exact hn.1 (by rw [← h, e]; exact List.mem_map_of_mem hb)
      rw [this]
      ring
    · rw [if_neg h, ih hn.2 (by simpa [h] using hm)]
      ring

theorem sum_map_add3 {α : Type} (l : List α) (f g : α → Rat) : (l.map (fun a => f a + g a)).sum = (l.map f).sum + (l.map g).sum := by
  induction l with
  | nil => simp
  | cons a l ih => simp only [List.map_cons, List.sum_cons, ih]; ring

theorem sum_swap' {α β : Type} (l1 : List α) (l2 : List β) (f : α → β → Rat) :
    (l1.map (fun a => (l2.map (fun b => f a b)).sum)).sum = (l2.map (fun b => (l1.map (fun a => f a b)).sum)).sum := by
  induction l1 with
  | nil => simp
  | cons a l1 ih =>
    simp only [List.map_cons, List.sum_cons, ih, sum_map_add3]

/-- what is shared out over the buses by number is the total, if every owner's bus is one of them -/
theorem sum_by_bus {α β : Type} (key : β → Int) (bus : α → Int) (f : α → Rat) (l : List β) (us : List α) (hn : (l.map key).Nodup)
    (hm : ∀ u ∈ us, bus u ∈ l.map key) :
    (l.map (fun b => (us.map (fun u => if bus u = key b then f u else 0)).sum)).sum = (us.map f).sum := by
  rw [sum_swap' l us (fun b u => if bus u = key b then f u else 0)]
  congr 1
  apply List.map_congr_left
  intro u hu
  exact sum_unique key (bus u) (f u) l hn (hm u hu)

/-- the buses that are not isolated, with their positions -/
def gnLive (c : GnCase) : List (GnBus × Nat) := c.buses.zipIdx.filter (fun b => !(b.1.type == 4))

/-- a consistent network: bus numbers are unique, units and both ends of branches are at buses that are not isolated, and the ends differ -/
structure GnSound (c : GnCase) : Prop where
  numbers : (c.buses.map (·.number)).Nodup
  conv : ∀ u ∈ c.conv, ∃ b ∈ c.buses, b.number = u.bus ∧ b.type ≠ 4
  res : ∀ u ∈ c.res, ∃ b ∈ c.buses, b.number = u.bus ∧ b.type ≠ 4
  hydro : ∀ u ∈ c.hydro, ∃ b ∈ c.buses, b.number = u.bus ∧ b.type ≠ 4
  ends : ∀ l ∈ c.branches, l.fbus ≠ l.tbus ∧ (∃ b ∈ c.buses, b.number = l.fbus ∧ b.type ≠ 4) ∧ ∃ b ∈ c.buses, b.number = l.tbus ∧ b.type ≠ 4

theorem gnLive_nodup {c : GnCase} (h : (c.buses.map (·.number)).Nodup) : ((gnLive c).map (fun b => b.1.number)).Nodup := by
  have : (c.buses.zipIdx.map (fun b => b.1.number)).Nodup := by
    rw [show (fun b : GnBus × Nat => b.1.number) = (fun b : GnBus => b.number) ∘ Prod.fst from rfl, ← List.map_map, List.zipIdx_map_fst]
    exact h
  exact this.sublist ((List.filter_sublist).map _)

theorem gnLive_mem {c : GnCase} {n : Int} (h : ∃ b ∈ c.buses, b.number = n ∧ b.type ≠ 4) : n ∈ (gnLive c).map (fun b => b.1.number) := by
  obtain ⟨b, hb, h1, h2⟩ := h
  obtain ⟨m, hm⟩ := List.mem_iff_getElem?.1 hb
  exact List.mem_map.2 ⟨(b, m), List.mem_filter.2 ⟨mem_zipIdx_iff'.2 hm, by simpa using h2⟩, h1⟩

theorem mem_fst_zipIdx {α : Type} {l : List α} {q : α × Nat} (h : q ∈ l.zipIdx) : q.1 ∈ l := List.mem_of_getElem? (mem_zipIdx_iff'.1 h)

theorem sum_zipIdx_const {α : Type} (l : List α) (f : α → Rat) : (l.zipIdx.map (fun q => f q.1)).sum = (l.map f).sum := by
  rw [show (fun q : α × Nat => f q.1) = f ∘ Prod.fst from rfl, ← List.map_map, List.zipIdx_map_fst]

theorem sum_map_sub3 {α : Type} (l : List α) (f g : α → Rat) : (l.map (fun a => f a - g a)).sum = (l.map f).sum - (l.map g).sum := by
  induction l with
  | nil => simp
  | cons a l ih => simp only [List.map_cons, List.sum_cons, ih]; ring

/-- losses of the whole network: of the branches, or the number that is given for them -/
def gnLossTotal (c : GnCase) (s : GnSol) (i j k : Nat) : Rat :=
  match c.lossPieces with
  | some _ => (c.branches.zipIdx.map (fun b => s.loss i j k b.2)).sum
  | none => (c.branches.map (fun b => b.loss / c.base)).sum

theorem gnLossAt_sum {c : GnCase} (h : GnSound c) (s : GnSol) (i j k : Nat) :
    ((gnLive c).map (fun b => gnLossAt c s i j k b.1.number)).sum = gnLossTotal c s i j k := by
  have hn := gnLive_nodup h.numbers
  unfold gnLossAt gnLossTotal
  cases c.lossPieces with
  | some ps =>
    simp only
    have e : ∀ b : GnBus × Nat, (c.branches.zipIdx.map (fun l => if l.1.fbus = b.1.number ∨ l.1.tbus = b.1.number then s.loss i j k l.2 / 2 else 0)).sum =
        (c.branches.zipIdx.map (fun l => if l.1.fbus = b.1.number then s.loss i j k l.2 / 2 else 0)).sum +
        (c.branches.zipIdx.map (fun l => if l.1.tbus = b.1.number then s.loss i j k l.2 / 2 else 0)).sum := by
      intro b
      rw [← sum_map_add3]
      congr 1
      apply List.map_congr_left
      intro l hl
      have := (h.ends l.1 (mem_fst_zipIdx hl)).1
      by_cases h1 : l.1.fbus = b.1.number
      · have h2 : l.1.tbus ≠ b.1.number := fun e => this (h1.trans e.symm)
        simp [h1, h2]
      · by_cases h2 : l.1.tbus = b.1.number <;> simp [h1, h2]
    simp only [e]
    rw [sum_map_add3, sum_by_bus (fun b : GnBus × Nat => b.1.number) (fun l : GnBranch × Nat => l.1.fbus) (fun l => s.loss i j k l.2 / 2) _ _ hn
        (fun l hl => gnLive_mem (h.ends l.1 (mem_fst_zipIdx hl)).2.1),
      sum_by_bus (fun b : GnBus × Nat => b.1.number) (fun l : GnBranch × Nat => l.1.tbus) (fun l => s.loss i j k l.2 / 2) _ _ hn
        (fun l hl => gnLive_mem (h.ends l.1 (mem_fst_zipIdx hl)).2.2), ← sum_map_add3]
    congr 1
    apply List.map_congr_left
    intro l _
    ring
  | none =>
    simp only [gnNonTech]
    simp only [sum_map_add3]
    rw [sum_by_bus (fun b : GnBus × Nat => b.1.number) (fun l : GnBranch => l.fbus) (fun l => 1 / 2 * (l.loss / c.base)) _ _ hn
        (fun l hl => gnLive_mem (h.ends l hl).2.1),
      sum_by_bus (fun b : GnBus × Nat => b.1.number) (fun l : GnBranch => l.tbus) (fun l => 1 / 2 * (l.loss / c.base)) _ _ hn
        (fun l hl => gnLive_mem (h.ends l hl).2.2), ← sum_map_add3]
    congr 1
    apply List.map_congr_left
    intro l _
    ring

/-- **C149.** Conservation: in every plan and state of the network, what the units give and what is curtailed covers the demand, the losses of
the branches once, and the pumps as many times as there are buses. -/
theorem C149_total_partial {c : GnCase} {s : GnSol} {i j k : Nat} (h : GnNet c s i j k) (hs : GnSound c) :
    (c.conv.zipIdx.map (fun u => s.conv i j u.2)).sum + (c.res.zipIdx.map (fun u => s.res i j u.2)).sum +
      (c.hydro.zipIdx.map (fun u => s.hydro i j u.2)).sum +
      ((gnLive c).map (fun b => if c.feas = true then s.lc i j k b.2 - s.gc i j k b.2 else 0)).sum =
    ((gnLive c).map (fun b => gnDemand c b.1 i j)).sum + gnLossTotal c s i j k + (gnLive c).length * gnPumped c s i j := by
  have hn := gnLive_nodup hs.numbers
  have hb : (gnLive c).map (fun b => gnGenAt c s i j b.1.number + gnNetFlow c s i j k b.1.number +
      (if c.feas = true then s.lc i j k b.2 - s.gc i j k b.2 else 0)) =
      (gnLive c).map (fun b => gnDemand c b.1 i j + gnLossAt c s i j k b.1.number + gnPumped c s i j) := by
    apply List.map_congr_left
    intro b hb
    obtain ⟨h1, h2⟩ := List.mem_filter.1 hb
    exact h.balance b.2 b.1 (mem_zipIdx_iff'.1 h1) (by simpa using h2)
  have hsum := congrArg List.sum hb
  simp only [sum_map_add3, gnLossAt_sum hs, gnGenAt, gnNetFlow, sum_map_sub3] at hsum
  rw [sum_by_bus (fun b : GnBus × Nat => b.1.number) (fun u : GnUnit × Nat => u.1.bus) (fun u => s.conv i j u.2) _ _ hn
      (fun u hu => gnLive_mem (hs.conv u.1 (mem_fst_zipIdx hu))),
    sum_by_bus (fun b : GnBus × Nat => b.1.number) (fun u : GnRes × Nat => u.1.bus) (fun u => s.res i j u.2) _ _ hn
      (fun u hu => gnLive_mem (hs.res u.1 (mem_fst_zipIdx hu))),
    sum_by_bus (fun b : GnBus × Nat => b.1.number) (fun u : GnUnit × Nat => u.1.bus) (fun u => s.hydro i j u.2) _ _ hn
      (fun u hu => gnLive_mem (hs.hydro u.1 (mem_fst_zipIdx hu))),
    sum_by_bus (fun b : GnBus × Nat => b.1.number) (fun u : GnBranch × Nat => u.1.tbus) (fun u => s.flow i j k u.2) _ _ hn
      (fun u hu => gnLive_mem (hs.ends u.1 (mem_fst_zipIdx hu)).2.2),
    sum_by_bus (fun b : GnBus × Nat => b.1.number) (fun u : GnBranch × Nat => u.1.fbus) (fun u => s.flow i j k u.2) _ _ hn
      (fun u hu => gnLive_mem (hs.ends u.1 (mem_fst_zipIdx hu)).2.1), List.map_const', List.sum_replicate, nsmul_eq_mul] at hsum
  linarith

/-- **C149.** The balance of every bus that is not isolated, in every plan that GLPK may return, if there are no pumps: what its units give,
what the branches bring and what is curtailed is its demand and its share of the losses. -/
theorem C149_balance_partial {c : GnCase} {p : GProb} {lp : GLp} (hr : gnRun c = .ok (p, lp)) (ho : GnOut c) (hp : c.pumps = [])
    (x : Nat → Rat) (hx : GFeasible lp x) (i j k : Nat) (hi : i < c.insts) (hj : j < c.periods) (hk : k ≤ c.cont) (n : Nat) (b : GnBus)
    (hb : c.buses[n]? = some b) (ht : b.type ≠ 4) :
    gnGenAt c (gnSol p x) i j b.number + gnNetFlow c (gnSol p x) i j k b.number +
      (if c.feas = true then (gnSol p x).lc i j k n - (gnSol p x).gc i j k n else 0) =
    gnDemand c b i j + gnLossAt c (gnSol p x) i j k b.number := by
  have := (((C149_plans_partial hr ho x).1 hx).net i j k hi hj hk).balance n b hb ht
  unfold GnBalance at this
  rw [this]
  simp [gnPumped, hp]

end Pyensys
