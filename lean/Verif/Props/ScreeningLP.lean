import Verif.Model.ScreeningLP
import Verif.Props.Screening
import Mathlib.Tactic.Linarith
import Mathlib.Tactic.FieldSimp
import Mathlib.Algebra.BigOperators.Group.List.Lemmas
import Mathlib.Algebra.Order.BigOperators.Group.List
import Mathlib.Data.Rat.BigOperators
import Mathlib.Analysis.Convex.Slope

/-!
# Properties of the investment programme of the screening stage (C83-C88)
-/

namespace Pyensys

/-! ## building the programme -/

theorem mem_pairs {α : Type} (l : List α) (c : Nat) (t : Nat × α × Nat) :
    t ∈ l.zipIdx.flatMap (fun a => (List.range c).map (fun k => (a.2, a.1, k))) ↔
      l[t.1]? = some t.2.1 ∧ t.2.2 < c := by
  obtain ⟨i, a, k⟩ := t
  simp only [List.mem_flatMap, List.mem_map, List.mem_range, Prod.exists, List.mem_zipIdx_iff_getElem?, Prod.mk.injEq]
  constructor
  · rintro ⟨a', i', h, k', hk, rfl, rfl, rfl⟩
    exact ⟨h, hk⟩
  · rintro ⟨h, hk⟩
    exact ⟨a, i, h, k, hk, rfl, rfl, rfl⟩

theorem mapM_ok_forall {α β : Type} (f : α → Except PyErr β) : ∀ (l : List α) (r : List β), l.mapM f = .ok r →
    (∀ b ∈ r, ∃ a ∈ l, f a = .ok b) ∧ (∀ a ∈ l, ∃ b ∈ r, f a = .ok b) := by
  intro l r h
  rw [mapM_ok_iff] at h
  induction h with
  | nil => simp
  | cons h1 _ ih =>
    constructor
    · intro b hb
      rcases List.mem_cons.1 hb with rfl | hb
      · exact ⟨_, List.mem_cons_self, h1⟩
      · obtain ⟨a, ha, hab⟩ := ih.1 b hb
        exact ⟨a, List.mem_cons_of_mem _ ha, hab⟩
    · intro a ha
      rcases List.mem_cons.1 ha with rfl | ha
      · exact ⟨_, List.mem_cons_self, h1⟩
      · obtain ⟨b, hb, hab⟩ := ih.2 a ha
        exact ⟨b, List.mem_cons_of_mem _ hb, hab⟩

theorem mapM_total_of {α β : Type} (f : α → Except PyErr β) (l : List α) (h : ∀ a ∈ l, ∃ b, f a = .ok b) :
    ∃ r, l.mapM f = .ok r := by
  induction l with
  | nil => exact ⟨[], rfl⟩
  | cons a l ih =>
    obtain ⟨b, hb⟩ := h a List.mem_cons_self
    obtain ⟨r, hr⟩ := ih (fun x hx => h x (List.mem_cons_of_mem _ hx))
    refine ⟨b :: r, ?_⟩
    rw [List.mapM_cons, hb]
    show (do let r ← l.mapM f; pure (b :: r)) = _
    rw [hr]; rfl

theorem forPairs_iff {α : Type} (l : List α) (c : Nat) (rule : Nat → α → Nat → Except PyErr (LPPoint → Prop))
    (r : List (LPPoint → Prop)) (h : forPairs l c rule = .ok r) (p : LPPoint) :
    (∀ q ∈ r, q p) ↔ ∀ (i : Nat) (a : α) (k : Nat), l[i]? = some a → k < c → ∃ q, rule i a k = .ok q ∧ q p := by
  obtain ⟨h1, h2⟩ := mapM_ok_forall _ _ _ h
  constructor
  · intro hq i a k hi hk
    obtain ⟨q, hqr, hq'⟩ := h2 (i, a, k) ((mem_pairs l c (i, a, k)).2 ⟨hi, hk⟩)
    exact ⟨q, hq', hq q hqr⟩
  · intro hq q hqr
    obtain ⟨⟨i, a, k⟩, ht, hr⟩ := h1 q hqr
    obtain ⟨hi, hk⟩ := (mem_pairs l c _).1 ht
    obtain ⟨q', hq1, hq2⟩ := hq i a k hi hk
    simp only at hr hq1
    rw [hr] at hq1
    injection hq1 with hq1
    rw [hq1]; exact hq2

theorem forPairs_total {α : Type} (l : List α) (c : Nat) (rule : Nat → α → Nat → Except PyErr (LPPoint → Prop)) :
    (∃ r, forPairs l c rule = .ok r) ↔ ∀ (i : Nat) (a : α) (k : Nat), l[i]? = some a → k < c → ∃ q, rule i a k = .ok q := by
  constructor
  · rintro ⟨r, hr⟩ i a k hi hk
    obtain ⟨_, h2⟩ := mapM_ok_forall _ _ _ hr
    obtain ⟨q, _, hq⟩ := h2 (i, a, k) ((mem_pairs l c (i, a, k)).2 ⟨hi, hk⟩)
    exact ⟨q, hq⟩
  · intro h
    apply mapM_total_of
    rintro ⟨i, a, k⟩ ht
    obtain ⟨hi, hk⟩ := (mem_pairs l c _).1 ht
    exact h i a k hi hk

theorem forPairs_rule {α : Type} {l : List α} {c : Nat} {rule : Nat → α → Nat → Except PyErr (LPPoint → Prop)}
    {r : List (LPPoint → Prop)} (h : forPairs l c rule = .ok r) {i : Nat} {a : α} {k : Nat} (hi : l[i]? = some a)
    (hk : k < c) : ∃ q, rule i a k = .ok q := (forPairs_total l c rule).1 ⟨r, h⟩ i a k hi hk

/-- position found by the code: a bus with that number, the first one -/
theorem busPos_some {d : ScreenData} {n : Int} {i : Nat} (h : busPos d n = some i) :
    ∃ b, d.buses[i]? = some b ∧ b.number = n := by
  unfold busPos at h
  rw [List.findIdx?_map] at h
  obtain ⟨hl, h1, _⟩ := List.findIdx?_eq_some_iff_getElem.1 h
  exact ⟨d.buses[i], List.getElem?_eq_getElem hl, by simpa using h1⟩

theorem busPos_exists {d : ScreenData} {n : Int} {i : Nat} {b : SBus} (h : d.buses[i]? = some b) (hn : b.number = n) :
    ∃ j, busPos d n = some j := by
  unfold busPos
  rw [List.findIdx?_map, ← Option.isSome_iff_exists, List.findIdx?_isSome, List.any_eq_true]
  exact ⟨b, List.mem_of_getElem? h, by simpa using hn⟩

/-- position of a bus number when the numbers are different -/
theorem busPos_unique {d : ScreenData} (hd : (d.buses.map (·.number)).Nodup) {n : Int} {i : Nat} {b : SBus}
    (h : d.buses[i]? = some b) (hn : b.number = n) : busPos d n = some i := by
  obtain ⟨j, hj⟩ := busPos_exists h hn
  obtain ⟨b', hb', hn'⟩ := busPos_some hj
  have hi := (List.getElem?_eq_some_iff.1 h).1
  have hj' := (List.getElem?_eq_some_iff.1 hb').1
  have e : (d.buses.map (·.number))[j]? = (d.buses.map (·.number))[i]? := by
    rw [List.getElem?_map, List.getElem?_map, h, hb']
    simp [hn, hn']
  have := (List.Nodup.getElem_inj_iff hd (i := j) (j := i) (hi := by simpa using hj') (hj := by simpa using hi)).1
    (by
      rw [List.getElem?_eq_getElem (by simpa using hj'), List.getElem?_eq_getElem (by simpa using hi)] at e
      exact Option.some.inj e)
  rw [hj, this]

/-- the parts of a built programme -/
theorem build_parts {d : ScreenData} {m : ScreenLP} (h : buildScreening d = .ok m) :
    m.objective = objective d ∧ d.cont ≠ [] ∧
    ∃ (lines : List (List CostLine)) (c5 : List (LPPoint → Prop)), genCostRule d = .ok lines ∧ (List.range d.cont.length).mapM (slackCon d) = .ok c5 ∧
      (∃ r, forPairs d.gens d.cont.length (genMaxCon d) = .ok r) ∧
      (∃ r, forPairs d.gens d.cont.length (genMinCon d) = .ok r) ∧
      (∃ r, forPairs lines d.cont.length pwCon = .ok r) ∧
      (∃ r, forPairs d.branches d.cont.length (dcpfCon d) = .ok r) ∧
      (∃ r, forPairs d.branches d.cont.length (capCon d) = .ok r) ∧
      (∃ r, forPairs d.branches d.cont.length (capNCon d) = .ok r) ∧
      (∃ r, forPairs d.buses d.cont.length (balanceCon d) = .ok r) ∧
      (∃ r, forPairs d.buses d.cont.length (curtailCon d) = .ok r) ∧
      ∀ p, m.Feasible p ↔ domainCon d p ∧
        (∀ (i : Nat) (a : SGen) (k : Nat), d.gens[i]? = some a → k < d.cont.length → ∃ q, genMaxCon d i a k = .ok q ∧ q p) ∧
        (∀ (i : Nat) (a : SGen) (k : Nat), d.gens[i]? = some a → k < d.cont.length → ∃ q, genMinCon d i a k = .ok q ∧ q p) ∧
        (∀ (i : Nat) (a : List CostLine) (k : Nat), lines[i]? = some a → k < d.cont.length → ∃ q, pwCon i a k = .ok q ∧ q p) ∧
        (∀ (i : Nat) (a : SBranch) (k : Nat), d.branches[i]? = some a → k < d.cont.length → ∃ q, dcpfCon d i a k = .ok q ∧ q p) ∧
        (∀ q ∈ c5, q p) ∧
        (∀ (i : Nat) (a : SBranch) (k : Nat), d.branches[i]? = some a → k < d.cont.length → ∃ q, capCon d i a k = .ok q ∧ q p) ∧
        (∀ (i : Nat) (a : SBranch) (k : Nat), d.branches[i]? = some a → k < d.cont.length → ∃ q, capNCon d i a k = .ok q ∧ q p) ∧
        (∀ (i : Nat) (a : SBus) (k : Nat), d.buses[i]? = some a → k < d.cont.length → ∃ q, balanceCon d i a k = .ok q ∧ q p) ∧
        (∀ (i : Nat) (a : SBus) (k : Nat), d.buses[i]? = some a → k < d.cont.length → ∃ q, curtailCon d i a k = .ok q ∧ q p) := by
  unfold buildScreening at h
  simp only [except_bind_ok] at h
  obtain ⟨lines, h0, c1, h1, c2, h2, c3, h3, c4, h4, c5, h5, c6, h6, c7, h7, c8, h8, c9, h9, h⟩ := h
  split at h
  · cases h
  · rename_i hc
    injection h with h
    subst h
    refine ⟨rfl, hc, lines, c5, h0, h5, ⟨_, h1⟩, ⟨_, h2⟩, ⟨_, h3⟩, ⟨_, h4⟩, ⟨_, h6⟩, ⟨_, h7⟩, ⟨_, h8⟩, ⟨_, h9⟩, ?_⟩
    intro p
    rw [← forPairs_iff _ _ _ _ h1, ← forPairs_iff _ _ _ _ h2, ← forPairs_iff _ _ _ _ h3, ← forPairs_iff _ _ _ _ h4,
      ← forPairs_iff _ _ _ _ h6, ← forPairs_iff _ _ _ _ h7, ← forPairs_iff _ _ _ _ h8, ← forPairs_iff _ _ _ _ h9]
    unfold ScreenLP.Feasible
    simp only [List.mem_cons, List.mem_append]
    constructor
    · intro h
      exact ⟨h _ (.inl rfl), fun q hq => h q (by tauto), fun q hq => h q (by tauto), fun q hq => h q (by tauto),
        fun q hq => h q (by tauto), fun q hq => h q (by tauto), fun q hq => h q (by tauto), fun q hq => h q (by tauto),
        fun q hq => h q (by tauto), fun q hq => h q (by tauto)⟩
    · rintro ⟨g0, g1, g2, g3, g4, g5, g6, g7, g8, g9⟩ q hq
      rcases hq with rfl | hq
      · exact g0
      · rcases hq with (((((((hq | hq) | hq) | hq) | hq) | hq) | hq) | hq) | hq
        · exact g1 q hq
        · exact g2 q hq
        · exact g3 q hq
        · exact g4 q hq
        · exact g5 q hq
        · exact g6 q hq
        · exact g7 q hq
        · exact g8 q hq
        · exact g9 q hq

/-! ## C83: what a plan of the programme is -/

/-- whether branch `xbr` is out in contingency `k`: taken out by the contingency, or not in service
(only looked at if the line status is to be respected) -/
def BranchOutIn (d : ScreenData) (xbr : Nat) (br : SBranch) (k : Nat) : Prop :=
  (∃ c, d.cont[k]? = some c ∧ c[xbr]? = some 0) ∨ (d.lineStatus = true ∧ br.status = 0)

/-- a generator that is off (only looked at if the generator status is to be respected) -/
def GenOff (d : ScreenData) (g : SGen) : Prop := d.genStatus = true ∧ g.status = 0

/-- net power that the bus at position `xb` receives from its generators and branches in contingency `k` -/
def Received (d : ScreenData) (p : LPPoint) (n : Int) (k : Nat) : Rat :=
  ((List.range d.gens.length).map (fun i => if (d.gens[i]?.map (·.bus)) = some n then p.pgen i k else 0)).sum
  + ((List.range d.branches.length).map (fun i => if (d.branches[i]?.map (·.tbus)) = some n then p.pbra i k else 0)).sum
  - ((List.range d.branches.length).map (fun i => if (d.branches[i]?.map (·.fbus)) = some n then p.pbra i k else 0)).sum

/-- A plan as the documentation of the screening model describes it, for one contingency -/
structure PlanIn (d : ScreenData) (lines : List (List CostLine)) (p : LPPoint) (k : Nat) : Prop where
  /-- generators that are off produce nothing -/
  off : ∀ (i : Nat) (g : SGen), d.gens[i]? = some g → GenOff d g → p.pgen i k = 0
  /-- the others stay between their minimum and their maximum times the multiplier of their bus -/
  limits : ∀ (i : Nat) (g : SGen), d.gens[i]? = some g → ¬ GenOff d g → g.pmin ≤ p.pgen i k ∧
    ∀ (j : Nat) (b : SBus) (m : Rat), d.buses[j]? = some b → b.number = g.bus → d.mult[j]? = some m →
      p.pgen i k ≤ m * g.pmax
  positive : ∀ (i : Nat), i < d.gens.length → 0 ≤ p.pgen i k ∧ 0 ≤ p.cgen i k
  /-- generation costs lie above the lines of the generator -/
  costs : ∀ (i : Nat) (ls : List CostLine), lines[i]? = some ls → ∀ l ∈ ls, l.1 * p.pgen i k + l.2 ≤ p.cgen i k
  /-- branches that are out carry nothing -/
  out : ∀ (i : Nat) (br : SBranch), d.branches[i]? = some br → BranchOutIn d i br k → p.pbra i k = 0
  /-- the others carry the flow of the angles at their ends -/
  flow : ∀ (i : Nat) (br : SBranch), d.branches[i]? = some br → ¬ BranchOutIn d i br k →
    ∀ (f t : Nat) (bf bt : SBus), d.buses[f]? = some bf → d.buses[t]? = some bt → bf.number = br.fbus →
      bt.number = br.tbus → br.x * p.pbra i k = d.baseMVA * (p.ang f k - p.ang t k)
  /-- up to their rating (0: no limit) and the new investment, and previous investments in the forward direction -/
  cap : ∀ (i : Nat) (br : SBranch), d.branches[i]? = some br → ¬ BranchOutIn d i br k → br.rate ≠ 0 →
    (∀ v, d.prev[i]? = some v → p.pbra i k ≤ br.rate + v + p.ic i) ∧ - p.pbra i k ≤ br.rate + p.ic i
  /-- the angle of the last slack bus is zero, all are between -2π and 2π -/
  slack : ∀ (j : Nat) (b : SBus), d.buses[j]? = some b → b.kind = 3 →
    (∀ (j' : Nat) (b' : SBus), d.buses[j']? = some b' → b'.kind = 3 → j' ≤ j) → p.ang j k = 0
  angles : ∀ j < d.buses.length, |p.ang j k| ≤ twoPi
  /-- every bus receives its demand (active and reactive), multiplied, and its additional demand, except what is
  curtailed; at most the active demand is curtailed -/
  balance : ∀ (j : Nat) (b : SBus) (m a : Rat), d.buses[j]? = some b → d.mult[j]? = some m → d.add[j]? = some a →
    Received d p b.number k = m * (b.pd + b.qd) + a - p.plc j k
  curtail : ∀ (j : Nat) (b : SBus) (m : Rat), d.buses[j]? = some b → d.mult[j]? = some m →
    0 ≤ p.plc j k ∧ p.plc j k ≤ m * |b.pd|

theorem positions_sum (col : List Int) (n : Int) (f : Nat → Rat) :
    ((positions col n).map f).sum = ((List.range col.length).map (fun i => if col[i]? = some n then f i else 0)).sum := by
  unfold positions
  generalize List.range col.length = l
  induction l with
  | nil => rfl
  | cons i l ih =>
    rw [List.filter_cons]
    split
    · rename_i h
      simp only [decide_eq_true_eq] at h
      simp [h, ih]
    · rename_i h
      simp only [decide_eq_true_eq] at h
      simp [h, ih]

theorem branchOut_iff {d : ScreenData} {i : Nat} {br : SBranch} {k : Nat} {o : Bool} (h : branchOut d i br k = .ok o) :
    o = true ↔ BranchOutIn d i br k := by
  unfold branchOut at h
  simp only [except_bind_ok] at h
  obtain ⟨c, hc, s, hs, h⟩ := h
  rw [pyGet_nat_iff] at hc hs
  injection h with h
  subst h
  unfold BranchOutIn
  simp only [hc, Option.some.injEq, Bool.or_eq_true, decide_eq_true_eq, Bool.and_eq_true]
  constructor
  · rintro (h | h)
    · exact .inl ⟨c, rfl, by rw [hs, h]⟩
    · exact .inr h
  · rintro (⟨c', rfl, h⟩ | h)
    · exact .inl (by rw [hs] at h; exact Option.some.inj h)
    · exact .inr h


theorem received_iff (d : ScreenData) (p : LPPoint) (n : Int) (k : Nat) (r : Rat) :
    ((positions (d.gens.map (·.bus)) n).map (fun i => p.pgen i k)).sum
      + ((positions (d.branches.map (·.tbus)) n).map (fun i => p.pbra i k)).sum
    = ((positions (d.branches.map (·.fbus)) n).map (fun i => p.pbra i k)).sum + r ↔ Received d p n k = r := by
  rw [positions_sum, positions_sum, positions_sum]
  unfold Received
  simp only [List.getElem?_map, List.length_map]
  constructor <;> intro h <;> linarith

theorem dcpf_eq (x b q a : Rat) (hb : b ≠ 0) (hx : x / b ≠ 0) : q = a / (x / b) ↔ x * q = b * a := by
  have hx' : x ≠ 0 := by rintro rfl; simp at hx
  constructor
  · rintro rfl; field_simp
  · intro h; field_simp; linarith

/-- **C83.** The feasible points of the programme are exactly the plans: generation within its limits, flows from
angles, capacities respected, every bus balanced. -/
theorem C83_programme (d : ScreenData) (hd : (d.buses.map (·.number)).Nodup) (m : ScreenLP)
    (h : buildScreening d = .ok m) (lines : List (List CostLine)) (hl : genCostRule d = .ok lines) (p : LPPoint) :
    m.Feasible p ↔ (∀ i < d.branches.length, 0 ≤ p.ic i) ∧ ∀ k < d.cont.length, PlanIn d lines p k := by
  obtain ⟨_, hc, lines', c5, h0, h5, ⟨r1, h1⟩, ⟨r2, h2⟩, ⟨r3, h3⟩, ⟨r4, h4⟩, ⟨r6, h6⟩, ⟨r7, h7⟩, ⟨r8, h8⟩, ⟨r9, h9⟩, hf⟩ := build_parts h
  rw [h0] at hl
  injection hl with hl
  subst hl
  rw [hf]
  have hslack : (∀ q ∈ c5, q p) ↔ ∀ k < d.cont.length, ∀ (j : Nat) (b : SBus), d.buses[j]? = some b → b.kind = 3 →
      (∀ (j' : Nat) (b' : SBus), d.buses[j']? = some b' → b'.kind = 3 → j' ≤ j) → p.ang j k = 0 := by
    obtain ⟨s1, s2⟩ := mapM_ok_forall _ _ _ h5
    -- the index chosen
    have key : ∀ k < d.cont.length, ∃ (j : Nat) (b : SBus), d.buses[j]? = some b ∧ b.kind = 3 ∧
        (∀ (j' : Nat) (b' : SBus), d.buses[j']? = some b' → b'.kind = 3 → j' ≤ j) ∧
        slackCon d k = .ok (fun p => p.ang j k = 0) := by
      intro k hk
      obtain ⟨q, _, hq⟩ := s2 k (List.mem_range.2 hk)
      unfold slackCon at hq
      split at hq
      · cases hq
      · rename_i j hj
        obtain ⟨ys, hys⟩ := List.getLast?_eq_some_iff.1 hj
        have hm : ∀ i, i ∈ ys ++ [j] ↔ i < d.buses.length ∧ (d.buses[i]?.map (·.kind)) = some 3 := by
          intro i; rw [← hys]; simp
        have hjm := (hm j).1 (by simp)
        obtain ⟨b, hb, hb3⟩ := Option.map_eq_some_iff.1 hjm.2
        refine ⟨j, b, hb, hb3, ?_, ?_⟩
        · intro j' b' hb' hk'
          have hj' := (hm j').2 ⟨(List.getElem?_eq_some_iff.1 hb').1, by rw [hb']; simp [hk']⟩
          have hs : (ys ++ [j]).Pairwise (· < ·) := by
            rw [← hys]
            exact List.Pairwise.filter _ List.pairwise_lt_range
          rcases List.mem_append.1 hj' with hy | hy
          · exact le_of_lt ((List.pairwise_append.1 hs).2.2 j' hy j (by simp))
          · simp at hy; omega
        · unfold slackCon
          rw [hj]
    constructor
    · intro hq k hk j b hb hb3 hlast
      obtain ⟨j1, b1, hb1, hb13, hlast1, hs⟩ := key k hk
      have : j = j1 := le_antisymm (hlast1 j b hb hb3) (hlast j1 b1 hb1 hb13)
      obtain ⟨q, hqm, hqe⟩ := s2 k (List.mem_range.2 hk)
      rw [hs] at hqe
      injection hqe with hqe
      subst hqe
      rw [this]
      exact hq _ hqm
    · intro hq q hqm
      obtain ⟨k, hk, hke⟩ := s1 q hqm
      obtain ⟨j1, b1, hb1, hb13, hlast1, hs⟩ := key k (List.mem_range.1 hk)
      rw [hs] at hke
      injection hke with hke
      subst hke
      exact hq k (List.mem_range.1 hk) j1 b1 hb1 hb13 hlast1
  rw [hslack]
  constructor
  · rintro ⟨g0, g1, g2, g3, g4, g5, g6, g7, g8, g9⟩
    refine ⟨g0.2, fun k hk => ?_⟩
    refine ⟨?_, ?_, ?_, ?_, ?_, ?_, ?_, ?_, ?_, ?_, ?_⟩
    · intro i g hg ho
      unfold GenOff at ho
      obtain ⟨q, hq, hqp⟩ := g1 i g k hg hk
      unfold genMaxCon at hq
      rw [if_pos ho] at hq
      injection hq with hq
      subst hq
      exact hqp
    · intro i g hg ho
      unfold GenOff at ho
      constructor
      · obtain ⟨q, hq, hqp⟩ := g2 i g k hg hk
        unfold genMinCon at hq
        rw [if_neg ho] at hq
        injection hq with hq
        subst hq
        exact hqp
      · intro j b mm hb hn hm
        obtain ⟨q, hq, hqp⟩ := g1 i g k hg hk
        unfold genMaxCon at hq
        rw [if_neg ho, busPos_unique hd hb hn] at hq
        simp only [except_bind_ok, pyGet_nat_iff] at hq
        obtain ⟨m', hm', hq⟩ := hq
        rw [hm] at hm'
        injection hm' with hm'
        subst hm'
        injection hq with hq
        subst hq
        exact hqp
    · intro i hi
      exact (g0.1 k hk).1 i hi
    · intro i ls hls l hl
      obtain ⟨q, hq, hqp⟩ := g3 i ls k hls hk
      injection hq with hq
      subst hq
      have := hqp l hl
      linarith
    · intro i br hbr ho
      obtain ⟨q, hq, hqp⟩ := g6 i br k hbr hk
      unfold capCon at hq
      simp only [except_bind_ok] at hq
      obtain ⟨o, hoo, hq⟩ := hq
      rw [if_pos ((branchOut_iff hoo).2 ho)] at hq
      injection hq with hq
      subst hq
      exact hqp
    · intro i br hbr ho f t bf bt hbf hbt hnf hnt
      obtain ⟨q, hq, hqp⟩ := g4 i br k hbr hk
      unfold dcpfCon at hq
      rw [busPos_unique hd hbf hnf, busPos_unique hd hbt hnt] at hq
      split at hq
      · cases hq
      · rename_i hbase
        simp only [except_bind_ok] at hq
        obtain ⟨o, hoo, hq⟩ := hq
        rw [if_neg (fun hh => ho ((branchOut_iff hoo).1 hh))] at hq
        split at hq
        · cases hq
        · rename_i hx
          injection hq with hq
          subst hq
          exact (dcpf_eq _ _ _ _ hbase hx).1 hqp
    · intro i br hbr ho hr
      constructor
      · intro v hv
        obtain ⟨q, hq, hqp⟩ := g6 i br k hbr hk
        unfold capCon at hq
        simp only [except_bind_ok] at hq
        obtain ⟨o, hoo, hq⟩ := hq
        rw [if_neg (fun hh => ho ((branchOut_iff hoo).1 hh)), if_pos hr] at hq
        simp only [except_bind_ok, pyGet_nat_iff] at hq
        obtain ⟨v', hv', hq⟩ := hq
        rw [hv] at hv'
        injection hv' with hv'
        subst hv'
        injection hq with hq
        subst hq
        linarith
      · obtain ⟨q, hq, hqp⟩ := g7 i br k hbr hk
        unfold capNCon at hq
        simp only [except_bind_ok] at hq
        obtain ⟨o, hoo, hq⟩ := hq
        rw [if_neg (fun hh => ho ((branchOut_iff hoo).1 hh)), if_pos hr] at hq
        injection hq with hq
        subst hq
        linarith
    · exact g5 k hk
    · intro j hj
      have := (g0.1 k hk).2 j hj
      exact abs_le.2 ⟨this.1, this.2.1⟩
    · intro j b mm a hb hm ha
      obtain ⟨q, hq, hqp⟩ := g8 j b k hb hk
      unfold balanceCon at hq
      simp only [except_bind_ok, pyGet_nat_iff] at hq
      obtain ⟨m', hm', a', ha', hq⟩ := hq
      rw [hm] at hm'; rw [ha] at ha'
      injection hm' with hm'; injection ha' with ha'
      subst hm'; subst ha'
      injection hq with hq
      subst hq
      rw [← received_iff, hqp]
      ring
    · intro j b mm hb hm
      refine ⟨((g0.1 k hk).2 j (List.getElem?_eq_some_iff.1 hb).1).2.2, ?_⟩
      obtain ⟨q, hq, hqp⟩ := g9 j b k hb hk
      unfold curtailCon at hq
      simp only [except_bind_ok, pyGet_nat_iff] at hq
      obtain ⟨m', hm', hq⟩ := hq
      rw [hm] at hm'
      injection hm' with hm'
      subst hm'
      injection hq with hq
      subst hq
      exact hqp
  · rintro ⟨hic, hp⟩
    refine ⟨⟨fun k hk => ⟨(hp k hk).positive, ?_⟩, hic⟩, ?_, ?_, ?_, ?_, fun k hk => (hp k hk).slack, ?_, ?_, ?_, ?_⟩
    · intro j hj
      have h1 := (hp k hk).angles j hj
      obtain ⟨q, hq⟩ := forPairs_rule h9 (List.getElem?_eq_getElem hj) hk
      unfold curtailCon at hq
      simp only [except_bind_ok, pyGet_nat_iff] at hq
      obtain ⟨m', hm', _⟩ := hq
      exact ⟨(abs_le.1 h1).1, (abs_le.1 h1).2, ((hp k hk).curtail j _ m' (List.getElem?_eq_getElem hj) hm').1⟩
    · intro i g k hg hk
      obtain ⟨q, hq⟩ := forPairs_rule h1 hg hk
      refine ⟨q, hq, ?_⟩
      unfold genMaxCon at hq
      split at hq
      · rename_i ho
        injection hq with hq
        subst hq
        exact (hp k hk).off i g hg ho
      · rename_i ho
        split at hq
        · cases hq
        · rename_i b hb
          simp only [except_bind_ok, pyGet_nat_iff] at hq
          obtain ⟨m', hm', hq⟩ := hq
          injection hq with hq
          subst hq
          obtain ⟨bb, hbb, hn⟩ := busPos_some hb
          exact ((hp k hk).limits i g hg ho).2 b bb m' hbb hn hm'
    · intro i g k hg hk
      obtain ⟨q, hq⟩ := forPairs_rule h2 hg hk
      refine ⟨q, hq, ?_⟩
      unfold genMinCon at hq
      split at hq
      · rename_i ho
        injection hq with hq
        subst hq
        exact (hp k hk).off i g hg ho
      · rename_i ho
        injection hq with hq
        subst hq
        exact ((hp k hk).limits i g hg ho).1
    · intro i ls k hls hk
      refine ⟨_, rfl, fun l hl => ?_⟩
      have := (hp k hk).costs i ls hls l hl
      linarith
    · intro i br k hbr hk
      obtain ⟨q, hq⟩ := forPairs_rule h4 hbr hk
      refine ⟨q, hq, ?_⟩
      unfold dcpfCon at hq
      split at hq
      · cases hq
      · rename_i hbase
        split at hq
        · rename_i f t hf' ht'
          simp only [except_bind_ok] at hq
          obtain ⟨o, hoo, hq⟩ := hq
          split at hq
          · injection hq with hq
            subst hq
            trivial
          · rename_i ho
            split at hq
            · cases hq
            · rename_i hx
              injection hq with hq
              subst hq
              obtain ⟨bf, hbf, hnf⟩ := busPos_some hf'
              obtain ⟨bt, hbt, hnt⟩ := busPos_some ht'
              exact (dcpf_eq _ _ _ _ hbase hx).2
                ((hp k hk).flow i br hbr (fun hh => ho ((branchOut_iff hoo).2 hh)) f t bf bt hbf hbt hnf hnt)
        · cases hq
    · intro i br k hbr hk
      obtain ⟨q, hq⟩ := forPairs_rule h6 hbr hk
      refine ⟨q, hq, ?_⟩
      unfold capCon at hq
      simp only [except_bind_ok] at hq
      obtain ⟨o, hoo, hq⟩ := hq
      split at hq
      · rename_i ho
        injection hq with hq
        subst hq
        exact (hp k hk).out i br hbr ((branchOut_iff hoo).1 ho)
      · rename_i ho
        split at hq
        · rename_i hr
          simp only [except_bind_ok, pyGet_nat_iff] at hq
          obtain ⟨v, hv, hq⟩ := hq
          injection hq with hq
          subst hq
          have := ((hp k hk).cap i br hbr (fun hh => ho ((branchOut_iff hoo).2 hh)) hr).1 v hv
          linarith
        · injection hq with hq
          subst hq
          trivial
    · intro i br k hbr hk
      obtain ⟨q, hq⟩ := forPairs_rule h7 hbr hk
      refine ⟨q, hq, ?_⟩
      unfold capNCon at hq
      simp only [except_bind_ok] at hq
      obtain ⟨o, hoo, hq⟩ := hq
      split at hq
      · rename_i ho
        injection hq with hq
        subst hq
        exact (hp k hk).out i br hbr ((branchOut_iff hoo).1 ho)
      · rename_i ho
        split at hq
        · rename_i hr
          injection hq with hq
          subst hq
          have := ((hp k hk).cap i br hbr (fun hh => ho ((branchOut_iff hoo).2 hh)) hr).2
          linarith
        · injection hq with hq
          subst hq
          trivial
    · intro j b k hb hk
      obtain ⟨q, hq⟩ := forPairs_rule h8 hb hk
      refine ⟨q, hq, ?_⟩
      unfold balanceCon at hq
      simp only [except_bind_ok, pyGet_nat_iff] at hq
      obtain ⟨m', hm', a', ha', hq⟩ := hq
      injection hq with hq
      subst hq
      have := (received_iff d p b.number k _).2 ((hp k hk).balance j b m' a' hb hm' ha')
      beta_reduce
      rw [this]
      ring
    · intro j b k hb hk
      obtain ⟨q, hq⟩ := forPairs_rule h9 hb hk
      refine ⟨q, hq, ?_⟩
      unfold curtailCon at hq
      simp only [except_bind_ok, pyGet_nat_iff] at hq
      obtain ⟨m', hm', hq⟩ := hq
      injection hq with hq
      subst hq
      exact ((hp k hk).curtail j b m' hb hm').2


/-! ## C84: power is balanced over every part of the network -/

/-- what the bus at position `j` takes in contingency `k`: multiplied demand and additional demand without what
is curtailed -/
def NetDemand (d : ScreenData) (p : LPPoint) (k j : Nat) : Rat :=
  match d.buses[j]?, d.mult[j]?, d.add[j]? with
  | some b, some m, some a => m * (b.pd + b.qd) + a - p.plc j k
  | _, _, _ => 0

theorem sum_map_add' {ι : Type} (l : List ι) (f g : ι → Rat) :
    (l.map (fun i => f i + g i)).sum = (l.map f).sum + (l.map g).sum := by
  induction l with
  | nil => simp
  | cons a l ih => simp only [List.map_cons, List.sum_cons, ih]; ring

theorem sum_map_sub' {ι : Type} (l : List ι) (f g : ι → Rat) :
    (l.map (fun i => f i - g i)).sum = (l.map f).sum - (l.map g).sum := by
  induction l with
  | nil => simp
  | cons a l ih => simp only [List.map_cons, List.sum_cons, ih]; ring

/-- summing over buses what sits at them counts everything that sits at one of them once -/
theorem sum_at_buses (idx : List Nat) (key : Nat → Option Int) (v : Nat → Rat) (S : Int → Prop) [DecidablePred S] :
    ∀ (nums : List Int), nums.Nodup →
    (nums.map (fun n => if S n then (idx.map (fun i => if key i = some n then v i else 0)).sum else 0)).sum
      = (idx.map (fun i => if ∃ n ∈ nums, S n ∧ key i = some n then v i else 0)).sum := by
  intro nums
  induction nums with
  | nil => intro _; simp
  | cons n nums ih =>
    intro hnd
    rw [List.nodup_cons] at hnd
    rw [List.map_cons, List.sum_cons, ih hnd.2]
    by_cases hS : S n
    · rw [if_pos hS, ← sum_map_add']
      congr 1
      apply List.map_congr_left
      intro i _
      by_cases hk : key i = some n
      · have h1 : ¬ ∃ n' ∈ nums, S n' ∧ key i = some n' := by
          rintro ⟨n', hn', _, hk'⟩
          rw [hk] at hk'
          injection hk' with hk'
          subst hk'
          exact hnd.1 hn'
        have h2 : ∃ n' ∈ n :: nums, S n' ∧ key i = some n' := ⟨n, List.mem_cons_self, hS, hk⟩
        rw [if_pos hk, if_neg h1, if_pos h2, add_zero]
      · rw [if_neg hk, zero_add]
        apply if_congr _ rfl rfl
        simp [hk]
    · rw [if_neg hS, zero_add]
      congr 1
      apply List.map_congr_left
      intro i _
      apply if_congr _ rfl rfl
      simp [hS]

theorem map_range_getElem? {α : Type} (l : List α) (f : α → Rat) (g : Nat → Rat)
    (h : ∀ (j : Nat) (a : α), l[j]? = some a → g j = f a) : ((List.range l.length).map g).sum = (l.map f).sum := by
  have : (List.range l.length).map g = l.map f := by
    apply List.ext_getElem?
    intro j
    rw [List.getElem?_map, List.getElem?_map]
    by_cases hj : j < l.length
    · rw [List.getElem?_range hj, List.getElem?_eq_getElem hj]
      simp [h j _ (List.getElem?_eq_getElem hj)]
    · rw [List.getElem?_eq_none (by simpa using hj), List.getElem?_eq_none (by simpa using hj)]
      rfl
  rw [this]

theorem build_known {d : ScreenData} {m : ScreenLP} (h : buildScreening d = .ok m) :
    (∀ (i : Nat) (br : SBranch), d.branches[i]? = some br →
      (∃ b ∈ d.buses, b.number = br.fbus) ∧ (∃ b ∈ d.buses, b.number = br.tbus)) ∧
    (∀ (i : Nat) (g : SGen), d.gens[i]? = some g → ¬ GenOff d g → ∃ b ∈ d.buses, b.number = g.bus) ∧
    (∀ (j : Nat) (b : SBus), d.buses[j]? = some b → ∃ m a, d.mult[j]? = some m ∧ d.add[j]? = some a) := by
  obtain ⟨_, hc, lines', c5, h0, h5, ⟨r1, h1⟩, ⟨r2, h2⟩, ⟨r3, h3⟩, ⟨r4, h4⟩, ⟨r6, h6⟩, ⟨r7, h7⟩, ⟨r8, h8⟩, ⟨r9, h9⟩, hf⟩ := build_parts h
  have h0c : 0 < d.cont.length := List.length_pos_iff.2 hc
  refine ⟨?_, ?_, ?_⟩
  · intro i br hbr
    obtain ⟨q, hq⟩ := forPairs_rule h4 hbr h0c
    unfold dcpfCon at hq
    split at hq
    · cases hq
    · split at hq
      · rename_i f t hf' ht'
        obtain ⟨bf, hbf, hnf⟩ := busPos_some hf'
        obtain ⟨bt, hbt, hnt⟩ := busPos_some ht'
        exact ⟨⟨bf, List.mem_of_getElem? hbf, hnf⟩, ⟨bt, List.mem_of_getElem? hbt, hnt⟩⟩
      · cases hq
  · intro i g hg ho
    obtain ⟨q, hq⟩ := forPairs_rule h1 hg h0c
    unfold genMaxCon at hq
    unfold GenOff at ho
    rw [if_neg ho] at hq
    split at hq
    · cases hq
    · rename_i b hb
      obtain ⟨bb, hbb, hn⟩ := busPos_some hb
      exact ⟨bb, List.mem_of_getElem? hbb, hn⟩
  · intro j b hb
    obtain ⟨q, hq⟩ := forPairs_rule h8 hb h0c
    unfold balanceCon at hq
    simp only [except_bind_ok, pyGet_nat_iff] at hq
    obtain ⟨m', hm', a', ha', _⟩ := hq
    exact ⟨m', a', hm', ha'⟩

/-- **C84.** For every feasible plan, every contingency and every set `S` of buses: what the buses of `S` take is what
the generators at buses of `S` produce plus what flows in minus what flows out over the branches. -/
theorem C84_every_cut (d : ScreenData) (hd : (d.buses.map (·.number)).Nodup) (m : ScreenLP)
    (h : buildScreening d = .ok m) (p : LPPoint) (hp : m.Feasible p) (k : Nat) (hk : k < d.cont.length)
    (S : Int → Bool) :
    ((List.range d.buses.length).map (fun j => if d.buses[j]?.any (fun x => S x.number) then NetDemand d p k j else 0)).sum
      = ((List.range d.gens.length).map (fun i => if d.gens[i]?.any (fun x => S x.bus) then p.pgen i k else 0)).sum
        + ((List.range d.branches.length).map (fun i => if d.branches[i]?.any (fun x => S x.tbus) then p.pbra i k else 0)).sum
        - ((List.range d.branches.length).map (fun i => if d.branches[i]?.any (fun x => S x.fbus) then p.pbra i k else 0)).sum := by
  obtain ⟨kn1, kn2, kn3⟩ := build_known h
  obtain ⟨lines, hl⟩ : ∃ lines, genCostRule d = .ok lines := by
    obtain ⟨_, _, lines, _, h0, _⟩ := build_parts h
    exact ⟨lines, h0⟩
  have plan := ((C83_programme d hd m h lines hl p).1 hp).2 k hk
  have e1 : ((List.range d.buses.length).map (fun j => if d.buses[j]?.any (fun x => S x.number) then NetDemand d p k j else 0)).sum
      = ((d.buses.map (·.number)).map (fun n => if S n then Received d p n k else 0)).sum := by
    rw [List.map_map]
    apply map_range_getElem?
    intro j b hb
    obtain ⟨mm, a, hm, ha⟩ := kn3 j b hb
    have := plan.balance j b mm a hb hm ha
    simp only [Function.comp_apply, hb, Option.any_some]
    rw [this]
    unfold NetDemand
    rw [hb, hm, ha]
  have hG := sum_at_buses (List.range d.gens.length) (fun i => d.gens[i]?.map (·.bus)) (fun i => p.pgen i k) (fun n => S n = true) _ hd
  have hT := sum_at_buses (List.range d.branches.length) (fun i => d.branches[i]?.map (·.tbus)) (fun i => p.pbra i k) (fun n => S n = true) _ hd
  have hF := sum_at_buses (List.range d.branches.length) (fun i => d.branches[i]?.map (·.fbus)) (fun i => p.pbra i k) (fun n => S n = true) _ hd
  have e2 : ((d.buses.map (·.number)).map (fun n => if S n then Received d p n k else 0)).sum
      = ((d.buses.map (·.number)).map (fun n => if S n then
          ((List.range d.gens.length).map (fun i => if (d.gens[i]?.map (·.bus)) = some n then p.pgen i k else 0)).sum else 0)).sum
      + ((d.buses.map (·.number)).map (fun n => if S n then
          ((List.range d.branches.length).map (fun i => if (d.branches[i]?.map (·.tbus)) = some n then p.pbra i k else 0)).sum else 0)).sum
      - ((d.buses.map (·.number)).map (fun n => if S n then
          ((List.range d.branches.length).map (fun i => if (d.branches[i]?.map (·.fbus)) = some n then p.pbra i k else 0)).sum else 0)).sum := by
    rw [← sum_map_add', ← sum_map_sub']
    congr 1
    apply List.map_congr_left
    intro n _
    unfold Received
    split
    · rfl
    · ring
  rw [e1, e2, hG, hT, hF]
  have c1 : ∀ (l : List SBranch) (key : SBranch → Int),
    (∀ (i : Nat) (br : SBranch), l[i]? = some br → ∃ b ∈ d.buses, b.number = key br) →
      ((List.range l.length).map (fun i => if ∃ n ∈ d.buses.map (fun (b : SBus) => b.number), S n = true ∧ (l[i]?.map key) = some n then p.pbra i k else 0)).sum
      = ((List.range l.length).map (fun i => if l[i]?.any (fun x => S (key x)) then p.pbra i k else 0)).sum := by
    intro l key hkey
    congr 1
    apply List.map_congr_left
    intro i hi
    rw [List.mem_range] at hi
    apply if_congr _ rfl rfl
    have hli := List.getElem?_eq_getElem hi
    rw [hli]
    simp only [Option.map_some, Option.some.injEq, Option.any_some]
    constructor
    · rintro ⟨n, _, hS, rfl⟩; exact hS
    · intro hS
      obtain ⟨b, hb, hn⟩ := hkey i _ hli
      exact ⟨_, List.mem_map.2 ⟨b, hb, hn⟩, hS, rfl⟩
  rw [c1 d.branches (·.tbus) (fun i br hbr => (kn1 i br hbr).2), c1 d.branches (·.fbus) (fun i br hbr => (kn1 i br hbr).1)]
  congr 2
  congr 1
  apply List.map_congr_left
  intro i hi
  rw [List.mem_range] at hi
  have hli := List.getElem?_eq_getElem hi
  by_cases ho : GenOff d d.gens[i]
  · rw [plan.off i _ hli ho]; simp
  · apply if_congr _ rfl rfl
    rw [hli]
    simp only [Option.map_some, Option.some.injEq, Option.any_some]
    constructor
    · rintro ⟨n, _, hS, rfl⟩; exact hS
    · intro hS
      obtain ⟨b, hb, hn⟩ := kn2 i _ hli ho
      exact ⟨_, List.mem_map.2 ⟨b, hb, hn⟩, hS, rfl⟩

/-- **C84.** Over the whole network generation is demand without what is curtailed, in every contingency. -/
theorem C84_total (d : ScreenData) (hd : (d.buses.map (·.number)).Nodup) (m : ScreenLP)
    (h : buildScreening d = .ok m) (p : LPPoint) (hp : m.Feasible p) (k : Nat) (hk : k < d.cont.length) :
    ((List.range d.gens.length).map (fun i => p.pgen i k)).sum
      = ((List.range d.buses.length).map (fun j => NetDemand d p k j)).sum := by
  have := C84_every_cut d hd m h p hp k hk (fun _ => true)
  have e : ∀ {α : Type} (l : List α) (v : Nat → Rat),
      ((List.range l.length).map (fun i => if l[i]?.any (fun _ => true) then v i else 0)).sum = ((List.range l.length).map v).sum := by
    intro α l v
    congr 1
    apply List.map_congr_left
    intro i hi
    rw [List.mem_range] at hi
    rw [List.getElem?_eq_getElem hi]; rfl
  rw [e, e, e] at this
  linarith


/-! ## C85: an optimal plan invests exactly what its flows need -/

/-- the investments `x` in branch `i` that are enough for its flows in all contingencies -/
def EnoughFor (d : ScreenData) (p : LPPoint) (i : Nat) (br : SBranch) : Set Rat :=
  {x | 0 ≤ x ∧ ∀ k < d.cont.length, ¬ BranchOutIn d i br k → br.rate ≠ 0 →
    (∀ v, d.prev[i]? = some v → p.pbra i k ≤ br.rate + v + x) ∧ - p.pbra i k ≤ br.rate + x}

theorem sum_update (f : Nat → Rat) (i : Nat) (x : Rat) : ∀ (n : Nat), i < n →
    ((List.range n).map (Function.update f i x)).sum = ((List.range n).map f).sum + (x - f i) := by
  intro n
  induction n with
  | zero => intro h; omega
  | succ n ih =>
    intro h
    rw [List.range_succ, List.map_append, List.map_append, List.sum_append, List.sum_append]
    by_cases hi : i = n
    · subst hi
      have : (List.range i).map (Function.update f i x) = (List.range i).map f := by
        apply List.map_congr_left
        intro j hj
        rw [Function.update_of_ne]
        rw [List.mem_range] at hj
        omega
      rw [this]
      simp
    · rw [ih (by omega)]
      simp only [List.map_cons, List.map_nil, List.sum_cons, List.sum_nil]
      rw [Function.update_of_ne (by omega)]
      ring

/-- **C85.** In an optimal plan the investment in every branch is the least that its flows need: nothing is invested
in vain. -/
theorem C85_no_waste (d : ScreenData) (hd : (d.buses.map (·.number)).Nodup) (hcost : 0 < d.cicost) (m : ScreenLP)
    (h : buildScreening d = .ok m) (p : LPPoint) (hp : m.Optimal p) (i : Nat) (br : SBranch)
    (hbr : d.branches[i]? = some br) : IsLeast (EnoughFor d p i br) (p.ic i) := by
  obtain ⟨hobj, _, lines, _, hl, _⟩ := build_parts h
  have hi : i < d.branches.length := (List.getElem?_eq_some_iff.1 hbr).1
  obtain ⟨hic, hplan⟩ := (C83_programme d hd m h lines hl p).1 hp.1
  constructor
  · exact ⟨hic i hi, fun k hk ho hr => (hplan k hk).cap i br hbr ho hr⟩
  · rintro x ⟨hx0, hx⟩
    by_contra hlt
    push Not at hlt
    let q : LPPoint := { p with ic := Function.update p.ic i x }
    have hq : m.Feasible q := by
      rw [C83_programme d hd m h lines hl q]
      constructor
      · intro j hj
        show 0 ≤ Function.update p.ic i x j
        by_cases hji : j = i
        · subst hji; simpa using hx0
        · rw [Function.update_of_ne hji]; exact hic j hj
      · intro k hk
        obtain ⟨a1, a2, a3, a4, a5, a6, a7, a8, a9, a10, a11⟩ := hplan k hk
        refine ⟨a1, a2, a3, a4, a5, a6, ?_, a8, a9, a10, a11⟩
        intro j br' hbr' ho hr
        show (∀ v, d.prev[j]? = some v → p.pbra j k ≤ br'.rate + v + Function.update p.ic i x j) ∧
          - p.pbra j k ≤ br'.rate + Function.update p.ic i x j
        by_cases hji : j = i
        · subst hji
          rw [hbr] at hbr'
          injection hbr' with hbr'
          subst hbr'
          rw [Function.update_self]
          exact hx k hk ho hr
        · rw [Function.update_of_ne hji]
          exact a7 j br' hbr' ho hr
    have hle := hp.2 q hq
    rw [hobj] at hle
    unfold objective at hle
    have e : ((List.range d.branches.length).map q.ic).sum = ((List.range d.branches.length).map p.ic).sum + (x - p.ic i) :=
      sum_update p.ic i x _ hi
    rw [e] at hle
    have : 0 ≤ (x - p.ic i) * d.cicost := by
      have e2 : ((List.range d.gens.length).map (fun g => q.cgen g 0)).sum = ((List.range d.gens.length).map (fun g => p.cgen g 0)).sum := rfl
      have e3 : ((List.range d.buses.length).map (fun b => ((List.range d.cont.length).map (fun k => q.plc b k)).sum)).sum =
        ((List.range d.buses.length).map (fun b => ((List.range d.cont.length).map (fun k => p.plc b k)).sum)).sum := rfl
      rw [e2, e3] at hle
      linarith
    nlinarith

/-- **C85.** In particular an optimal plan invests nothing in a branch without limit (rating 0) and nothing in a
branch that is out in all contingencies. -/
theorem C85_unlimited (d : ScreenData) (hd : (d.buses.map (·.number)).Nodup) (hcost : 0 < d.cicost) (m : ScreenLP)
    (h : buildScreening d = .ok m) (p : LPPoint) (hp : m.Optimal p) (i : Nat) (br : SBranch)
    (hbr : d.branches[i]? = some br) (hu : br.rate = 0 ∨ ∀ k < d.cont.length, BranchOutIn d i br k) : p.ic i = 0 := by
  have hle := C85_no_waste d hd hcost m h p hp i br hbr
  apply le_antisymm _ hle.1.1
  apply hle.2
  refine ⟨le_refl _, fun k hk ho hr => ?_⟩
  rcases hu with hu | hu
  · exact absurd hu hr
  · exact absurd (hu k hk) ho

/-- **C85.** And it invests in a rated branch only if some flow exceeds what the branch can carry. -/
theorem C85_only_if_exceeded (d : ScreenData) (hd : (d.buses.map (·.number)).Nodup) (hcost : 0 < d.cicost) (m : ScreenLP)
    (h : buildScreening d = .ok m) (p : LPPoint) (hp : m.Optimal p) (i : Nat) (br : SBranch)
    (hbr : d.branches[i]? = some br) (v : Rat) (hv : d.prev[i]? = some v) (hpos : 0 < p.ic i) :
    ∃ k < d.cont.length, (p.pbra i k = br.rate + v + p.ic i ∨ - p.pbra i k = br.rate + p.ic i) := by
  have hle := C85_no_waste d hd hcost m h p hp i br hbr
  by_contra hno
  push Not at hno
  -- all constraints are strict: a smaller investment is enough
  have key : ∀ n ≤ d.cont.length, ∃ e > 0, ∀ k < n, ¬ BranchOutIn d i br k → br.rate ≠ 0 →
      p.pbra i k ≤ br.rate + v + (p.ic i - e) ∧ - p.pbra i k ≤ br.rate + (p.ic i - e) := by
    intro n
    induction n with
    | zero => intro _; exact ⟨1, by norm_num, fun k hk => by omega⟩
    | succ n ih =>
      intro hn
      obtain ⟨e, he, hk⟩ := ih (by omega)
      by_cases hc : ¬ BranchOutIn d i br n ∧ br.rate ≠ 0
      · obtain ⟨g1, g2⟩ := hle.1.2 n (by omega) hc.1 hc.2
        have g1' := lt_of_le_of_ne (g1 v hv) (hno n (by omega)).1
        have g2' := lt_of_le_of_ne g2 (hno n (by omega)).2
        refine ⟨min e (min (br.rate + v + p.ic i - p.pbra i n) (br.rate + p.ic i + p.pbra i n)),
          lt_min he (lt_min (by linarith) (by linarith)), ?_⟩
        set e' := min e (min (br.rate + v + p.ic i - p.pbra i n) (br.rate + p.ic i + p.pbra i n)) with he'
        have l1 : e' ≤ e := min_le_left _ _
        have l2 : e' ≤ br.rate + v + p.ic i - p.pbra i n := le_trans (min_le_right _ _) (min_le_left _ _)
        have l3 : e' ≤ br.rate + p.ic i + p.pbra i n := le_trans (min_le_right _ _) (min_le_right _ _)
        intro k hkn ho hr
        rcases Nat.lt_succ_iff_lt_or_eq.1 hkn with hlt | rfl
        · obtain ⟨a, b⟩ := hk k hlt ho hr
          constructor <;> linarith
        · constructor <;> linarith
      · refine ⟨e, he, ?_⟩
        intro k hkn ho hr
        rcases Nat.lt_succ_iff_lt_or_eq.1 hkn with hlt | rfl
        · exact hk k hlt ho hr
        · exact absurd ⟨ho, hr⟩ hc
  obtain ⟨e, he, hk⟩ := key _ (le_refl _)
  have hmin : min e (p.ic i) > 0 := lt_min he hpos
  have hmem : p.ic i - min e (p.ic i) ∈ EnoughFor d p i br := by
    have l1 : min e (p.ic i) ≤ e := min_le_left _ _
    have l2 : min e (p.ic i) ≤ p.ic i := min_le_right _ _
    refine ⟨by linarith, fun k hkl ho hr => ?_⟩
    obtain ⟨a, b⟩ := hk k hkl ho hr
    refine ⟨?_, by linarith⟩
    intro v' hv'
    rw [hv] at hv'
    injection hv' with hv'
    subst hv'
    linarith
  have := hle.2 hmem
  linarith


/-! ## C86: the direction in which a branch is written down -/

/-- the same network with branch `i` written down from its other end -/
def reverseBranch (d : ScreenData) (i : Nat) : ScreenData :=
  { d with branches := d.branches.modify i (fun b => { b with fbus := b.tbus, tbus := b.fbus }) }

/-- the same plan, the flow of branch `i` counted from the other end -/
def reverseFlow (p : LPPoint) (i : Nat) : LPPoint :=
  { p with pbra := fun j k => if j = i then - p.pbra j k else p.pbra j k }

theorem reverse_get (d : ScreenData) (i j : Nat) (br : SBranch) :
    (reverseBranch d i).branches[j]? = some br ↔
      if j = i then d.branches[j]? = some { br with fbus := br.tbus, tbus := br.fbus } else d.branches[j]? = some br := by
  unfold reverseBranch
  simp only [List.getElem?_modify]
  split
  · rename_i h
    subst h
    cases hb : d.branches[i]? with
    | none => simp
    | some b =>
      obtain ⟨f, t, x, r, st⟩ := b
      obtain ⟨f', t', x', r', st'⟩ := br
      simp [and_comm, and_left_comm]
  · rename_i h
    rw [if_neg (fun hh => h hh.symm)]
    cases d.branches[j]? <;> simp

theorem reverse_length (d : ScreenData) (i : Nat) : (reverseBranch d i).branches.length = d.branches.length := by
  simp [reverseBranch]

theorem reverse_received (d : ScreenData) (i : Nat) (p : LPPoint) (n : Int) (k : Nat) :
    Received (reverseBranch d i) (reverseFlow p i) n k = Received d p n k := by
  unfold Received
  rw [add_sub_assoc, add_sub_assoc, ← sum_map_sub', ← sum_map_sub', reverse_length]
  have hg : (reverseBranch d i).gens = d.gens := rfl
  rw [hg]
  congr 2
  apply List.map_congr_left
  intro j hj
  rw [List.mem_range] at hj
  by_cases hji : j = i
  · subst hji
    have hb : (reverseBranch d j).branches[j]? =
        some { d.branches[j] with fbus := d.branches[j].tbus, tbus := d.branches[j].fbus } := by
      rw [reverse_get, if_pos rfl, List.getElem?_eq_getElem hj]
    rw [hb, List.getElem?_eq_getElem hj]
    simp only [Option.map_some, Option.some.injEq, reverseFlow, if_true]
    split <;> split <;> ring
  · have hb : (reverseBranch d i).branches[j]? = some d.branches[j] := by
      rw [reverse_get, if_neg hji, List.getElem?_eq_getElem hj]
    rw [hb, List.getElem?_eq_getElem hj]
    simp only [reverseFlow, if_neg hji]

theorem reverse_plan (d : ScreenData) (i : Nat) (hprev : d.prev[i]? = some 0) (lines : List (List CostLine)) (p : LPPoint)
    (k : Nat) (h : PlanIn d lines p k) : PlanIn (reverseBranch d i) lines (reverseFlow p i) k := by
  obtain ⟨a1, a2, a3, a4, a5, a6, a7, a8, a9, a10, a11⟩ := h
  have hout : ∀ (j : Nat) (br br' : SBranch), br.status = br'.status → (BranchOutIn (reverseBranch d i) j br k ↔ BranchOutIn d j br' k) := by
    intro j br br' hs
    unfold BranchOutIn
    rw [hs]
    exact Iff.rfl
  refine ⟨a1, a2, a3, a4, ?_, ?_, ?_, a8, a9, ?_, a11⟩
  · intro j br hbr ho
    rw [reverse_get] at hbr
    split at hbr
    · rename_i hji
      have := a5 j _ hbr ((hout j br { br with fbus := br.tbus, tbus := br.fbus } rfl).1 ho)
      simp [reverseFlow, this]
    · rename_i hji
      simp only [reverseFlow, if_neg hji]
      exact a5 j _ hbr ((hout j br br rfl).1 ho)
  · intro j br hbr ho f t bf bt hbf hbt hnf hnt
    rw [reverse_get] at hbr
    split at hbr
    · rename_i hji
      have := a6 j _ hbr (fun hh => ho ((hout j br { br with fbus := br.tbus, tbus := br.fbus } rfl).2 hh)) t f bt bf hbt hbf hnt hnf
      simp only [reverseFlow, if_pos hji]
      simp only at this
      show br.x * -p.pbra j k = d.baseMVA * (p.ang f k - p.ang t k)
      linarith
    · rename_i hji
      simp only [reverseFlow, if_neg hji]
      exact a6 j _ hbr (fun hh => ho ((hout j br br rfl).2 hh)) f t bf bt hbf hbt hnf hnt
  · intro j br hbr ho hr
    rw [reverse_get] at hbr
    split at hbr
    · rename_i hji
      subst hji
      obtain ⟨g1, g2⟩ := a7 j _ hbr (fun hh => ho ((hout j br { br with fbus := br.tbus, tbus := br.fbus } rfl).2 hh)) hr
      have g1 := g1 0 hprev
      simp only [reverseFlow, if_true] at *
      constructor
      · intro v hv
        have hv : d.prev[j]? = some v := hv
        rw [hprev] at hv
        injection hv with hv
        subst hv
        linarith
      · linarith
    · rename_i hji
      simp only [reverseFlow, if_neg hji]
      exact a7 j _ hbr (fun hh => ho ((hout j br br rfl).2 hh)) hr
  · intro j b mm a hb hm ha
    rw [reverse_received]
    exact a10 j b mm a hb hm ha

theorem reverse_reverse (d : ScreenData) (i : Nat) : reverseBranch (reverseBranch d i) i = d := by
  have : (reverseBranch (reverseBranch d i) i).branches = d.branches := by
    apply List.ext_getElem?
    intro j
    apply Option.ext
    intro br
    have e : ∀ (l : List SBranch) (x : SBranch), l[j]? = some x ↔ x ∈ l[j]? := fun _ _ => Iff.rfl
    rw [reverse_get]
    split
    · rename_i hji
      rw [reverse_get, if_pos hji]
    · rename_i hji
      rw [reverse_get, if_neg hji]
  cases d
  simp only [reverseBranch] at this ⊢
  rw [this]

theorem reverseFlow_reverseFlow (p : LPPoint) (i : Nat) : reverseFlow (reverseFlow p i) i = p := by
  cases p
  simp only [reverseFlow, LPPoint.mk.injEq, true_and, and_true]
  funext j k
  split <;> simp

/-- **C86 (partial: branches without previous investment).** Writing a branch down from its other end changes nothing:
the plans are the same with that flow negated, with the same investments and the same cost, so the optimal ones are. -/
theorem C86_orientation_partial (d : ScreenData) (hd : (d.buses.map (·.number)).Nodup) (i : Nat)
    (hprev : d.prev[i]? = some 0) (m m' : ScreenLP) (h : buildScreening d = .ok m)
    (h' : buildScreening (reverseBranch d i) = .ok m') (p : LPPoint) :
    (m'.Feasible (reverseFlow p i) ↔ m.Feasible p) ∧ m'.objective (reverseFlow p i) = m.objective p ∧
      (m'.Optimal (reverseFlow p i) ↔ m.Optimal p) ∧ (reverseFlow p i).ic = p.ic := by
  obtain ⟨hobj, _, lines, _, hl, _⟩ := build_parts h
  obtain ⟨hobj', _⟩ := build_parts h'
  have hf : ∀ q, m'.Feasible (reverseFlow q i) ↔ m.Feasible q := by
    intro q
    rw [C83_programme d hd m h lines hl, C83_programme (reverseBranch d i) hd m' h' lines hl, reverse_length]
    constructor
    · rintro ⟨h1, h2⟩
      refine ⟨h1, fun k hk => ?_⟩
      have := reverse_plan (reverseBranch d i) i hprev lines _ k (h2 k hk)
      rwa [reverse_reverse, reverseFlow_reverseFlow] at this
    · rintro ⟨h1, h2⟩
      exact ⟨h1, fun k hk => reverse_plan d i hprev lines q k (h2 k hk)⟩
  have ho : ∀ q, m'.objective (reverseFlow q i) = m.objective q := by
    intro q
    rw [hobj, hobj']
    unfold objective
    rw [reverse_length]
    rfl
  refine ⟨hf p, ho p, ?_, rfl⟩
  unfold ScreenLP.Optimal
  rw [hf p, ho p]
  apply and_congr_right
  intro _
  constructor
  · intro hq q hqf
    have := hq (reverseFlow q i) ((hf q).2 hqf)
    rwa [ho] at this
  · intro hq q hqf
    have e : q = reverseFlow (reverseFlow q i) i := (reverseFlow_reverseFlow q i).symm
    rw [e] at hqf ⊢
    rw [ho]
    exact hq _ ((hf _).1 hqf)


/-! ## C87: the cost of generation -/

/-- value of a polynomial given by its coefficients, highest power first (Horner's rule) -/
def polyValue (cs : List Rat) (x : Rat) : Rat := cs.foldl (fun acc c => acc * x + c) 0

theorem polyValue_append (cs : List Rat) (c x : Rat) : polyValue (cs ++ [c]) x = polyValue cs x * x + c := by
  simp [polyValue]

theorem polyLoop_eq (cost : List Rat) (x : Rat) : ∀ (k : Nat), k ≤ cost.length → ∀ (pow : Nat) (acc : Rat),
    polyLoop cost x k (k : Int) pow acc = .ok (acc + x ^ pow * polyValue (cost.take k) x) := by
  intro k
  induction k with
  | zero => intro _ pow acc; simp [polyLoop, polyValue]
  | succ k ih =>
    intro hk pow acc
    unfold polyLoop
    have hc : ((k + 1 : Nat) : Int) - 1 = (k : Int) := by omega
    rw [hc]
    have hg : pyGet cost (k : Int) = .ok cost[k] := by
      rw [pyGet_nat_iff]; exact List.getElem?_eq_getElem (by omega)
    rw [hg]
    show polyLoop cost x k (k : Int) (pow + 1) (acc + cost[k] * x ^ pow) = _
    rw [ih (by omega)]
    rw [List.take_add_one, List.getElem?_eq_getElem (by omega : k < cost.length)]
    simp only [Option.toList]
    rw [polyValue_append]
    congr 1
    ring

theorem polyCost_eq (g : SGen) (x : Rat) (h1 : 1 ≤ g.ncost) (h2 : g.ncost ≤ g.cost.length) :
    polyCost g x = .ok (polyValue (g.cost.take g.ncost) x) := by
  obtain ⟨n, hn⟩ : ∃ n, g.ncost = n + 1 := ⟨g.ncost - 1, by omega⟩
  unfold polyCost
  have hc : ((g.ncost : Nat) : Int) - 1 = (n : Int) := by omega
  rw [hc]
  have hg : pyGet g.cost (n : Int) = .ok g.cost[n] := by
    rw [pyGet_nat_iff]; exact List.getElem?_eq_getElem (by omega)
  rw [hg]
  show polyLoop g.cost x (g.ncost - 1) (n : Int) 1 g.cost[n] = _
  have : g.ncost - 1 = n := by omega
  rw [this, polyLoop_eq _ _ _ (by omega), hn, List.take_add_one, List.getElem?_eq_getElem (by omega : n < g.cost.length)]
  simp only [Option.toList]
  rw [polyValue_append]
  congr 1
  ring

/-- the polynomial of a generator -/
def genPoly (g : SGen) (x : Rat) : Rat := polyValue (g.cost.take g.ncost) x

/-- the line through two points of the graph of `f` -/
def Chord (f : Rat → Rat) (a b x : Rat) : Rat := f a + (f b - f a) / (b - a) * (x - a)

theorem costLine_chord (f : Rat → Rat) (a b x : Rat) (hab : a < b) :
    (costLine a (f a) b (f b)).1 * x + (costLine a (f a) b (f b)).2 = Chord f a b x := by
  unfold costLine Chord
  have : b - a ≠ 0 := by intro h; linarith
  field_simp
  ring

theorem genPieces_eq (g : SGen) (h1 : 1 ≤ g.ncost) (h2 : g.ncost ≤ g.cost.length) (hp : 0 < g.pmax) :
    ∃ ls, genPieces g = .ok ls ∧ ls.length = 3 ∧ ∀ x, ls.map (fun l => l.1 * x + l.2) =
      [Chord (genPoly g) g.pmin (g.pmin + g.pmax / 3) x,
       Chord (genPoly g) (g.pmin + g.pmax / 3) (g.pmin + g.pmax / 3 + g.pmax / 3) x,
       Chord (genPoly g) (g.pmin + g.pmax / 3 + g.pmax / 3) (g.pmin + g.pmax / 3 + g.pmax / 3 + g.pmax / 3) x] := by
  unfold genPieces
  rw [if_pos hp]
  simp only [polyCost_eq g _ h1 h2]
  refine ⟨_, rfl, rfl, fun x => ?_⟩
  have hd : 0 < g.pmax / 3 := by linarith
  simp only [List.map_cons, List.map_nil]
  have e := fun a => costLine_chord (genPoly g) a (a + g.pmax / 3) x (by linarith)
  unfold genPoly at e ⊢
  rw [e, e, e]

theorem chord_above {s : Set Rat} {f : Rat → Rat} (hf : ConvexOn Rat s f) {a b x : Rat} (ha : a ∈ s) (hb : b ∈ s)
    (hax : a ≤ x) (hxb : x ≤ b) (hab : a < b) : f x ≤ Chord f a b x := by
  have hba : 0 < b - a := by linarith
  have := hf.2 ha hb (show 0 ≤ (b - x) / (b - a) from div_nonneg (by linarith) hba.le)
    (show 0 ≤ (x - a) / (b - a) from div_nonneg (by linarith) hba.le) (by field_simp; ring)
  simp only [smul_eq_mul] at this
  have e : (b - x) / (b - a) * a + (x - a) / (b - a) * b = x := by field_simp; ring
  rw [e] at this
  refine le_trans this (le_of_eq ?_)
  unfold Chord
  field_simp
  ring

theorem chord_below_right {s : Set Rat} {f : Rat → Rat} (hf : ConvexOn Rat s f) {a b x : Rat} (ha : a ∈ s) (hx : x ∈ s)
    (hbx : b ≤ x) (hab : a < b) : Chord f a b x ≤ f x := by
  rcases eq_or_lt_of_le hbx with rfl | hbx
  · unfold Chord
    have : b - a ≠ 0 := by intro h; linarith
    apply le_of_eq
    field_simp
    ring
  · have := hf.slope_mono_adjacent ha hx hab hbx
    rw [div_le_iff₀ (by linarith), div_mul_eq_mul_div, le_div_iff₀ (by linarith)] at this
    unfold Chord
    have hba : 0 < b - a := by linarith
    rw [div_mul_eq_mul_div, ← le_sub_iff_add_le', div_le_iff₀ hba]
    nlinarith

theorem chord_below_left {s : Set Rat} {f : Rat → Rat} (hf : ConvexOn Rat s f) {a b x : Rat} (hb : b ∈ s) (hx : x ∈ s)
    (hxa : x ≤ a) (hab : a < b) : Chord f a b x ≤ f x := by
  rcases eq_or_lt_of_le hxa with rfl | hxa
  · unfold Chord; simp
  · have := hf.slope_mono_adjacent hx hb hxa hab
    rw [div_le_iff₀ (by linarith), div_mul_eq_mul_div, le_div_iff₀ (by linarith)] at this
    unfold Chord
    have hba : 0 < b - a := by linarith
    rw [div_mul_eq_mul_div, ← le_sub_iff_add_le', div_le_iff₀ hba]
    nlinarith

/-- lines of a generator in a programme -/
theorem genCosts_get : ∀ (gs : List SGen) (seen : Bool) (lines : List (List CostLine)), genCosts gs seen = .ok lines →
    lines.length = gs.length ∧ ∀ (i : Nat) (g : SGen), gs[i]? = some g → g.costModel ≠ 1 ∧
      ∃ ls, lines[i]? = some ls ∧ genPieces g = .ok ls := by
  intro gs
  induction gs with
  | nil =>
    intro seen lines h
    injection h with h
    subst h
    simp
  | cons g gs ih =>
    intro seen lines h
    unfold genCosts at h
    split at h
    · cases h
    · rename_i hm
      simp only [except_bind_ok] at h
      obtain ⟨ls, hls, h⟩ := h
      split at h
      · simp only [except_bind_ok] at h
        obtain ⟨r, hr, h⟩ := h
        injection h with h
        subst h
        obtain ⟨h1, h2⟩ := ih _ _ hr
        refine ⟨by simp [h1], ?_⟩
        intro i g' hg
        cases i with
        | zero =>
          simp only [List.getElem?_cons_zero, Option.some.injEq] at hg
          subst hg
          exact ⟨hm, ls, rfl, hls⟩
        | succ i => exact h2 i g' (by simpa using hg)
      · cases h

theorem genCostRule_get {d : ScreenData} {lines : List (List CostLine)} (h : genCostRule d = .ok lines) :
    lines.length = d.gens.length ∧ ∀ (i : Nat) (g : SGen), d.gens[i]? = some g → g.costModel ≠ 1 ∧
      ∃ ls, lines[i]? = some ls ∧ genPieces g = .ok ls := by
  unfold genCostRule at h
  split at h
  · cases h
  · split at h
    · cases h
    · exact genCosts_get _ _ _ h

/-- **C87.** In an optimal plan the cost of every generator (in the base case) is the least that is not negative and
not below any of its lines. -/
theorem C87_cost_exact (d : ScreenData) (hd : (d.buses.map (·.number)).Nodup) (m : ScreenLP)
    (h : buildScreening d = .ok m) (lines : List (List CostLine)) (hl : genCostRule d = .ok lines) (p : LPPoint)
    (hp : m.Optimal p) (i : Nat) (ls : List CostLine) (hls : lines[i]? = some ls) :
    IsLeast {c | 0 ≤ c ∧ ∀ l ∈ ls, l.1 * p.pgen i 0 + l.2 ≤ c} (p.cgen i 0) := by
  obtain ⟨hobj, hc, _⟩ := build_parts h
  have h0c : 0 < d.cont.length := List.length_pos_iff.2 hc
  have hi : i < d.gens.length := by rw [← (genCostRule_get hl).1]; exact (List.getElem?_eq_some_iff.1 hls).1
  obtain ⟨hic, hplan⟩ := (C83_programme d hd m h lines hl p).1 hp.1
  constructor
  · exact ⟨((hplan 0 h0c).positive i hi).2, (hplan 0 h0c).costs i ls hls⟩
  · rintro x ⟨hx0, hx⟩
    by_contra hlt
    push Not at hlt
    let q : LPPoint := { p with cgen := fun j k => if k = 0 then Function.update (fun j => p.cgen j 0) i x j else p.cgen j k }
    have hq : m.Feasible q := by
      rw [C83_programme d hd m h lines hl q]
      refine ⟨hic, fun k hk => ?_⟩
      obtain ⟨a1, a2, a3, a4, a5, a6, a7, a8, a9, a10, a11⟩ := hplan k hk
      refine ⟨a1, a2, ?_, ?_, a5, a6, a7, a8, a9, a10, a11⟩
      · intro j hj
        refine ⟨(a3 j hj).1, ?_⟩
        show 0 ≤ (if k = 0 then Function.update (fun j => p.cgen j 0) i x j else p.cgen j k)
        split
        · by_cases hji : j = i
          · subst hji; simpa using hx0
          · rw [Function.update_of_ne hji]; exact ((hplan 0 h0c).positive j hj).2
        · exact (a3 j hj).2
      · intro j ls' hls' l hl'
        show l.1 * p.pgen j k + l.2 ≤ (if k = 0 then Function.update (fun j => p.cgen j 0) i x j else p.cgen j k)
        split
        · rename_i hk0
          subst hk0
          by_cases hji : j = i
          · subst hji
            rw [hls] at hls'
            injection hls' with hls'
            subst hls'
            rw [Function.update_self]
            exact hx l hl'
          · rw [Function.update_of_ne hji]
            exact a4 j ls' hls' l hl'
        · exact a4 j ls' hls' l hl'
    have hle := hp.2 q hq
    rw [hobj] at hle
    unfold objective at hle
    have e : ((List.range d.gens.length).map (fun g => q.cgen g 0)).sum = ((List.range d.gens.length).map (fun g => p.cgen g 0)).sum + (x - p.cgen i 0) := by
      have := sum_update (fun j => p.cgen j 0) i x _ hi
      rw [← this]
      congr 1
    rw [e] at hle
    have e2 : ((List.range d.branches.length).map q.ic).sum = ((List.range d.branches.length).map p.ic).sum := rfl
    have e3 : ((List.range d.buses.length).map (fun b => ((List.range d.cont.length).map (fun k => q.plc b k)).sum)).sum =
        ((List.range d.buses.length).map (fun b => ((List.range d.cont.length).map (fun k => p.plc b k)).sum)).sum := rfl
    rw [e2, e3] at hle
    linarith

/-- **C87.** Where a generator's polynomial is convex and not negative, an optimal plan never underestimates its cost
between PMIN and PMIN + PMAX, and is exact at the ends and at the two points in between. -/
theorem C87_never_under (d : ScreenData) (hd : (d.buses.map (·.number)).Nodup) (m : ScreenLP)
    (h : buildScreening d = .ok m) (p : LPPoint) (hp : m.Optimal p) (i : Nat) (g : SGen)
    (hg : d.gens[i]? = some g) (hn1 : 1 ≤ g.ncost) (hn2 : g.ncost ≤ g.cost.length) (hpos : 0 < g.pmax)
    (hconv : ConvexOn Rat (Set.Icc g.pmin (g.pmin + g.pmax)) (genPoly g))
    (hnn : ∀ x ∈ Set.Icc g.pmin (g.pmin + g.pmax), 0 ≤ genPoly g x)
    (hr : p.pgen i 0 ∈ Set.Icc g.pmin (g.pmin + g.pmax)) :
    genPoly g (p.pgen i 0) ≤ p.cgen i 0 ∧
      ∀ n : Nat, n ≤ 3 → p.pgen i 0 = g.pmin + n * (g.pmax / 3) → p.cgen i 0 = genPoly g (p.pgen i 0) := by
  obtain ⟨_, _, lines, _, hl, _⟩ := build_parts h
  obtain ⟨_, ls, hls, hgp⟩ := (genCostRule_get hl).2 i g hg
  have hle := C87_cost_exact d hd m h lines hl p hp i ls hls
  obtain ⟨ls', hls', _, hval⟩ := genPieces_eq g hn1 hn2 hpos
  rw [hgp] at hls'
  injection hls' with hls'
  subst hls'
  have hval := hval (p.pgen i 0)
  set x := p.pgen i 0 with hx
  set D := g.pmax / 3 with hD
  have hDpos : 0 < D := by rw [hD]; linarith
  have h3 : g.pmin + D + D + D = g.pmin + g.pmax := by rw [hD]; ring
  have m0 : g.pmin ∈ Set.Icc g.pmin (g.pmin + g.pmax) := ⟨le_refl _, by linarith⟩
  have m1 : g.pmin + D ∈ Set.Icc g.pmin (g.pmin + g.pmax) := ⟨by linarith, by linarith⟩
  have m2 : g.pmin + D + D ∈ Set.Icc g.pmin (g.pmin + g.pmax) := ⟨by linarith, by linarith⟩
  have m3 : g.pmin + D + D + D ∈ Set.Icc g.pmin (g.pmin + g.pmax) := ⟨by linarith, by linarith⟩
  -- lines as chords
  have hlines : ∀ c, (∀ l ∈ ls, l.1 * x + l.2 ≤ c) ↔
      Chord (genPoly g) g.pmin (g.pmin + D) x ≤ c ∧ Chord (genPoly g) (g.pmin + D) (g.pmin + D + D) x ≤ c ∧
      Chord (genPoly g) (g.pmin + D + D) (g.pmin + D + D + D) x ≤ c := by
    intro c
    have : (∀ l ∈ ls, l.1 * x + l.2 ≤ c) ↔ ∀ y ∈ ls.map (fun l => l.1 * x + l.2), y ≤ c := by
      rw [List.forall_mem_map]
    rw [this, hval]
    simp only [List.mem_cons, List.not_mem_nil, or_false, forall_eq_or_imp, forall_eq]
  obtain ⟨hc0, hcl⟩ := hle.1
  obtain ⟨k1, k2, k3⟩ := (hlines _).1 hcl
  have hlow : genPoly g x ≤ p.cgen i 0 := by
    rcases le_total x (g.pmin + D) with hx1 | hx1
    · exact le_trans (chord_above hconv m0 m1 hr.1 hx1 (by linarith)) k1
    · rcases le_total x (g.pmin + D + D) with hx2 | hx2
      · exact le_trans (chord_above hconv m1 m2 hx1 hx2 (by linarith)) k2
      · exact le_trans (chord_above hconv m2 m3 hx2 (by rw [h3]; exact hr.2) (by linarith)) k3
  refine ⟨hlow, ?_⟩
  intro n hn hxn
  apply le_antisymm _ hlow
  apply hle.2
  refine ⟨hnn x hr, (hlines _).2 ?_⟩
  have c1 : ∀ {a b : Rat}, a ∈ Set.Icc g.pmin (g.pmin + g.pmax) → b ∈ Set.Icc g.pmin (g.pmin + g.pmax) → a < b →
      (x ≤ a ∨ b ≤ x) → Chord (genPoly g) a b x ≤ genPoly g x := by
    intro a b ha hb hab hxx
    rcases hxx with hxx | hxx
    · exact chord_below_left hconv hb hr hxx hab
    · exact chord_below_right hconv ha hr hxx hab
  have : n = 0 ∨ n = 1 ∨ n = 2 ∨ n = 3 := by omega
  refine ⟨c1 m0 m1 (by linarith) ?_, c1 m1 m2 (by linarith) ?_, c1 m2 m3 (by linarith) ?_⟩ <;>
    rcases this with rfl | rfl | rfl | rfl <;> norm_num at hxn <;> rw [hxn] <;>
    first
      | (left; linarith)
      | (right; linarith)


theorem chord_quadratic (c2 c1 c0 a b x : Rat) (hab : a < b) :
    Chord (fun x => c2 * x ^ 2 + c1 * x + c0) a b x = c2 * x ^ 2 + c1 * x + c0 + c2 * ((x - a) * (b - x)) := by
  unfold Chord
  have : b - a ≠ 0 := by intro h; linarith
  field_simp
  ring

/-- what an optimal plan charges for a generator with a quadratic cost -/
theorem quadratic_cost (d : ScreenData) (hd : (d.buses.map (·.number)).Nodup) (m : ScreenLP)
    (h : buildScreening d = .ok m) (p : LPPoint) (hp : m.Optimal p) (i : Nat) (g : SGen)
    (hg : d.gens[i]? = some g) (c2 c1 c0 : Rat) (hn : g.ncost = 3) (hcs : g.cost = [c2, c1, c0]) (hpos : 0 < g.pmax) :
    let x := p.pgen i 0
    let e := fun a => c2 * x ^ 2 + c1 * x + c0 + c2 * ((x - a) * (a + g.pmax / 3 - x))
    IsLeast {c | 0 ≤ c ∧ e g.pmin ≤ c ∧ e (g.pmin + g.pmax / 3) ≤ c ∧ e (g.pmin + g.pmax / 3 + g.pmax / 3) ≤ c} (p.cgen i 0) := by
  intro x e
  obtain ⟨_, _, lines, _, hl, _⟩ := build_parts h
  obtain ⟨_, ls, hls, hgp⟩ := (genCostRule_get hl).2 i g hg
  have hle := C87_cost_exact d hd m h lines hl p hp i ls hls
  obtain ⟨ls', hls', _, hval⟩ := genPieces_eq g (by omega) (by rw [hn, hcs]; simp) hpos
  rw [hgp] at hls'
  injection hls' with hls'
  subst hls'
  have hval := hval x
  have hf : genPoly g = fun x => c2 * x ^ 2 + c1 * x + c0 := by
    funext y
    unfold genPoly polyValue
    rw [hn, hcs]
    simp only [List.take_succ_cons, List.take_zero, List.foldl_cons, List.foldl_nil]
    ring
  rw [hf] at hval
  rw [chord_quadratic _ _ _ _ _ _ (by linarith), chord_quadratic _ _ _ _ _ _ (by linarith),
    chord_quadratic _ _ _ _ _ _ (by linarith)] at hval
  have hset : {c | 0 ≤ c ∧ ∀ l ∈ ls, l.1 * p.pgen i 0 + l.2 ≤ c} =
      {c | 0 ≤ c ∧ e g.pmin ≤ c ∧ e (g.pmin + g.pmax / 3) ≤ c ∧ e (g.pmin + g.pmax / 3 + g.pmax / 3) ≤ c} := by
    ext c
    have : (∀ l ∈ ls, l.1 * x + l.2 ≤ c) ↔ ∀ y ∈ ls.map (fun l => l.1 * x + l.2), y ≤ c := by
      rw [List.forall_mem_map]
    show (0 ≤ c ∧ ∀ l ∈ ls, l.1 * x + l.2 ≤ c) ↔ _
    rw [this, hval]
    simp only [List.mem_cons, List.not_mem_nil, or_false, forall_eq_or_imp, forall_eq]
    exact Iff.rfl
  rw [← hset]
  exact hle

/-- **C87.** For a quadratic cost `c2·x² + c1·x + c0` with `c2 ≥ 0` an optimal plan charges at least the cost (up to
PMIN + PMAX) and at most `c2·PMAX²/36` more. -/
theorem C87_quadratic (d : ScreenData) (hd : (d.buses.map (·.number)).Nodup) (m : ScreenLP)
    (h : buildScreening d = .ok m) (p : LPPoint) (hp : m.Optimal p) (i : Nat) (g : SGen)
    (hg : d.gens[i]? = some g) (c2 c1 c0 : Rat) (hn : g.ncost = 3) (hcs : g.cost = [c2, c1, c0]) (hpos : 0 < g.pmax)
    (hc2 : 0 ≤ c2) :
    (g.pmin ≤ p.pgen i 0 → p.pgen i 0 ≤ g.pmin + g.pmax → c2 * p.pgen i 0 ^ 2 + c1 * p.pgen i 0 + c0 ≤ p.cgen i 0) ∧
      p.cgen i 0 ≤ max 0 (c2 * p.pgen i 0 ^ 2 + c1 * p.pgen i 0 + c0 + c2 * (g.pmax ^ 2 / 36)) := by
  have hle := quadratic_cost d hd m h p hp i g hg c2 c1 c0 hn hcs hpos
  simp only at hle
  set x := p.pgen i 0 with hx
  obtain ⟨⟨k0, k1, k2, k3⟩, hlow⟩ := hle
  constructor
  · intro h0 h3
    rcases le_total x (g.pmin + g.pmax / 3) with hx1 | hx1
    · have := mul_nonneg hc2 (mul_nonneg (by linarith : 0 ≤ x - g.pmin) (by linarith : 0 ≤ g.pmin + g.pmax / 3 - x))
      linarith
    · rcases le_total x (g.pmin + g.pmax / 3 + g.pmax / 3) with hx2 | hx2
      · have := mul_nonneg hc2 (mul_nonneg (by linarith : 0 ≤ x - (g.pmin + g.pmax / 3))
          (by linarith : 0 ≤ g.pmin + g.pmax / 3 + g.pmax / 3 - x))
        linarith
      · have := mul_nonneg hc2 (mul_nonneg (by linarith : 0 ≤ x - (g.pmin + g.pmax / 3 + g.pmax / 3))
          (by linarith : 0 ≤ g.pmin + g.pmax / 3 + g.pmax / 3 + g.pmax / 3 - x))
        linarith
  · apply hlow
    have key : ∀ a, c2 * ((x - a) * (a + g.pmax / 3 - x)) ≤ c2 * (g.pmax ^ 2 / 36) := by
      intro a
      apply mul_le_mul_of_nonneg_left _ hc2
      nlinarith [sq_nonneg (x - a - g.pmax / 6)]
    refine ⟨le_max_left _ _, ?_, ?_, ?_⟩ <;> refine le_trans ?_ (le_max_right _ _) <;> linarith [key g.pmin,
      key (g.pmin + g.pmax / 3), key (g.pmin + g.pmax / 3 + g.pmax / 3)]

/-- **C87.** Beyond PMIN + PMAX, where a multiplier above one allows generators to go, the (strictly convex) cost is
underestimated. -/
theorem C87_beyond_violated (d : ScreenData) (hd : (d.buses.map (·.number)).Nodup) (m : ScreenLP)
    (h : buildScreening d = .ok m) (p : LPPoint) (hp : m.Optimal p) (i : Nat) (g : SGen)
    (hg : d.gens[i]? = some g) (c2 c1 c0 : Rat) (hn : g.ncost = 3) (hcs : g.cost = [c2, c1, c0]) (hpos : 0 < g.pmax)
    (hc2 : 0 < c2) (hx : g.pmin + g.pmax < p.pgen i 0)
    (hcost : 0 < c2 * p.pgen i 0 ^ 2 + c1 * p.pgen i 0 + c0) :
    p.cgen i 0 < c2 * p.pgen i 0 ^ 2 + c1 * p.pgen i 0 + c0 := by
  have hle := quadratic_cost d hd m h p hp i g hg c2 c1 c0 hn hcs hpos
  simp only at hle
  set x := p.pgen i 0 with hxx
  obtain ⟨_, hlow⟩ := hle
  set f := c2 * x ^ 2 + c1 * x + c0 with hf
  have key : ∀ a, a + g.pmax / 3 ≤ g.pmin + g.pmax → c2 * ((x - a) * (a + g.pmax / 3 - x)) < 0 := by
    intro a ha
    apply mul_neg_of_pos_of_neg hc2
    apply mul_neg_of_pos_of_neg <;> linarith
  have k1 := key g.pmin (by linarith)
  have k2 := key (g.pmin + g.pmax / 3) (by linarith)
  have k3 := key (g.pmin + g.pmax / 3 + g.pmax / 3) (by linarith)
  refine lt_of_le_of_lt (hlow (a := max 0 (max (f + c2 * ((x - g.pmin) * (g.pmin + g.pmax / 3 - x)))
    (max (f + c2 * ((x - (g.pmin + g.pmax / 3)) * (g.pmin + g.pmax / 3 + g.pmax / 3 - x)))
      (f + c2 * ((x - (g.pmin + g.pmax / 3 + g.pmax / 3)) * (g.pmin + g.pmax / 3 + g.pmax / 3 + g.pmax / 3 - x)))))) ?_) ?_
  · exact ⟨le_max_left _ _, le_max_of_le_right (le_max_left _ _),
      le_max_of_le_right (le_max_of_le_right (le_max_left _ _)),
      le_max_of_le_right (le_max_of_le_right (le_max_right _ _))⟩
  · exact max_lt hcost (max_lt (by linarith) (max_lt (by linarith) (by linarith)))

/-! ## C88: when the programme can be built and has a plan -/

/-- a case that is complete: every column has a value for every element, ends and generators are at known buses,
there is a slack bus, no reactance is zero and all costs are polynomials -/
structure CompleteCase (d : ScreenData) : Prop where
  hasCost : d.hasCost = true
  firstGen : ∃ g gs, d.gens = g :: gs ∧ 0 < g.pmax
  polynomial : ∀ g ∈ d.gens, g.costModel ≠ 1 ∧ 1 ≤ g.ncost ∧ g.ncost ≤ g.cost.length
  genBus : ∀ g ∈ d.gens, ∃ b ∈ d.buses, b.number = g.bus
  ends : ∀ br ∈ d.branches, (∃ b ∈ d.buses, b.number = br.fbus) ∧ (∃ b ∈ d.buses, b.number = br.tbus)
  reactance : d.baseMVA ≠ 0 ∧ ∀ br ∈ d.branches, br.x ≠ 0
  slack : ∃ b ∈ d.buses, b.kind = 3
  cont : d.cont ≠ [] ∧ ∀ c ∈ d.cont, d.branches.length ≤ c.length
  lengths : d.buses.length ≤ d.mult.length ∧ d.buses.length ≤ d.add.length ∧ d.branches.length ≤ d.prev.length

theorem pyGet_ok {α : Type} (l : List α) (n : Nat) (h : n < l.length) : pyGet l (n : Int) = .ok l[n] := by
  rw [pyGet_nat_iff]; exact List.getElem?_eq_getElem h

theorem busPos_ok {d : ScreenData} {n : Int} (h : ∃ b ∈ d.buses, b.number = n) :
    ∃ i, busPos d n = some i ∧ i < d.buses.length := by
  obtain ⟨b, hb, hn⟩ := h
  obtain ⟨i, hi, he⟩ := List.getElem_of_mem hb
  obtain ⟨j, hj⟩ := busPos_exists (d := d) (i := i) (b := b) (by rw [List.getElem?_eq_getElem hi, he]) hn
  obtain ⟨b', hb', _⟩ := busPos_some hj
  exact ⟨j, hj, (List.getElem?_eq_some_iff.1 hb').1⟩

theorem genCosts_ok : ∀ (gs : List SGen), (∀ g ∈ gs, g.costModel ≠ 1 ∧ 1 ≤ g.ncost ∧ g.ncost ≤ g.cost.length) →
    ∃ r, genCosts gs true = .ok r := by
  intro gs
  induction gs with
  | nil => intro _; exact ⟨[], rfl⟩
  | cons g gs ih =>
    intro hg
    obtain ⟨h1, h2, h3⟩ := hg g List.mem_cons_self
    obtain ⟨r, hr⟩ := ih (fun g' hg' => hg g' (List.mem_cons_of_mem _ hg'))
    unfold genCosts
    rw [if_neg h1]
    have : ∃ ls, genPieces g = .ok ls := by
      by_cases hp : 0 < g.pmax
      · obtain ⟨ls, hls, _⟩ := genPieces_eq g h2 h3 hp
        exact ⟨ls, hls⟩
      · exact ⟨_, by unfold genPieces; rw [if_neg hp]⟩
    obtain ⟨ls, hls⟩ := this
    rw [hls, hr]
    refine ⟨ls :: r, ?_⟩
    simp [bind, Except.bind]

/-- **C88 (partial: polynomial costs, first generator of positive size).** The programme of a complete case can be
built. -/
theorem C88_builds_partial (d : ScreenData) (hc : CompleteCase d) : ∃ m, buildScreening d = .ok m := by
  obtain ⟨c1, ⟨g0, gs, c2, c2'⟩, c3, c4, c5, ⟨c6, c6'⟩, ⟨sb, hsb, hs3⟩, ⟨c8, c8'⟩, c9, c9', c9''⟩ := hc
  have hout : ∀ (i : Nat) (br : SBranch) (k : Nat), d.branches[i]? = some br → k < d.cont.length → ∃ o, branchOut d i br k = .ok o := by
    intro i br k hbr hk
    unfold branchOut
    have hlen := c8' d.cont[k] (List.getElem_mem _)
    have hi := (List.getElem?_eq_some_iff.1 hbr).1
    rw [pyGet_ok _ _ hk]
    simp only [bind, Except.bind]
    rw [pyGet_ok _ _ (by omega)]
    exact ⟨_, rfl⟩
  have h0 : ∃ lines, genCostRule d = .ok lines := by
    unfold genCostRule
    rw [c1, c2]
    simp only [Bool.true_eq_false, if_false]
    rw [c2] at c3
    obtain ⟨h1, h2, h3⟩ := c3 g0 List.mem_cons_self
    obtain ⟨r, hr⟩ := genCosts_ok gs (fun g' hg' => c3 g' (List.mem_cons_of_mem _ hg'))
    obtain ⟨ls, hls, _⟩ := genPieces_eq g0 h2 h3 c2'
    refine ⟨ls :: r, ?_⟩
    unfold genCosts
    rw [if_neg h1, hls, hr]
    simp [bind, Except.bind, c2']
  obtain ⟨lines, h0⟩ := h0
  have h1 : ∃ r, forPairs d.gens d.cont.length (genMaxCon d) = .ok r := by
    rw [forPairs_total]
    intro i g k hg hk
    unfold genMaxCon
    split
    · exact ⟨_, rfl⟩
    · obtain ⟨j, hj, hjl⟩ := busPos_ok (c4 g (List.mem_of_getElem? hg))
      rw [hj]
      simp only
      rw [pyGet_ok _ _ (by omega)]
      exact ⟨_, rfl⟩
  have h2 : ∃ r, forPairs d.gens d.cont.length (genMinCon d) = .ok r := by
    rw [forPairs_total]
    intro i g k hg hk
    unfold genMinCon
    split <;> exact ⟨_, rfl⟩
  have h3 : ∃ r, forPairs lines d.cont.length pwCon = .ok r := by
    rw [forPairs_total]
    intro i g k hg hk
    exact ⟨_, rfl⟩
  have h4 : ∃ r, forPairs d.branches d.cont.length (dcpfCon d) = .ok r := by
    rw [forPairs_total]
    intro i br k hbr hk
    unfold dcpfCon
    rw [if_neg c6]
    obtain ⟨⟨f, hf, _⟩, ⟨t, ht, _⟩⟩ := And.intro (busPos_ok (c5 br (List.mem_of_getElem? hbr)).1) (busPos_ok (c5 br (List.mem_of_getElem? hbr)).2)
    rw [hf, ht]
    obtain ⟨o, ho⟩ := hout i br k hbr hk
    simp only [ho, bind, Except.bind]
    split
    · exact ⟨_, rfl⟩
    · rw [if_neg (div_ne_zero (c6' br (List.mem_of_getElem? hbr)) c6)]
      exact ⟨_, rfl⟩
  have h5 : ∃ r, (List.range d.cont.length).mapM (slackCon d) = .ok r := by
    apply mapM_total_of
    intro k _
    unfold slackCon
    split
    · rename_i hn
      rw [List.getLast?_eq_none_iff, List.filter_eq_nil_iff] at hn
      obtain ⟨i, hi, he⟩ := List.getElem_of_mem hsb
      exfalso
      apply hn i (List.mem_range.2 hi)
      rw [List.getElem?_eq_getElem hi, he]
      simp [hs3]
    · exact ⟨_, rfl⟩
  have h6 : ∃ r, forPairs d.branches d.cont.length (capCon d) = .ok r := by
    rw [forPairs_total]
    intro i br k hbr hk
    obtain ⟨o, ho⟩ := hout i br k hbr hk
    have hi := (List.getElem?_eq_some_iff.1 hbr).1
    unfold capCon
    simp only [ho, bind, Except.bind]
    split
    · exact ⟨_, rfl⟩
    · split
      · rw [pyGet_ok _ _ (by omega)]
        exact ⟨_, rfl⟩
      · exact ⟨_, rfl⟩
  have h7 : ∃ r, forPairs d.branches d.cont.length (capNCon d) = .ok r := by
    rw [forPairs_total]
    intro i br k hbr hk
    obtain ⟨o, ho⟩ := hout i br k hbr hk
    unfold capNCon
    simp only [ho, bind, Except.bind]
    split
    · exact ⟨_, rfl⟩
    · split <;> exact ⟨_, rfl⟩
  have h8 : ∃ r, forPairs d.buses d.cont.length (balanceCon d) = .ok r := by
    rw [forPairs_total]
    intro i b k hb hk
    have hi := (List.getElem?_eq_some_iff.1 hb).1
    unfold balanceCon
    rw [pyGet_ok _ _ (by omega : i < d.mult.length), pyGet_ok _ _ (by omega : i < d.add.length)]
    exact ⟨_, rfl⟩
  have h9 : ∃ r, forPairs d.buses d.cont.length (curtailCon d) = .ok r := by
    rw [forPairs_total]
    intro i b k hb hk
    have hi := (List.getElem?_eq_some_iff.1 hb).1
    unfold curtailCon
    rw [pyGet_ok _ _ (by omega : i < d.mult.length)]
    exact ⟨_, rfl⟩
  obtain ⟨r1, h1⟩ := h1
  obtain ⟨r2, h2⟩ := h2
  obtain ⟨r3, h3⟩ := h3
  obtain ⟨r4, h4⟩ := h4
  obtain ⟨r5, h5⟩ := h5
  obtain ⟨r6, h6⟩ := h6
  obtain ⟨r7, h7⟩ := h7
  obtain ⟨r8, h8⟩ := h8
  obtain ⟨r9, h9⟩ := h9
  unfold buildScreening
  rw [h0]
  simp only [bind, Except.bind, h1, h2, h3, h4, h5, h6, h7, h8, h9, if_neg c8]
  exact ⟨_, rfl⟩


/-- **C88.** A case with a generator whose cost is given piecewise (MODEL 1) can never be screened. -/
theorem C88_piecewise_violated (d : ScreenData) (g : SGen) (hg : g ∈ d.gens) (h1 : g.costModel = 1) (m : ScreenLP) :
    buildScreening d ≠ .ok m := by
  intro h
  obtain ⟨_, _, lines, _, hl, _⟩ := build_parts h
  obtain ⟨i, hi, he⟩ := List.getElem_of_mem hg
  exact ((genCostRule_get hl).2 i g (by rw [List.getElem?_eq_getElem hi, he])).1 h1

/-- **C88.** Nor can a case without costs, or one whose first generator has no size (for instance a condenser or a
fixed load), although the order of generators means nothing. -/
theorem C88_first_generator_violated (d : ScreenData) (h : d.hasCost = false ∨ ∀ g gs, d.gens = g :: gs → g.pmax ≤ 0)
    (m : ScreenLP) : buildScreening d ≠ .ok m := by
  intro hb
  obtain ⟨_, _, lines, _, hl, _⟩ := build_parts hb
  unfold genCostRule at hl
  split at hl
  · cases hl
  · rename_i hc
    rcases h with h | h
    · exact hc h
    · cases hg : d.gens with
      | nil => rw [hg] at hl; cases hl
      | cons g gs =>
        rw [hg] at hl
        have hp := h g gs hg
        simp only at hl
        unfold genCosts at hl
        split at hl
        · cases hl
        · simp only [except_bind_ok] at hl
          obtain ⟨ls, _, hl⟩ := hl
          rw [if_neg (by simp; exact hp)] at hl
          cases hl

theorem intercept_bound (ls : List CostLine) : ∃ c : Rat, 0 ≤ c ∧ ∀ l ∈ ls, l.2 ≤ c := by
  induction ls with
  | nil => exact ⟨0, le_refl _, by simp⟩
  | cons l ls ih =>
    obtain ⟨c, hc, h⟩ := ih
    refine ⟨max c l.2, le_max_of_le_left hc, ?_⟩
    intro l' hl'
    rcases List.mem_cons.1 hl' with rfl | hl'
    · exact le_max_right _ _
    · exact le_trans (h l' hl') (le_max_left _ _)

/-- **C88 (partial: active demand only, generators that may stop).** A case that can be built has a plan. -/
theorem C88_plan_exists_partial (d : ScreenData) (hd : (d.buses.map (·.number)).Nodup) (m : ScreenLP)
    (h : buildScreening d = .ok m) (hmult : ∀ x ∈ d.mult, 0 ≤ x) (hadd : ∀ a ∈ d.add, a = 0)
    (hbus : ∀ b ∈ d.buses, 0 ≤ b.pd ∧ b.qd = 0) (hgen : ∀ g ∈ d.gens, g.pmin ≤ 0 ∧ 0 ≤ g.pmax) :
    ∃ p, m.Feasible p := by
  obtain ⟨_, _, lines, _, hl, _⟩ := build_parts h
  let p : LPPoint := {
    pgen := fun _ _ => 0
    cgen := fun i _ => (lines[i]?.map (fun ls => (intercept_bound ls).choose)).getD 0
    pbra := fun _ _ => 0
    ic := fun i => (d.branches[i]?.map (fun b => |b.rate|)).getD 0 + |(d.prev[i]?).getD 0|
    ang := fun _ _ => 0
    plc := fun j _ => match d.buses[j]?, d.mult[j]? with
      | some b, some mm => mm * b.pd
      | _, _ => 0 }
  refine ⟨p, (C83_programme d hd m h lines hl p).2 ⟨?_, ?_⟩⟩
  · intro i _
    show 0 ≤ (d.branches[i]?.map (fun b => |b.rate|)).getD 0 + |(d.prev[i]?).getD 0|
    apply add_nonneg _ (abs_nonneg _)
    cases d.branches[i]? with
    | none => exact le_refl _
    | some b => exact abs_nonneg _
  · intro k hk
    refine ⟨fun _ _ _ _ => rfl, ?_, ?_, ?_, fun _ _ _ _ => rfl, ?_, ?_, fun _ _ _ _ _ => rfl, ?_, ?_, ?_⟩
    · intro i g hg _
      have hg' := hgen g (List.mem_of_getElem? hg)
      refine ⟨hg'.1, ?_⟩
      intro j b mm _ _ hm
      exact mul_nonneg (hmult mm (List.mem_of_getElem? hm)) hg'.2
    · intro i _
      refine ⟨le_refl _, ?_⟩
      show 0 ≤ (lines[i]?.map (fun ls => (intercept_bound ls).choose)).getD 0
      cases lines[i]? with
      | none => exact le_refl _
      | some ls => exact (intercept_bound ls).choose_spec.1
    · intro i ls hls l hl'
      show l.1 * 0 + l.2 ≤ (lines[i]?.map (fun ls => (intercept_bound ls).choose)).getD 0
      rw [hls, mul_zero, zero_add]
      exact (intercept_bound ls).choose_spec.2 l hl'
    · intro i br _ _ f t bf bt _ _ _ _
      show br.x * 0 = d.baseMVA * (0 - 0)
      ring
    · intro i br hbr _ _
      have e : p.ic i = |br.rate| + |(d.prev[i]?).getD 0| := by
        show (d.branches[i]?.map (fun b => |b.rate|)).getD 0 + |(d.prev[i]?).getD 0| = _
        rw [hbr]; rfl
      have hr := neg_abs_le br.rate
      constructor
      · intro v hv
        rw [e, hv]
        show (0 : Rat) ≤ br.rate + v + (|br.rate| + |v|)
        have := neg_abs_le v
        linarith
      · rw [e]
        show - (0 : Rat) ≤ br.rate + (|br.rate| + |(d.prev[i]?).getD 0|)
        have := abs_nonneg ((d.prev[i]?).getD 0)
        linarith
    · intro j _
      show |(0 : Rat)| ≤ twoPi
      rw [abs_zero]
      norm_num [twoPi]
    · intro j b mm a hb hm ha
      obtain ⟨hb1, hb2⟩ := hbus b (List.mem_of_getElem? hb)
      have ha0 := hadd a (List.mem_of_getElem? ha)
      have e : p.plc j k = mm * b.pd := by
        show (match d.buses[j]?, d.mult[j]? with
          | some b, some mm => mm * b.pd
          | _, _ => 0) = _
        rw [hb, hm]
      have hrec : Received d p b.number k = 0 := by
        simp [Received, p]
      rw [hrec, e, ha0, hb2]
      ring
    · intro j b mm hb hm
      obtain ⟨hb1, hb2⟩ := hbus b (List.mem_of_getElem? hb)
      have e : p.plc j k = mm * b.pd := by
        show (match d.buses[j]?, d.mult[j]? with
          | some b, some mm => mm * b.pd
          | _, _ => 0) = _
        rw [hb, hm]
      have hm0 := hmult mm (List.mem_of_getElem? hm)
      rw [e]
      exact ⟨mul_nonneg hm0 hb1, mul_le_mul_of_nonneg_left (le_abs_self _) hm0⟩

/-- two buses: a generator at bus 1, a demand of `pd` and `qd` at bus 2; a branch of rating 50 from `f` to `t`, in which
`prev` has been invested before -/
def twoBus (f t : Int) (prev pd qd : Rat) : ScreenData :=
  { buses := [⟨1, 3, 0, 0⟩, ⟨2, 1, pd, qd⟩], gens := [{ bus := 1, pmax := 300 }], branches := [⟨f, t, 1, 50, 1⟩],
    baseMVA := 100, cont := [[1]], prev := [prev], mult := [1, 1], add := [0, 0] }

theorem twoBus_complete (f t : Int) (prev pd qd : Rat) (hf : f = 1 ∨ f = 2) (ht : t = 1 ∨ t = 2) : CompleteCase (twoBus f t prev pd qd) := by
  refine ⟨rfl, ⟨_, _, rfl, by norm_num⟩, ?_, ?_, ?_, ?_, ⟨_, List.mem_cons_self, rfl⟩, ⟨by simp [twoBus], ?_⟩, ?_⟩
  · intro g hg
    simp only [twoBus, List.mem_singleton] at hg
    subst hg
    simp
  · intro g hg
    simp only [twoBus, List.mem_singleton] at hg
    subst hg
    exact ⟨_, List.mem_cons_self, rfl⟩
  · intro br hbr
    simp only [twoBus, List.mem_singleton] at hbr
    subst hbr
    simp only [twoBus]
    constructor
    · rcases hf with rfl | rfl
      · exact ⟨_, List.mem_cons_self, rfl⟩
      · exact ⟨_, List.mem_cons_of_mem _ List.mem_cons_self, rfl⟩
    · rcases ht with rfl | rfl
      · exact ⟨_, List.mem_cons_self, rfl⟩
      · exact ⟨_, List.mem_cons_of_mem _ List.mem_cons_self, rfl⟩
  · refine ⟨by norm_num [twoBus], ?_⟩
    intro br hbr
    simp only [twoBus, List.mem_singleton] at hbr
    subst hbr
    norm_num
  · intro c hc
    simp only [twoBus, List.mem_singleton] at hc
    subst hc
    simp [twoBus]
  · simp [twoBus]

theorem twoBus_nodup (f t : Int) (prev pd qd : Rat) : ((twoBus f t prev pd qd).buses.map (·.number)).Nodup := by
  simp [twoBus]

theorem twoBus_lines (f t : Int) (prev pd qd : Rat) : genCostRule (twoBus f t prev pd qd) = .ok [[(0, 0), (0, 0), (0, 0)]] := by
  show genCosts [{ bus := 1, pmax := 300 }] false = _
  decide +kernel


/-- the two-bus network spelled out -/
theorem twoBus_feasible (f t : Int) (hft : (f = 1 ∧ t = 2) ∨ (f = 2 ∧ t = 1)) (prev pd qd : Rat) (hpd : 0 ≤ pd) (m : ScreenLP)
    (h : buildScreening (twoBus f t prev pd qd) = .ok m) (p : LPPoint) :
    m.Feasible p ↔ 0 ≤ p.ic 0 ∧ 0 ≤ p.pgen 0 0 ∧ p.pgen 0 0 ≤ 300 ∧ 0 ≤ p.cgen 0 0 ∧
      p.pbra 0 0 = 100 * (if f = 1 then p.ang 0 0 - p.ang 1 0 else p.ang 1 0 - p.ang 0 0) ∧
      p.pbra 0 0 ≤ 50 + prev + p.ic 0 ∧ - p.pbra 0 0 ≤ 50 + p.ic 0 ∧ p.ang 0 0 = 0 ∧ |p.ang 1 0| ≤ twoPi ∧
      (if f = 1 then p.pgen 0 0 - p.pbra 0 0 = - p.plc 0 0 else p.pgen 0 0 + p.pbra 0 0 = - p.plc 0 0) ∧
      (if f = 1 then p.pbra 0 0 = pd + qd - p.plc 1 0 else - p.pbra 0 0 = pd + qd - p.plc 1 0) ∧
      p.plc 0 0 = 0 ∧ 0 ≤ p.plc 1 0 ∧ p.plc 1 0 ≤ pd := by
  have hf : f = 1 ∨ f = 2 := by rcases hft with h | h <;> simp [h.1]
  have ht : t = 1 ∨ t = 2 := by rcases hft with h | h <;> simp [h.2]
  rw [C83_programme _ (twoBus_nodup f t prev pd qd) m h _ (twoBus_lines f t prev pd qd) p]
  have hnot : ∀ br : SBranch, ¬ BranchOutIn (twoBus f t prev pd qd) 0 br 0 := by
    intro br hh
    rcases hh with ⟨c, hc, h0⟩ | ⟨h1, _⟩
    · simp only [twoBus, List.getElem?_cons_zero, Option.some.injEq] at hc
      subst hc
      simp at h0
    · cases h1
  have hno : ∀ g, ¬ GenOff (twoBus f t prev pd qd) g := by rintro g ⟨h1, _⟩; cases h1
  constructor
  · rintro ⟨h1, h2⟩
    obtain ⟨a1, a2, a3, a4, a5, a6, a7, a8, a9, a10, a11⟩ := h2 0 (by simp [twoBus])
    have b2 := (a2 0 _ rfl (hno _)).2 0 _ 1 rfl rfl rfl
    have b3 := a3 0 (by simp [twoBus])
    have b7 := a7 0 _ rfl (hnot _) (by norm_num)
    have b7' := b7.1 prev rfl
    have b8 := a8 0 _ rfl rfl (by
      intro j b hb h3
      rcases j with _ | _ | j
      · omega
      · simp only [twoBus, List.getElem?_cons_succ, List.getElem?_cons_zero, Option.some.injEq] at hb
        subst hb
        simp at h3
      · simp [twoBus] at hb)
    have b9 := a9 1 (by simp [twoBus])
    have b10 := a10 0 _ 1 0 rfl rfl rfl
    have b10' := a10 1 _ 1 0 rfl rfl rfl
    have b11 := a11 0 _ 1 rfl rfl
    have b11' := a11 1 _ 1 rfl rfl
    simp only [abs_of_nonneg hpd, one_mul, abs_zero] at b11 b11'
    have hz : p.plc 0 0 = 0 := le_antisymm b11.2 b11.1
    rcases hft with ⟨rfl, rfl⟩ | ⟨rfl, rfl⟩
    · have b6 := a6 0 _ rfl (hnot _) 0 1 _ _ rfl rfl rfl rfl
      simp only [Received, twoBus, List.length_cons, List.length_nil, List.range_succ, List.range_zero] at b10 b10'
      norm_num [twoBus] at b2 b6 b10 b10' ⊢
      refine ⟨h1 0 (by simp [twoBus]), b3.1, by linarith, b3.2, by linarith, by linarith, by linarith, b8, b9, by linarith, by linarith, hz, b11'.1, by linarith⟩
    · have b6 := a6 0 _ rfl (hnot _) 1 0 _ _ rfl rfl rfl rfl
      simp only [Received, twoBus, List.length_cons, List.length_nil, List.range_succ, List.range_zero] at b10 b10'
      norm_num [twoBus] at b2 b6 b10 b10' ⊢
      refine ⟨h1 0 (by simp [twoBus]), b3.1, by linarith, b3.2, by linarith, by linarith, by linarith, b8, b9, by linarith, by linarith, hz, b11'.1, by linarith⟩
  · rintro ⟨h1, h2, h3, h4, h5, h6, h7, h8, h9, h10, h11, h12, h13, h14⟩
    refine ⟨?_, ?_⟩
    · intro i hi
      simp [twoBus] at hi
      subst hi
      exact h1
    · intro k hk
      simp [twoBus] at hk
      subst hk
      refine ⟨?_, ?_, ?_, ?_, ?_, ?_, ?_, ?_, ?_, ?_, ?_⟩
      · intro i g _ ho; exact absurd ho (hno g)
      · intro i g hg _
        rcases i with _ | i
        · simp only [twoBus, List.getElem?_cons_zero, Option.some.injEq] at hg
          subst hg
          refine ⟨h2, ?_⟩
          intro j b mm hb hn hm
          rcases j with _ | _ | j
          · simp only [twoBus, List.getElem?_cons_zero, Option.some.injEq] at hm
            subst hm
            simpa using h3
          · simp only [twoBus, List.getElem?_cons_succ, List.getElem?_cons_zero, Option.some.injEq] at hb
            subst hb
            simp at hn
          · simp [twoBus] at hb
        · simp [twoBus] at hg
      · intro i hi
        simp [twoBus] at hi
        subst hi
        exact ⟨h2, h4⟩
      · intro i ls hls l hl
        rcases i with _ | i
        · simp only [List.getElem?_cons_zero, Option.some.injEq] at hls
          subst hls
          simp at hl
          subst hl
          simpa using h4
        · simp at hls
      · intro i br hbr ho
        rcases i with _ | i
        · exact absurd ho (hnot br)
        · simp [twoBus] at hbr
      · intro i br hbr _ f' t' bf bt hbf hbt hnf hnt
        rcases i with _ | i
        · simp only [twoBus, List.getElem?_cons_zero, Option.some.injEq] at hbr
          subst hbr
          rcases f' with _ | _ | f'
          · rcases t' with _ | _ | t'
            · simp only [twoBus, List.getElem?_cons_zero, Option.some.injEq] at hbf hbt
              subst hbf hbt
              simp only at hnf hnt
              omega
            · simp only [twoBus, List.getElem?_cons_succ, List.getElem?_cons_zero, Option.some.injEq] at hbf hbt
              subst hbf hbt
              simp only at hnf hnt
              rw [if_pos hnf.symm] at h5
              simp only [twoBus]
              linarith
            · simp [twoBus] at hbt
          · rcases t' with _ | _ | t'
            · simp only [twoBus, List.getElem?_cons_succ, List.getElem?_cons_zero, Option.some.injEq] at hbf hbt
              subst hbf hbt
              simp only at hnf hnt
              rw [if_neg (by omega)] at h5
              simp only [twoBus]
              linarith
            · simp only [twoBus, List.getElem?_cons_succ, List.getElem?_cons_zero, Option.some.injEq] at hbf hbt
              subst hbf hbt
              simp only at hnf hnt
              omega
            · simp [twoBus] at hbt
          · simp [twoBus] at hbf
        · simp [twoBus] at hbr
      · intro i br hbr _ _
        rcases i with _ | i
        · simp only [twoBus, List.getElem?_cons_zero, Option.some.injEq] at hbr
          subst hbr
          refine ⟨?_, h7⟩
          intro v hv
          simp only [twoBus, List.getElem?_cons_zero, Option.some.injEq] at hv
          subst hv
          exact h6
        · simp [twoBus] at hbr
      · intro j b hb hb3 _
        rcases j with _ | _ | j
        · exact h8
        · simp only [twoBus, List.getElem?_cons_succ, List.getElem?_cons_zero, Option.some.injEq] at hb
          subst hb
          simp at hb3
        · simp [twoBus] at hb
      · intro j hj
        rcases j with _ | _ | j
        · rw [h8, abs_zero]; norm_num [twoPi]
        · exact h9
        · have : j + 1 + 1 < 2 := hj
          omega
      · intro j b mm a hb hm ha
        rcases j with _ | _ | j
        · simp only [twoBus, List.getElem?_cons_zero, Option.some.injEq] at hb hm ha
          subst hb hm ha
          rcases hft with ⟨rfl, rfl⟩ | ⟨rfl, rfl⟩
          · simp only [Received, twoBus, List.length_cons, List.length_nil, List.range_succ, List.range_zero]
            norm_num at h10 ⊢
            linarith
          · simp only [Received, twoBus, List.length_cons, List.length_nil, List.range_succ, List.range_zero]
            norm_num at h10 ⊢
            linarith
        · simp only [twoBus, List.getElem?_cons_succ, List.getElem?_cons_zero, Option.some.injEq] at hb hm ha
          subst hb hm ha
          rcases hft with ⟨rfl, rfl⟩ | ⟨rfl, rfl⟩
          · simp only [Received, twoBus, List.length_cons, List.length_nil, List.range_succ, List.range_zero]
            norm_num at h11 ⊢
            linarith
          · simp only [Received, twoBus, List.length_cons, List.length_nil, List.range_succ, List.range_zero]
            norm_num at h11 ⊢
            linarith
        · simp [twoBus] at hb
      · intro j b mm hb hm
        rcases j with _ | _ | j
        · simp only [twoBus, List.getElem?_cons_zero, Option.some.injEq] at hb hm
          subst hb hm
          rw [h12]
          simp
        · simp only [twoBus, List.getElem?_cons_succ, List.getElem?_cons_zero, Option.some.injEq] at hb hm
          subst hb hm
          rw [one_mul, abs_of_nonneg hpd]
          exact ⟨h13, h14⟩
        · simp [twoBus] at hb

theorem twoBus_objective (f t : Int) (prev pd qd : Rat) (p : LPPoint) :
    objective (twoBus f t prev pd qd) p = p.ic 0 * 20 + p.cgen 0 0 + (p.plc 0 0 + p.plc 1 0) * 1000 := by
  simp [objective, twoBus, List.range_succ]

/-- **C86.** Previous investments are only counted in the direction in which a branch is written down: with 50 invested
before in a branch of rating 50, a demand of 100 needs no further investment if the branch is written from the
generator to the demand, but 50 more if the same branch is written from the demand to the generator. -/
theorem C86_violated :
    (∃ m, buildScreening (twoBus 1 2 50 100 0) = .ok m ∧ (∃ p, m.Optimal p) ∧ ∀ p, m.Optimal p → p.ic 0 = 0) ∧
    (∃ m, buildScreening (reverseBranch (twoBus 1 2 50 100 0) 0) = .ok m ∧ (∃ p, m.Optimal p) ∧ ∀ p, m.Optimal p → p.ic 0 = 50) := by
  have hpi : (1 : Rat) ≤ twoPi := by norm_num [twoPi]
  constructor
  · obtain ⟨m, hm⟩ := C88_builds_partial _ (twoBus_complete 1 2 50 100 0 (.inl rfl) (.inr rfl))
    have hobj := (build_parts hm).1
    have hf := twoBus_feasible 1 2 (.inl ⟨rfl, rfl⟩) 50 100 0 (by norm_num) m hm
    simp only [if_true] at hf
    let p0 : LPPoint := ⟨fun _ _ => 100, fun _ _ => 0, fun _ _ => 100, fun _ => 0, fun j _ => if j = 0 then 0 else -1, fun _ _ => 0⟩
    have h0 : m.Feasible p0 := by
      rw [hf]
      simp only [p0]
      norm_num
      exact hpi
    have o0 : m.objective p0 = 0 := by rw [hobj, twoBus_objective]; norm_num [p0]
    have hlow : ∀ q, m.Feasible q → 20 * q.ic 0 ≤ m.objective q ∧ 0 ≤ q.ic 0 := by
      intro q hq
      rw [hf] at hq
      obtain ⟨a1, a2, a3, a4, a5, a6, a7, a8, a9, a10, a11, a12, a13, a14⟩ := hq
      rw [hobj, twoBus_objective, a12]
      constructor <;> linarith
    refine ⟨m, hm, ⟨p0, h0, fun q hq => ?_⟩, fun p hp => ?_⟩
    · rw [o0]; linarith [hlow q hq]
    · have h1 := hp.2 p0 h0
      rw [o0] at h1
      obtain ⟨h2, h3⟩ := hlow p hp.1
      linarith
  · have e : reverseBranch (twoBus 1 2 50 100 0) 0 = twoBus 2 1 50 100 0 := rfl
    rw [e]
    obtain ⟨m, hm⟩ := C88_builds_partial _ (twoBus_complete 2 1 50 100 0 (.inr rfl) (.inl rfl))
    have hobj := (build_parts hm).1
    have hf := twoBus_feasible 2 1 (.inr ⟨rfl, rfl⟩) 50 100 0 (by norm_num) m hm
    have h21 : ¬ ((2 : Int) = 1) := by norm_num
    simp only [if_neg h21] at hf
    let p0 : LPPoint := ⟨fun _ _ => 100, fun _ _ => 0, fun _ _ => -100, fun _ => 50, fun j _ => if j = 0 then 0 else -1, fun _ _ => 0⟩
    have h0 : m.Feasible p0 := by
      rw [hf]
      simp only [p0]
      norm_num
      exact hpi
    have o0 : m.objective p0 = 1000 := by rw [hobj, twoBus_objective]; norm_num [p0]
    have hlow : ∀ q, m.Feasible q → q.ic 0 ≥ 50 - q.plc 1 0 ∧ 0 ≤ q.plc 1 0 ∧ m.objective q ≥ 20 * q.ic 0 + 1000 * q.plc 1 0 := by
      intro q hq
      rw [hf] at hq
      obtain ⟨a1, a2, a3, a4, a5, a6, a7, a8, a9, a10, a11, a12, a13, a14⟩ := hq
      rw [hobj, twoBus_objective, a12]
      refine ⟨by linarith, a13, by linarith⟩
    refine ⟨m, hm, ⟨p0, h0, fun q hq => ?_⟩, fun p hp => ?_⟩
    · rw [o0]
      obtain ⟨h1, h2, h3⟩ := hlow q hq
      linarith
    · have h1 := hp.2 p0 h0
      rw [o0] at h1
      obtain ⟨h2, h3, h4⟩ := hlow p hp.1
      linarith

/-- **C88.** Reactive demand is added to active demand but cannot be curtailed: a network whose reactive demand exceeds
the generators has no plan (the solver then leaves all variables at their initial value: no investment). -/
theorem C88_no_plan_violated : ∃ m, buildScreening (twoBus 1 2 0 100 400) = .ok m ∧ ¬ ∃ p, m.Feasible p := by
  obtain ⟨m, hm⟩ := C88_builds_partial _ (twoBus_complete 1 2 0 100 400 (.inl rfl) (.inr rfl))
  refine ⟨m, hm, ?_⟩
  rintro ⟨p, hp⟩
  rw [twoBus_feasible 1 2 (.inl ⟨rfl, rfl⟩) 0 100 400 (by norm_num) m hm] at hp
  simp only [if_true] at hp
  obtain ⟨a1, a2, a3, a4, a5, a6, a7, a8, a9, a10, a11, a12, a13, a14⟩ := hp
  linarith


/-! ## C89: buying a reported cluster is enough -/

/-- more capacity never hurts -/
theorem more_capacity (d : ScreenData) (hd : (d.buses.map (·.number)).Nodup) (m : ScreenLP)
    (h : buildScreening d = .ok m) (p : LPPoint) (hp : m.Feasible p) (ic : Nat → Rat)
    (hic : ∀ i < d.branches.length, p.ic i ≤ ic i) : m.Feasible { p with ic := ic } := by
  obtain ⟨_, _, lines, _, hl, _⟩ := build_parts h
  obtain ⟨h1, h2⟩ := (C83_programme d hd m h lines hl p).1 hp
  rw [C83_programme d hd m h lines hl]
  refine ⟨fun i hi => le_trans (h1 i hi) (hic i hi), fun k hk => ?_⟩
  obtain ⟨a1, a2, a3, a4, a5, a6, a7, a8, a9, a10, a11⟩ := h2 k hk
  refine ⟨a1, a2, a3, a4, a5, a6, ?_, a8, a9, a10, a11⟩
  intro i br hbr ho hr
  have hi := hic i (List.getElem?_eq_some_iff.1 hbr).1
  obtain ⟨b1, b2⟩ := a7 i br hbr ho hr
  refine ⟨fun v hv => ?_, ?_⟩
  · have := b1 v hv
    show p.pbra i k ≤ br.rate + v + ic i
    linarith
  · show - p.pbra i k ≤ br.rate + ic i
    linarith

/-- an oracle that solves the programmes of a case: year `xy` has the additional demand `ev xy` -/
def SolvesExactly (d : ScreenData) (ev : Nat → List Rat) (solve : Nat → List Rat → List Rat → Except PyErr (List Rat)) : Prop :=
  ∀ xy prev mult ic, solve xy prev mult = .ok ic → ∃ m p, buildScreening { d with prev := prev, mult := mult, add := ev xy } = .ok m ∧
    m.Optimal p ∧ ic = (List.range d.branches.length).map p.ic

theorem screenRun_scenarios {solve : Nat → List Rat → List Rat → Except PyErr (List Rat)} {xy : Nat} {prev : List Rat}
    {years found : List (List (List Rat))} (h : ScreenRun solve xy prev years found) :
    List.Forall₂ (fun (s : Nat × List Rat) ic => ∃ prev, solve s.1 prev s.2 = .ok ic)
      ((years.zipIdx xy).flatMap (fun y => y.1.map (fun m => (y.2, m)))) found.flatten := by
  induction h with
  | nil => exact .nil
  | cons xy prev year years ics rest last answers _ _ ih =>
    simp only [List.zipIdx_cons, List.flatMap_cons, List.flatten_cons]
    apply List.rel_append _ ih
    rw [List.forall₂_map_left_iff]
    exact answers.imp (fun _ _ h => ⟨prev, h⟩)

/-- **C89.** With an exact solver, every cluster reported by screening is enough for its year and scenario: together with
the investments assumed for earlier years it allows a plan, and the plan is that of the solver. -/
theorem C89_clusters_suffice (d : ScreenData) (hd : (d.buses.map (·.number)).Nodup) (ev : Nat → List Rat)
    (solve : Nat → List Rat → List Rat → Except PyErr (List Rat)) (hs : SolvesExactly d ev solve)
    (lineCat trafoCat taps : List Rat) (htaps : taps.length = d.branches.length)
    (multiplier : List (List (List Rat))) (hne : ∀ y ∈ multiplier, y ≠ []) (s : Screened)
    (h : mainScreening lineCat trafoCat taps solve multiplier = .ok s) :
    List.Forall₂ (fun (sc : Nat × List Rat) c => ∃ prev m p q,
        buildScreening { d with prev := prev, mult := sc.2, add := ev sc.1 } = .ok m ∧ m.Optimal p ∧ m.Feasible q ∧
        q = { p with ic := q.ic } ∧ (∀ i < d.branches.length, c[i]? = some (q.ic i)) ∧ c.length = d.branches.length)
      (multiplier.zipIdx.flatMap (fun y => y.1.map (fun m => (y.2, m)))) s.clusters := by
  obtain ⟨found, h1, h2, h3⟩ := (C79_screening_runs _ _ _ _ _ hne _).1 h
  have hr := screenRun_scenarios h1
  rw [forall₂_iff_getElem?] at hr h3 ⊢
  refine ⟨hr.1.trans h3.1, ?_⟩
  intro k sc c hsc hc
  have hk : k < found.flatten.length := by rw [h3.1]; exact (List.getElem?_eq_some_iff.1 hc).1
  obtain ⟨prev, hsol⟩ := hr.2 k sc _ hsc (List.getElem?_eq_getElem hk)
  obtain ⟨hlen, hround⟩ := h3.2 k _ c (List.getElem?_eq_getElem hk) hc
  obtain ⟨m, p, hb, hopt, hic⟩ := hs _ _ _ _ hsol
  rw [hic, List.length_map, List.length_range, htaps, min_self] at hlen
  refine ⟨prev, m, p, { p with ic := fun i => (c[i]?).getD 0 }, hb, hopt, ?_, rfl, ?_, hlen⟩
  · apply more_capacity { d with prev := prev, mult := sc.2, add := ev sc.1 } hd m hb p hopt.1
    intro i hi
    have hi : i < d.branches.length := hi
    have e1 : c[i]? = some c[i] := List.getElem?_eq_getElem (by omega)
    obtain ⟨r1, r2⟩ := hround i taps[i] (p.ic i) c[i] (List.getElem?_eq_getElem (by omega))
      (by rw [hic, List.getElem?_map, List.getElem?_range hi]; rfl) e1
    rw [e1]
    show p.ic i ≤ c[i]
    rcases le_or_gt (p.ic i) 0 with h0 | h0
    · rw [r1 h0]
    · exact (r2 h0).enough
  · intro i hi
    have e1 : c[i]? = some c[i] := List.getElem?_eq_getElem (by omega)
    show c[i]? = some ((c[i]?).getD 0)
    rw [e1]; rfl


/-- the two-bus network has an optimal plan, which invests 50 (a case for the hypotheses of C83-C85, C87, C89) -/
theorem twoBus_optimal : ∃ m p, buildScreening (twoBus 1 2 0 100 0) = .ok m ∧ m.Optimal p ∧ p.ic 0 = 50 := by
  have hpi : (1 : Rat) ≤ twoPi := by norm_num [twoPi]
  obtain ⟨m, hm⟩ := C88_builds_partial _ (twoBus_complete 1 2 0 100 0 (.inl rfl) (.inr rfl))
  have hobj := (build_parts hm).1
  have hf := twoBus_feasible 1 2 (.inl ⟨rfl, rfl⟩) 0 100 0 (by norm_num) m hm
  simp only [if_true] at hf
  let p0 : LPPoint := ⟨fun _ _ => 100, fun _ _ => 0, fun _ _ => 100, fun _ => 50, fun j _ => if j = 0 then 0 else -1, fun _ _ => 0⟩
  have h0 : m.Feasible p0 := by
    rw [hf]
    simp only [p0]
    norm_num
    exact hpi
  have o0 : m.objective p0 = 1000 := by rw [hobj, twoBus_objective]; norm_num [p0]
  refine ⟨m, p0, hm, ⟨h0, fun q hq => ?_⟩, rfl⟩
  rw [o0, hobj, twoBus_objective]
  rw [hf] at hq
  obtain ⟨a1, a2, a3, a4, a5, a6, a7, a8, a9, a10, a11, a12, a13, a14⟩ := hq
  rw [a12]
  linarith

example : ∃ solve, SolvesExactly (twoBus 1 2 0 100 0) (fun _ => [0, 0]) solve ∧
    mainScreening [40, 63] [] [0] solve [[[1, 1]]] = .ok ⟨[[50]], [[63]]⟩ := by
  refine ⟨fun _ prev mult => if prev = [0] ∧ mult = [1, 1] then .ok [50] else .error .runtime, ?_, by decide +kernel⟩
  intro xy prev mult ic h
  beta_reduce at h
  split at h
  · rename_i hc
    obtain ⟨rfl, rfl⟩ := hc
    injection h with h
    obtain ⟨m, p, h1, h2, h3⟩ := twoBus_optimal
    refine ⟨m, p, h1, h2, ?_⟩
    rw [← h]
    show [(50 : Rat)] = [p.ic 0]
    rw [h3]
  · cases h

end Pyensys
