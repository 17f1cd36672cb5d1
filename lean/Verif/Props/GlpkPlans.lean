import Verif.Props.GlpkRuns
import Verif.Lemmas.LinProg

/-!
# C150, C151, C155: the plans that GLPK returns
-/

namespace Pyensys

/-! ## a cheapest point exists -/

/-- coefficients of all columns -/
def gCoefs (n : Nat) (ts : List (Nat × Rat)) : List Rat := (List.range n).map (fun c => (ts.map (fun t => if t.1 = c then t.2 else 0)).sum)

theorem lpEv_range (f : Nat → Rat) (n : Nat) (x : Nat → Rat) : lpEv ((List.range n).map f) x = ((List.range n).map (fun i => f i * x i)).sum := by
  induction n with
  | zero => rfl
  | succ n ih =>
    rw [List.range_succ, List.map_append, lpEv_append, ih, List.map_append, List.sum_append]
    simp [lpEv]

theorem sum_range_single (n k : Nat) (hk : k < n) (f : Nat → Rat) : ((List.range n).map (fun i => if k = i then f i else 0)).sum = f k := by
  induction n with
  | zero => omega
  | succ n ih =>
    rw [List.range_succ, List.map_append, List.sum_append]
    by_cases h : k = n
    · subst h
      have : (List.range k).map (fun i => if k = i then f i else 0) = (List.range k).map (fun _ => 0) := by
        apply List.map_congr_left
        intro i hi
        rw [List.mem_range] at hi
        rw [if_neg (by omega)]
      rw [this]
      simp
    · rw [ih (by omega)]
      simp [h]

theorem lpEv_coefs (n : Nat) (ts : List (Nat × Rat)) (h : ∀ t ∈ ts, t.1 < n) (x : Nat → Rat) :
    lpEv (gCoefs n ts) x = (ts.map (fun t => t.2 * x t.1)).sum := by
  unfold gCoefs
  rw [lpEv_range]
  induction ts with
  | nil => simp
  | cons t ts ih =>
    rw [List.map_cons, List.sum_cons, ← ih (fun u hu => h u (List.mem_cons_of_mem _ hu))]
    rw [← sum_range_single n t.1 (h t List.mem_cons_self) (fun i => t.2 * x i), ← sum_map_add3]
    congr 1
    apply List.map_congr_left
    intro i _
    rw [List.map_cons, List.sum_cons]
    split <;> ring

/-- a bound as constraints -/
def gCons (as : List Rat) : GBnd → List LpCon
  | .free => []
  | .lower a => [(as, -a)]
  | .bounded a b => [(as, -a), (as.map ((-1) * ·), b)]
  | .fixed a => [(as, -a), (as.map ((-1) * ·), a)]

theorem gCons_spec (as : List Rat) (b : GBnd) (x : Nat → Rat) : lpSat (gCons as b) x ↔ b.holds (lpEv as x) := by
  cases b with
  | free => simp [gCons, lpSat, GBnd.holds]
  | lower a =>
    simp only [gCons, lpSat, GBnd.holds, List.mem_cons, List.not_mem_nil, or_false, forall_eq]
    constructor <;> intro h <;> linarith
  | bounded a b =>
    simp only [gCons, lpSat, GBnd.holds, List.mem_cons, List.not_mem_nil, or_false, forall_eq_or_imp, forall_eq, lpEv_map]
    constructor
    · rintro ⟨h1, h2⟩; exact ⟨by linarith, by linarith⟩
    · rintro ⟨h1, h2⟩; exact ⟨by linarith, by linarith⟩
  | fixed a =>
    simp only [gCons, lpSat, GBnd.holds, List.mem_cons, List.not_mem_nil, or_false, forall_eq_or_imp, forall_eq, lpEv_map]
    constructor
    · rintro ⟨h1, h2⟩; linarith
    · intro h; exact ⟨by linarith, by linarith⟩

theorem gCons_len {as : List Rat} {b : GBnd} {q : LpCon} (h : q ∈ gCons as b) : q.1.length = as.length := by
  cases b <;> simp only [gCons, List.mem_cons, List.not_mem_nil, or_false] at h
  · subst h; rfl
  · rcases h with rfl | rfl <;> simp
  · rcases h with rfl | rfl <;> simp

theorem lpSat_append (a b : List LpCon) (x : Nat → Rat) : lpSat (a ++ b) x ↔ lpSat a x ∧ lpSat b x := by
  unfold lpSat
  constructor
  · intro h
    exact ⟨fun q hq => h q (List.mem_append_left _ hq), fun q hq => h q (List.mem_append_right _ hq)⟩
  · rintro ⟨h1, h2⟩ q hq
    rcases List.mem_append.1 hq with hq | hq
    · exact h1 q hq
    · exact h2 q hq

theorem lpSat_flatMap {α : Type} (l : List α) (f : α → List LpCon) (x : Nat → Rat) : lpSat (l.flatMap f) x ↔ ∀ a ∈ l, lpSat (f a) x := by
  unfold lpSat
  constructor
  · intro h a ha q hq
    exact h q (List.mem_flatMap.2 ⟨a, ha, hq⟩)
  · intro h q hq
    obtain ⟨a, ha, hq⟩ := List.mem_flatMap.1 hq
    exact h a ha q hq

/-- the terms of a row -/
def GLp.rowTerms (lp : GLp) (r : Nat) : List (Nat × Rat) := (lp.rows.filter (fun q => q.1 == r)).flatMap (fun q => q.2.1)

theorem GLp.rowVal_eq (lp : GLp) (x : Nat → Rat) (r : Nat) : lp.rowVal x r = ((lp.rowTerms r).map (fun t => t.2 * x t.1)).sum := by
  unfold GLp.rowVal GLp.rowTerms
  generalize lp.rows.filter (fun q => q.1 == r) = l
  induction l with
  | nil => rfl
  | cons a l ih => rw [List.map_cons, List.sum_cons, ih, List.flatMap_cons, List.map_append, List.sum_append]

/-- the constraints of a linear program -/
def GLp.cons (lp : GLp) : List LpCon :=
  lp.cols.zipIdx.flatMap (fun b => gCons (gCoefs lp.cols.length [(b.2, 1)]) b.1) ++
  (List.range lp.nrows).flatMap (fun r => gCons (gCoefs lp.cols.length (lp.rowTerms r)) (lp.rowBnd r))

theorem GLp.cons_spec {p : GProb} {lp : GLp} (h : GBuilt p lp) (x : Nat → Rat) : lpSat lp.cons x ↔ GFeasible lp x := by
  have ht : ∀ r, ∀ t ∈ lp.rowTerms r, t.1 < lp.cols.length := by
    intro r t ht
    obtain ⟨q, hq, ht⟩ := List.mem_flatMap.1 ht
    exact (h.inside q (List.mem_filter.1 hq).1).2 t ht
  unfold GLp.cons
  rw [lpSat_append, lpSat_flatMap, lpSat_flatMap]
  constructor
  · rintro ⟨h1, h2⟩
    refine ⟨?_, ?_⟩
    · intro c b hb
      have := h1 (b, c) (mem_zipIdx_iff'.2 hb)
      rw [gCons_spec, lpEv_coefs _ _ (by
        intro t ht'
        simp only [List.mem_cons, List.not_mem_nil, or_false] at ht'
        subst ht'
        exact (List.getElem?_eq_some_iff.1 hb).1)] at this
      simpa using this
    · intro r hr
      have := h2 r (List.mem_range.2 hr)
      rwa [gCons_spec, lpEv_coefs _ _ (ht r), ← GLp.rowVal_eq] at this
  · rintro ⟨h1, h2⟩
    refine ⟨?_, ?_⟩
    · intro b hb
      have hb' := mem_zipIdx_iff'.1 hb
      rw [gCons_spec, lpEv_coefs _ _ (by
        intro t ht'
        simp only [List.mem_cons, List.not_mem_nil, or_false] at ht'
        subst ht'
        exact (List.getElem?_eq_some_iff.1 hb').1)]
      simpa using h1 b.2 b.1 hb'
    · intro r hr
      rw [gCons_spec, lpEv_coefs _ _ (ht r), ← GLp.rowVal_eq]
      exact h2 r (List.mem_range.1 hr)

/-- a linear program with a feasible point and a bounded cost has a cheapest point: the one that GLPK returns -/
theorem gOptimum {p : GProb} {lp : GLp} (hb : gBuild p = .ok lp) (hg : GGood p) {x0 : Nat → Rat} (h0 : GFeasible lp x0) (m : Rat)
    (hm : ∀ x, GFeasible lp x → m ≤ lp.cost x) : ∃ x, GFeasible lp x ∧ ∀ z, GFeasible lp z → lp.cost x ≤ lp.cost z := by
  have h := (gBuild_iff p lp).1 hb
  have hobj : ∀ t ∈ lp.obj, t.1 < lp.cols.length := by
    intro t ht
    have e := h.obj
    rw [gTerms_ok hg.colKeys _ hg.obj] at e
    simp only [Except.ok.injEq] at e
    rw [← e] at ht
    obtain ⟨u, hu, rfl⟩ := List.mem_map.1 ht
    obtain ⟨n, hn, hl⟩ := gHas_col hg.colKeys (hg.obj u hu)
    rw [hn, h.cols]
    exact hl
  have hc : ∀ x, lpEv (gCoefs lp.cols.length lp.obj) x = lp.cost x := fun x => lpEv_coefs _ _ hobj x
  obtain ⟨x, hx, hmin⟩ := lpOptimum lp.cols.length lp.cons (by
      intro q hq
      rcases List.mem_append.1 hq with hq | hq
      · obtain ⟨b, _, hq⟩ := List.mem_flatMap.1 hq
        rw [gCons_len hq]
        simp [gCoefs]
      · obtain ⟨b, _, hq⟩ := List.mem_flatMap.1 hq
        rw [gCons_len hq]
        simp [gCoefs]) (gCoefs lp.cols.length lp.obj) (by simp [gCoefs]) x0 ((GLp.cons_spec h x0).2 h0) m (by
      intro x hx
      rw [hc]
      exact hm x ((GLp.cons_spec h x).1 hx))
  refine ⟨x, (GLp.cons_spec h x).1 hx, fun z hz => ?_⟩
  have := hmin z ((GLp.cons_spec h z).2 hz)
  rwa [hc, hc] at this

/-- what is returned if there is a feasible point and the cost is bounded -/
theorem gReturned_ok {p : GProb} {lp : GLp} (hb : gBuild p = .ok lp) (hg : GGood p) {x0 : Nat → Rat} (h0 : GFeasible lp x0) (m : Rat)
    (hm : ∀ x, GFeasible lp x → m ≤ lp.cost x) {x : Nat → Rat} (hx : GReturned lp x) :
    GFeasible lp x ∧ ∀ z, GFeasible lp z → lp.cost x ≤ lp.cost z := hx (gOptimum hb hg h0 m hm)

/-! ## every plan that obeys the rules is a point of GLPK -/

/-- two plans that agree on everything the network has -/
structure GnSame (c : GnCase) (s t : GnSol) : Prop where
  conv : ∀ i j n, i < c.insts → j < c.periods → n < c.conv.length → s.conv i j n = t.conv i j n ∧ s.convC i j n = t.convC i j n
  res : ∀ i j n, i < c.insts → j < c.periods → n < c.res.length → s.res i j n = t.res i j n ∧ s.resC i j n = t.resC i j n
  hydro : ∀ i j n, i < c.insts → j < c.periods → n < c.hydro.length → s.hydro i j n = t.hydro i j n ∧ s.hydroC i j n = t.hydroC i j n
  pump : ∀ i j n, i < c.insts → j < c.periods → n < c.pumps.length → s.pump i j n = t.pump i j n
  flow : ∀ i j k n, i < c.insts → j < c.periods → k ≤ c.cont → n < c.branches.length → s.flow i j k n = t.flow i j k n
  loss : c.lossPieces ≠ none → ∀ i j k n, i < c.insts → j < c.periods → k ≤ c.cont → n < c.branches.length → s.loss i j k n = t.loss i j k n
  bus : c.feas = true → ∀ i j k n, i < c.insts → j < c.periods → k ≤ c.cont → n < c.buses.length →
    s.lc i j k n = t.lc i j k n ∧ s.gc i j k n = t.gc i j k n
  angle : ∀ i j k n, i < c.insts → j < c.periods → k ≤ c.cont → n < c.buses.length → s.angle i j k n = t.angle i j k n

theorem lt_of_some {α : Type} {l : List α} {n : Nat} {a : α} (h : l[n]? = some a) : n < l.length := (List.getElem?_eq_some_iff.1 h).1

theorem sum_zipIdx_congr {α : Type} (l : List α) (f g : α → Nat → Rat) (h : ∀ (n : Nat) (a : α), l[n]? = some a → f a n = g a n) :
    (l.zipIdx.map (fun q => f q.1 q.2)).sum = (l.zipIdx.map (fun q => g q.1 q.2)).sum := by
  congr 1
  apply List.map_congr_left
  intro q hq
  exact h q.2 q.1 (mem_zipIdx_iff'.1 hq)

theorem gnRules_same {c : GnCase} (he : ∀ b ∈ c.branches, b.fpos < c.buses.length ∧ b.tpos < c.buses.length) {s t : GnSol} (h : GnSame c s t)
    (hs : GnRules c s) : GnRules c t := by
  refine ⟨?_, ?_, ?_, ?_⟩
  · intro i j hi hj
    have u := hs.units i j hi hj
    refine ⟨?_, ?_, ?_, ?_, ?_, ?_, ?_⟩
    · intro n v hv; rw [← (h.conv i j n hi hj (lt_of_some hv)).1]; exact u.conv n v hv
    · intro n v hv; rw [← (h.res i j n hi hj (lt_of_some hv)).1]; exact u.res n v hv
    · intro n v hv; rw [← (h.hydro i j n hi hj (lt_of_some hv)).1]; exact u.hydro n v hv
    · intro n v hv; rw [← h.pump i j n hi hj (lt_of_some hv)]; exact u.pump n v hv
    · intro n hn; rw [← (h.conv i j n hi hj hn).2]; exact u.costs.1 n hn
    · intro n hn; rw [← (h.res i j n hi hj hn).2]; exact u.costs.2.1 n hn
    · intro n hn; rw [← (h.hydro i j n hi hj hn).2]; exact u.costs.2.2 n hn
  · intro i j hi hj
    have u := hs.costs i j hi hj
    refine ⟨?_, ?_, ?_⟩
    · intro n v hv; rw [← (h.conv i j n hi hj (lt_of_some hv)).1, ← (h.conv i j n hi hj (lt_of_some hv)).2]; exact u.conv n v hv
    · intro n v hv; rw [← (h.res i j n hi hj (lt_of_some hv)).1, ← (h.res i j n hi hj (lt_of_some hv)).2]; exact u.res n v hv
    · intro n v hv; rw [← (h.hydro i j n hi hj (lt_of_some hv)).1, ← (h.hydro i j n hi hj (lt_of_some hv)).2]; exact u.hydro n v hv
  · intro i j k hi hj hk
    have u := hs.limits i j k hi hj hk
    refine ⟨?_, ?_, ?_, ?_, ?_⟩
    · intro n b hb; rw [← h.flow i j k n hi hj hk (lt_of_some hb)]; exact u.flow n b hb
    · intro hl n b hb; rw [← h.loss hl i j k n hi hj hk (lt_of_some hb)]; exact u.loss hl n b hb
    · intro hf n b hb; rw [← (h.bus hf i j k n hi hj hk (lt_of_some hb)).1]; exact u.lc hf n b hb
    · intro hf n b hb; rw [← (h.bus hf i j k n hi hj hk (lt_of_some hb)).2]; exact u.gc hf n b hb
    · intro n b hb; rw [← h.angle i j k n hi hj hk (lt_of_some hb)]; exact u.angle n b hb
  · intro i j k hi hj hk
    have u := hs.net i j k hi hj hk
    refine ⟨?_, ?_, ?_⟩
    · intro n b hb ht
      have w := u.balance n b hb ht
      unfold GnBalance at w ⊢
      have e1 : gnGenAt c s i j b.number = gnGenAt c t i j b.number := by
        unfold gnGenAt
        rw [sum_zipIdx_congr c.conv (fun u n => if u.bus = b.number then s.conv i j n else 0) (fun u n => if u.bus = b.number then t.conv i j n else 0)
            (fun n v hv => by rw [(h.conv i j n hi hj (lt_of_some hv)).1]),
          sum_zipIdx_congr c.res (fun u n => if u.bus = b.number then s.res i j n else 0) (fun u n => if u.bus = b.number then t.res i j n else 0)
            (fun n v hv => by rw [(h.res i j n hi hj (lt_of_some hv)).1]),
          sum_zipIdx_congr c.hydro (fun u n => if u.bus = b.number then s.hydro i j n else 0) (fun u n => if u.bus = b.number then t.hydro i j n else 0)
            (fun n v hv => by rw [(h.hydro i j n hi hj (lt_of_some hv)).1])]
      have e2 : gnNetFlow c s i j k b.number = gnNetFlow c t i j k b.number := by
        unfold gnNetFlow
        rw [sum_zipIdx_congr c.branches (fun l n => if l.tbus = b.number then s.flow i j k n else 0) (fun l n => if l.tbus = b.number then t.flow i j k n else 0)
            (fun n v hv => by rw [h.flow i j k n hi hj hk (lt_of_some hv)]),
          sum_zipIdx_congr c.branches (fun l n => if l.fbus = b.number then s.flow i j k n else 0) (fun l n => if l.fbus = b.number then t.flow i j k n else 0)
            (fun n v hv => by rw [h.flow i j k n hi hj hk (lt_of_some hv)])]
      have e3 : gnLossAt c s i j k b.number = gnLossAt c t i j k b.number := by
        unfold gnLossAt
        cases hl : c.lossPieces with
        | none => rfl
        | some ps =>
          exact sum_zipIdx_congr c.branches (fun l n => if l.fbus = b.number ∨ l.tbus = b.number then s.loss i j k n / 2 else 0)
            (fun l n => if l.fbus = b.number ∨ l.tbus = b.number then t.loss i j k n / 2 else 0)
            (fun n v hv => by rw [h.loss (by rw [hl]; simp) i j k n hi hj hk (lt_of_some hv)])
      have e4 : gnPumped c s i j = gnPumped c t i j :=
        sum_zipIdx_congr c.pumps (fun q n => if 0 < q.1 / c.base then s.pump i j n else 0) (fun q n => if 0 < q.1 / c.base then t.pump i j n else 0)
          (fun n v hv => by rw [h.pump i j n hi hj (lt_of_some hv)])
      rw [← e1, ← e2, ← e3, ← e4, ← w]
      congr 1
      by_cases hf : c.feas = true
      · rw [if_pos hf, if_pos hf, (h.bus hf i j k n hi hj hk (lt_of_some hb)).1, (h.bus hf i j k n hi hj hk (lt_of_some hb)).2]
      · rw [if_neg hf, if_neg hf]
    · intro n b hb ho
      rw [← h.flow i j k n hi hj hk (lt_of_some hb), ← h.angle i j k _ hi hj hk (he b (List.mem_of_getElem? hb)).1,
        ← h.angle i j k _ hi hj hk (he b (List.mem_of_getElem? hb)).2]
      exact u.law n b hb ho
    · intro ps hps n b hb ho
      rw [← h.flow i j k n hi hj hk (lt_of_some hb), ← h.loss (by rw [hps]; simp) i j k n hi hj hk (lt_of_some hb)]
      exact u.losses ps hps n b hb ho

/-- the values of the columns for a plan -/
def gnVal (s : GnSol) : GKey → Nat → Rat
  | (.thermal, [i, j]) => s.conv i j
  | (.resGen, [i, j]) => s.res i j
  | (.hydroGen, [i, j]) => s.hydro i j
  | (.thermalCG, [i, j]) => s.convC i j
  | (.resCG, [i, j]) => s.resC i j
  | (.hydroCG, [i, j]) => s.hydroC i j
  | (.pumps, [i, j]) => s.pump i j
  | (.flow, [i, j, k]) => s.flow i j k
  | (.loss, [i, j, k]) => s.loss i j k
  | (.lc, [i, j, k]) => s.lc i j k
  | (.gc, [i, j, k]) => s.gc i j k
  | (.angle, [i, j, k]) => s.angle i j k
  | _ => fun _ => 0

/-- every plan is the plan of some values of GLPK -/
theorem gnSol_point {c : GnCase} (h : GnWell c) (s : GnSol) : ∃ x, GnSame c s (gnSol (gnOpf c) x) := by
  obtain ⟨x, hx⟩ := gEncode (gnOpf c).cols (gnCols_keys c) (gnVal s)
  have hv : ∀ q : GCol, (gnOpf c).has q → (gnOpf c).val x q.1 q.2 = gnVal s q.1 q.2 := fun q ⟨bs, h1, h2⟩ => hx (q.1, bs) h1 q.2 h2
  have hp : ∀ g ∈ gnCols c, g ∈ (gnOpf c).cols := fun g hg => hg
  refine ⟨x, ?_, ?_, ?_, ?_, ?_, ?_, ?_, ?_⟩
  · intro i j n hi hj hn
    obtain ⟨u1, u2, u3, u4⟩ := gnHas_units hp hi hj
    exact ⟨(hv _ (u1 n hn).1).symm, (hv _ (u1 n hn).2).symm⟩
  · intro i j n hi hj hn
    obtain ⟨u1, u2, u3, u4⟩ := gnHas_units hp hi hj
    exact ⟨(hv _ (u2 n hn).1).symm, (hv _ (u2 n hn).2).symm⟩
  · intro i j n hi hj hn
    obtain ⟨u1, u2, u3, u4⟩ := gnHas_units hp hi hj
    exact ⟨(hv _ (u3 n hn).1).symm, (hv _ (u3 n hn).2).symm⟩
  · intro i j n hi hj hn
    obtain ⟨u1, u2, u3, u4⟩ := gnHas_units hp hi hj
    exact (hv _ (u4 n hn)).symm
  · intro i j k n hi hj hk hn
    obtain ⟨n1, n2⟩ := gnHas_net h.opf hp hi hj hk
    exact (hv _ (n1 n hn).1).symm
  · intro hl i j k n hi hj hk hn
    obtain ⟨n1, n2⟩ := gnHas_net h.opf hp hi hj hk
    exact (hv _ ((n1 n hn).2 hl)).symm
  · intro hf i j k n hi hj hk hn
    obtain ⟨n1, n2⟩ := gnHas_net h.opf hp hi hj hk
    exact ⟨(hv _ ((n2 n hn).2 hf).1).symm, (hv _ ((n2 n hn).2 hf).2).symm⟩
  · intro i j k n hi hj hk hn
    obtain ⟨n1, n2⟩ := gnHas_net h.opf hp hi hj hk
    exact (hv _ (n2 n hn).1).symm

/-- **C149.** Every plan that obeys the rules of the network is one that GLPK can choose. -/
theorem C149_all_plans_partial {c : GnCase} {p : GProb} {lp : GLp} (hr : gnRun c = .ok (p, lp)) (h : GnWell c) (s : GnSol) (hs : GnRules c s) :
    ∃ x, GFeasible lp x ∧ GnSame c s (gnSol p x) := by
  obtain ⟨_, _, hp, _⟩ := gnRun_parts hr
  obtain ⟨x, hx⟩ := gnSol_point h s
  have e : p = gnOpf c := hp
  refine ⟨x, (C149_plans_partial hr h.out x).2 ?_, ?_⟩
  · rw [e]
    exact gnRules_same (fun b hb => (h.ends b hb).2.2) hx hs
  · rw [e]
    exact hx

/-! ## C151: costs -/

/-- what the objective counts in one instance and period: costs of the units, value of pumping, penalty of curtailment in every contingency -/
def gnPeriodCost (c : GnCase) (s : GnSol) (i j : Nat) : Rat :=
  ((List.range c.conv.length).map (s.convC i j)).sum + ((List.range c.res.length).map (s.resC i j)).sum +
  ((List.range c.hydro.length).map (s.hydroC i j)).sum - c.base * (c.pumps.zipIdx.map (fun q => q.1.2 * s.pump i j q.2)).sum +
  (if c.feas = true then 100000000 * ((List.range (c.cont + 1)).map (fun k =>
    ((List.range c.buses.length).map (fun n => s.lc i j k n + s.gc i j k n)).sum)).sum else 0)

/-- the objective: each period weighted by its hours -/
def gnPlanCost (c : GnCase) (s : GnSol) : Rat := ((gnTimes c).map (fun q => gnHours c q.2 * gnPeriodCost c s q.1 q.2)).sum

theorem sum_mul_map {α : Type} (a : Rat) (l : List α) (f : α → Rat) : (l.map (fun q => a * f q)).sum = a * (l.map f).sum := by
  induction l with
  | nil => simp
  | cons q l ih => rw [List.map_cons, List.sum_cons, ih, List.map_cons, List.sum_cons]; ring

theorem gnObj_sum {c : GnCase} (hopf : c.opf = true) (p : GProb) (x : Nat → Rat) :
    gTermSum p x (gnObj c (fun _ => 1) 100000000) = gnPlanCost c (gnSol p x) := by
  unfold gnObj gnPlanCost
  rw [gTermSum_flatMap]
  congr 1
  apply List.map_congr_left
  intro q _
  simp only [gTermSum_append]
  have e : ∀ (tag : GTag) (n : Nat) (f : Nat → Rat), (∀ k, p.val x (tag, [q.1, q.2]) k = f k) →
      gTermSum p x ((List.range n).map (fun k => (((tag, [q.1, q.2]), k), 1 * gnHours c q.2))) = gnHours c q.2 * ((List.range n).map f).sum := by
    intro tag n f hf
    unfold gTermSum
    rw [List.map_map, ← sum_mul_map]
    congr 1
    apply List.map_congr_left
    intro k _
    simp only [Function.comp, hf]
    ring
  rw [e .thermalCG _ ((gnSol p x).convC q.1 q.2) (fun _ => rfl), e .resCG _ ((gnSol p x).resC q.1 q.2) (fun _ => rfl),
    e .hydroCG _ ((gnSol p x).hydroC q.1 q.2) (fun _ => rfl)]
  have e4 : gTermSum p x (c.pumps.zipIdx.map (fun r => (((.pumps, [q.1, q.2]), r.2), -1 * gnHours c q.2 * c.base * r.1.2))) =
      gnHours c q.2 * (-(c.base * (c.pumps.zipIdx.map (fun r => r.1.2 * (gnSol p x).pump q.1 q.2 r.2)).sum)) := by
    unfold gTermSum
    rw [List.map_map, ← neg_mul, ← sum_mul_map, ← sum_mul_map]
    congr 1
    apply List.map_congr_left
    intro k _
    simp only [Function.comp, gnSol]
    ring
  rw [e4]
  have e5 : gTermSum p x (if c.feas = true then
      if c.opf = true then
        (List.range (c.cont + 1)).flatMap (fun k =>
          (List.range c.buses.length).map (fun n => (((.lc, [q.1, q.2, k]), n), (1 : Rat) * gnHours c q.2 * 100000000)) ++
          (List.range c.buses.length).map (fun n => (((.gc, [q.1, q.2, k]), n), 1 * gnHours c q.2 * 100000000)))
      else [(((.lcs, [q.1, q.2]), 0), 1 * gnHours c q.2 * 100000000)]
     else []) = gnHours c q.2 * (if c.feas = true then 100000000 * ((List.range (c.cont + 1)).map (fun k =>
    ((List.range c.buses.length).map (fun n => (gnSol p x).lc q.1 q.2 k n + (gnSol p x).gc q.1 q.2 k n)).sum)).sum else 0) := by
    by_cases hf : c.feas = true
    · rw [if_pos hf, if_pos hopf, if_pos hf, gTermSum_flatMap, ← sum_mul_map, ← sum_mul_map]
      congr 1
      apply List.map_congr_left
      intro k _
      rw [gTermSum_append]
      unfold gTermSum
      rw [List.map_map, List.map_map, ← sum_map_add3, ← sum_mul_map, ← sum_mul_map]
      congr 1
      apply List.map_congr_left
      intro n _
      simp only [Function.comp, gnSol]
      ring
    · rw [if_neg hf, if_neg hf]
      simp [gTermSum]
  rw [e5]
  unfold gnPeriodCost
  ring

/-- **C151.** The objective of GLPK is the sum over instances and periods of the hours of the period times the costs of the units, minus the
value of pumping, plus the penalty of curtailment. -/
theorem C151_objective_partial {c : GnCase} {p : GProb} {lp : GLp} (hr : gnRun c = .ok (p, lp)) (x : Nat → Rat) :
    lp.cost x = gnPlanCost c (gnSol p x) := by
  obtain ⟨hopf, _, hp, hb, _⟩ := gnRun_parts hr
  rw [gCost_eq ((gBuild_iff p lp).1 hb), ← gnObj_sum hopf]
  rw [show p.obj = gnObj c (fun _ => 1) 100000000 by rw [hp]]
  rfl

theorem gnPlanCost_same {c : GnCase} {s t : GnSol} (h : GnSame c s t) : gnPlanCost c s = gnPlanCost c t := by
  unfold gnPlanCost
  congr 1
  apply List.map_congr_left
  intro q hq
  obtain ⟨hi, hj⟩ := mem_gnTimes.1 hq
  have r : ∀ (n : Nat) (f g : Nat → Rat), (∀ k, k < n → f k = g k) → ((List.range n).map f).sum = ((List.range n).map g).sum := by
    intro n f g hfg
    congr 1
    apply List.map_congr_left
    intro k hk
    exact hfg k (List.mem_range.1 hk)
  have : gnPeriodCost c s q.1 q.2 = gnPeriodCost c t q.1 q.2 := by
    unfold gnPeriodCost
    rw [r _ _ _ (fun n hn => (h.conv _ _ n hi hj hn).2), r _ _ _ (fun n hn => (h.res _ _ n hi hj hn).2),
      r _ _ _ (fun n hn => (h.hydro _ _ n hi hj hn).2),
      sum_zipIdx_congr c.pumps (fun v n => v.2 * s.pump q.1 q.2 n) (fun v n => v.2 * t.pump q.1 q.2 n)
        (fun n v hv => by rw [h.pump _ _ n hi hj (lt_of_some hv)])]
    by_cases hf : c.feas = true
    · rw [if_pos hf, if_pos hf, r (c.cont + 1) _ _ (fun k hk => r c.buses.length (fun n => s.lc q.1 q.2 k n + s.gc q.1 q.2 k n)
        (fun n => t.lc q.1 q.2 k n + t.gc q.1 q.2 k n) (fun n hn => by
          rw [(h.bus hf _ _ k n hi hj (by omega) hn).1, (h.bus hf _ _ k n hi hj (by omega) hn).2]))]
    · rw [if_neg hf, if_neg hf]
  rw [this]

theorem sum_map_nonneg {α : Type} (l : List α) (f : α → Rat) (h : ∀ a ∈ l, 0 ≤ f a) : 0 ≤ (l.map f).sum := by
  apply List.sum_nonneg
  intro y hy
  obtain ⟨a, ha, rfl⟩ := List.mem_map.1 hy
  exact h a ha

theorem sum_map_mono {α : Type} (l : List α) (f g : α → Rat) (h : ∀ a ∈ l, f a ≤ g a) : (l.map f).sum ≤ (l.map g).sum := by
  induction l with
  | nil => simp
  | cons a l ih =>
    rw [List.map_cons, List.sum_cons, List.map_cons, List.sum_cons]
    exact add_le_add (h a List.mem_cons_self) (ih (fun b hb => h b (List.mem_cons_of_mem _ hb)))

/-- the cost of a plan is not below the value of all pumps at full power -/
theorem gnPlanCost_bound {c : GnCase} (hh : ∀ j, j < c.periods → 0 ≤ gnHours c j) {s : GnSol} (hs : GnRules c s) :
    ((gnTimes c).map (fun q => gnHours c q.2 * -(c.pumps.zipIdx.map (fun r => |c.base * r.1.2| * (r.1.1 / c.base))).sum)).sum ≤ gnPlanCost c s := by
  unfold gnPlanCost
  apply sum_map_mono
  intro q hq
  obtain ⟨hi, hj⟩ := mem_gnTimes.1 hq
  apply mul_le_mul_of_nonneg_left _ (hh _ hj)
  have u := hs.units _ _ hi hj
  have h1 := sum_map_nonneg (List.range c.conv.length) (s.convC q.1 q.2) (fun n hn => u.costs.1 n (List.mem_range.1 hn))
  have h2 := sum_map_nonneg (List.range c.res.length) (s.resC q.1 q.2) (fun n hn => u.costs.2.1 n (List.mem_range.1 hn))
  have h3 := sum_map_nonneg (List.range c.hydro.length) (s.hydroC q.1 q.2) (fun n hn => u.costs.2.2 n (List.mem_range.1 hn))
  have h4 : c.base * (c.pumps.zipIdx.map (fun r => r.1.2 * s.pump q.1 q.2 r.2)).sum ≤ (c.pumps.zipIdx.map (fun r => |c.base * r.1.2| * (r.1.1 / c.base))).sum := by
    rw [← sum_mul_map]
    apply sum_map_mono
    intro r hr
    obtain ⟨p1, p2⟩ := u.pump r.2 r.1 (mem_zipIdx_iff'.1 hr)
    calc c.base * (r.1.2 * s.pump q.1 q.2 r.2) = (c.base * r.1.2) * s.pump q.1 q.2 r.2 := by ring
      _ ≤ |c.base * r.1.2| * s.pump q.1 q.2 r.2 := mul_le_mul_of_nonneg_right (le_abs_self _) p1
      _ ≤ _ := mul_le_mul_of_nonneg_left p2 (abs_nonneg _)
  have h5 : 0 ≤ (if c.feas = true then 100000000 * ((List.range (c.cont + 1)).map (fun k =>
    ((List.range c.buses.length).map (fun n => s.lc q.1 q.2 k n + s.gc q.1 q.2 k n)).sum)).sum else 0 : Rat) := by
    by_cases hf : c.feas = true
    · rw [if_pos hf]
      refine mul_nonneg (by norm_num) (sum_map_nonneg _ _ ?_)
      intro k hk
      have v := hs.limits _ _ k hi hj (by rw [List.mem_range] at hk; omega)
      refine sum_map_nonneg _ _ ?_
      intro n hn
      obtain ⟨b, hb⟩ : ∃ b, c.buses[n]? = some b := ⟨_, List.getElem?_eq_getElem (List.mem_range.1 hn)⟩
      refine add_nonneg ?_ ?_
      · by_cases hd : 0 < b.demand
        · exact ((v.lc hf n _ hb).1 hd).1
        · rw [(v.lc hf n _ hb).2 (not_lt.1 hd)]
      · cases hg : gnHasGen c b with
        | true => exact (v.gc hf n _ hb).1 hg
        | false => rw [(v.gc hf n _ hb).2 hg]
    · rw [if_neg hf]
  unfold gnPeriodCost
  linarith

/-- **C151.** What is returned: if some plan obeys the rules, the plan that is read after the search obeys them and no plan that obeys them is cheaper. -/
theorem C151_cheapest_partial {c : GnCase} {p : GProb} {lp : GLp} (hr : gnRun c = .ok (p, lp)) (h : GnWell c)
    (hh : ∀ j, j < c.periods → 0 ≤ gnHours c j) (s0 : GnSol) (h0 : GnRules c s0) (x : Nat → Rat) (hx : GReturned lp x) :
    GnRules c (gnSol p x) ∧ ∀ s, GnRules c s → gnPlanCost c (gnSol p x) ≤ gnPlanCost c s := by
  obtain ⟨x0, hx0, _⟩ := C149_all_plans_partial hr h s0 h0
  obtain ⟨_, _, hp, hb, _⟩ := gnRun_parts hr
  have e : p = gnOpf c := hp
  obtain ⟨f1, f2⟩ := gReturned_ok hb (by rw [e]; exact gnOpf_good h) hx0 _ (by
    intro z hz
    rw [C151_objective_partial hr]
    exact gnPlanCost_bound hh ((C149_plans_partial hr h.out z).1 hz)) hx
  refine ⟨(C149_plans_partial hr h.out x).1 f1, fun s hs => ?_⟩
  obtain ⟨y, hy, hsame⟩ := C149_all_plans_partial hr h s hs
  have := f2 y hy
  rw [C151_objective_partial hr, C151_objective_partial hr] at this
  rw [gnPlanCost_same hsame]
  exact this

/-- the cost per hour of an output: the largest piece, and not less than 0 -/
def gnBest (ps : List (Rat × Rat)) (g : Rat) : Rat := ps.foldl (fun m q => max m (q.1 * g + q.2)) 0

theorem foldl_max_spec (ps : List (Rat × Rat)) (g : Rat) : ∀ m : Rat, (m ≤ ps.foldl (fun m q => max m (q.1 * g + q.2)) m) ∧
    (∀ q ∈ ps, q.1 * g + q.2 ≤ ps.foldl (fun m q => max m (q.1 * g + q.2)) m) ∧
    ∀ M, m ≤ M → (∀ q ∈ ps, q.1 * g + q.2 ≤ M) → ps.foldl (fun m q => max m (q.1 * g + q.2)) m ≤ M := by
  induction ps with
  | nil => intro m; exact ⟨le_refl _, by simp, fun M h _ => h⟩
  | cons q ps ih =>
    intro m
    obtain ⟨h1, h2, h3⟩ := ih (max m (q.1 * g + q.2))
    refine ⟨le_trans (le_max_left _ _) h1, ?_, ?_⟩
    · intro r hr
      rcases List.mem_cons.1 hr with rfl | hr
      · exact le_trans (le_max_right _ _) h1
      · exact h2 r hr
    · intro M hM hq
      exact h3 M (max_le hM (hq q List.mem_cons_self)) (fun r hr => hq r (List.mem_cons_of_mem _ hr))

theorem gnBest_nonneg (ps : List (Rat × Rat)) (g : Rat) : 0 ≤ gnBest ps g := (foldl_max_spec ps g 0).1

theorem gnBest_ge {ps : List (Rat × Rat)} {g : Rat} {q : Rat × Rat} (h : q ∈ ps) : q.1 * g + q.2 ≤ gnBest ps g := (foldl_max_spec ps g 0).2.1 q h

theorem gnBest_le {ps : List (Rat × Rat)} {g M : Rat} (h0 : 0 ≤ M) (h : ∀ q ∈ ps, q.1 * g + q.2 ≤ M) : gnBest ps g ≤ M :=
  (foldl_max_spec ps g 0).2.2 M h0 h

/-- cost of a unit in a period, by position -/
def gnUnitCost (h : Rat) (l : List GnUnit) (n : Nat) (g : Rat) : Rat := match l[n]? with | some u => h * gnBest u.pieces g | none => 0

/-- cost of a renewable unit in a period, by position -/
def gnResCost (h : Rat) (l : List GnRes) (n : Nat) (g : Rat) : Rat := match l[n]? with | some u => h * gnBest u.pieces g | none => 0

/-- the plan with the costs that its outputs have -/
def gnTight (c : GnCase) (s : GnSol) : GnSol :=
  ⟨s.conv, s.res, s.hydro, fun i j n => gnUnitCost (gnHours c j) c.conv n (s.conv i j n),
    fun i j n => gnResCost (gnHours c j) c.res n (s.res i j n), fun i j n => gnUnitCost (gnHours c j) c.hydro n (s.hydro i j n),
    s.pump, s.flow, s.loss, s.lc, s.gc, s.angle⟩

/-- limits of outputs and pumps, without costs -/
structure GnOutputs (c : GnCase) (s : GnSol) (i j : Nat) : Prop where
  conv : ∀ (n : Nat) (u : GnUnit), c.conv[n]? = some u →
    (gnActive c u = true → u.min ≤ s.conv i j n ∧ s.conv i j n ≤ u.max) ∧ (gnActive c u = false → s.conv i j n = 0)
  res : ∀ (n : Nat) (u : GnRes), c.res[n]? = some u → u.min ≤ s.res i j n ∧ s.res i j n ≤ gnResMax c u i j
  hydro : ∀ (n : Nat) (u : GnUnit), c.hydro[n]? = some u → u.min ≤ s.hydro i j n ∧ s.hydro i j n ≤ u.max
  pump : ∀ (n : Nat) (q : Rat × Rat), c.pumps[n]? = some q → 0 ≤ s.pump i j n ∧ s.pump i j n ≤ q.1 / c.base

/-- a plan without costs that obeys the rules obeys them with the costs that it has -/
theorem gnTight_rules {c : GnCase} (hh : ∀ j, j < c.periods → 0 ≤ gnHours c j) {s : GnSol}
    (hu : ∀ i j, i < c.insts → j < c.periods → GnOutputs c s i j)
    (hl : ∀ i j k, i < c.insts → j < c.periods → k ≤ c.cont → GnLimits c s i j k)
    (hn : ∀ i j k, i < c.insts → j < c.periods → k ≤ c.cont → GnNet c s i j k) : GnRules c (gnTight c s) := by
  have hnn : ∀ j n g, j < c.periods → (∀ l, 0 ≤ gnUnitCost (gnHours c j) l n g) ∧ ∀ l, 0 ≤ gnResCost (gnHours c j) l n g := by
    intro j n g hj
    constructor <;> intro l
    · unfold gnUnitCost
      split
      · exact mul_nonneg (hh j hj) (gnBest_nonneg _ _)
      · exact le_refl _
    · unfold gnResCost
      split
      · exact mul_nonneg (hh j hj) (gnBest_nonneg _ _)
      · exact le_refl _
  refine ⟨?_, ?_, ?_, ?_⟩
  · intro i j hi hj
    have u := hu i j hi hj
    exact ⟨u.conv, u.res, u.hydro, u.pump, fun n _ => (hnn j n _ hj).1 _, fun n _ => (hnn j n _ hj).2 _, fun n _ => (hnn j n _ hj).1 _⟩
  · intro i j hi hj
    refine ⟨?_, ?_, ?_⟩
    · intro n u hu q hq
      show _ ≤ gnUnitCost (gnHours c j) c.conv n (s.conv i j n)
      simp only [gnUnitCost, hu]
      exact mul_le_mul_of_nonneg_left (gnBest_ge hq) (hh j hj)
    · intro n u hu q hq
      show _ ≤ gnResCost (gnHours c j) c.res n (s.res i j n)
      simp only [gnResCost, hu]
      exact mul_le_mul_of_nonneg_left (gnBest_ge hq) (hh j hj)
    · intro n u hu q hq
      show _ ≤ gnUnitCost (gnHours c j) c.hydro n (s.hydro i j n)
      simp only [gnUnitCost, hu]
      exact mul_le_mul_of_nonneg_left (gnBest_ge hq) (hh j hj)
  · intro i j k hi hj hk
    have u := hl i j k hi hj hk
    exact ⟨u.flow, u.loss, u.lc, u.gc, u.angle⟩
  · intro i j k hi hj hk
    have u := hn i j k hi hj hk
    exact ⟨u.balance, u.law, u.losses⟩

theorem gnUnitCost_le {c : GnCase} (hh : ∀ j, j < c.periods → 0 ≤ gnHours c j) {s : GnSol} (hs : GnRules c s) {i j : Nat} (hi : i < c.insts)
    (hj : j < c.periods) :
    (∀ n, n < c.conv.length → (gnTight c s).convC i j n ≤ s.convC i j n) ∧ (∀ n, n < c.res.length → (gnTight c s).resC i j n ≤ s.resC i j n) ∧
    ∀ n, n < c.hydro.length → (gnTight c s).hydroC i j n ≤ s.hydroC i j n := by
  have u := hs.units i j hi hj
  have v := hs.costs i j hi hj
  have key : ∀ (ps : List (Rat × Rat)) (g C : Rat), 0 ≤ C → (∀ q ∈ ps, gnHours c j * (q.1 * g + q.2) ≤ C) → gnHours c j * gnBest ps g ≤ C := by
    intro ps g C h0 h
    rcases eq_or_lt_of_le (hh j hj) with e | e
    · rw [← e]; simpa using h0
    · rw [mul_comm, ← le_div_iff₀ e]
      refine gnBest_le (div_nonneg h0 (le_of_lt e)) ?_
      intro q hq
      rw [le_div_iff₀ e, mul_comm]
      exact h q hq
  refine ⟨?_, ?_, ?_⟩
  · intro n hn
    obtain ⟨b, hb⟩ : ∃ b, c.conv[n]? = some b := ⟨_, List.getElem?_eq_getElem hn⟩
    show gnUnitCost _ _ _ _ ≤ _
    simp only [gnUnitCost, hb]
    exact key _ _ _ (u.costs.1 n hn) (v.conv n b hb)
  · intro n hn
    obtain ⟨b, hb⟩ : ∃ b, c.res[n]? = some b := ⟨_, List.getElem?_eq_getElem hn⟩
    show gnResCost _ _ _ _ ≤ _
    simp only [gnResCost, hb]
    exact key _ _ _ (u.costs.2.1 n hn) (v.res n b hb)
  · intro n hn
    obtain ⟨b, hb⟩ : ∃ b, c.hydro[n]? = some b := ⟨_, List.getElem?_eq_getElem hn⟩
    show gnUnitCost _ _ _ _ ≤ _
    simp only [gnUnitCost, hb]
    exact key _ _ _ (u.costs.2.2 n hn) (v.hydro n b hb)

/-- the cost of a period by the outputs: hours times the cost per hour of each unit -/
def gnUnitsHourly (c : GnCase) (s : GnSol) (i j : Nat) : Rat :=
  (c.conv.zipIdx.map (fun u => gnBest u.1.pieces (s.conv i j u.2))).sum + (c.res.zipIdx.map (fun u => gnBest u.1.pieces (s.res i j u.2))).sum +
  (c.hydro.zipIdx.map (fun u => gnBest u.1.pieces (s.hydro i j u.2))).sum

/-- value of pumping per hour -/
def gnPumpHourly (c : GnCase) (s : GnSol) (i j : Nat) : Rat := c.base * (c.pumps.zipIdx.map (fun q => q.1.2 * s.pump i j q.2)).sum

/-- what is curtailed, over all contingencies -/
def gnCurtailed (c : GnCase) (s : GnSol) (i j : Nat) : Rat :=
  if c.feas = true then ((List.range (c.cont + 1)).map (fun k => ((List.range c.buses.length).map (fun n => s.lc i j k n + s.gc i j k n)).sum)).sum else 0

theorem sum_range_zipIdx {α : Type} (l : List α) (f : Nat → Rat) : ((List.range l.length).map f).sum = (l.zipIdx.map (fun q => f q.2)).sum := by
  rw [show (fun q : α × Nat => f q.2) = f ∘ Prod.snd from rfl, ← List.map_map, List.zipIdx_map_snd]
  rw [List.range_eq_range']

theorem gnTight_period (c : GnCase) (s : GnSol) (i j : Nat) : gnPeriodCost c (gnTight c s) i j =
    gnHours c j * gnUnitsHourly c s i j - gnPumpHourly c s i j + 100000000 * gnCurtailed c s i j := by
  have e1 : ((List.range c.conv.length).map ((gnTight c s).convC i j)).sum = gnHours c j * (c.conv.zipIdx.map (fun u => gnBest u.1.pieces (s.conv i j u.2))).sum := by
    rw [sum_range_zipIdx, ← sum_mul_map]
    exact sum_zipIdx_congr c.conv (fun u n => (gnTight c s).convC i j n) (fun u n => gnHours c j * gnBest u.pieces (s.conv i j n))
      (fun n u hu => by show gnUnitCost _ _ _ _ = _; simp only [gnUnitCost, hu])
  have e2 : ((List.range c.res.length).map ((gnTight c s).resC i j)).sum = gnHours c j * (c.res.zipIdx.map (fun u => gnBest u.1.pieces (s.res i j u.2))).sum := by
    rw [sum_range_zipIdx, ← sum_mul_map]
    exact sum_zipIdx_congr c.res (fun u n => (gnTight c s).resC i j n) (fun u n => gnHours c j * gnBest u.pieces (s.res i j n))
      (fun n u hu => by show gnResCost _ _ _ _ = _; simp only [gnResCost, hu])
  have e3 : ((List.range c.hydro.length).map ((gnTight c s).hydroC i j)).sum = gnHours c j * (c.hydro.zipIdx.map (fun u => gnBest u.1.pieces (s.hydro i j u.2))).sum := by
    rw [sum_range_zipIdx, ← sum_mul_map]
    exact sum_zipIdx_congr c.hydro (fun u n => (gnTight c s).hydroC i j n) (fun u n => gnHours c j * gnBest u.pieces (s.hydro i j n))
      (fun n u hu => by show gnUnitCost _ _ _ _ = _; simp only [gnUnitCost, hu])
  unfold gnPeriodCost
  rw [e1, e2, e3]
  unfold gnUnitsHourly gnPumpHourly gnCurtailed
  by_cases hf : c.feas = true
  · simp only [if_pos hf]
    show _ - c.base * (c.pumps.zipIdx.map (fun q => q.1.2 * s.pump i j q.2)).sum + 100000000 * ((List.range (c.cont + 1)).map (fun k =>
      ((List.range c.buses.length).map (fun n => s.lc i j k n + s.gc i j k n)).sum)).sum = _
    ring
  · simp only [if_neg hf]
    show _ - c.base * (c.pumps.zipIdx.map (fun q => q.1.2 * s.pump i j q.2)).sum + 0 = _
    ring

theorem gnTight_cost_le {c : GnCase} (hh : ∀ j, j < c.periods → 0 ≤ gnHours c j) {s : GnSol} (hs : GnRules c s) {i j : Nat} (hi : i < c.insts)
    (hj : j < c.periods) : gnPeriodCost c (gnTight c s) i j ≤ gnPeriodCost c s i j := by
  obtain ⟨h1, h2, h3⟩ := gnUnitCost_le hh hs hi hj
  have a1 := sum_map_mono (List.range c.conv.length) _ _ (fun n hn => h1 n (List.mem_range.1 hn))
  have a2 := sum_map_mono (List.range c.res.length) _ _ (fun n hn => h2 n (List.mem_range.1 hn))
  have a3 := sum_map_mono (List.range c.hydro.length) _ _ (fun n hn => h3 n (List.mem_range.1 hn))
  unfold gnPeriodCost
  show _ - c.base * (c.pumps.zipIdx.map (fun q => q.1.2 * s.pump i j q.2)).sum + (if c.feas = true then 100000000 * ((List.range (c.cont + 1)).map (fun k =>
      ((List.range c.buses.length).map (fun n => s.lc i j k n + s.gc i j k n)).sum)).sum else 0) ≤ _
  linarith

/-- the cost that GLPK minimises, by outputs: the hours of a period are counted twice for the units and once for pumps and curtailment -/
def gnSquared (c : GnCase) (s : GnSol) : Rat := ((gnTimes c).map (fun q =>
  gnHours c q.2 * (gnHours c q.2 * gnUnitsHourly c s q.1 q.2 - gnPumpHourly c s q.1 q.2 + 100000000 * gnCurtailed c s q.1 q.2))).sum

/-- **C151.** The value that is returned: hours times hours times the cost per hour of each unit (the largest of its pieces at its output, at least
0), minus hours times the value of pumping, plus hours times the penalty; no plan that obeys the rules has less. -/
theorem C151_value_partial {c : GnCase} {p : GProb} {lp : GLp} (hr : gnRun c = .ok (p, lp)) (h : GnWell c)
    (hh : ∀ j, j < c.periods → 0 ≤ gnHours c j) (s0 : GnSol) (h0 : GnRules c s0) (x : Nat → Rat) (hx : GReturned lp x) :
    lp.cost x = gnSquared c (gnSol p x) ∧ ∀ s, GnRules c s → gnSquared c (gnSol p x) ≤ gnSquared c s := by
  obtain ⟨h1, h2⟩ := C151_cheapest_partial hr h hh s0 h0 x hx
  have tight : ∀ s, GnRules c s → GnRules c (gnTight c s) := by
    intro s hs
    exact gnTight_rules hh (fun i j hi hj => ⟨(hs.units i j hi hj).conv, (hs.units i j hi hj).res, (hs.units i j hi hj).hydro, (hs.units i j hi hj).pump⟩)
      hs.limits hs.net
  have e : ∀ s, gnPlanCost c (gnTight c s) = gnSquared c s := by
    intro s
    unfold gnPlanCost gnSquared
    congr 1
    apply List.map_congr_left
    intro q _
    rw [gnTight_period]
  have le : gnSquared c (gnSol p x) ≤ gnPlanCost c (gnSol p x) := by
    rw [← e]
    unfold gnPlanCost
    apply sum_map_mono
    intro q hq
    obtain ⟨hi, hj⟩ := mem_gnTimes.1 hq
    exact mul_le_mul_of_nonneg_left (gnTight_cost_le hh h1 hi hj) (hh _ hj)
  have ge := h2 _ (tight _ h1)
  rw [e] at ge
  refine ⟨?_, fun s hs => ?_⟩
  · rw [C151_objective_partial hr]
    exact le_antisymm ge le
  · have := h2 _ (tight _ hs)
    rw [e] at this
    linarith

/-- hours times the cost per hour: what a user expects as the cost of a plan -/
def gnExpected (c : GnCase) (s : GnSol) : Rat := ((gnTimes c).map (fun q =>
  gnHours c q.2 * (gnUnitsHourly c s q.1 q.2 - gnPumpHourly c s q.1 q.2 + 100000000 * gnCurtailed c s q.1 q.2))).sum

/-- **C151**, part: with periods of one hour the returned plan is the cheapest and the value is its cost. -/
theorem C151_hour_partial {c : GnCase} {p : GProb} {lp : GLp} (hr : gnRun c = .ok (p, lp)) (h : GnWell c)
    (hh : ∀ j, j < c.periods → gnHours c j = 1) (s0 : GnSol) (h0 : GnRules c s0) (x : Nat → Rat) (hx : GReturned lp x) :
    lp.cost x = gnExpected c (gnSol p x) ∧ ∀ s, GnRules c s → gnExpected c (gnSol p x) ≤ gnExpected c s := by
  have e : ∀ s, gnSquared c s = gnExpected c s := by
    intro s
    unfold gnSquared gnExpected
    congr 1
    apply List.map_congr_left
    intro q hq
    rw [hh _ (mem_gnTimes.1 hq).2]
    ring
  have := C151_value_partial hr h (fun j hj => by rw [hh j hj]; norm_num) s0 h0 x hx
  simp only [e] at this
  exact this

end Pyensys
