import Verif.Props.GlpkExamples
import Verif.Props.Coupled

/-!
# C153, C156: energy and network together, for GLPK
-/

namespace Pyensys

/-! ## specification -/

/-- the output of a unit changes by at most its ramp from one period to the next -/
def GxRamps (c : GnCase) (s : GnSol) : Prop := ∀ i j, i < c.insts → j + 1 < c.periods →
  (∀ (n : Nat) (u : GnUnit), c.conv[n]? = some u → |s.conv i (j + 1) n - s.conv i j n| ≤ u.ramp) ∧
  ∀ (n : Nat) (u : GnUnit), c.hydro[n]? = some u → |s.hydro i (j + 1) n - s.hydro i j n| ≤ u.ramp

/-- energy of hydropower unit `v` in instance `i`: output times hours of all periods -/
def gxEnergy (c : GnCase) (s : GnSol) (i v : Nat) : Rat := ((List.range c.periods).map (fun j => gnHours c j * c.base * s.hydro i j v)).sum

/-- what leaves tree `v` at the node of an instance is the energy of hydropower unit `v` -/
def GxLinked (d : GxData) (p : GProb) (x : Nat → Rat) : Prop := ∀ v i node, v < d.en.vectors → i < d.net.insts → d.conn[i]? = some node →
  p.val x (.outp, [v]) node = gxEnergy d.net (gnSol p x) i v

/-- the economic dispatch: one balance for the whole system -/
structure GxSystem (c : GnCase) (p : GProb) (x : Nat → Rat) (i j : Nat) : Prop where
  curtail : c.feas = true → 0 ≤ p.val x (.lcs, [i, j]) 0 ∧ 0 ≤ p.val x (.gcs, [i, j]) 0
  balance : ((List.range c.conv.length).map ((gnSol p x).conv i j)).sum + ((List.range c.hydro.length).map ((gnSol p x).hydro i j)).sum +
    (if c.feas = true then p.val x (.lcs, [i, j]) 0 - p.val x (.gcs, [i, j]) 0 else 0) =
    (c.buses.map (fun b => gnDemand c b i j)).sum + ((List.range c.pumps.length).map ((gnSol p x).pump i j)).sum

/-- the network part of a plan -/
structure GxNet (c : GnCase) (p : GProb) (x : Nat → Rat) : Prop where
  units : ∀ i j, i < c.insts → j < c.periods → GnUnits c (gnSol p x) i j
  costs : ∀ i j, i < c.insts → j < c.periods → GnCosts c (gnSol p x) i j
  opf : c.opf = true → ∀ i j k, i < c.insts → j < c.periods → k ≤ c.cont → GnLimits c (gnSol p x) i j k ∧ GnNet c (gnSol p x) i j k
  ed : c.opf = false → ∀ i j, i < c.insts → j < c.periods → GxSystem c p x i j
  ramps : GxRamps c (gnSol p x)

/-! ## parts -/

theorem mapM_npGet {α : Type} {l : List α} {n : Nat} {r : List α} (h : (List.range n).mapM (npGet l) = .ok r) :
    r.length = n ∧ ∀ i, i < n → r[i]? = l[i]? ∧ ∃ a, l[i]? = some a := by
  rw [mapM_ok_iff] at h
  have hl := h.length_eq
  rw [List.length_range] at hl
  refine ⟨hl.symm, ?_⟩
  intro i hi
  obtain ⟨_, h2⟩ := (forall₂_iff_getElem? _ _ _).1 h
  have := h2 i i (r[i]'(by omega)) (by rw [List.getElem?_range hi]) (List.getElem?_eq_getElem _)
  rw [npGet_iff] at this
  rw [List.getElem?_eq_getElem (show i < r.length by omega)]
  exact ⟨this.symm, _, this⟩

/-- rows of the network -/
def gxNetRows (c : GnCase) : List GRows := if c.opf = true then gnOpfRows c else gnSystem c

/-- rows of the links -/
def gxLinkRows (d : GxData) (nodes : List Nat) : List GRows :=
  if d.net.hydro = [] then [] else (List.range d.en.vectors).flatMap (fun v => nodes.zipIdx.map (fun q => gxLink d.net v q.2 q.1))

theorem gxRun_parts {d : GxData} {t : EnTree} (ht : GeTree d.en t) {p : GProb} {lp : GLp} (hr : gxRun d = .ok (p, lp)) :
    ∃ nodes w, gxNodes d = .ok nodes ∧ gxWeights d = .ok w ∧ gnInit d.net = .ok () ∧
    p = ⟨geCols d.en (if d.net.hydro = [] then [] else nodes) ++ gnCols d.net,
      ((List.range d.en.vectors).map (tbGroup d.en t) ++ (List.range d.en.vectors).map (taGroup d.en t)) ++ gxNetRows d.net ++ gxLinkRows d nodes ++
        gnPwc d.net ++ gnRamps d.net, gnObj d.net (fun i => (w[i]?).getD 0) d.penalty⟩ ∧ gBuild p = .ok lp ∧ gSimplex lp = .ok () ∧
    (d.net.opf = false → d.net.res = [] ∨ gnTimes d.net = []) := by
  unfold gxRun at hr
  simp only [except_bind_ok] at hr
  obtain ⟨u, h0, p', h1, lp', h2, u2, h3, h4⟩ := hr
  simp only [Except.ok.injEq, Prod.mk.injEq] at h4
  obtain ⟨rfl, rfl⟩ := h4
  unfold gxProb at h1
  simp only [except_bind_ok] at h1
  obtain ⟨nodes, g1, en, g2, net, g3, w, g4, g5⟩ := h1
  rw [geRows_spec ht, Except.ok.injEq] at g2
  rw [Except.ok.injEq] at g5
  refine ⟨nodes, w, g1, g4, h0, ?_, h2, h3, ?_⟩
  · rw [← g5, ← g2]
    have : net = gxNetRows d.net := by
      unfold gxNetRows
      by_cases ho : d.net.opf = true
      · rw [if_pos ho] at g3 ⊢
        rw [Except.ok.injEq] at g3
        exact g3.symm
      · rw [if_neg ho] at g3 ⊢
        split at g3
        · simp at g3
        · rw [Except.ok.injEq] at g3
          exact g3.symm
    rw [this]
    rfl
  · intro ho
    rw [if_neg (by simp [ho])] at g3
    split at g3
    · simp at g3
    · rename_i hn
      by_contra hc
      rw [not_or] at hc
      exact hn hc

/-! ## rows -/

theorem gxLink_holds (c : GnCase) (p : GProb) (x : Nat → Rat) (v i node : Nat) :
    (∀ r ∈ (gxLink c v i node).rows, r.bnd.holds (p.rowVal x r)) ↔ p.val x (.outp, [v]) node = gxEnergy c (gnSol p x) i v := by
  unfold gxLink gxEnergy
  simp only [List.mem_cons, List.not_mem_nil, or_false, forall_eq, GBnd.holds, GProb.rowVal, List.map_cons, List.sum_cons, List.map_map]
  have : ((List.range c.periods).map ((fun t : GCol × Rat => t.2 * p.val x t.1.1 t.1.2) ∘ fun j => (((GTag.hydroGen, [i, j]), v), -gnHours c j * c.base))).sum =
      -((List.range c.periods).map (fun j => gnHours c j * c.base * (gnSol p x).hydro i j v)).sum := by
    rw [← neg_one_mul, ← sum_mul_map]
    congr 1
    apply List.map_congr_left
    intro j _
    simp only [Function.comp, gnSol]
    ring
  rw [this]
  constructor <;> intro h <;> linarith

theorem gnRampRows_holds (p : GProb) (x : Nat → Rat) (rt gen : GTag) (i j : Nat) (units : List GnUnit) :
    GRowsHold p x (gnRampRows rt gen i j units) ↔ ∀ (n : Nat) (u : GnUnit), units[n]? = some u →
      |p.val x (gen, [i, j]) n - p.val x (gen, [i, j - 1]) n| ≤ u.ramp := by
  have key : ∀ (n : Nat) (u : GnUnit), (GBnd.bounded (-u.ramp) u.ramp).holds (p.rowVal x
      ⟨n, [(((gen, [i, j]), n), 1), (((gen, [i, j - 1]), n), -1)], .bounded (-u.ramp) u.ramp⟩) ↔
      |p.val x (gen, [i, j]) n - p.val x (gen, [i, j - 1]) n| ≤ u.ramp := by
    intro n u
    simp only [GBnd.holds, GProb.rowVal, List.map_cons, List.map_nil, List.sum_cons, List.sum_nil]
    rw [abs_le]
    constructor
    · rintro ⟨h1, h2⟩; exact ⟨by linarith, by linarith⟩
    · rintro ⟨h1, h2⟩; exact ⟨by linarith, by linarith⟩
  unfold gnRampRows GRowsHold
  by_cases hu : units = []
  · subst hu
    simp
  · rw [if_neg hu]
    simp only [List.mem_cons, List.not_mem_nil, or_false, forall_eq, List.mem_map]
    constructor
    · intro h n u hn
      exact (key n u).1 (h _ ⟨(u, n), mem_zipIdx_iff'.2 hn, rfl⟩)
    · rintro h r ⟨q, hq, rfl⟩
      exact (key q.2 q.1).2 (h q.2 q.1 (mem_zipIdx_iff'.1 hq))

theorem gnRamps_holds (c : GnCase) (p : GProb) (x : Nat → Rat) : GRowsHold p x (gnRamps c) ↔ GxRamps c (gnSol p x) := by
  unfold gnRamps
  rw [gRowsHold_flatMap]
  constructor
  · intro h i j hi hj
    have := h (i, j + 1) (mem_gnTimes.2 ⟨hi, hj⟩)
    rw [if_neg (by simp), gRowsHold_append, gnRampRows_holds, gnRampRows_holds] at this
    exact this
  · intro h q hq
    obtain ⟨hi, hj⟩ := mem_gnTimes.1 hq
    split
    · intro g hg; simp at hg
    · rename_i h0
      rw [gRowsHold_append, gnRampRows_holds, gnRampRows_holds]
      have := h q.1 (q.2 - 1) hi (by omega)
      rw [show q.2 - 1 + 1 = q.2 by omega] at this
      exact this

theorem gnRamps_fits (c : GnCase) : GFits (gnRamps c) := by
  intro g hg
  obtain ⟨q, _, hg⟩ := List.mem_flatMap.1 hg
  split at hg
  · simp at hg
  · rcases List.mem_append.1 hg with hg | hg <;>
    · unfold gnRampRows at hg
      split at hg
      · simp at hg
      · simp only [List.mem_cons, List.not_mem_nil, or_false] at hg
        subst hg
        exact zipIdx_fits _ _ (fun _ => rfl)

theorem gnSystem_fits (c : GnCase) : GFits (gnSystem c) := by
  intro g hg
  obtain ⟨q, _, rfl⟩ := List.mem_map.1 hg
  simp

theorem gxLinkRows_fits (d : GxData) (nodes : List Nat) : GFits (gxLinkRows d nodes) := by
  intro g hg
  unfold gxLinkRows at hg
  split at hg
  · simp at hg
  · simp only [List.mem_flatMap, List.mem_map] at hg
    obtain ⟨v, _, q, _, rfl⟩ := hg
    simp [gxLink]

theorem gnEdCols_holds (c : GnCase) (hopf : c.opf = false) (p : GProb) (x : Nat → Rat) :
    GColsHold p x (gnCols c) ↔ (∀ i j, i < c.insts → j < c.periods → GnUnits c (gnSol p x) i j) ∧
      ∀ i j, i < c.insts → j < c.periods → c.feas = true → 0 ≤ p.val x (.lcs, [i, j]) 0 ∧ 0 ≤ p.val x (.gcs, [i, j]) 0 := by
  unfold gnCols
  rw [if_neg (by simp [hopf]), gColsHold_append, gColsHold_flatMap, gColsHold_flatMap]
  refine and_congr ?_ ?_
  · constructor
    · intro h i j hi hj
      exact (gnCommon_holds c p x i j).1 (h (i, j) (mem_gnTimes.2 ⟨hi, hj⟩))
    · intro h q hq
      exact (gnCommon_holds c p x q.1 q.2).2 (h _ _ (mem_gnTimes.1 hq).1 (mem_gnTimes.1 hq).2)
  · have key : ∀ i j, GColsHold p x (gnEdCols c i j) ↔ (c.feas = true → 0 ≤ p.val x (.lcs, [i, j]) 0 ∧ 0 ≤ p.val x (.gcs, [i, j]) 0) := by
      intro i j
      unfold gnEdCols
      by_cases hf : c.feas = true
      · rw [if_pos hf]
        have e : ∀ tag : GTag, GColsHold p x [((tag, [i, j]), [.lower 0])] ↔ 0 ≤ p.val x (tag, [i, j]) 0 := by
          intro tag
          unfold GColsHold
          simp only [List.mem_cons, List.not_mem_nil, or_false, forall_eq]
          constructor
          · intro h; exact h 0 (.lower 0) rfl
          · intro h off b hb
            cases off with
            | zero => simp only [List.getElem?_cons_zero, Option.some.injEq] at hb; subst hb; exact h
            | succ n => simp at hb
        rw [show [((GTag.lcs, [i, j]), [GBnd.lower 0]), ((GTag.gcs, [i, j]), [GBnd.lower 0])] =
          [((GTag.lcs, [i, j]), [GBnd.lower 0])] ++ [((GTag.gcs, [i, j]), [GBnd.lower 0])] from rfl, gColsHold_append, e, e]
        exact ⟨fun h _ => h, fun h => h hf⟩
      · rw [if_neg hf]
        exact ⟨fun _ h => absurd h hf, fun _ g hg => by simp at hg⟩
    constructor
    · intro h i j hi hj
      exact (key i j).1 (h (i, j) (mem_gnTimes.2 ⟨hi, hj⟩))
    · intro h q hq
      exact (key q.1 q.2).2 (h _ _ (mem_gnTimes.1 hq).1 (mem_gnTimes.1 hq).2)

theorem gnSystem_holds (c : GnCase) (p : GProb) (x : Nat → Rat) : GRowsHold p x (gnSystem c) ↔ ∀ i j, i < c.insts → j < c.periods →
    ((List.range c.conv.length).map ((gnSol p x).conv i j)).sum + ((List.range c.hydro.length).map ((gnSol p x).hydro i j)).sum +
    (if c.feas = true then p.val x (.lcs, [i, j]) 0 - p.val x (.gcs, [i, j]) 0 else 0) =
    (c.buses.map (fun b => gnDemand c b i j)).sum + ((List.range c.pumps.length).map ((gnSol p x).pump i j)).sum := by
  have key : ∀ q : Nat × Nat, (∀ r ∈ [(⟨0, (List.range c.conv.length).map (fun k => (((.thermal, [q.1, q.2]), k), 1)) ++
      (List.range c.hydro.length).map (fun k => (((.hydroGen, [q.1, q.2]), k), 1)) ++
      (if c.feas = true then [(((.lcs, [q.1, q.2]), 0), 1), (((.gcs, [q.1, q.2]), 0), -1)] else []) ++
      (List.range c.pumps.length).map (fun k => (((.pumps, [q.1, q.2]), k), -1)),
      .fixed ((c.buses.map (fun b => gnDemand c b q.1 q.2)).sum)⟩ : GRow)], r.bnd.holds (p.rowVal x r)) ↔
    ((List.range c.conv.length).map ((gnSol p x).conv q.1 q.2)).sum + ((List.range c.hydro.length).map ((gnSol p x).hydro q.1 q.2)).sum +
    (if c.feas = true then p.val x (.lcs, [q.1, q.2]) 0 - p.val x (.gcs, [q.1, q.2]) 0 else 0) =
    (c.buses.map (fun b => gnDemand c b q.1 q.2)).sum + ((List.range c.pumps.length).map ((gnSol p x).pump q.1 q.2)).sum := by
    intro q
    simp only [List.mem_cons, List.not_mem_nil, or_false, forall_eq, GBnd.holds]
    rw [show ∀ r : GRow, p.rowVal x r = gTermSum p x r.terms from fun _ => rfl]
    simp only [gTermSum_append]
    have e : ∀ (tag : GTag) (n : Nat) (a : Rat), gTermSum p x ((List.range n).map (fun k => (((tag, [q.1, q.2]), k), a))) =
        a * ((List.range n).map (p.val x (tag, [q.1, q.2]))).sum := by
      intro tag n a
      unfold gTermSum
      rw [List.map_map, ← sum_mul_map]
      rfl
    rw [e, e, e]
    have e2 : gTermSum p x (if c.feas = true then [(((.lcs, [q.1, q.2]), 0), 1), (((.gcs, [q.1, q.2]), 0), -1)] else []) =
        (if c.feas = true then p.val x (.lcs, [q.1, q.2]) 0 - p.val x (.gcs, [q.1, q.2]) 0 else 0) := by
      split
      · simp [gTermSum]; ring
      · simp [gTermSum]
    rw [e2]
    show _ ↔ ((List.range c.conv.length).map (p.val x (.thermal, [q.1, q.2]))).sum + ((List.range c.hydro.length).map (p.val x (.hydroGen, [q.1, q.2]))).sum + _ =
      _ + ((List.range c.pumps.length).map (p.val x (.pumps, [q.1, q.2]))).sum
    constructor <;> intro h <;> linarith
  unfold gnSystem
  rw [gRowsHold_map]
  constructor
  · intro h i j hi hj
    exact (key (i, j)).1 (h (i, j) (mem_gnTimes.2 ⟨hi, hj⟩))
  · intro h q hq
    exact (key q).2 (h _ _ (mem_gnTimes.1 hq).1 (mem_gnTimes.1 hq).2)

/-- **C153.** What GLPK is asked in the coupled model: the points of the linear program are exactly the plans in which each tree follows the balances of
its nodes, the network obeys its rules in every instance (power flow or economic dispatch), outputs follow their ramps, and what leaves tree `v` at the
node of an instance is the energy of hydropower unit `v` in it. -/
theorem C153_plans_partial {d : GxData} {t : EnTree} (ht : GeTree d.en t) {p : GProb} {lp : GLp} (hr : gxRun d = .ok (p, lp))
    (ho : d.net.opf = true → GnOut d.net) (hh : d.net.hydro ≠ []) (x : Nat → Rat) :
    GFeasible lp x ↔ GeSays d.en t (d.conn.take d.net.insts) p x ∧ GxNet d.net p x ∧ GxLinked d p x := by
  obtain ⟨nodes, w, hn, _, _, hp, hb, _, _⟩ := gxRun_parts ht hr
  obtain ⟨hlen, hnode⟩ := mapM_npGet hn
  have hnodes : nodes = d.conn.take d.net.insts := by
    apply List.ext_getElem?
    intro i
    rw [List.getElem?_take]
    by_cases hi : i < d.net.insts
    · rw [if_pos hi]; exact (hnode i hi).1
    · rw [if_neg hi]; exact List.getElem?_eq_none (by omega)
  have hcols : p.cols = geCols d.en nodes ++ gnCols d.net := by rw [hp, if_neg hh]
  have hrows : p.rows = ((List.range d.en.vectors).map (tbGroup d.en t) ++ (List.range d.en.vectors).map (taGroup d.en t)) ++ gxNetRows d.net ++
      gxLinkRows d nodes ++ gnPwc d.net ++ gnRamps d.net := by rw [hp]
  have hfit : GFits p.rows := by
    rw [hrows]
    refine gFits_append (gFits_append (gFits_append (gFits_append ?_ ?_) (gxLinkRows_fits d nodes)) (gnPwc_fits _)) (gnRamps_fits _)
    · exact fun g hg => (geRows_good ht (rel := nodes) (p := p) (fun g hg => by rw [hcols]; exact List.mem_append_left _ hg) g hg).1
    · unfold gxNetRows
      by_cases hopf : d.net.opf = true
      · rw [if_pos hopf]; exact gnOpfRows_fits (ho hopf)
      · rw [if_neg hopf]; exact gnSystem_fits _
  rw [gFeasible_iff hb hfit x]
  have h1 : GNamed p x ↔ GColsHold p x p.cols ∧ GRowsHold p x p.rows := ⟨fun h => ⟨h.cols, h.rows⟩, fun h => ⟨h.1, h.2⟩⟩
  rw [h1, hcols, hrows, gColsHold_append, gRowsHold_append, gRowsHold_append, gRowsHold_append, gRowsHold_append, gnPwc_holds, gnRamps_holds]
  have hge := geNamed ht nodes p x
  have hlink : GRowsHold p x (gxLinkRows d nodes) ↔ GxLinked d p x := by
    unfold gxLinkRows
    rw [if_neg hh, gRowsHold_flatMap]
    constructor
    · intro h v i node hv hi hc
      refine (gxLink_holds _ p x v i node).1 (h v (List.mem_range.2 hv) _ (List.mem_map.2 ⟨(node, i), ?_, rfl⟩))
      rw [mem_zipIdx_iff', (hnode i hi).1]
      exact hc
    · intro h v hv g hg
      obtain ⟨q, hq, rfl⟩ := List.mem_map.1 hg
      have hq' := mem_zipIdx_iff'.1 hq
      have hi : q.2 < d.net.insts := by have := lt_of_some hq'; omega
      rw [(hnode _ hi).1] at hq'
      exact (gxLink_holds _ p x v q.2 q.1).2 (h v q.2 q.1 (List.mem_range.1 hv) hi hq')
  rw [hlink, ← hnodes]
  have hnet : (GColsHold p x (gnCols d.net) ∧ GRowsHold p x (gxNetRows d.net)) ↔
      (∀ i j, i < d.net.insts → j < d.net.periods → GnUnits d.net (gnSol p x) i j) ∧
      (d.net.opf = true → ∀ i j k, i < d.net.insts → j < d.net.periods → k ≤ d.net.cont →
        GnLimits d.net (gnSol p x) i j k ∧ GnNet d.net (gnSol p x) i j k) ∧
      (d.net.opf = false → ∀ i j, i < d.net.insts → j < d.net.periods → GxSystem d.net p x i j) := by
    unfold gxNetRows
    by_cases hopf : d.net.opf = true
    · rw [if_pos hopf, gnCols_holds _ hopf, gnOpfRows_holds]
      constructor
      · rintro ⟨⟨a, b⟩, c⟩
        exact ⟨a, fun _ i j k hi hj hk => ⟨b i j k hi hj hk, c i j k hi hj hk⟩, fun h => by rw [hopf] at h; simp at h⟩
      · rintro ⟨a, b, _⟩
        exact ⟨⟨a, fun i j k hi hj hk => (b hopf i j k hi hj hk).1⟩, fun i j k hi hj hk => (b hopf i j k hi hj hk).2⟩
    · have hopf' : d.net.opf = false := by simpa using hopf
      rw [if_neg hopf, gnEdCols_holds _ hopf', gnSystem_holds]
      constructor
      · rintro ⟨⟨a, b⟩, c⟩
        exact ⟨a, fun h => absurd h hopf, fun _ i j hi hj => ⟨b i j hi hj, c i j hi hj⟩⟩
      · rintro ⟨a, _, c⟩
        exact ⟨⟨a, fun i j hi hj => (c hopf' i j hi hj).curtail⟩, fun i j hi hj => (c hopf' i j hi hj).balance⟩
  constructor
  · rintro ⟨⟨a1, a2⟩, ⟨⟨⟨b1, b2⟩, b3⟩, b4⟩, b5⟩
    obtain ⟨c1, c2, c3⟩ := hnet.1 ⟨a2, b2⟩
    exact ⟨hge.1 ⟨a1, b1⟩, ⟨c1, b4, c2, c3, b5⟩, b3⟩
  · rintro ⟨a, b, c⟩
    obtain ⟨a1, b1⟩ := hge.2 a
    obtain ⟨a2, b2⟩ := hnet.2 ⟨b.units, b.opf, b.ed⟩
    exact ⟨⟨a1, a2⟩, ⟨⟨⟨b1, b2⟩, c⟩, b.costs⟩, b.ramps⟩

end Pyensys
